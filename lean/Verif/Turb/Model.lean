import Verif.Cond.PerCell

/-!
# Model of subgrid turbulence

Sources: include/libcloudph++/common/GA17_turbulence.hpp, src/impl/housekeeping/particles_impl_hskpng_{tke,turb_vel,turb_ss}.ipp,
src/particles_step.ipp:406-426.
-/
namespace LCP.Turb
open LCP.Common LCP.Cond

/-- C_E (GA17_turbulence.hpp:16) -/
noncomputable def C_E : ℝ := 0.845
/-- C_tau (GA17_turbulence.hpp:17) -/
noncomputable def C_tau : ℝ := 1.5
/-- cube_root_of_two_pi (GA17_turbulence.hpp:18-25) -/
noncomputable def cubeRootOfTwoPi : ℝ := (2 * Real.pi) ^ (1 / 3 : ℝ)
/-- a_1 (GA17_turbulence.hpp:31) -/
noncomputable def a_1 : ℝ := 3e-4
/-- a_2 (GA17_turbulence.hpp:37) -/
noncomputable def a_2 : ℝ := 2.8e-4

/-- tke (GA17_turbulence.hpp:59-68) -/
noncomputable def tke (diss L : ℝ) : ℝ :=
  let ret := cbrt (L * diss / C_E)
  ret * ret

/-- tau (GA17_turbulence.hpp:70-78); with zero kinetic energy C++ gives an infinite time scale, Lean zero - in both cases
`exp(-dt/tau) = 1` -/
noncomputable def tau (tke L : ℝ) : ℝ := L / cubeRootOfTwoPi * Real.sqrt (C_tau / tke)

/-- update_turb_vel (GA17_turbulence.hpp:80-92) -/
noncomputable def updateTurbVel (wp tau dt tke r : ℝ) : ℝ :=
  let e := Real.exp (-dt / tau)
  wp * e + Real.sqrt ((1 - e * e) * (2 / 3) * tke) * r

/-- tau_relax (GA17_turbulence.hpp:94-101) -/
noncomputable def tauRelax (mom1OverVol : ℝ) : ℝ := 1 / (a_2 * mom1OverVol)

/-- dot_turb_ss (GA17_turbulence.hpp:103-112) -/
noncomputable def dotTurbSs (ssp wp tauRlx : ℝ) : ℝ := a_1 * wp - ssp / tauRlx

/-- state: `s` as in condensation, dissipation rate (later kinetic energy) of cells, turbulent velocities of super-droplets -/
structure TSt where
  s : St
  diss : ℕ → ℝ
  up : ℕ → ℝ
  wp : ℕ → ℝ
  vp : ℕ → ℝ

/-- options: switches of the step, number of levels, profile of the mixing length, time step -/
structure TCfg where
  adve : Bool
  cond : Bool
  nz : ℕ
  mixLen : ℕ → ℝ
  dt : ℝ

/-- hskpng_tke (hskpng_tke.ipp:29-45) -/
noncomputable def hskpngTke (o : TCfg) (x : TSt) : TSt := { x with diss := fun c => tke (x.diss c) (o.mixLen (c % o.nz)) }

/-- one pass of the loop of hskpng_turb_vel (hskpng_turb_vel.ipp:71-92) for one component -/
noncomputable def turbVelComp (o : TCfg) (x : TSt) (v : ℕ → ℝ) (r : ℕ → ℝ) : ℕ → ℝ := fun i =>
  let c := x.s.d.ijk i
  updateTurbVel (v i) (tau (x.diss c) (o.mixLen (c % o.nz))) o.dt (x.diss c) (r i)

/-- hskpng_turb_vel (hskpng_turb_vel.ipp:47-94): the loop runs over the components up, wp, vp in this order: `n_dims` of them, or
only the second; `rn k` are the normal random numbers of the pass with index `k` -/
noncomputable def hskpngTurbVel (o : TCfg) (onlyVertical : Bool) (rn : ℕ → ℕ → ℝ) (x : TSt) : TSt :=
  let run := fun k => (if onlyVertical then 1 else 0) ≤ k ∧ k < (if onlyVertical then 2 else x.s.d.nDims)
  let x := if run 0 then { x with up := turbVelComp o x x.up (rn 0) } else x
  let x := if run 1 then { x with wp := turbVelComp o x x.wp (rn 1) } else x
  if run 2 then { x with vp := turbVelComp o x x.vp (rn 2) } else x

/-- hskpng_turb_dot_ss (hskpng_turb_ss.ipp:46-97); `junk` is what the temporary array holds -/
noncomputable def hskpngTurbDotSs (junk : ℕ → ℝ) (x : TSt) : Option TSt := do
  let d ← (Diag.select x.s.d .all).bind fun d => Diag.momsCalc d x.s.rw2 (1 / 2) false
  let cm := fun p => if p < d.countN then tauRelax (d.countMom p / d.dv (d.countIjk p)) else d.countMom p
  let d := { d with countMom := cm }
  let tauRlx := permMap (fun m _ => m) d junk
  let d := { d with nf := none }
  some { x with s := { x.s with d := d, dotSsp := fun i => dotTurbSs (x.s.ssp i) (x.wp i) (tauRlx (x.s.d.ijk i)) } }

/-- the turbulence part of step_async (particles_step.ipp:406-426) -/
noncomputable def turbAsync (o : TCfg) (rn : ℕ → ℕ → ℝ) (junk : ℕ → ℝ) (x : TSt) : Option TSt :=
  let x := if o.adve || o.cond then hskpngTke o x else x
  let x := if o.adve then hskpngTurbVel o false rn x else if o.cond then hskpngTurbVel o true rn x else x
  if o.cond then hskpngTurbDotSs junk x else some x

end LCP.Turb
