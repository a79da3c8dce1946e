import Verif.Cond.PerCell

/-!
# Model of ice nucleation and melting

Sources: include/libcloudph++/common/ice_nucleation.hpp, src/impl/ice/particles_impl_ice_nucl_melt.ipp,
src/impl/common/particles_impl_update_th_rv.ipp (update_th_freezing),
src/impl/initialization/particles_impl_init_T_freeze.ipp.

`INP_t` has one value (mineral): the branches for other types are not modelled.  The sum of `thrust::for_each` over the
super-droplets is a function applied to each.
-/
namespace LCP.Ice
open LCP.Common LCP.Cond

/-- T_freeze_CDF_inv (ice_nucleation.hpp:18-40); `A` is the surface of the insoluble particle -/
noncomputable def TfreezeCDFinv (rd2insol rand : ℝ) : ℝ :=
  let A := 4 * Real.pi * rd2insol
  if 1e-20 < A then 273.15 + (8.934 - Real.log (-Real.log (1 - rand) / A)) / 0.517 else 235.15

/-- nucleation rate on a mineral surface (ice_nucleation.hpp:87-90) -/
noncomputable def Jhet (T : ℝ) : ℝ :=
  let d_aw := 1 - p_vsi T / p_vs T
  (10 : ℝ) ^ (-1.35 + 22.62 * d_aw) * 1e4

/-- homogeneous nucleation rate (ice_nucleation.hpp:105-109) -/
noncomputable def Jhom (T : ℝ) : ℝ :=
  let dT := T - 273.15
  let x := -3020.684 - 425.921 * dT - 25.9779 * dT ^ 2 - 0.868451 * dT ^ 3 - 0.0166203 * dT ^ 4 - 0.000171736 * dT ^ 5
    - 0.000000746953 * dT ^ 6
  (10 : ℝ) ^ (x : ℝ) * 1e6

/-- p_freeze (ice_nucleation.hpp:68-113) -/
noncomputable def pFreeze (rd2insol rw2 T dt : ℝ) : ℝ :=
  if 0 < rd2insol then
    let A := 4 * Real.pi * rd2insol
    1 - Real.exp (-Jhet T * A * dt)
  else
    let V := 4 / 3 * Real.pi * rw2 ^ (3 / 2 : ℝ)
    1 - Real.exp (-Jhom T * V * dt)

/-- wet radius squared and ice attributes of a super-droplet -/
@[ext] structure Drop where
  rw2 : ℝ
  a : ℝ
  c : ℝ
  rho : ℝ

/-- the four assignments of a freezing droplet (ice_nucl_melt.ipp:40-43, 76-79) -/
noncomputable def frozen (x : Drop) : Drop :=
  let r := x.rw2 ^ (0.5 : ℝ) * (rho_w / rho_i) ^ (1 / 3 : ℝ)
  { rho := rho_i, a := r, c := r, rw2 := 0 }

open Classical in
/-- singular_freeze (ice_nucl_melt.ipp:20-46) -/
noncomputable def singularFreeze (Tf T RH : ℝ) (x : Drop) : Drop :=
  if x.rw2 > 0 ∧ Tf ≥ T ∧ RH ≥ 1 then frozen x else x

open Classical in
/-- time_dep_freeze (ice_nucl_melt.ipp:50-82) -/
noncomputable def timeDepFreeze (dt insol u01 T : ℝ) (x : Drop) : Drop :=
  if x.rw2 > 0 ∧ u01 < pFreeze insol x.rw2 T dt then frozen x else x

open Classical in
/-- melt (ice_nucl_melt.ipp:86-109) -/
noncomputable def melt (T : ℝ) (x : Drop) : Drop :=
  if x.a * x.c > 0 ∧ T > 273.15 then
    { rw2 := (rho_i / rho_w * x.c) ^ (2 / 3 : ℝ) * x.a ^ (4 / 3 : ℝ), rho := 0, a := 0, c := 0 }
  else x

/-- what freezing reads: the scheme (opts_init.time_dep_ice_nucl), the time step, freezing temperatures, sizes of insoluble
inclusions and the random numbers of this call -/
structure In where
  timeDep : Bool
  dt : ℝ
  Tf : ℕ → ℝ
  insol : ℕ → ℝ
  u01 : ℕ → ℝ

/-- attributes of super-droplet `i` -/
def dropOf (s : St) (i : ℕ) : Drop := ⟨s.rw2 i, s.iceA i, s.iceC i, s.iceRho i⟩

/-- freezing, then melting of super-droplet `i` (ice_nucl_melt.ipp:141-201) -/
noncomputable def change (q : In) (s : St) (i : ℕ) : Drop :=
  let c := s.d.ijk i
  let x := if q.timeDep then timeDepFreeze q.dt (q.insol i) (q.u01 i) (s.T c) (dropOf s i)
    else singularFreeze (q.Tf i) (s.T c) (s.RH c) (dropOf s i)
  melt (s.T c) x

/-- moms_eq0(ice_a), moms_calc(rw2, 3/2) (ice_nucl_melt.ipp:126-127, 204-205) -/
noncomputable def momLiq (d : Diag.St) (a rw2 : ℕ → ℝ) : Option Diag.St :=
  (Diag.select d (.eq0 a false)).bind fun d => Diag.momsCalc d rw2 (3 / 2) true

/-- update_th_freezing (update_th_rv.ipp:195-237), with dth_freezing (l. 51-66); arguments: change of the liquid moment -/
noncomputable def updateThFreezing (drw : ℕ → ℝ) (s : St) : St :=
  { s with th := fun c => s.th c + drw c * (rho_w * (4 / 3) * Real.pi) * d_th_d_rw_freeze (s.T c) (s.th c) }

open Classical in
/-- ice_nucl_melt (ice_nucl_melt.ipp:115-218); `s` is sorted (hskpng_sort at l. 117), `s.drw` is the junk held by the temporary
array -/
noncomputable def iceNuclMelt (q : In) (s : St) : Option St := do
  let d ← momLiq s.d s.iceA s.rw2
  let drw := if d.countN ≠ d.nCell then fun _ => 0 else s.drw
  let drw := permMap (fun m _ => -m) d drw
  let s := { s with d := d, rw2 := fun i => (change q s i).rw2, iceA := fun i => (change q s i).a, iceC := fun i => (change q s i).c,
                    iceRho := fun i => (change q s i).rho }
  let d ← momLiq s.d s.iceA s.rw2
  let drw := permMap (fun m x => m + x) d drw
  some (updateThFreezing drw { s with d := d })

/-- init_T_freeze (init_T_freeze.ipp:16-32): `nOld` super-droplets existed, `nNew` are added; the temporary array `tmp` gets
random numbers in its first `nNew` entries (rand_u01(u01, n_part_to_init)), but is read from entry `nOld` on; freezing
temperatures after the call -/
noncomputable def initTfreeze (nOld nNew : ℕ) (rnd tmp insol Tf : ℕ → ℝ) (i : ℕ) : ℝ :=
  let u01 := fun k => if k < nNew then rnd k else tmp k
  if nOld ≤ i ∧ i < nOld + nNew then TfreezeCDFinv (insol i) (u01 i) else Tf i

end LCP.Ice
