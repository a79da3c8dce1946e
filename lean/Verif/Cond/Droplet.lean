import Verif.Common.Model
import Verif.Toms.Model

/-!
# Model of the condensational growth of one super-droplet

Source: src/impl/condensation/common/particles_impl_cond_common.ipp (`advance_rw2_minfun`, `advance_rw2`,
`advance_rw2_minfun_ice`, `advance_ice_ac`, `rw3diff2drv`, `rw2torwX`), common/ventil.hpp.  SI units, real numbers.
NaN and infinity do not exist in the model (the debug-build checks for them are left out).
-/
namespace LCP.Cond
open LCP.Common

/-- what the growth functors read besides the squared radius (cond_common.ipp:80-119).  `RH` is the relative humidity over
water for droplets, over ice for crystals. -/
structure Env where
  rhod : ℝ
  rv : ℝ
  T : ℝ
  p : ℝ
  RH : ℝ
  eta : ℝ
  rd3 : ℝ
  kpa : ℝ
  vt : ℝ
  lamD : ℝ
  lamK : ℝ
  RHmax : ℝ

/-- Reynolds number (ventil.hpp:17-26) -/
noncomputable def ReN (e : Env) (rw : ℝ) : ℝ := e.vt * (2 * rw) * e.rhod / e.eta
/-- Schmidt number (ventil.hpp:60-68) -/
noncomputable def ScN (e : Env) : ℝ := e.eta / e.rhod / D_0
/-- Prandtl number (ventil.hpp:72-80) -/
noncomputable def PrN (e : Env) : ℝ := c_pd * e.eta / K_0
/-- vapour diffusivity with molecular and ventilation corrections (cond_common.ipp:147-148) -/
noncomputable def diffD (e : Env) (rw : ℝ) : ℝ := D_0 * beta (e.lamD / rw) * (Nu (ScN e) (ReN e rw) / 2)
/-- heat conductivity with molecular and ventilation corrections (cond_common.ipp:150-151) -/
noncomputable def condK (e : Env) (rw : ℝ) : ℝ := K_0 * beta (e.lamK / rw) * (Nu (PrN e) (ReN e rw) / 2)
open Classical in
/-- relative humidity limited to `RH_max` (cond_common.ipp:159) -/
noncomputable def RHlim (e : Env) : ℝ := if e.RH > e.RHmax then e.RHmax else e.RH

/-- advance_rw2_minfun::drw2_dt (cond_common.ipp:121-163) -/
noncomputable def drw2dt (e : Env) (rw2 : ℝ) : ℝ :=
  let rw := Real.sqrt rw2
  let rw3 := rw * rw * rw
  2 * rdrdt (diffD e rw) (condK e rw) (e.rhod * e.rv) e.T (RHlim e) (a_w rw3 e.rd3 e.kpa) (klvntrm rw e.T)

/-- advance_rw2_minfun::operator() (cond_common.ipp:168-173) -/
noncomputable def minfun (e : Env) (dt rw2old rw2 : ℝ) : ℝ := rw2old + dt * drw2dt e rw2 - rw2

/-- numerical parameters (src/detail/config.hpp:15-49): `cond_mlt`, tolerance and number of iterations of the root finder -/
structure Num where
  mach : Toms.Mach
  eps : ℝ
  nIter : ℕ
  mlt : ℝ

/-- double-precision values (config.hpp:16-48): 64/4 bits, 100 iterations, `cond_mlt = 2` -/
noncomputable def numDbl : Num := ⟨Toms.dbl, Toms.tolEps Toms.dbl 16, 100, 2⟩

open Classical in
/-- advance_rw2<real_t, true>::operator() (cond_common.ipp:176-337) for a right-hand side `g` (`drw2_dt`) -/
noncomputable def advanceG (N : Num) (g : ℝ → ℝ) (rd3 dt rw2old : ℝ) : ℝ :=
  if rw2old ≤ 0 then rw2old else
  let f := fun x => rw2old + dt * g x - x
  let drw2 := dt * g rw2old
  if drw2 = 0 then rw2old else
  let rd2 := cbrt rd3 * cbrt rd3
  let a := max rd2 (rw2old + min 0 (N.mlt * drw2))
  let b := rw2old + max 0 (N.mlt * drw2)
  if a = b then rw2old else
  let fa := if drw2 > 0 then drw2 else f a
  let fb := if drw2 > 0 then f b else drw2
  let new := if fa * fb > 0 then rw2old + drw2 else Toms.solve N.mach f N.eps N.nIter a b fa fb
  if new < rd2 then rd2 else new

/-- advance_rw2<real_t, true> with the actual growth rate -/
noncomputable def advance (N : Num) (e : Env) (dt rw2old : ℝ) : ℝ := advanceG N (drw2dt e) e.rd3 dt rw2old

open Classical in
/-- advance_rw2<real_t, false> (cond_common.ipp:176-337 with `apply = false`): the change instead of the new value, except
that for ice particles the old value itself is returned (line 200) -/
noncomputable def advanceD (N : Num) (g : ℝ → ℝ) (rd3 dt rw2old : ℝ) : ℝ :=
  if rw2old ≤ 0 then rw2old else
  let f := fun x => rw2old + dt * g x - x
  let drw2 := dt * g rw2old
  if drw2 = 0 then 0 else
  let rd2 := cbrt rd3 * cbrt rd3
  let a := max rd2 (rw2old + min 0 (N.mlt * drw2))
  let b := rw2old + max 0 (N.mlt * drw2)
  if a = b then 0 else
  let fa := if drw2 > 0 then drw2 else f a
  let fb := if drw2 > 0 then f b else drw2
  let new := if fa * fb > 0 then rw2old + drw2 else Toms.solve N.mach f N.eps N.nIter a b fa fb
  (if new < rd2 then rd2 else new) - rw2old

/-- advance_rw2_minfun_ice::drw2_dt (cond_common.ipp:382-420) -/
noncomputable def dr2dtIce (e : Env) (r2 : ℝ) : ℝ :=
  let r := Real.sqrt r2
  2 * rdrdt_i (diffD e r) (condK e r) (e.rhod * e.rv) e.T (RHlim e)

open Classical in
/-- advance_ice_ac::operator() (cond_common.ipp:431-473): forward Euler for both semi-axes -/
noncomputable def advanceIce (e : Env) (dt : ℝ) (ac : ℝ × ℝ) : ℝ × ℝ :=
  if ac.1 ≤ 0 ∨ ac.2 ≤ 0 then ac else
  (max (ac.1 + dt * (dr2dtIce e (ac.1 * ac.1) / (2 * ac.1))) 1e-9, max (ac.2 + dt * (dr2dtIce e (ac.2 * ac.2) / (2 * ac.2))) 1e-9)

/-- rw2torwX<3> (cond_common.ipp:55-66) -/
noncomputable def rw3of (rw2 : ℝ) : ℝ := rw2 * Real.sqrt rw2

/-- `rho_w * 4/3 * pi` (e.g. apply_perparticle_drw3_to_perparticle_rv_and_th.ipp:20-23) -/
noncomputable def mltW : ℝ := rho_w * (4 / 3) * Real.pi

open Classical in
/-- rw3diff2drv with the multiplier `-rho_w 4/3 pi` (cond_common.ipp:24-42) -/
noncomputable def rw3diff2drv (nDims : ℕ) (rw3diff rhod n dv : ℝ) : ℝ :=
  if 0 < nDims then -mltW * rw3diff * n / rhod / dv else -mltW * rw3diff * n

end LCP.Cond
