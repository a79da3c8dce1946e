import Verif.Common.Model
import Verif.Coal.Model
import Mathlib.Analysis.SpecialFunctions.Log.Basic

/-!
# Model of terminal velocities

Sources: include/libcloudph++/common/vterm.hpp, common/earth.hpp, src/impl/housekeeping/particles_impl_hskpng_vterm.ipp,
src/impl/initialization/particles_impl_init_vterm.ipp, coalescence and sedimentation part of src/particles_step.ipp.  SI units, real numbers.
-/
namespace LCP.Vterm
noncomputable section
open LCP.Common

/-- earth::g (earth.hpp:16) -/
def g : ℝ := 9.81
/-- earth::p_stp (earth.hpp:19) -/
def p_stp : ℝ := 101325
/-- earth::rho_stp (earth.hpp:20-22) -/
def rho_stp : ℝ := p_stp / (273.15 + 15) / R_d

/-- air of the cell of a super-droplet -/
structure Air where
  T : ℝ
  p : ℝ
  rhod : ℝ
  eta : ℝ

/-- `y += c[i] * pow(x, i)` for all coefficients (vterm.hpp:128-132, 199-200, 211-212) -/
def polyEval (c : List ℝ) (x : ℝ) : ℝ := ((List.range c.length).map (fun i => c.getD i 0 * x ^ i)).foldl (· + ·) 0

/-- Best number (vterm.hpp:60-61) -/
def bestX (r rhoa eta : ℝ) : ℝ := 32 / 3 * (rho_w - rhoa) / rhoa * g * r * r * r / eta / eta * rhoa * rhoa
/-- exponent (vterm.hpp:65-67) -/
def khvB (X : ℝ) : ℝ := 0.0902 / 2 * √X / ((√(1 + 0.0902 * √X) - 1) * √(1 + 0.0902 * √X))
/-- coefficient (vterm.hpp:68-70) -/
def khvA (X : ℝ) : ℝ := 9.06 * 9.06 / 4 * (√(1 + 0.0902 * √X) - 1) * (√(1 + 0.0902 * √X) - 1) / X ^ khvB X
/-- axis ratio (vterm.hpp:85-87) -/
def khvKsi (r : ℝ) : ℝ := Real.exp (-r / 2.35e-3) + (1 - Real.exp (-r / 2.35e-3)) / (1 + r / 2.35e-3)

/-- vt_khvorostyanov (vterm.hpp:36-107); Av and the diameter are in cgs units -/
def khvorostyanov (r rhoa eta : ℝ) (spherical : Bool) : ℝ :=
  let X := bestX r rhoa eta
  let b := khvB X
  let a := khvA X
  let Av :=
    if spherical then a * (eta / rhoa * 1e4) ^ (1 - 2 * b) * (4 / 3 * rho_w / rhoa * g * 1e2) ^ b
    else
      let alfa := Real.pi / 6 * rho_w * khvKsi r
      a * (eta / rhoa * 1e4) ^ (1 - 2 * b) * (2.546479 * alfa / rhoa * g * 1e2) ^ b
  let Bv := 3 * b - 1
  Av * (2 * 1e2 * r) ^ Bv / 1e2

/-- coefficients for small droplets (vterm.hpp:120) -/
def mS : List ℝ := [0.105035e2, 0.108750e1, -0.133245, -0.659969e-2]
/-- coefficients for large droplets (vterm.hpp:122) -/
def mL : List ℝ := [0.65639e1, -0.10391e1, -0.14001e1, -0.82736e0, -0.34277e0, -0.83072e-1, -0.10583e-1, -0.54208e-3]

/-- vt_beard77_v0 (vterm.hpp:111-136) -/
def beard77v0 (r : ℝ) : ℝ := Real.exp (polyEval (if r ≤ 20e-6 then mS else mL) (Real.log (2 * 100 * r))) / 100

/-- vt_beard77_fact (vterm.hpp:139-167) -/
def beard77fact (r p rhoa eta : ℝ) : ℝ :=
  let eta0 := 1.818e-5
  if r ≤ 20e-6 then
    let l0 := 6.62e-8
    let l := l0 * (eta / eta0) * √(p_stp / p * rho_stp / rhoa)
    eta0 / eta * (1 + 1.255 * (l / r)) / (1 + 1.255 * (l0 / r))
  else
    let epsS := eta0 / eta - 1
    let epsC := √(rho_stp / rhoa) - 1
    1.104 * epsS + (1.058 * epsC - 1.104 * epsS) * (5.52 + Real.log (2 * 100 * r)) / 5.01 + 1

/-- coefficients of the intermediate range (vterm.hpp:194) -/
def b76m : List ℝ := [-0.318657e1, 0.992696, -0.153193e-2, -0.987059e-3, -0.578878e-3, 0.855176e-4, -0.327815e-5]
/-- coefficients of the range of large drops (vterm.hpp:207) -/
def b76l : List ℝ := [-0.500015e1, 0.523778e1, -0.204914e1, 0.475294, -0.542819e-1, 0.238449e-2]

/-- slip correction (vterm.hpp:187-188, 195-196) -/
def slip (r T p eta : ℝ) : ℝ :=
  let l := 6.62e-8 * (eta / 1.818e-5) * (p_stp / p) * √(T / 293.15)
  1 + 1.255 * l / r

/-- vt_beard76 (vterm.hpp:171-217) -/
def beard76 (r T p rhoa eta : ℝ) : ℝ :=
  if r ≤ 9.5e-6 then (rho_w - rhoa) * g / (4.5 * eta) * slip r T p eta * r * r
  else if r ≤ 5.035e-4 then
    let logNDa := Real.log (32 / 3 * r * r * r * rhoa * (rho_w - rhoa) * g / eta / eta)
    let NRe := slip r T p eta * Real.exp (polyEval b76m logNDa)
    eta * NRe / rhoa / 2 / r
  else
    let Bo := 16 / 3 * r * r * (rho_w - rhoa) * g / sg_surf T
    let Np := sg_surf T * sg_surf T * sg_surf T * rhoa * rhoa / eta / eta / eta / eta / g / (rho_w - rhoa)
    let X := Real.log (Bo * Np ^ (1 / 6 : ℝ))
    let NRe := Np ^ (1 / 6 : ℝ) * Real.exp (polyEval b76l X)
    eta * NRe / rhoa / 2 / r

/-- vt_t (terminal_velocity.hpp) without `undefined` -/
inductive Eq where
  | beard76 | beard77 | beard77fast | khvorostyanov_spherical | khvorostyanov_nonspherical
  deriving DecidableEq, Repr

/-! ### cached velocities of beard77fast -/

/-- config.vt0_n_bin, vt0_ln_r_min, vt0_ln_r_max (src/detail/config.hpp) -/
abbrev nBin : ℕ := 10000
/-- see `nBin` -/
def lnMin : ℝ := Real.log 5e-7
/-- see `nBin` -/
def lnMax : ℝ := Real.log 3e-3
/-- width of a bin (hskpng_vterm.ipp:24, init_vterm.ipp:16) -/
def dlnr : ℝ := (lnMax - lnMin) / nBin

/-- get_vt0_bin (hskpng_vterm.ipp:17-36) -/
def vt0Bin (rw2 : ℝ) : ℕ :=
  let lnr := 0.5 * Real.log rw2
  if lnr ≤ lnMin then 0 else if lnr ≥ lnMax then nBin - 1 else ⌊(lnr - lnMin) / dlnr⌋₊

/-- bin_mid (init_vterm.ipp:9-24) -/
def binMid (it : ℕ) : ℝ := Real.exp (lnMin + ((it : ℝ) + 0.5) * dlnr)

/-- init_vterm (init_vterm.ipp:36-62): the vector `vt_0` -/
def vt0 : List ℝ := (List.range nBin).map (fun it => beard77v0 (binMid it))

/-- common__vterm__vt, common__vterm__vt__cached (hskpng_vterm.ipp:38-125); `none` is a read outside of `vt_0` -/
def vtLiquid (eq : Eq) (c : Air) (rw2 : ℝ) : Option ℝ :=
  match eq with
  | .beard76 => some (Vterm.beard76 √rw2 c.T c.p c.rhod c.eta)
  | .beard77 => some (beard77fact √rw2 c.p c.rhod c.eta * beard77v0 √rw2)
  | .khvorostyanov_spherical => some (khvorostyanov √rw2 c.rhod c.eta true)
  | .khvorostyanov_nonspherical => some (khvorostyanov √rw2 c.rhod c.eta false)
  | .beard77fast => (vt0[vt0Bin rw2]?).map (fun v => beard77fact √rw2 c.p c.rhod c.eta * v)

/-- common__vterm__ice (hskpng_vterm.ipp:127-152) -/
def vtIce (c : Air) (ice_a : ℝ) : ℝ := Vterm.beard76 ice_a c.T c.p c.rhod c.eta * (rho_i / rho_w)

/-! ### updating velocities -/

open Classical in
/-- hskpng_vterm_all (hskpng_vterm.ipp:265-345) for one super-droplet: `none` is an invalid read -/
def vtAll (eq : Eq) (ice : Bool) (c : Air) (rw2 ice_a vt : ℝ) : Option ℝ :=
  if rw2 > 0 then vtLiquid eq c rw2 else if ice = true ∧ rw2 = 0 then some (vtIce c ice_a) else some vt

open Classical in
/-- hskpng_vterm_invalid (hskpng_vterm.ipp:180-262) for one super-droplet -/
def vtInvalid (eq : Eq) (ice : Bool) (c : Air) (rw2 ice_a vt : ℝ) : Option ℝ :=
  if vt = Coal.invalid then (if rw2 > 0 then vtLiquid eq c rw2 else if ice = true ∧ rw2 = 0 then some (vtIce c ice_a) else some vt) else some vt

end
end LCP.Vterm
