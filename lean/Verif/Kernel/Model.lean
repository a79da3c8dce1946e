import Verif.Coal.Model
import Verif.Common.Model
import Mathlib.Analysis.SpecialFunctions.Log.Base
import Mathlib.Analysis.SpecialFunctions.Trigonometric.DerivHyp
import Mathlib.Data.List.GetD

/-!
# Model of collision kernels

Sources: src/detail/kernels.hpp, kernel_interpolation.hpp, kernel_utils.hpp, kernel_onishi_nograv.hpp, wang_collision_enhancement.hpp,
src/impl/initialization/particles_impl_init_kernel.ipp.  Reads of arrays are explicit: `none` is a read outside of the array (undefined behaviour).
The six tables of efficiencies (src/detail/kernel_definitions/*.hpp) are parameters: each has 20301 entries and `r_max` = 1100.
-/
namespace LCP.Kernel
noncomputable section
open LCP.Coal (SD)

/-- fields of the cell passed to a kernel: tpl_ro_calc_t (tpl_calc_wrapper.hpp:24-28); with turb_coal=false the dissipation rate is 0 (coal.ipp:392-416) -/
structure Air where
  rhod : ℝ
  eta : ℝ
  diss : ℝ

/-! ### indices (kernel_utils.hpp) -/

/-- kernel_index (kernel_utils.hpp:10-18); `R` in micrometers is an integer; the result is truncated -/
def kernelIndex (R : ℕ) : ℕ := if (R : ℝ) ≤ 100 then R else ⌊100 + ((R : ℝ) - 100) / 10⌋₊

/-- kernel_vector_index (kernel_utils.hpp:21-30) -/
def vectorIndex (i j nUser : ℕ) : ℕ :=
  if i ≥ j then ⌊0.5 * (i : ℝ) * ((i : ℝ) + 1) + (j : ℝ) + (nUser : ℝ)⌋₊ else ⌊0.5 * (j : ℝ) * ((j : ℝ) + 1) + (i : ℝ) + (nUser : ℝ)⌋₊

/-! ### interpolation (kernel_interpolation.hpp) -/

/-- lines 11-16: micrometers, limited to the range of the table; `del` is what is left of 1e-6 in `r_max - 1e-6` after rounding to the
floating-point type: about 1e-6 in double precision, 0 in single precision (the distance between neighbouring numbers is 1e-4 at 1100) -/
def clip (rmax del r : ℝ) : ℝ := if r * 1e6 ≥ rmax then rmax - del else r * 1e6

/-- lines 21-39: lower node and distance to the next one -/
def lower (r : ℝ) : ℕ × ℕ := if r ≥ 100 then (⌊r / 10⌋₊ * 10, 10) else (⌊r⌋₊, 1)

/-- interpolated_efficiency (kernel_interpolation.hpp:9-64) -/
def interpolatedEfficiency (kp : List ℝ) (nUser : ℕ) (rmax del r1 r2 : ℝ) : Option ℝ := do
  let r1 := clip rmax del r1
  let r2 := clip rmax del r2
  let x0 := (lower r1).1
  let dx := (lower r1).2
  let x2 := (lower r2).1
  let dy := (lower r2).2
  let x1 := x0 + dx
  let x3 := x2 + dy
  let e0 ← kp[vectorIndex (kernelIndex x0) (kernelIndex x2) nUser]?
  let e1 ← kp[vectorIndex (kernelIndex x1) (kernelIndex x2) nUser]?
  let e2 ← kp[vectorIndex (kernelIndex x0) (kernelIndex x3) nUser]?
  let e3 ← kp[vectorIndex (kernelIndex x1) (kernelIndex x3) nUser]?
  let w0 := r1 - (x0 : ℝ)
  let w1 := (x1 : ℝ) - r1
  let w2 := r2 - (x2 : ℝ)
  let w3 := (x3 : ℝ) - r2
  some ((e0 * w1 * w3 + e1 * w0 * w3 + e2 * w1 * w2 + e3 * w0 * w2) / (dx : ℝ) / (dy : ℝ))

/-! ### enhancement of efficiencies by turbulence (wang_collision_enhancement.hpp) -/

/-- collector radii (line 15) -/
def wangR : List ℝ := [10e-6, 20e-6, 30e-6, 40e-6, 50e-6, 60e-6, 100e-6]
/-- ratios of radii (line 16) -/
def wangRat : List ℝ := [0, 0.1, 0.2, 0.3, 0.4, 0.5, 0.6, 0.7, 0.8, 0.9, 1]
/-- factors [ratio][dissipation][radius] (lines 17-41) -/
def wangEta : List (List (List ℝ)) :=
  [[[1.74, 1.74, 1.773, 1.49, 1.207, 1.207, 1.0], [4.976, 4.976, 3.593, 2.519, 1.445, 1.445, 1.0]],
   [[1.46, 1.46, 1.421, 1.245, 1.069, 1.069, 1.0], [2.984, 2.984, 2.181, 1.691, 1.201, 1.201, 1.0]],
   [[1.32, 1.32, 1.245, 1.123, 1.000, 1.000, 1.0], [1.988, 1.988, 1.475, 1.313, 1.150, 1.150, 1.0]],
   [[1.250, 1.250, 1.148, 1.087, 1.025, 1.025, 1.0], [1.490, 1.490, 1.187, 1.156, 1.126, 1.126, 1.0]],
   [[1.186, 1.186, 1.066, 1.060, 1.056, 1.056, 1.0], [1.249, 1.249, 1.088, 1.090, 1.092, 1.092, 1.0]],
   [[1.045, 1.045, 1.000, 1.014, 1.028, 1.028, 1.0], [1.139, 1.139, 1.130, 1.091, 1.051, 1.051, 1.0]],
   [[1.070, 1.070, 1.030, 1.038, 1.046, 1.046, 1.0], [1.220, 1.220, 1.190, 1.138, 1.086, 1.086, 1.0]],
   [[1.000, 1.000, 1.054, 1.042, 1.029, 1.029, 1.0], [1.325, 1.325, 1.267, 1.165, 1.063, 1.063, 1.0]],
   [[1.223, 1.223, 1.117, 1.069, 1.021, 1.021, 1.0], [1.716, 1.716, 1.345, 1.223, 1.100, 1.100, 1.0]],
   [[1.570, 1.570, 1.244, 1.166, 1.088, 1.088, 1.0], [3.788, 3.788, 1.501, 1.311, 1.120, 1.120, 1.0]],
   [[20.3, 20.3, 14.6, 8.61, 2.60, 2.60, 1.0], [36.52, 36.52, 19.16, 22.80, 26.0, 26.0, 1.0]]]

/-- eta_e[i][j][k] -/
def wangAt (i j k : ℕ) : Option ℝ := do
  let a ← wangEta[i]?
  let b ← a[j]?
  b[k]?

open Classical in
/-- the loops of lines 54-59 -/
def wangNR (R : ℝ) : ℕ := wangR.findIdx (fun a => decide (a > R))
open Classical in
/-- see `wangNR` -/
def wangNrat (ratio : ℝ) : ℕ := 1 + wangRat.tail.findIdx (fun a => decide (a > ratio))

/-- wang_collision_enhancement_t::operator() (wang_collision_enhancement.hpp:43-84) -/
def wang (r1 r2 eps : ℝ) : Option ℝ :=
  let R := if r1 > r2 then r1 else r2
  let r := if r1 > r2 then r2 else r1
  if R > 100e-6 then some 1 else do
    let nEps := if eps ≤ 2.5e-2 then 0 else 1
    let nR := wangNR R
    let ratio := r / R
    let nRat := wangNrat ratio
    if nR = 0 then wangAt nRat nEps nR else do
      let Ra ← wangR[nR - 1]?
      let Rb ← wangR[nR]?
      let ra ← wangRat[nRat - 1]?
      let rb ← wangRat[nRat]?
      let w0 := R - Ra
      let w1 := Rb - R
      let w2 := ratio - ra
      let w3 := rb - ratio
      let e0 ← wangAt (nRat - 1) nEps (nR - 1)
      let e1 ← wangAt (nRat - 1) nEps nR
      let e2 ← wangAt nRat nEps (nR - 1)
      let e3 ← wangAt nRat nEps nR
      some ((e0 * w1 * w3 + e1 * w0 * w3 + e2 * w1 * w2 + e3 * w0 * w2) / (Rb - Ra) / (rb - ra))

/-! ### turbulent kernel without gravity (kernel_onishi_nograv.hpp) -/

/-- log10 -/
def log10 (x : ℝ) : ℝ := Real.logb 10 x

/-- square of the accelerative part of the relative velocity, before the factors `cw/3` (lines 88-92) -/
def wrA2 (urms gamma th1 th2 : ℝ) : ℝ :=
  urms * urms * gamma / (gamma - 1) * ((th1 + th2) - 4 * th1 * th2 / (th1 + th2) * √((1 + th1 + th2) / (1 + th1) / (1 + th2)))
    * (1 / (1 + th1) / (1 + th2) - 1 / (1 + gamma * th1) / (1 + gamma * th2))

/-- radial distribution for droplets of one size, minus one (lines 125-158) -/
def gMono (Re St StO : ℝ) : ℝ :=
  let A1 := 110
  let A2 := 0.38
  let A3 := 0.16
  let alpha := max (log10 (0.26 * √Re) / log10 2) 1e-20
  let CA := 0.06 * Re ^ (0.30 : ℝ)
  let CB := 0.4
  let StA := (A2 / A1 * Re) ^ (0.25 : ℝ)
  let hlpr := Common.cbrt (A2 / A3)
  let StB := hlpr * hlpr * Common.cbrt Re
  let y1 := if StO ≤ StA then A1 * (St * St) else 0
  let y2 := if StO ≤ StA then 0 else A2 * Re / (St * St)
  let y3 := A3 * √(Re / St)
  let za := 0.5 * (1 - Real.tanh ((log10 St - log10 StA) / CA))
  let zb := 0.5 * (1 + Real.tanh ((log10 St - log10 StB) / CB))
  y1 * za ^ alpha + y2 * (1 - za) ^ alpha + y3 * zb

/-- kernel_onishi_nograv (kernel_onishi_nograv.hpp:29-167) as a function of the Kolmogorov length `leta` -/
def nogravWith (leta r1 r2 Re eps dnu ratioDen : ℝ) : ℝ :=
  let urms := √(Re / √(15 / dnu / eps))
  let CR := r1 + r2
  let taup1 := ratioDen * 4 * r1 * r1 / 18 / dnu
  let taup2 := ratioDen * 4 * r2 * r2 / 18 / dnu
  let tauk := leta * leta / dnu
  let Te := Re * tauk / √15
  let th1 := 2.5 * taup1 / Te
  let th2 := 2.5 * taup2 / Te
  let phi := max (th2 / th1) (th1 / th2)
  let cw := 1 + 0.6 * Real.exp (-(phi - 1) ^ (1.5 : ℝ))
  let gamma := phi * (0.183 * urms * urms / (dnu * dnu / leta / leta))
  let WrS2 := dnu * dnu * CR * CR / (leta * leta * leta * leta) / 15
  let WrA2 := cw * wrA2 urms gamma th1 th2 / 3
  let Wr := √(2 / Real.pi * (WrA2 + WrS2))
  let St1 := taup1 / tauk
  let St2 := taup2 / tauk
  let gR1 := gMono Re St1 St2 + 1
  let gR2 := gMono Re St2 St1 + 1
  let xai := max (taup2 / taup1) (taup1 / taup2)
  let RG12 := 2.6 * Real.exp (-xai) + 0.205 * Real.exp (-0.0206 * xai) * 0.5 * (1 + Real.tanh (xai - 3))
  let gR := 1 + RG12 * √(gR1 - 1) * √(gR2 - 1)
  2 * Real.pi * CR * CR * Wr * gR

/-- the Kolmogorov length as computed (line 73): `pow(dnu*dnu*dnu/eps, real_t(1/4))`, where `1/4` is an integer division -/
def letaCode (dnu eps : ℝ) : ℝ := (dnu * dnu * dnu / eps) ^ ((1 / 4 : ℕ) : ℝ)

/-- kernel_onishi_nograv (kernel_onishi_nograv.hpp:29-167) -/
def nograv (r1 r2 Re eps dnu ratioDen : ℝ) : ℝ := if eps < 1e-10 then 0 else nogravWith (letaCode dnu eps) r1 r2 Re eps dnu ratioDen

/-! ### kernels (kernels.hpp) -/

/-- a kernel object: the vector of parameters it points to, its number of user parameters and `r_max` -/
inductive Kern where
  | golovin (kp : List ℝ)
  | geometric
  | geometricWithMultiplier (kp : List ℝ)
  | long
  | geometricWithEfficiencies (kp : List ℝ) (rmax : ℝ)
  | onishi (kp : List ℝ) (rmax : ℝ)

/-- kernel_geometric::calc (kernels.hpp:96-122) -/
def geometricCalc (a b : SD) : ℝ := Real.pi * ((max a.n b.n : ℕ) : ℝ) * |a.vt - b.vt| * (a.rw2 + b.rw2 + 2 * √(a.rw2 * b.rw2))

/-- kernel_long::calc (kernels.hpp:152-174) -/
def longCalc (a b : SD) : ℝ :=
  let res := geometricCalc a b
  let rL := max √a.rw2 √b.rw2
  if rL < 50e-6 then
    let rs := min √a.rw2 √b.rw2
    if rs ≤ 3e-6 then 0 else res * (4.5e8 * rL * rL * (1 - 3e-6 / rs))
  else res

/-- the virtual function `calc` of each kernel (kernels.hpp:50-77, 96-122, 137-140, 152-174, 187-201, 221-251) -/
def kval (del : ℝ) (air : Air) (a b : SD) : Kern → Option ℝ
  | .golovin kp => do
    let k ← kp[0]?
    some (Real.pi * 4 / 3 * k * ((max a.n b.n : ℕ) : ℝ) * (a.rw2 * √a.rw2 + b.rw2 * √b.rw2))
  | .geometric => some (geometricCalc a b)
  | .geometricWithMultiplier kp => do
    let k ← kp[0]?
    some (geometricCalc a b * k)
  | .long => some (longCalc a b)
  | .geometricWithEfficiencies kp rmax => do
    let e ← interpolatedEfficiency kp 0 rmax del √a.rw2 √b.rw2
    some (e * geometricCalc a b)
  | .onishi kp rmax => do
    let rwa := √a.rw2
    let rwb := √b.rw2
    let k ← kp[0]?
    let t := nograv rwa rwb k air.diss (air.eta / air.rhod) (Common.rho_w / air.rhod)
    let g := geometricCalc a b
    let e ← interpolatedEfficiency kp 1 rmax del rwa rwb
    let w ← wang rwa rwb k
    some (e * w * √(g * g + t * t))

/-! ### choice of the kernel (init_kernel.ipp) -/

/-- kernel_t (kernel.hpp:8) -/
inductive Kind where
  | undefined | geometric | golovin | hall | hall_davis_no_waals | Long | onishi_hall | onishi_hall_davis_no_waals | hall_pinsky_1000mb_grav
  | hall_pinsky_cumulonimbus | hall_pinsky_stratocumulus | vohl_davis_no_waals
  deriving DecidableEq, Repr

/-- the six tables (src/detail/kernel_definitions/*.hpp) -/
inductive Table where
  | hall | hall_davis_no_waals | hall_pinsky_1000mb_grav | hall_pinsky_cumulonimbus | hall_pinsky_stratocumulus | vohl_davis_no_waals
  deriving DecidableEq, Repr

/-- init_kernel (init_kernel.ipp:6-235): the kernel object, or `none` if it throws (for `undefined` the constructor throws before, particles_impl.ipp);
`tab` are the tables -/
def initKernel (tab : Table → List ℝ) (turbCoal : Bool) (user : List ℝ) : Kind → Option Kern
  | .undefined => none
  | .golovin => if user.length ≠ 1 then none else some (.golovin user)
  | .geometric => if user.length > 1 then none else if user.length = 1 then some (.geometricWithMultiplier user) else some .geometric
  | .Long => if user.length > 0 then none else some .long
  | .hall => if user.length ≠ 0 then none else some (.geometricWithEfficiencies (user ++ tab .hall) 1100)
  | .hall_davis_no_waals => if user.length ≠ 0 then none else some (.geometricWithEfficiencies (user ++ tab .hall_davis_no_waals) 1100)
  | .vohl_davis_no_waals => if user.length ≠ 0 then none else some (.geometricWithEfficiencies (user ++ tab .vohl_davis_no_waals) 1100)
  | .hall_pinsky_stratocumulus => if user.length ≠ 0 then none else some (.geometricWithEfficiencies (user ++ tab .hall_pinsky_stratocumulus) 1100)
  | .hall_pinsky_1000mb_grav => if user.length ≠ 0 then none else some (.geometricWithEfficiencies (user ++ tab .hall_pinsky_1000mb_grav) 1100)
  | .hall_pinsky_cumulonimbus => if user.length ≠ 0 then none else some (.geometricWithEfficiencies (user ++ tab .hall_pinsky_cumulonimbus) 1100)
  | .onishi_hall_davis_no_waals =>
    if user.length ≠ 1 then none else if !turbCoal then none else some (.onishi (user ++ tab .hall_davis_no_waals) 1100)
  | .onishi_hall => if user.length ≠ 1 then none else if !turbCoal then none else some (.onishi (user ++ tab .hall) 1100)

end
end LCP.Kernel
