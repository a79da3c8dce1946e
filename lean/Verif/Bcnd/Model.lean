import Mathlib.Algebra.Order.Floor.Ring
import Mathlib.Algebra.Order.Archimedean.Real.Basic
import Mathlib.Analysis.SpecialFunctions.Pow.Real
import Mathlib.Analysis.Real.Pi.Bounds

/-!
# Model of the boundary conditions

Source: src/impl/boundary_conditions/particles_impl_bcnd.ipp,
include/libcloudph++/common/output.hpp, src/impl/distributed_memory/particles_impl_pack.ipp (flag_lft/flag_rgt)
-/
namespace LCP.Bcnd

/-- C `trunc` -/
noncomputable def trunc (x : ℝ) : ℤ := if 0 ≤ x then ⌊x⌋ else ⌈x⌉

/-- C `fmod(x, y)` in exact arithmetic -/
noncomputable def fmod (x y : ℝ) : ℝ := x - trunc (x / y) * y

/-- `detail::periodic` (particles_impl_bcnd.ipp:104-116) -/
noncomputable def periodic (a b x : ℝ) : ℝ := a + fmod ((x - a) + 10 * (b - a)) (b - a)

/-- entries of the puddle (common/output.hpp:8-24) -/
inductive Q where
  | chem (i : ℕ)
  | liqVol
  | dryVol
  | prtclNum
  | iceMass
  | liqNum
  | iceNum
  deriving DecidableEq

/-- the part of the particle state touched or read by the boundary conditions -/
structure St where
  N : ℕ
  n : ℕ → ℕ
  x : ℕ → ℝ
  y : ℕ → ℝ
  z : ℕ → ℝ
  rw2 : ℕ → ℝ
  rd3 : ℕ → ℝ
  iceA : ℕ → ℝ
  iceC : ℕ → ℝ
  iceRho : ℕ → ℝ
  chem : ℕ → ℕ → ℝ
  puddle : Q → ℝ

/-- options: `dist = some (openLeft, openRight)` in a distributed-memory run, otherwise `none` -/
structure Opts where
  nDims : ℕ
  x0 : ℝ
  x1 : ℝ
  y0 : ℝ
  y1 : ℝ
  z0 : ℝ
  z1 : ℝ
  openSide : Bool
  periodicTopBot : Bool
  dist : Option (Bool × Bool)
  ice : Bool
  chem : Bool

/-- `transform_if(pos, n, flag, cond)`: zero the multiplicities where the condition holds
(particles_impl_bcnd.ipp:140-147 etc.) -/
noncomputable def flagIf (s : St) (p : ℕ → Prop) [DecidablePred p] : St :=
  { s with n := fun i => if p i then 0 else s.n i }

/-- x boundary (particles_impl_bcnd.ipp:127-204); in distributed runs `x` is left alone (the exchange follows) and
super-droplets beyond an open outer edge are flagged -/
noncomputable def bcndX (o : Opts) (s : St) : St :=
  match o.dist with
  | none =>
    if o.openSide = false then { s with x := fun i => periodic o.x0 o.x1 (s.x i) }
    else flagIf s (fun i => s.x i ≥ o.x1 ∨ s.x i < o.x0)
  | some (l, r) =>
    let s := if l then flagIf s (fun i => s.x i < o.x0) else s
    if r then flagIf s (fun i => s.x i ≥ o.x1) else s

/-- y boundary (particles_impl_bcnd.ipp:206-226) -/
noncomputable def bcndY (o : Opts) (s : St) : St :=
  if o.nDims = 3 then
    if o.openSide = false then { s with y := fun i => periodic o.y0 o.y1 (s.y i) }
    else flagIf s (fun i => s.y i ≥ o.y1 ∨ s.y i < o.y0)
  else s

/-- `detail::count_vol` (particles_impl_bcnd.ipp:24-48) -/
noncomputable def countVol (e n r : ℝ) : ℝ := 4 / 3 * Real.pi * n * r ^ e

/-- `detail::count_ice_mass` (particles_impl_bcnd.ipp:50-70) -/
noncomputable def countIceMass (n a c rho : ℝ) : ℝ := 4 / 3 * Real.pi * n * a * a * c * rho

/-- `detail::count_num` (particles_impl_bcnd.ipp:72-87) -/
noncomputable def countNum (ice : ℕ) (nf rw2 : ℝ) : ℝ :=
  if (ice = 0 ∧ rw2 = 0) ∨ (ice = 1 ∧ rw2 > 0) then 0 else nf

/-- the sums over super-droplets added to the puddle (particles_impl_bcnd.ipp:265-345) -/
noncomputable def puddleAdd (o : Opts) (s : St) (nf : ℕ → ℝ) : Q → ℝ
  | .liqVol => ∑ i ∈ Finset.range s.N, countVol (3 / 2) (nf i) (s.rw2 i)
  | .dryVol => ∑ i ∈ Finset.range s.N, countVol 1 (nf i) (s.rd3 i)
  | .liqNum => ∑ i ∈ Finset.range s.N, countNum 0 (nf i) (s.rw2 i)
  | .prtclNum => ∑ i ∈ Finset.range s.N, nf i
  | .iceMass => if o.ice then ∑ i ∈ Finset.range s.N, countIceMass (nf i) (s.iceA i) (s.iceC i) (s.iceRho i) else 0
  | .iceNum => if o.ice then ∑ i ∈ Finset.range s.N, countNum 1 (nf i) (s.rw2 i) else 0
  | .chem j => if o.chem then (if j < 8 then ∑ i ∈ Finset.range s.N, nf i * s.chem j i else 0) else 0

/-- z boundary (particles_impl_bcnd.ipp:228-372) -/
noncomputable def bcndZ (o : Opts) (s : St) : St :=
  if o.nDims > 1 then
    if o.periodicTopBot = false then
      let s := flagIf s (fun i => s.z i ≥ o.z1)
      let nf : ℕ → ℝ := fun i => if s.z i < o.z0 then (s.n i : ℝ) else 0
      let s := { s with puddle := fun q => s.puddle q + puddleAdd o s nf q }
      flagIf s (fun i => s.z i < o.z0)
    else { s with z := fun i => periodic o.z0 o.z1 (s.z i) }
  else s

/-- `bcnd` (particles_impl_bcnd.ipp:120-380) -/
noncomputable def bcnd (o : Opts) (s : St) : St :=
  if o.nDims = 0 then s else bcndZ o (bcndY o (bcndX o s))

end LCP.Bcnd
