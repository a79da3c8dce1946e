import Verif.Grid.Model
import Verif.Bcnd.Model

/-!
# Model of advection, sedimentation and subsidence of super-droplets

Sources: src/impl/advection/particles_impl_adve.ipp, src/impl/sedimentation/particles_impl_sedi.ipp,
src/impl/subsidence/particles_impl_subs.ipp, src/particles_step.ipp:130-145.

Everything is element-wise over super-droplets, so one super-droplet is modelled.
-/
namespace LCP.Adve
open LCP.Grid

/-- position of a super-droplet -/
structure Pos where
  x : ℝ
  y : ℝ
  z : ℝ

/-- `adve_helper_impl` (particles_impl_adve.ipp:28-61) -/
noncomputable def helperImpl (dx x : ℝ) (i : ℕ) (Cl Cr : ℝ) : ℝ := (x + dx * (Cl - i * (Cr - Cl))) / (1 - (Cr - Cl))

/-- `adve_helper_expl` (particles_impl_adve.ipp:63-93) -/
noncomputable def helperExpl (apply : Bool) (dx x : ℝ) (i : ℕ) (Cl Cr : ℝ) : ℝ :=
  (if apply then x else 0) + (Cr - Cl) * (x - dx * i) + dx * Cl

/-- `i`, `j`, `k`, `ijk` as computed by `hskpng_ijk` (particles_impl_hskpng_ijk.ipp:158-200) from a position; `none`: out of the range of
the conversion to `size_t` -/
noncomputable def cellOf (d : Dims) (b : Box) (p : Pos) : Option (ℕ × ℕ × ℕ × ℕ) := do
  let i ← (if d.nx ≠ 0 then divideByConstantAndCast b.dx p.x else some 0)
  let j ← (if d.ny ≠ 0 then divideByConstantAndCast b.dy p.y else some 0)
  let k ← (if d.nz ≠ 0 then divideByConstantAndCast b.dz p.z else some 0)
  let c ← ravel d i j k
  pure (i, j, k, c)

/-- Courant number arrays, indexed by flat face number -/
structure Courants where
  cx : ℕ → ℝ
  cy : ℕ → ℝ
  cz : ℕ → ℝ

/-- `adve_calc` (particles_impl_adve.ipp:95-165) with functor `h` and cell-index offset `off`, for cell indices `(i, j, k, c)` -/
noncomputable def adveCalc (h : ℝ → ℝ → ℕ → ℝ → ℝ → ℝ) (off : ℕ) (d : Dims) (b : Box) (C : Courants) (q : ℕ × ℕ × ℕ × ℕ) (p : Pos) : Pos :=
  if d.nDims = 0 then p else
  { x := h b.dx p.x q.1 (C.cx (lft d (q.2.2.2 + off))) (C.cx (rgt d (q.2.2.2 + off)))
    y := if d.nDims > 2 then h b.dy p.y q.2.1 (C.cy (fre d (q.2.2.2 + off))) (C.cy (hnd d (q.2.2.2 + off))) else p.y
    z := if d.nDims > 1 then h b.dz p.z q.2.2.1 (C.cz (blw d (q.2.2.2 + off))) (C.cz (abv d (q.2.2.2 + off))) else p.z }

inductive Scheme where
  | implicit | euler | predCorr
  deriving DecidableEq

/-- clamping of z after the predictor (particles_impl_adve.ipp:207-219); the replaced value is tested against the other bound too -/
noncomputable def clampZ (b : Box) (z : ℝ) : ℝ :=
  let z := if z ≥ b.z1 then b.z1 - 1 / 10 ^ 8 * b.dz else z
  if z ≤ b.z0 then b.z0 + 1 / 10 ^ 8 * b.dz else z

/-- `adve` (particles_impl_adve.ipp:167-308).  `hs` is `halo_size`, fixed by the scheme given at initialisation
(particles_impl.ipp:361); `s` is the scheme used in this step.  Cell indices on entry are those of the position
(`hskpng_ijk` has been called after the previous change of positions). -/
noncomputable def adve (s : Scheme) (hs : ℕ) (d : Dims) (b : Box) (C : Courants) (p : Pos) : Option Pos :=
  if d.nDims = 0 then some p else
  match s with
  | .euler => do
    let q ← cellOf d b p
    pure (adveCalc (helperExpl true) (haloX d hs) d b C q p)
  | .implicit => do
    let q ← cellOf d b p
    pure (adveCalc helperImpl (haloX d hs) d b C q p)
  | .predCorr => do
    -- coordinates starting at the left edge of the halo
    let p0 : Pos := { p with x := p.x + hs * b.dx }
    let q0 ← cellOf d b p0
    -- predictor
    let p1 := adveCalc (helperExpl true) 0 d b C q0 p0
    let p1 : Pos := if d.nDims > 1 then { p1 with z := clampZ b p1.z } else p1
    let yOld := if d.nDims = 3 then (if p1.y ≥ b.y1 then p0.y + (b.y1 - b.y0) else p0.y) else p0.y
    let yOld := if d.nDims = 3 then (if p1.y < b.y0 then yOld - (b.y1 - b.y0) else yOld) else yOld
    let p1 : Pos := if d.nDims = 3 then { p1 with y := Bcnd.periodic b.y0 b.y1 p1.y } else p1
    let q1 ← cellOf d b p1
    -- corrector
    let r := adveCalc (helperExpl false) 0 d b C q1 p1
    let p2 : Pos :=
      { x := (r.x + (p1.x + p0.x)) / 2
        y := if d.nDims > 2 then (r.y + (p1.y + yOld)) / 2 else p1.y
        z := if d.nDims > 1 then (r.z + (p1.z + p0.z)) / 2 else p1.z }
    pure { p2 with x := p2.x - hs * b.dx }

/-- `sedi` (particles_impl_sedi.ipp:13-24) -/
noncomputable def sedi (dt vt : ℝ) (p : Pos) : Pos := { p with z := p.z - dt * vt }

/-- `subs` (particles_impl_subs.ipp:13-25), `k` the level index stored by the last `hskpng_ijk` -/
noncomputable def subs (dt : ℝ) (wLS : ℕ → ℝ) (k : ℕ) (p : Pos) : Pos := { p with z := p.z - dt * wLS k }

end LCP.Adve
