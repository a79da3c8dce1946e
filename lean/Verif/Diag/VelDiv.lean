import Verif.Diag.Props
import Verif.Adve.Props

/-!
# C84: the diagnosed divergence of the flow

Source: src/particles_diag.ipp (add_div, diag_vel_div).
-/
namespace LCP.VelDiv
open LCP.Grid LCP.Adve

/-- `detail::add_div` (particles_diag.ipp:16-28); the member called `dx` receives `opts_init.dt` -/
noncomputable def addDiv (dt div left right : ℝ) : ℝ := div + (right - left) / dt

/-- `diag_vel_div` (particles_diag.ipp:499-555): nothing in 0D; otherwise `count_mom` is zeroed and the contributions of y (3D), z
(2D, 3D) and x are added cell by cell (the cases fall through), with the face indices of cell `c` taken at `c + halo_x`; the output
covers all cells -/
noncomputable def diagVelDiv (d : Dims) (hs : ℕ) (C : Courants) (dt : ℝ) (s : Diag.St) : Diag.St :=
  if d.nDims = 0 then s
  else
    let z : ℕ → ℝ := fun _ => 0
    let y3 : ℕ → ℝ := fun c => if d.nDims = 3 then
      addDiv dt (z c) (C.cy (fre d (c + haloX d hs))) (C.cy (hnd d (c + haloX d hs))) else z c
    let z2 : ℕ → ℝ := fun c => if 2 ≤ d.nDims then
      addDiv dt (y3 c) (C.cz (blw d (c + haloX d hs))) (C.cz (abv d (c + haloX d hs))) else y3 c
    let x1 : ℕ → ℝ := fun c => addDiv dt (z2 c) (C.cx (lft d (c + haloX d hs))) (C.cx (rgt d (c + haloX d hs)))
    { s with countMom := fun c => if c < s.nCell then x1 c else 0, countN := s.nCell, countIjk := fun p => p }

theorem scatter_range (f : ℕ → ℝ) (n c : ℕ) (hc : c < n) :
    scatter (fun _ => 0) ((List.range n).map (fun p => (p, f p))) c = f c := by
  have hnd : (((List.range n).map (fun p => (p, f p))).map Prod.fst) = List.range n := by
    rw [List.map_map]; simp [Function.comp_def]
  rw [scatter_nodup _ _ _ (by rw [hnd]; exact List.nodup_range), if_pos (by rw [hnd]; simpa using hc)]
  have := Diag.sumAt_cells (N := n) (ijk := fun p => p) (sid := List.range n) ⟨List.Perm.refl _, by simpa using List.pairwise_le_range⟩ f c
  rw [this, Finset.sum_filter, Finset.sum_ite_eq' (Finset.range n) c f]
  simp [hc]

/-- Specification: velocities on the faces of the cells: `u i j k` on the face between columns `i - 1` and `i`, and so on -/
structure Flow where
  u : ℕ → ℕ → ℕ → ℝ
  v : ℕ → ℕ → ℕ → ℝ
  w : ℕ → ℕ → ℕ → ℝ

/-- Specification: divergence in cell `(i, j, k)`: outflow through the faces over the cell sizes -/
noncomputable def divergence (d : Dims) (b : Box) (f : Flow) (i j k : ℕ) : ℝ :=
  (f.u (i + 1) j k - f.u i j k) / b.dx + (if d.ny ≠ 0 then (f.v i (j + 1) k - f.v i j k) / b.dy else 0) +
    (f.w i j (k + 1) - f.w i j k) / b.dz

/-- the stored Courant numbers (with `hs` columns of halo on each side) are those of the flow for time step `τ` -/
structure Holds (d : Dims) (b : Box) (hs : ℕ) (C : Courants) (τ : ℝ) (f : Flow) : Prop where
  x : ∀ i ≤ d.nx, ∀ j < max 1 d.ny, ∀ k < d.nz, C.cx (faceX d (i + hs) j k) = f.u i j k * τ / b.dx
  y : d.ny ≠ 0 → ∀ i < d.nx, ∀ j ≤ d.ny, ∀ k < d.nz, C.cy (faceY d (i + hs) j k) = f.v i j k * τ / b.dy
  z : ∀ i < d.nx, ∀ j < max 1 d.ny, ∀ k ≤ d.nz, C.cz (faceZ d (i + hs) j k) = f.w i j k * τ / b.dz

theorem vel_div_aux {d : Dims} {b : Box} (hl : (0 < d.nx ∧ d.ny = 0 ∧ 0 < d.nz) ∨ (0 < d.nx ∧ 0 < d.ny ∧ 0 < d.nz))
    {hs : ℕ} {C : Courants} {τ dt : ℝ} {f : Flow} (hC : Holds d b hs C τ f) (s : Diag.St) (hn : s.nCell = d.nCell)
    {i j k : ℕ} (hi : i < d.nx) (hj : j < max 1 d.ny) (hk : k < d.nz) :
    Diag.fillOutbuf (diagVelDiv d hs C dt s) (faceX d i j k) = divergence d b f i j k * (τ / dt) := by
  have hlt : faceX d i j k < s.nCell := by
    rw [hn]
    unfold faceX Dims.nCell
    rw [m1_eq, m1_eq, m1_eq, show max 1 d.nx = d.nx by omega]
    have e1 : i * max 1 d.ny + j + 1 ≤ d.nx * max 1 d.ny := by
      calc i * max 1 d.ny + j + 1 ≤ i * max 1 d.ny + max 1 d.ny := by omega
        _ = (i + 1) * max 1 d.ny := by ring
        _ ≤ d.nx * max 1 d.ny := Nat.mul_le_mul_right _ hi
    calc (i * max 1 d.ny + j) * max 1 d.nz + k < (i * max 1 d.ny + j) * max 1 d.nz + max 1 d.nz := by omega
      _ = (i * max 1 d.ny + j + 1) * max 1 d.nz := by ring
      _ ≤ d.nx * max 1 d.ny * max 1 d.nz := Nat.mul_le_mul_right _ e1
  obtain ⟨f1, f2, f3, f4, f5⟩ := faces_off hl (i := i) (hs := hs) hj hk
  have gx1 := hC.x i hi.le j hj k hk
  have gx2 := hC.x (i + 1) hi j hj k hk
  have gz1 := hC.z i hi j hj k hk.le
  have gz2 := hC.z i hi j hj (k + 1) hk
  rw [show i + 1 + hs = i + hs + 1 by ring] at gx2
  have hd0 : d.nDims = 2 ∨ d.nDims = 3 := by
    rcases hl with h | h
    · exact Or.inl (nDims2 h)
    · exact Or.inr (nDims3 h)
  have hne : d.nDims ≠ 0 := by omega
  have h2 : 2 ≤ d.nDims := by omega
  unfold Diag.fillOutbuf diagVelDiv
  rw [if_neg hne]
  simp only [h2, if_true]
  rw [scatter_range _ _ _ hlt]
  simp only [hlt, if_true]
  rw [f1, f2, f4, f5, gx1, gx2, gz1, gz2]
  unfold divergence
  rcases hl with h | h
  · rw [if_neg (show ¬ d.nDims = 3 by rw [nDims2 h]; norm_num), if_neg (by rw [h.2.1]; simp)]
    unfold addDiv
    ring
  · have hy : d.ny ≠ 0 := by omega
    have gy1 := hC.y hy i hi j (by omega) k hk
    have gy2 := hC.y hy i hi (j + 1) (by omega) k hk
    rw [if_pos (nDims3 h), if_pos hy, (f3 hy).1, (f3 hy).2, gy1, gy2]
    unfold addDiv
    ring

/-- **C84 (partial).** In two and three dimensions, when the Courant numbers are those for the time step given at initialisation,
`diag_vel_div` outputs the divergence of the flow in every cell, with any halo.  Missing: Courant numbers for another time step and one
dimension, see `vel_div_other_dt` and `vel_div_1d`. -/
theorem vel_div_partial {d : Dims} {b : Box} (hl : (0 < d.nx ∧ d.ny = 0 ∧ 0 < d.nz) ∨ (0 < d.nx ∧ 0 < d.ny ∧ 0 < d.nz))
    {hs : ℕ} {C : Courants} {dt : ℝ} (hdt : dt ≠ 0) {f : Flow} (hC : Holds d b hs C dt f) (s : Diag.St) (hn : s.nCell = d.nCell)
    {i j k c : ℕ} (hi : i < d.nx) (hj : j < max 1 d.ny) (hk : k < d.nz) (hc : ravel d i j k = some c) :
    Diag.fillOutbuf (diagVelDiv d hs C dt s) c = divergence d b f i j k := by
  have e : c = faceX d i j k := by
    rcases hl with h | h
    · rw [ravel, nDims2 h] at hc
      simp only [Option.some.injEq] at hc
      rw [← hc, faceX, show max 1 d.ny = 1 by omega, show max 1 d.nz = d.nz by omega, show j = 0 by omega]
      ring
    · rw [ravel, nDims3 h] at hc
      simp only [Option.some.injEq] at hc
      rw [← hc, faceX, show max 1 d.ny = d.ny by omega, show max 1 d.nz = d.nz by omega]
      ring
  rw [e, vel_div_aux hl hC s hn hi hj hk, div_self hdt, mul_one]

/-- **C84 (finding).** With Courant numbers for a time step `τ` other than the one given at initialisation (the time step can be
changed from step to step), the output is wrong by the factor `τ / dt`. -/
theorem vel_div_other_dt {d : Dims} {b : Box} (hl : (0 < d.nx ∧ d.ny = 0 ∧ 0 < d.nz) ∨ (0 < d.nx ∧ 0 < d.ny ∧ 0 < d.nz))
    {hs : ℕ} {C : Courants} {τ dt : ℝ} {f : Flow} (hC : Holds d b hs C τ f) (s : Diag.St) (hn : s.nCell = d.nCell)
    {i j k : ℕ} (hi : i < d.nx) (hj : j < max 1 d.ny) (hk : k < d.nz) :
    Diag.fillOutbuf (diagVelDiv d hs C dt s) (faceX d i j k) = divergence d b f i j k * (τ / dt) :=
  vel_div_aux hl hC s hn hi hj hk

/-- **C84 (finding).** In one dimension the output is zero in every cell whatever the flow. -/
theorem vel_div_1d {d : Dims} (h : 0 < d.nx ∧ d.ny = 0 ∧ d.nz = 0) (hs : ℕ) (C : Courants) (dt : ℝ) (s : Diag.St) (c : ℕ)
    (hc : c < s.nCell) : Diag.fillOutbuf (diagVelDiv d hs C dt s) c = 0 := by
  unfold Diag.fillOutbuf diagVelDiv
  rw [nDims1 h]
  simp only [one_ne_zero, if_false]
  rw [scatter_range _ _ _ hc]
  simp [hc, addDiv, rgt, lft, nDims1 h, h.2.2]

/-- in a parcel (no dimensions) the output is whatever was output before -/
theorem vel_div_0d {d : Dims} (h : d.nx = 0 ∧ d.ny = 0 ∧ d.nz = 0) (hs : ℕ) (C : Courants) (dt : ℝ) (s : Diag.St) :
    diagVelDiv d hs C dt s = s := by
  unfold diagVelDiv
  rw [if_pos (nDims0 h)]

/-- the face indices used are inside of the arrays, halo included -/
theorem vel_div_in_bounds {d : Dims} (hl : (0 < d.nx ∧ d.ny = 0 ∧ 0 < d.nz) ∨ (0 < d.nx ∧ 0 < d.ny ∧ 0 < d.nz)) {hs i j k : ℕ}
    (hi : i < d.nx) (hj : j < max 1 d.ny) (hk : k < d.nz) :
    let c := faceX d i j k + haloX d hs
    lft d c < sizeX d hs ∧ rgt d c < sizeX d hs ∧ (d.ny ≠ 0 → fre d c < sizeY d hs ∧ hnd d c < sizeY d hs) ∧
      blw d c < sizeZ d hs ∧ abv d c < sizeZ d hs := by
  intro c
  obtain ⟨f1, f2, f3, f4, f5⟩ := faces_off hl (i := i) (hs := hs) hj hk
  obtain ⟨g1, g2, g3, g4, g5⟩ := faces_in_bounds (d := d) (hs := hs) (i := i + hs) (j := j) (k := k) (by omega) hj hk
  refine ⟨?_, ?_, ?_, ?_, ?_⟩
  · rw [f1]; exact g1
  · rw [f2]; exact g2
  · intro hy; rw [(f3 hy).1, (f3 hy).2]; exact g3 hy
  · rw [f4]; exact g4
  · rw [f5]; exact g5

/-! ### Example: 2 x 1 x 2 cells in 2D, flow converging in x -/

/-- a flow with `u = -x` in cells of size 2 by 3, no vertical motion -/
noncomputable def exFlow : Flow := ⟨fun i _ _ => -2 * (i : ℝ), fun _ _ _ => 0, fun _ _ _ => 0⟩
/-- 2D grid -/
def exDims : Dims := ⟨2, 0, 2⟩
/-- cells of 2 m x 3 m -/
noncomputable def exBox : Box := ⟨2, 1, 3, 0, 4, 0, 1, 0, 6⟩
/-- its Courant numbers for a time step of 0.5 s, no halo: face `i * 2 + k` -/
noncomputable def exC : Courants := ⟨fun f => -2 * ((f / 2 : ℕ) : ℝ) * 0.5 / 2, fun _ => 0, fun _ => 0⟩

theorem exHolds : Holds exDims exBox 0 exC 0.5 exFlow where
  x := by
    intro i _ j hj k hk
    have hj0 : j = 0 := by simp [exDims] at hj; omega
    subst hj0
    have : (faceX exDims (i + 0) 0 k) / 2 = i := by
      simp only [exDims] at hk
      simp only [faceX, exDims]
      norm_num
      omega
    simp only [exC, exFlow, exBox, this]
  y := by intro h; exact absurd rfl h
  z := by intro i _ j _ k _; simp [exC, exFlow]

example : Diag.fillOutbuf (diagVelDiv exDims 0 exC 0.5 { Diag.exSt with nCell := 4 }) 3 = -1 := by
  rw [vel_div_partial (Or.inl (by simp [exDims])) (by norm_num) exHolds _ (by decide) (i := 1) (j := 0) (k := 1) (by simp [exDims]) (by simp [exDims])
    (by simp [exDims]) (by decide)]
  simp [divergence, exDims, exFlow, exBox]
  norm_num

end LCP.VelDiv
