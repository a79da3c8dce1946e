import Verif.Adve.Model
import Verif.Grid.Props
import Verif.Bcnd.Props
import Mathlib.Tactic.FieldSimp
import Mathlib.Tactic.LinearCombination
import Mathlib.Tactic.Positivity
import Mathlib.Tactic.NormNum

/-!
# C32: advection, and C45: the predictor-corrector scheme stays inside the halo
-/
namespace LCP.Adve
open LCP.Grid

/-! ### Specification -/

/-- Courant number linearly interpolated between the left (`Cl`) and right (`Cr`) face of cell `i`, at coordinate `x` -/
noncomputable def lin (Cl Cr dx : ℝ) (i : ℕ) (x : ℝ) : ℝ := (1 - (x / dx - i)) * Cl + (x / dx - i) * Cr

/-! ### One dimension -/

theorem helperExpl_spec {dx x Cl Cr : ℝ} {i : ℕ} (hdx : dx ≠ 0) :
    helperExpl true dx x i Cl Cr = x + dx * lin Cl Cr dx i x := by
  unfold helperExpl lin; simp; field_simp; ring

theorem helperExpl_disp {dx x Cl Cr : ℝ} {i : ℕ} (hdx : dx ≠ 0) :
    helperExpl false dx x i Cl Cr = dx * lin Cl Cr dx i x := by
  unfold helperExpl lin; simp; field_simp; ring

/-- **C32** (implicit, one direction) the new coordinate is the one and only solution of `x' = x + dx C(x')` -/
theorem helperImpl_spec {dx x Cl Cr : ℝ} {i : ℕ} (hdx : dx ≠ 0) (h : Cr - Cl ≠ 1) (x' : ℝ) :
    x' = helperImpl dx x i Cl Cr ↔ x' = x + dx * lin Cl Cr dx i x' := by
  have h1 : 1 - (Cr - Cl) ≠ 0 := sub_ne_zero.2 (Ne.symm h)
  unfold helperImpl lin
  rw [eq_div_iff h1]
  have e : x + dx * ((1 - (x' / dx - i)) * Cl + (x' / dx - i) * Cr) = x + dx * Cl - dx * i * (Cr - Cl) + x' * (Cr - Cl) := by
    field_simp; ring
  rw [e]
  constructor
  · intro h; linear_combination h
  · intro h; linear_combination h

theorem lin_uniform (C dx x : ℝ) (i : ℕ) : lin C C dx i x = C := by unfold lin; ring

theorem helperImpl_uniform {dx x C : ℝ} {i : ℕ} : helperImpl dx x i C C = x + dx * C := by
  unfold helperImpl; simp

/-- the interpolated value lies between the face values -/
theorem lin_bounds {Cl Cr dx x lo hi : ℝ} {i : ℕ} (hdx : 0 < dx) (h0 : i * dx ≤ x) (h1 : x < (i + 1) * dx)
    (hl : lo ≤ Cl ∧ Cl ≤ hi) (hr : lo ≤ Cr ∧ Cr ≤ hi) : lo ≤ lin Cl Cr dx i x ∧ lin Cl Cr dx i x ≤ hi := by
  have w0 : 0 ≤ x / dx - i := by rw [sub_nonneg, le_div_iff₀ hdx]; exact h0
  have w1 : 0 ≤ 1 - (x / dx - i) := by
    have : x / dx < i + 1 := (div_lt_iff₀ hdx).2 h1
    linarith
  unfold lin
  constructor <;> nlinarith

/-! ### No crossing of closed faces -/

/-- `x` and `x'` on the same side of the face at `f dx` -/
def SameSide (dx : ℝ) (f : ℕ) (x x' : ℝ) : Prop := (f * dx ≤ x ↔ f * dx ≤ x')

/-- **C32** (explicit) with Courant numbers below 1 in magnitude no super-droplet crosses *any* face with zero Courant number.
`C f` is the Courant number at face `f` (between cells `f-1` and `f`) along the line of faces. -/
theorem expl_no_crossing {dx x : ℝ} {i : ℕ} (C : ℕ → ℝ) (hdx : 0 < dx) (h0 : i * dx ≤ x) (h1 : x < (i + 1) * dx)
    (hC : ∀ f, |C f| < 1) (f : ℕ) (hf : C f = 0) :
    SameSide dx f x (helperExpl true dx x i (C i) (C (i + 1))) := by
  rw [helperExpl_spec hdx.ne']
  have w0 : 0 ≤ x / dx - i := by rw [sub_nonneg, le_div_iff₀ hdx]; exact h0
  have w1 : x / dx - i < 1 := by
    have : x / dx < i + 1 := (div_lt_iff₀ hdx).2 h1
    linarith
  have hx : x = dx * (x / dx - i) + i * dx := by field_simp; ring
  have el : lin (C i) (C (i + 1)) dx i x = (1 - (x / dx - i)) * C i + (x / dx - i) * C (i + 1) := rfl
  rw [el]
  generalize x / dx - i = w at *
  have a := abs_lt.1 (hC i)
  have b := abs_lt.1 (hC (i + 1))
  subst hx
  have key : dx * w + i * dx + dx * ((1 - w) * C i + w * C (i + 1)) = (i + (w + (1 - w) * C i + w * C (i + 1))) * dx := by ring
  have key' : dx * w + i * dx = (i + w) * dx := by ring
  unfold SameSide
  rw [key, key', mul_le_mul_iff_of_pos_right hdx, mul_le_mul_iff_of_pos_right hdx]
  have cast1 : ((i + 1 : ℕ) : ℝ) = i + 1 := by push_cast; ring
  rcases lt_trichotomy f i with h | h | h
  · have hfi : (f : ℝ) + 1 ≤ i := by exact_mod_cast h
    constructor
    · intro _; nlinarith
    · intro _; linarith
  · subst h
    rw [hf] at a ⊢
    constructor
    · intro _; nlinarith
    · intro _; linarith
  · rcases Nat.lt_or_ge (i + 1) f with h' | h'
    · have hfi : (i : ℝ) + 2 ≤ f := by exact_mod_cast h'
      constructor
      · intro _; linarith
      · intro hh; exfalso; nlinarith
    · have hfe : f = i + 1 := by omega
      subst hfe
      rw [hf, cast1]
      constructor
      · intro _; linarith
      · intro hh; exfalso; nlinarith

/-- **C32** (implicit, partial) the faces of the super-droplet's own cell, under the condition that makes the scheme regular -/
theorem impl_no_crossing_own_partial {dx x : ℝ} {i : ℕ} (C : ℕ → ℝ) (h0 : i * dx ≤ x) (h1 : x < (i + 1) * dx)
    (hreg : C (i + 1) - C i < 1) (f : ℕ) (hown : f = i ∨ f = i + 1) (hf : C f = 0) :
    SameSide dx f x (helperImpl dx x i (C i) (C (i + 1))) := by
  have hD : 0 < 1 - (C (i + 1) - C i) := by linarith
  unfold SameSide helperImpl
  rw [le_div_iff₀ hD]
  rcases hown with rfl | rfl
  · rw [hf] at hD ⊢
    constructor
    · intro h; nlinarith
    · intro _; exact h0
  · rw [hf] at hD ⊢
    push_cast
    constructor
    · intro h; linarith
    · intro h; exfalso; nlinarith

/-- **C32** (implicit, partial) any face, when Courant numbers do not exceed 1/3 in magnitude -/
theorem impl_no_crossing_partial {dx x : ℝ} {i : ℕ} (C : ℕ → ℝ) (hdx : 0 < dx) (h0 : i * dx ≤ x) (h1 : x < (i + 1) * dx)
    (hC : ∀ f, |C f| ≤ 1 / 3) (f : ℕ) (hf : C f = 0) :
    SameSide dx f x (helperImpl dx x i (C i) (C (i + 1))) := by
  have a := abs_le.1 (hC i)
  have b := abs_le.1 (hC (i + 1))
  by_cases hown : f = i ∨ f = i + 1
  · exact impl_no_crossing_own_partial C h0 h1 (by linarith) f hown hf
  · have hD : 0 < 1 - (C (i + 1) - C i) := by linarith
    unfold SameSide helperImpl
    rw [le_div_iff₀ hD]
    obtain ⟨w, hw⟩ : ∃ w, x = (i + w) * dx := ⟨x / dx - i, by field_simp; ring⟩
    subst hw
    have w0 : 0 ≤ w := by
      have := (mul_le_mul_iff_of_pos_right hdx).1 h0; linarith
    have w1 : w < 1 := by
      have := (mul_lt_mul_iff_of_pos_right hdx).1 h1; linarith
    have e : (i + w) * dx + dx * (C i - i * (C (i + 1) - C i)) = (i + w + C i - i * (C (i + 1) - C i)) * dx := by ring
    have e' : (f : ℝ) * dx * (1 - (C (i + 1) - C i)) = (f * (1 - (C (i + 1) - C i))) * dx := by ring
    rw [e, e', mul_le_mul_iff_of_pos_right hdx, mul_le_mul_iff_of_pos_right hdx]
    push Not at hown
    rcases Nat.lt_or_ge f i with h | h
    · have hfi : (f : ℝ) + 1 ≤ i := by exact_mod_cast h
      constructor
      · intro _; nlinarith
      · intro _; linarith
    · have h' : i + 2 ≤ f := by omega
      have hfi : (i : ℝ) + 2 ≤ f := by exact_mod_cast h'
      constructor
      · intro _; linarith
      · intro hh; exfalso; nlinarith

/-- **C32** (negation) with the implicit scheme — the default one — a super-droplet can cross a closed face of a neighbouring cell
although all Courant numbers are below 1: Courant numbers 0, -0.9, 0 at faces 1, 2, 3; a super-droplet at 2.5 moves to -2. -/
theorem impl_crosses : ∃ C : ℕ → ℝ, (∀ f, |C f| < 1) ∧ C 1 = 0 ∧ C (2 + 1) - C 2 < 1 ∧
    helperImpl 1 (5 / 2) 2 (C 2) (C (2 + 1)) = -2 ∧ ¬ SameSide 1 1 (5 / 2) (helperImpl 1 (5 / 2) 2 (C 2) (C (2 + 1))) := by
  refine ⟨fun f => if f = 2 then -9 / 10 else 0, ?_, by norm_num, by norm_num, ?_, ?_⟩
  · intro f; dsimp only; split_ifs <;> norm_num [abs_lt]
  · norm_num [helperImpl]
  · norm_num [helperImpl, SameSide]

/-- hypotheses of the crossing theorems are met by a converging flow -/
example : ∃ C : ℕ → ℝ, (∀ f, |C f| ≤ 1 / 3) ∧ C 3 = 0 ∧ C 2 = 1 / 4 :=
  ⟨fun f => if f = 2 then 1 / 4 else 0, by intro f; dsimp only; split_ifs <;> norm_num [abs_le], by norm_num, by norm_num⟩

/-! ### The whole step -/

/-- 2D or 3D grid of a size that fits the index type, positive cell sizes -/
structure GridOk (d : Dims) (b : Box) : Prop where
  lay : (0 < d.nx ∧ d.ny = 0 ∧ 0 < d.nz) ∨ (0 < d.nx ∧ 0 < d.ny ∧ 0 < d.nz)
  sx : (d.nx : ℝ) + 4 ≤ 2 ^ 64
  sy : (d.ny : ℝ) ≤ 2 ^ 64
  sz : (d.nz : ℝ) ≤ 2 ^ 64
  dx : 0 < b.dx
  dy : d.ny ≠ 0 → 0 < b.dy
  dz : 0 < b.dz

/-- position inside `X` columns in x and the grid in y, z -/
def InGrid (d : Dims) (b : Box) (X : ℕ) (p : Pos) : Prop :=
  0 ≤ p.x ∧ p.x < X * b.dx ∧ (d.ny ≠ 0 → 0 ≤ p.y ∧ p.y < d.ny * b.dy) ∧ 0 ≤ p.z ∧ p.z < d.nz * b.dz

/-- `(i,j,k)` is the cell (among `X` columns) containing the position -/
def Contains (d : Dims) (b : Box) (X : ℕ) (p : Pos) (i j k : ℕ) : Prop :=
  i < X ∧ j < max 1 d.ny ∧ k < d.nz ∧ (i * b.dx ≤ p.x ∧ p.x < (i + 1) * b.dx) ∧
  (d.ny ≠ 0 → j * b.dy ≤ p.y ∧ p.y < (j + 1) * b.dy) ∧ (k * b.dz ≤ p.z ∧ p.z < (k + 1) * b.dz)

theorem cellOf_spec {d : Dims} {b : Box} (g : GridOk d b) {X : ℕ} (hX : X ≤ d.nx + 4) {p : Pos} (hp : InGrid d b X p) :
    ∃ i j k, Contains d b X p i j k ∧ cellOf d b p = some (i, j, k, faceX d i j k) := by
  obtain ⟨hx0, hx1, hy, hz0, hz1⟩ := hp
  have hXr : (X : ℝ) ≤ 2 ^ 64 := le_trans (by exact_mod_cast hX) g.sx
  obtain ⟨i, ei, hi, hi0, hi1, _⟩ := cast_spec g.dx hx0 hx1 hXr
  obtain ⟨k, ek, hk, hk0, hk1, _⟩ := cast_spec g.dz hz0 hz1 g.sz
  have hnx : d.nx ≠ 0 := by rcases g.lay with h | h <;> omega
  have hnz : d.nz ≠ 0 := by rcases g.lay with h | h <;> omega
  have ez : max 1 d.nz = d.nz := by omega
  rcases g.lay with h | h
  · refine ⟨i, 0, k, ⟨hi, by omega, hk, ⟨hi0, hi1⟩, fun hh => absurd h.2.1 hh, hk0, hk1⟩, ?_⟩
    unfold cellOf
    simp only [hnx, hnz, h.2.1, ne_eq, not_false_eq_true, not_true, if_true, if_false, ei, ek]
    simp [ravel, nDims2 h, faceX, ez, h.2.1]
  · have hny : d.ny ≠ 0 := by omega
    obtain ⟨j, ej, hj, hj0, hj1, _⟩ := cast_spec (g.dy hny) (hy hny).1 (hy hny).2 g.sy
    have ey : max 1 d.ny = d.ny := by omega
    refine ⟨i, j, k, ⟨hi, by omega, hk, ⟨hi0, hi1⟩, fun _ => ⟨hj0, hj1⟩, hk0, hk1⟩, ?_⟩
    unfold cellOf
    simp only [hnx, hnz, hny, ne_eq, not_false_eq_true, if_true, ei, ej, ek]
    simp only [ravel, nDims3 h, faceX, ez, ey]
    simp
    ring

/-- Courant numbers on the faces of cell `(i,j,k)` in the directions x, y, z interpolated at the position -/
noncomputable def vel (d : Dims) (b : Box) (C : Courants) (ci i j k : ℕ) (p : Pos) : Pos :=
  { x := lin (C.cx (faceX d ci j k)) (C.cx (faceX d (ci + 1) j k)) b.dx i p.x
    y := if d.ny ≠ 0 then lin (C.cy (faceY d ci j k)) (C.cy (faceY d ci (j + 1) k)) b.dy j p.y else 0
    z := lin (C.cz (faceZ d ci j k)) (C.cz (faceZ d ci j (k + 1))) b.dz k p.z }

theorem faces_off {d : Dims} (hl : (0 < d.nx ∧ d.ny = 0 ∧ 0 < d.nz) ∨ (0 < d.nx ∧ 0 < d.ny ∧ 0 < d.nz)) {i j k hs : ℕ}
    (hj : j < max 1 d.ny) (hk : k < d.nz) :
    let c := faceX d i j k + haloX d hs
    lft d c = faceX d (i + hs) j k ∧ rgt d c = faceX d (i + hs + 1) j k ∧
      (d.ny ≠ 0 → fre d c = faceY d (i + hs) j k ∧ hnd d c = faceY d (i + hs) (j + 1) k) ∧
      blw d c = faceZ d (i + hs) j k ∧ abv d c = faceZ d (i + hs) j (k + 1) := by
  intro c
  rcases hl with h | h
  · have hj0 : j = 0 := by omega
    subst hj0
    obtain ⟨c', e, h1, h2, h3, h4⟩ := faces_2d h (i := i + hs) hk
    have ec : c = c' := by
      simp only [ravel, nDims2 h, Option.some.injEq] at e
      rw [← e]
      simp only [c, faceX, haloX, nDims2 h, h.2.1, show max 1 d.nz = d.nz by omega]
      norm_num; ring
    rw [ec]
    exact ⟨h1, h2, fun hh => absurd h.2.1 hh, h3, h4⟩
  · obtain ⟨c', e, h1, h2, h3, h4, h5, h6⟩ := faces_3d h (i := i + hs) (show j < d.ny by omega) hk
    have ec : c = c' := by
      simp only [ravel, nDims3 h, Option.some.injEq] at e
      rw [← e]
      simp only [c, faceX, haloX, nDims3 h, show max 1 d.nz = d.nz by omega, show max 1 d.ny = d.ny by omega]
      norm_num; ring
    rw [ec]
    exact ⟨h1, h2, fun _ => ⟨h3, h4⟩, h5, h6⟩

theorem nDims_of {d : Dims} (hl : (0 < d.nx ∧ d.ny = 0 ∧ 0 < d.nz) ∨ (0 < d.nx ∧ 0 < d.ny ∧ 0 < d.nz)) :
    d.nDims ≠ 0 ∧ d.nDims > 1 ∧ (d.nDims > 2 ↔ d.ny ≠ 0) ∧ (d.nDims = 3 ↔ d.ny ≠ 0) := by
  rcases hl with h | h
  · rw [nDims2 h]; omega
  · rw [nDims3 h]; omega

/-- `adve_calc` with any functor, in terms of faces -/
theorem adveCalc_spec {d : Dims} {b : Box} (g : GridOk d b) (f : ℝ → ℝ → ℕ → ℝ → ℝ → ℝ) (hs : ℕ) (C : Courants) (p : Pos)
    {i j k : ℕ} (hj : j < max 1 d.ny) (hk : k < d.nz) :
    adveCalc f (haloX d hs) d b C (i, j, k, faceX d i j k) p =
      { x := f b.dx p.x i (C.cx (faceX d (i + hs) j k)) (C.cx (faceX d (i + hs + 1) j k))
        y := if d.ny ≠ 0 then f b.dy p.y j (C.cy (faceY d (i + hs) j k)) (C.cy (faceY d (i + hs) (j + 1) k)) else p.y
        z := f b.dz p.z k (C.cz (faceZ d (i + hs) j k)) (C.cz (faceZ d (i + hs) j (k + 1))) } := by
  obtain ⟨n0, n1, n2, _⟩ := nDims_of g.lay
  obtain ⟨h1, h2, h3, h4, h5⟩ := faces_off g.lay (i := i) (hs := hs) hj hk
  unfold adveCalc
  rw [if_neg n0, if_pos n1]
  dsimp only
  rw [h1, h2, h4, h5]
  by_cases hy : d.ny ≠ 0
  · rw [if_pos (n2.2 hy), if_pos hy, (h3 hy).1, (h3 hy).2]
  · rw [if_neg (by rw [n2]; exact hy), if_neg hy]

theorem vel_expl {d : Dims} {b : Box} (g : GridOk d b) (hs : ℕ) (C : Courants) (p : Pos) {i j k : ℕ} (hj : j < max 1 d.ny) (hk : k < d.nz) :
    adveCalc (helperExpl true) (haloX d hs) d b C (i, j, k, faceX d i j k) p =
      ⟨p.x + b.dx * (vel d b C (i + hs) i j k p).x, p.y + b.dy * (vel d b C (i + hs) i j k p).y,
        p.z + b.dz * (vel d b C (i + hs) i j k p).z⟩ := by
  rw [adveCalc_spec g _ hs C p hj hk]
  unfold vel
  dsimp only
  rw [helperExpl_spec g.dx.ne', helperExpl_spec g.dz.ne']
  by_cases hy : d.ny ≠ 0
  · rw [if_pos hy, if_pos hy, helperExpl_spec (g.dy hy).ne']
  · rw [if_neg hy, if_neg hy]; simp

/-- **C32** Explicit scheme: every coordinate moves by the cell size times the Courant number interpolated linearly between the two
faces of the cell containing the super-droplet. -/
theorem euler_step {d : Dims} {b : Box} (g : GridOk d b) (hs : ℕ) (C : Courants) {p : Pos} (hp : InGrid d b d.nx p) :
    ∃ i j k, Contains d b d.nx p i j k ∧
      adve .euler hs d b C p = some ⟨p.x + b.dx * (vel d b C (i + hs) i j k p).x, p.y + b.dy * (vel d b C (i + hs) i j k p).y,
        p.z + b.dz * (vel d b C (i + hs) i j k p).z⟩ := by
  obtain ⟨i, j, k, hc, e⟩ := cellOf_spec g (by omega) hp
  refine ⟨i, j, k, hc, ?_⟩
  unfold adve
  rw [if_neg (nDims_of g.lay).1]
  simp only [e]
  rw [← vel_expl g hs C p hc.2.1 hc.2.2.1]
  rfl

/-- **C32** Implicit scheme: every coordinate moves by the cell size times the Courant number interpolated (extrapolated) linearly, using
the faces of the departure cell, at the *arrival* point; no other point has this property. -/
theorem implicit_step {d : Dims} {b : Box} (g : GridOk d b) (hs : ℕ) (C : Courants) {p : Pos} (hp : InGrid d b d.nx p)
    (hreg : ∀ i j k, C.cx (faceX d (i + 1) j k) - C.cx (faceX d i j k) ≠ 1 ∧ C.cy (faceY d i (j + 1) k) - C.cy (faceY d i j k) ≠ 1 ∧
      C.cz (faceZ d i j (k + 1)) - C.cz (faceZ d i j k) ≠ 1) :
    ∃ i j k p', Contains d b d.nx p i j k ∧ adve .implicit hs d b C p = some p' ∧
      ∀ q : Pos, q = p' ↔ q.x = p.x + b.dx * (vel d b C (i + hs) i j k q).x ∧ q.y = p.y + b.dy * (vel d b C (i + hs) i j k q).y ∧
        q.z = p.z + b.dz * (vel d b C (i + hs) i j k q).z := by
  obtain ⟨i, j, k, hc, e⟩ := cellOf_spec g (by omega) hp
  refine ⟨i, j, k, adveCalc helperImpl (haloX d hs) d b C (i, j, k, faceX d i j k) p, hc, ?_, ?_⟩
  · unfold adve
    rw [if_neg (nDims_of g.lay).1]
    simp only [e]
    rfl
  · intro q
    rw [adveCalc_spec g _ hs C p hc.2.1 hc.2.2.1]
    obtain ⟨r1, r2, r3⟩ := hreg (i + hs) j k
    obtain ⟨qx, qy, qz⟩ := q
    rw [Pos.mk.injEq]
    unfold vel
    dsimp only
    rw [helperImpl_spec g.dx.ne' r1, helperImpl_spec g.dz.ne' r3]
    by_cases hy : d.ny ≠ 0
    · rw [if_pos hy, if_pos hy, helperImpl_spec (g.dy hy).ne' r2]
    · rw [if_neg hy, if_neg hy]; simp

/-! ### Predictor-corrector -/

/-- sizes of the Courant number arrays (src/impl/initialization/particles_impl_init_sync.ipp:28-43), 2D and 3D -/
def sizeX (d : Dims) (hs : ℕ) : ℕ := (d.nx + 2 * hs + 1) * max 1 d.ny * d.nz
def sizeY (d : Dims) (hs : ℕ) : ℕ := (d.nx + 2 * hs) * (d.ny + 1) * d.nz
def sizeZ (d : Dims) (hs : ℕ) : ℕ := (d.nx + 2 * hs) * max 1 d.ny * (d.nz + 1)

/-- **C45** the faces of a cell among the stored columns are inside the arrays -/
theorem faces_in_bounds {d : Dims} {hs i j k : ℕ} (hi : i < d.nx + 2 * hs) (hj : j < max 1 d.ny) (hk : k < d.nz) :
    faceX d i j k < sizeX d hs ∧ faceX d (i + 1) j k < sizeX d hs ∧
    (d.ny ≠ 0 → faceY d i j k < sizeY d hs ∧ faceY d i (j + 1) k < sizeY d hs) ∧
    faceZ d i j k < sizeZ d hs ∧ faceZ d i j (k + 1) < sizeZ d hs := by
  have ez : max 1 d.nz = d.nz := by omega
  have flat : ∀ {a b A B n m : ℕ}, a < A → b < B → m < n → (a * B + b) * n + m < A * B * n := by
    intro a b A B n m h1 h2 h3
    have e1 : a * B + b + 1 ≤ A * B := by
      calc a * B + b + 1 ≤ a * B + B := by omega
        _ = (a + 1) * B := by ring
        _ ≤ A * B := Nat.mul_le_mul_right _ h1
    calc (a * B + b) * n + m < (a * B + b) * n + n := by omega
      _ = (a * B + b + 1) * n := by ring
      _ ≤ A * B * n := Nat.mul_le_mul_right _ e1
  unfold faceX faceY faceZ sizeX sizeY sizeZ
  rw [ez]
  refine ⟨flat (by omega) hj hk, flat (by omega) hj hk, fun hy => ⟨flat hi (by omega) hk, flat hi (by omega) hk⟩,
    flat hi hj (by omega), flat hi hj (by omega)⟩

/-- conditions under which predictor-corrector is used: Lagrangian domain inside the grid, stored x Courant numbers within [-2,2] (else `sync_in` falls
back to Euler), periodic y, one step does not move further than one domain width in y -/
structure PcOk (d : Dims) (b : Box) (C : Courants) : Prop where
  cx : ∀ f < sizeX d 2, -2 ≤ C.cx f ∧ C.cx f ≤ 2
  z0 : 0 ≤ b.z0
  z1 : b.z1 ≤ d.nz * b.dz
  zz : b.z0 + 2 * (1 / 10 ^ 8 * b.dz) < b.z1
  y : d.ny ≠ 0 → 0 ≤ b.y0 ∧ b.y1 ≤ d.ny * b.dy ∧ b.y0 < b.y1 ∧ ∀ f < sizeY d 2, |C.cy f| * b.dy ≤ b.y1 - b.y0

theorem clampZ_in {b : Box} (hdz : 0 < b.dz) (h : b.z0 + 2 * (1 / 10 ^ 8 * b.dz) < b.z1) (z : ℝ) : b.z0 < clampZ b z ∧ clampZ b z < b.z1 := by
  have e : 0 < 1 / 10 ^ 8 * b.dz := by positivity
  unfold clampZ
  dsimp only
  generalize 1 / 10 ^ 8 * b.dz = ε at *
  by_cases h1 : z ≥ b.z1
  · rw [if_pos h1, if_neg (by push Not; linarith)]; constructor <;> linarith
  · rw [if_neg h1]
    push Not at h1
    by_cases h2 : z ≤ b.z0
    · rw [if_pos h2]; constructor <;> linarith
    · rw [if_neg h2]; push Not at h2; exact ⟨h2, h1⟩

theorem clampZ_id {b : Box} {z : ℝ} (h0 : b.z0 < z) (h1 : z < b.z1) : clampZ b z = z := by
  unfold clampZ
  dsimp only
  rw [if_neg (not_le.2 h1), if_neg (not_le.2 h0)]

/-- one wrap-around: old and new y keep their sum -/
theorem wrap_sum {y0 y1 y yn : ℝ} (hL : y0 < y1) (hn0 : y0 - (y1 - y0) ≤ yn) (hn1 : yn < y1 + (y1 - y0)) :
    Bcnd.periodic y0 y1 yn + (if yn < y0 then (if yn ≥ y1 then y + (y1 - y0) else y) - (y1 - y0) else (if yn ≥ y1 then y + (y1 - y0) else y))
      = yn + y := by
  obtain ⟨⟨ha, hb⟩, k, hk⟩ := Bcnd.periodic_partial (x := yn) hL (by linarith)
  generalize Bcnd.periodic y0 y1 yn = r at *
  have hLp : 0 < y1 - y0 := by linarith
  by_cases h1 : yn ≥ y1
  · rw [if_neg (by push Not; linarith), if_pos h1]
    have hk1 : k = 1 := by
      have a : (0 : ℝ) < k := by by_contra hh; push Not at hh; nlinarith
      have b : (k : ℝ) < 2 := by by_contra hh; push Not at hh; nlinarith
      have a' : 0 < k := by exact_mod_cast a
      have b' : k < 2 := by exact_mod_cast b
      omega
    subst hk1; push_cast at hk; linarith
  · by_cases h2 : yn < y0
    · rw [if_pos h2, if_neg h1]
      have hk1 : k = -1 := by
        have a : (k : ℝ) < 0 := by by_contra hh; push Not at hh; nlinarith
        have b : (-2 : ℝ) < k := by by_contra hh; push Not at hh; nlinarith
        have a' : k < 0 := by exact_mod_cast a
        have b' : -2 < k := by exact_mod_cast b
        omega
      subst hk1; push_cast at hk; linarith
    · rw [if_neg h2, if_neg h1]
      push Not at h1 h2
      have hk1 : k = 0 := by
        have a : (k : ℝ) < 1 := by by_contra hh; push Not at hh; nlinarith
        have b : (-1 : ℝ) < k := by by_contra hh; push Not at hh; nlinarith
        have a' : k < 1 := by exact_mod_cast a
        have b' : -1 < k := by exact_mod_cast b
        omega
      subst hk1; push_cast at hk; linarith

/-- **C32** and **C45** Predictor-corrector: with `v0` the Courant numbers interpolated at the departure point and `v1` those at the Euler predictor
(z clamped into the domain, y wrapped), the displacement is the cell size times their average (in z: up to the clamping); both
cells, in coordinates starting at the left edge of the two-column halo, are among the `nx + 4` stored columns. -/
theorem predCorr_step {d : Dims} {b : Box} (g : GridOk d b) (C : Courants) (pc : PcOk d b C) {p : Pos} (hp : InGrid d b d.nx p)
    (hy : d.ny ≠ 0 → b.y0 ≤ p.y ∧ p.y < b.y1) :
    ∃ i j k i1 j1 k1, ∃ p0 p1 v0 v1 : Pos,
      p0 = ⟨p.x + 2 * b.dx, p.y, p.z⟩ ∧ Contains d b (d.nx + 4) p0 i j k ∧ v0 = vel d b C i i j k p0 ∧
      p1 = ⟨p0.x + b.dx * v0.x, if d.ny ≠ 0 then Bcnd.periodic b.y0 b.y1 (p0.y + b.dy * v0.y) else p0.y, clampZ b (p0.z + b.dz * v0.z)⟩ ∧
      Contains d b (d.nx + 4) p1 i1 j1 k1 ∧ v1 = vel d b C i1 i1 j1 k1 p1 ∧
      adve .predCorr 2 d b C p = some ⟨p.x + b.dx * ((v0.x + v1.x) / 2), p.y + b.dy * ((v0.y + v1.y) / 2),
        (p.z + p1.z + b.dz * v1.z) / 2⟩ := by
  obtain ⟨hx0, hx1, hyg, hz0, hz1⟩ := hp
  have hdx := g.dx
  have hp0 : InGrid d b (d.nx + 4) ⟨p.x + 2 * b.dx, p.y, p.z⟩ := by
    refine ⟨by dsimp only; linarith, ?_, hyg, hz0, hz1⟩
    push_cast; nlinarith
  obtain ⟨i, j, k, hc, e⟩ := cellOf_spec g le_rfl hp0
  obtain ⟨p0, hp0e⟩ : ∃ q : Pos, q = ⟨p.x + 2 * b.dx, p.y, p.z⟩ := ⟨_, rfl⟩
  rw [← hp0e] at hc e hp0
  obtain ⟨v0, hv0⟩ : ∃ v, v = vel d b C i i j k p0 := ⟨_, rfl⟩
  obtain ⟨fb1, fb2, fb3, _, _⟩ := faces_in_bounds (d := d) (hs := 2) (i := i) (j := j) (k := k) hc.1 hc.2.1 hc.2.2.1
  have hv0x : -2 ≤ v0.x ∧ v0.x ≤ 2 := by
    rw [hv0]; exact lin_bounds hdx hc.2.2.2.1.1 hc.2.2.2.1.2 (pc.cx _ fb1) (pc.cx _ fb2)
  have hv0y : d.ny ≠ 0 → |b.dy * v0.y| ≤ b.y1 - b.y0 := by
    intro hh
    obtain ⟨_, _, _, hb⟩ := pc.y hh
    have hdy := g.dy hh
    have hB : ∀ f < sizeY d 2, -((b.y1 - b.y0) / b.dy) ≤ C.cy f ∧ C.cy f ≤ (b.y1 - b.y0) / b.dy := by
      intro f hf
      rw [← abs_le, le_div_iff₀ hdy]; exact hb f hf
    have := lin_bounds hdy (hc.2.2.2.2.1 hh).1 (hc.2.2.2.2.1 hh).2 (hB (faceY d i j k) (fb3 hh).1) (hB (faceY d i (j + 1) k) (fb3 hh).2)
    rw [hv0]
    unfold vel
    dsimp only
    rw [if_pos hh, abs_mul, abs_of_pos hdy, mul_comm, ← le_div_iff₀ hdy]
    exact abs_le.2 this
  obtain ⟨p1, hp1⟩ : ∃ q : Pos, q = ⟨p0.x + b.dx * v0.x, if d.ny ≠ 0 then Bcnd.periodic b.y0 b.y1 (p0.y + b.dy * v0.y) else p0.y, clampZ b (p0.z + b.dz * v0.z)⟩ := ⟨_, rfl⟩
  have hpx : p0.x = p.x + 2 * b.dx := by rw [hp0e]
  have hpy : p0.y = p.y := by rw [hp0e]
  have hpz : p0.z = p.z := by rw [hp0e]
  have hin1 : InGrid d b (d.nx + 4) p1 := by
    rw [hp1]
    have hz := clampZ_in g.dz pc.zz (p0.z + b.dz * v0.z)
    refine ⟨?_, ?_, ?_, le_of_lt (lt_of_le_of_lt pc.z0 hz.1), lt_of_lt_of_le hz.2 pc.z1⟩
    · rw [hpx]; nlinarith
    · rw [hpx]; push_cast; nlinarith
    · intro hh
      obtain ⟨a, bb, c, _⟩ := pc.y hh
      have h1 := abs_le.1 (hv0y hh)
      have h2 := hy hh
      have := (Bcnd.periodic_partial (a := b.y0) (b := b.y1) (x := p0.y + b.dy * v0.y) c (by rw [hpy]; linarith)).1
      dsimp only
      rw [if_pos hh]
      exact ⟨a.trans this.1, lt_of_lt_of_le this.2 bb⟩
  obtain ⟨i1, j1, k1, hc1, e1⟩ := cellOf_spec g le_rfl hin1
  refine ⟨i, j, k, i1, j1, k1, p0, p1, v0, _, hp0e, hc, hv0, hp1, hc1, rfl, ?_⟩
  obtain ⟨n0, n1, n2, n3⟩ := nDims_of g.lay
  have hpred : adveCalc (helperExpl true) 0 d b C (i, j, k, faceX d i j k) p0 = ⟨p0.x + b.dx * v0.x, p0.y + b.dy * v0.y, p0.z + b.dz * v0.z⟩ := by
    have := vel_expl g 0 C p0 (i := i) hc.2.1 hc.2.2.1
    simpa [haloX, hv0] using this
  have hcorr : adveCalc (helperExpl false) 0 d b C (i1, j1, k1, faceX d i1 j1 k1) p1 =
      ⟨b.dx * (vel d b C i1 i1 j1 k1 p1).x, if d.ny ≠ 0 then b.dy * (vel d b C i1 i1 j1 k1 p1).y else p1.y,
        b.dz * (vel d b C i1 i1 j1 k1 p1).z⟩ := by
    have := adveCalc_spec g (helperExpl false) 0 C p1 (i := i1) hc1.2.1 hc1.2.2.1
    simp only [haloX, zero_mul, ite_self, add_zero] at this
    rw [this]
    unfold vel
    dsimp only
    rw [helperExpl_disp g.dx.ne', helperExpl_disp g.dz.ne']
    by_cases hh : d.ny ≠ 0
    · rw [if_pos hh, if_pos hh, if_pos hh, helperExpl_disp (g.dy hh).ne']
    · rw [if_neg hh, if_neg hh]
  have c0 : ((2 : ℕ) : ℝ) = 2 := by norm_num
  unfold adve
  rw [if_neg n0]
  dsimp only
  rw [c0, ← hp0e, e]
  dsimp only [bind, Option.bind]
  rw [hpred]
  by_cases hh : d.ny ≠ 0
  · have h3 : d.nDims = 3 := n3.2 hh
    simp only [h3, if_true, show (3 : ℕ) > 1 by omega, show (3 : ℕ) > 2 by omega]
    have ep : ({ x := p0.x + b.dx * v0.x, y := Bcnd.periodic b.y0 b.y1 (p0.y + b.dy * v0.y), z := clampZ b (p0.z + b.dz * v0.z) } : Pos) = p1 := by
      rw [hp1, if_pos hh]
    rw [ep, e1]
    dsimp only
    rw [hcorr, if_pos hh]
    obtain ⟨_, _, c, _⟩ := pc.y hh
    have h1 := abs_le.1 (hv0y hh)
    have h2 := hy hh
    have hw := wrap_sum (y0 := b.y0) (y1 := b.y1) (y := p0.y) (yn := p0.y + b.dy * v0.y) c (by rw [hpy]; linarith) (by rw [hpy]; linarith)
    have hp1y : p1.y = Bcnd.periodic b.y0 b.y1 (p0.y + b.dy * v0.y) := by rw [hp1, if_pos hh]
    have hp1x : p1.x = p0.x + b.dx * v0.x := by rw [hp1]
    have hp1z : p1.z = clampZ b (p0.z + b.dz * v0.z) := by rw [hp1]
    simp only [pure, Option.some.injEq, Pos.mk.injEq]
    refine ⟨?_, ?_, ?_⟩
    · simp only [hp1x, hpx]; ring
    · simp only [hpy] at hw hp1y ⊢
      linear_combination hw / 2
    · simp only [hp1z, hpz]; ring
  · have h3 : d.nDims ≠ 3 := by rw [ne_eq, n3]; exact hh
    have h2 : ¬ d.nDims > 2 := by rw [n2]; exact hh
    simp only [h3, n1, h2, if_true, if_false]
    have hv : v0.y = 0 := by rw [hv0]; unfold vel; dsimp only; rw [if_neg hh]
    have hvv : (vel d b C i1 i1 j1 k1 p1).y = 0 := by unfold vel; dsimp only; rw [if_neg hh]
    have ep : ({ x := p0.x + b.dx * v0.x, y := p0.y + b.dy * v0.y, z := clampZ b (p0.z + b.dz * v0.z) } : Pos) = p1 := by
      rw [hp1, if_neg hh, hv]; simp
    rw [ep, e1]
    dsimp only
    rw [hcorr, if_neg hh]
    have hp1x : p1.x = p0.x + b.dx * v0.x := by rw [hp1]
    have hp1z : p1.z = clampZ b (p0.z + b.dz * v0.z) := by rw [hp1]
    have hp1y : p1.y = p0.y := by rw [hp1, if_neg hh]
    simp only [pure, Option.some.injEq, Pos.mk.injEq]
    refine ⟨?_, ?_, ?_⟩
    · simp only [hp1x, hpx]; ring
    · simp only [hp1y, hv, hvv, hpy]; ring
    · simp only [hp1z, hpz]; ring

/-- **C45** Predictor-corrector with its two-column halo, and Euler/implicit with any halo, read Courant numbers of stored faces only: the values beyond the end of
the arrays do not influence the result. -/
theorem adve_reads_stored {d : Dims} {b : Box} (g : GridOk d b) (C C' : Courants) (s : Scheme) (hs : ℕ) (h2 : s = .predCorr → hs = 2)
    (hpc : s = .predCorr → PcOk d b C) (hpc' : s = .predCorr → PcOk d b C')
    {p : Pos} (hp : InGrid d b d.nx p) (hy : d.ny ≠ 0 → b.y0 ≤ p.y ∧ p.y < b.y1)
    (hx : ∀ f < sizeX d hs, C.cx f = C'.cx f) (hyy : ∀ f < sizeY d hs, C.cy f = C'.cy f) (hz : ∀ f < sizeZ d hs, C.cz f = C'.cz f) :
    adve s hs d b C p = adve s hs d b C' p ∧ (adve s hs d b C p).isSome := by
  have hvel : ∀ {ci i j k : ℕ} (q : Pos), ci < d.nx + 2 * hs → j < max 1 d.ny → k < d.nz → vel d b C ci i j k q = vel d b C' ci i j k q := by
    intro ci i j k q h1 h2 h3
    obtain ⟨a1, a2, a3, a4, a5⟩ := faces_in_bounds h1 h2 h3
    unfold vel
    rw [hx _ a1, hx _ a2, hz _ a4, hz _ a5]
    by_cases hh : d.ny ≠ 0
    · rw [if_pos hh, if_pos hh, hyy _ (a3 hh).1, hyy _ (a3 hh).2]
    · rw [if_neg hh, if_neg hh]
  cases s with
  | euler =>
    obtain ⟨i, j, k, hc, e⟩ := cellOf_spec g (by omega) hp
    have key : ∀ D : Courants, adve .euler hs d b D p = some ⟨p.x + b.dx * (vel d b D (i + hs) i j k p).x, p.y + b.dy * (vel d b D (i + hs) i j k p).y,
        p.z + b.dz * (vel d b D (i + hs) i j k p).z⟩ := by
      intro D
      unfold adve
      rw [if_neg (nDims_of g.lay).1]
      simp only [e]
      rw [← vel_expl g hs D p hc.2.1 hc.2.2.1]
      rfl
    rw [key C, key C', hvel p (by have := hc.1; omega) hc.2.1 hc.2.2.1]
    simp
  | implicit =>
    obtain ⟨i, j, k, hc, e⟩ := cellOf_spec g (by omega) hp
    obtain ⟨a1, a2, a3, a4, a5⟩ := faces_in_bounds (hs := hs) (show i + hs < d.nx + 2 * hs by have := hc.1; omega) hc.2.1 hc.2.2.1
    have key : ∀ D : Courants, adve .implicit hs d b D p = some (adveCalc helperImpl (haloX d hs) d b D (i, j, k, faceX d i j k) p) := by
      intro D
      unfold adve
      rw [if_neg (nDims_of g.lay).1]
      simp only [e]
      rfl
    rw [key C, key C', adveCalc_spec g _ hs C p hc.2.1 hc.2.2.1, adveCalc_spec g _ hs C' p hc.2.1 hc.2.2.1,
      hx _ a1, hx _ a2, hz _ a4, hz _ a5]
    by_cases hh : d.ny ≠ 0
    · rw [if_pos hh, if_pos hh, hyy _ (a3 hh).1, hyy _ (a3 hh).2]; simp
    · rw [if_neg hh, if_neg hh]; simp
  | predCorr =>
    obtain rfl := h2 rfl
    obtain ⟨i, j, k, i1, j1, k1, p0, p1, v0, v1, e0, c0, ev0, e1, c1, ev1, e⟩ := predCorr_step g C (hpc rfl) hp hy
    obtain ⟨i', j', k', i1', j1', k1', p0', p1', v0', v1', e0', c0', ev0', e1', c1', ev1', e'⟩ := predCorr_step g C' (hpc' rfl) hp hy
    have uniq : ∀ {q : Pos} {i j k i' j' k' : ℕ}, Contains d b (d.nx + 4) q i j k → Contains d b (d.nx + 4) q i' j' k' → i = i' ∧ j = j' ∧ k = k' := by
      have lem : ∀ {t x : ℝ} {m n : ℕ}, 0 < t → (m : ℝ) * t ≤ x → x < (m + 1) * t → (n : ℝ) * t ≤ x → x < (n + 1) * t → m = n := by
        intro t x m n ht h1 h2 h3 h4
        have a : (m : ℝ) < n + 1 := (mul_lt_mul_iff_of_pos_right ht).1 (lt_of_le_of_lt h1 h4)
        have c : (n : ℝ) < m + 1 := (mul_lt_mul_iff_of_pos_right ht).1 (lt_of_le_of_lt h3 h2)
        have a' : m < n + 1 := by exact_mod_cast a
        have c' : n < m + 1 := by exact_mod_cast c
        omega
      intro q i j k i' j' k' h1 h2
      refine ⟨lem g.dx h1.2.2.2.1.1 h1.2.2.2.1.2 h2.2.2.2.1.1 h2.2.2.2.1.2, ?_, lem g.dz h1.2.2.2.2.2.1 h1.2.2.2.2.2.2 h2.2.2.2.2.2.1 h2.2.2.2.2.2.2⟩
      by_cases hh : d.ny ≠ 0
      · exact lem (g.dy hh) (h1.2.2.2.2.1 hh).1 (h1.2.2.2.2.1 hh).2 (h2.2.2.2.2.1 hh).1 (h2.2.2.2.2.1 hh).2
      · have := h1.2.1; have := h2.2.1; omega
    have ep0 : p0' = p0 := by rw [e0, e0']
    rw [ep0] at c0' ev0' e1'
    obtain ⟨rfl, rfl, rfl⟩ := uniq c0 c0'
    have ev : v0' = v0 := by rw [ev0, ev0', hvel p0 c0.1 c0.2.1 c0.2.2.1]
    have ep1 : p1' = p1 := by rw [e1, e1', ev]
    rw [ep1] at c1' ev1' e'
    obtain ⟨rfl, rfl, rfl⟩ := uniq c1 c1'
    have evv : v1' = v1 := by rw [ev1, ev1', hvel p1 c1.1 c1.2.1 c1.2.2.1]
    rw [e, e', ev, evv]
    simp

/-! ### Uniform flow -/

theorem vel_uniform {d : Dims} {b : Box} {C : Courants} {u v w : ℝ} (hx : ∀ f, C.cx f = u) (hv : ∀ f, C.cy f = v) (hw : ∀ f, C.cz f = w)
    (ci i j k : ℕ) (p : Pos) : vel d b C ci i j k p = ⟨u, if d.ny ≠ 0 then v else 0, w⟩ := by
  unfold vel
  simp only [hx, hv, hw, lin_uniform]

/-- **C32** uniform flow shifts every super-droplet by the Courant number times the cell size (Euler and implicit schemes) -/
theorem uniform_shift {d : Dims} {b : Box} (g : GridOk d b) (hs : ℕ) {C : Courants} {u v w : ℝ}
    (hx : ∀ f, C.cx f = u) (hv : ∀ f, C.cy f = v) (hw : ∀ f, C.cz f = w) {p : Pos} (hp : InGrid d b d.nx p) {s : Scheme} (hsch : s ≠ .predCorr) :
    adve s hs d b C p = some ⟨p.x + b.dx * u, if d.ny ≠ 0 then p.y + b.dy * v else p.y, p.z + b.dz * w⟩ := by
  obtain ⟨i, j, k, hc, e⟩ := cellOf_spec g (by omega) hp
  cases s with
  | predCorr => exact absurd rfl hsch
  | euler =>
    unfold adve
    rw [if_neg (nDims_of g.lay).1]
    simp only [e]
    change some (adveCalc _ _ _ _ _ _ _) = _
    rw [vel_expl g hs C p hc.2.1 hc.2.2.1, vel_uniform hx hv hw]
    by_cases hh : d.ny ≠ 0
    · simp only [if_pos hh]
    · simp only [if_neg hh]; simp
  | implicit =>
    unfold adve
    rw [if_neg (nDims_of g.lay).1]
    simp only [e]
    change some (adveCalc _ _ _ _ _ _ _) = _
    rw [adveCalc_spec g _ hs C p hc.2.1 hc.2.2.1]
    simp only [hx, hv, hw, helperImpl_uniform]

/-- **C32** the same for predictor-corrector, when the clamping in z is not needed -/
theorem uniform_shift_predCorr {d : Dims} {b : Box} (g : GridOk d b) {C : Courants} (pc : PcOk d b C) {u v w : ℝ}
    (hx : ∀ f, C.cx f = u) (hv : ∀ f, C.cy f = v) (hw : ∀ f, C.cz f = w) {p : Pos} (hp : InGrid d b d.nx p)
    (hy : d.ny ≠ 0 → b.y0 ≤ p.y ∧ p.y < b.y1) (hz0 : b.z0 < p.z + b.dz * w) (hz1 : p.z + b.dz * w < b.z1) :
    adve .predCorr 2 d b C p = some ⟨p.x + b.dx * u, if d.ny ≠ 0 then p.y + b.dy * v else p.y, p.z + b.dz * w⟩ := by
  obtain ⟨i, j, k, i1, j1, k1, p0, p1, v0, v1, h0, _, hv0, h1, _, hv1, e⟩ := predCorr_step g C pc hp hy
  rw [vel_uniform hx hv hw] at hv0 hv1
  have hpz : p0.z = p.z := by rw [h0]
  have hz : p1.z = p.z + b.dz * w := by
    rw [h1, hv0]; dsimp only; rw [hpz, clampZ_id hz0 hz1]
  rw [e, hz, hv0, hv1]
  by_cases hh : d.ny ≠ 0
  · simp only [if_pos hh, Option.some.injEq, Pos.mk.injEq]; refine ⟨?_, ?_, ?_⟩ <;> ring
  · simp only [if_neg hh, Option.some.injEq, Pos.mk.injEq]; refine ⟨?_, ?_, ?_⟩ <;> ring

/-! ### One-dimensional grids -/

/-- **C32** (negation, 1D) In a one-dimensional grid the Courant number of the right face is ignored (the right-face index is wrong, C31):
a super-droplet moves with the Courant number of the left face of its cell, and crosses a closed face. -/
theorem adve_1d_wrong {d : Dims} (h : 0 < d.nx ∧ d.ny = 0 ∧ d.nz = 0) (hsz : (d.nx : ℝ) ≤ 2 ^ 64) {b : Box} (hdx : 0 < b.dx) (C : Courants)
    {p : Pos} (h0 : 0 ≤ p.x) (h1 : p.x < d.nx * b.dx) (s : Scheme) (hs : s ≠ .predCorr) :
    ∃ i < d.nx, i * b.dx ≤ p.x ∧ p.x < (i + 1) * b.dx ∧ adve s 0 d b C p = some ⟨p.x + b.dx * C.cx i, p.y, p.z⟩ := by
  obtain ⟨i, ei, hi, hi0, hi1, _⟩ := cast_spec hdx h0 h1 hsz
  refine ⟨i, hi, hi0, hi1, ?_⟩
  have hnx : d.nx ≠ 0 := by omega
  have ec : cellOf d b p = some (i, 0, 0, i) := by
    unfold cellOf
    simp only [hnx, h.2.1, h.2.2, ne_eq, not_false_eq_true, not_true, if_true, if_false, ei]
    simp [ravel, nDims1 h]
  have hr : rgt d i = i := by simp [rgt, lft, nDims1 h, h.2.2]
  have hx : haloX d 0 = 0 := by simp [haloX]
  cases s with
  | predCorr => exact absurd rfl hs
  | euler =>
    simp [adve, nDims1 h, ec, adveCalc, hx, hr, lft, helperExpl]
  | implicit =>
    simp [adve, nDims1 h, ec, adveCalc, hx, hr, lft, helperImpl]

/-- a concrete instance: Courant numbers 0.9 at face 0 and 0 at face 1; a super-droplet at 0.5 goes through face 1 to 1.4 -/
theorem adve_1d_crosses : adve .euler 0 ⟨4, 0, 0⟩ ⟨1, 1, 1, 0, 4, 0, 1, 0, 1⟩ ⟨fun f => if f = 0 then 9 / 10 else 0, fun _ => 0, fun _ => 0⟩ ⟨1 / 2, 0, 0⟩
    = some ⟨7 / 5, 0, 0⟩ := by
  obtain ⟨i, hi, h0, h1, e⟩ := adve_1d_wrong (d := ⟨4, 0, 0⟩) (by norm_num) (by norm_num) (b := ⟨1, 1, 1, 0, 4, 0, 1, 0, 1⟩) (by norm_num)
    ⟨fun f => if f = 0 then 9 / 10 else 0, fun _ => 0, fun _ => 0⟩ (p := ⟨1 / 2, 0, 0⟩) (by norm_num) (by norm_num) .euler (by decide)
  rw [e]
  have hi0 : i = 0 := by
    by_contra hh
    have : (1 : ℝ) ≤ i := by exact_mod_cast Nat.one_le_iff_ne_zero.2 hh
    norm_num at h0 h1
    linarith
  subst hi0
  norm_num

/-! ### Hypotheses are met -/

/-- a 3D grid of 4x4x4 unit cells, Courant numbers up to 1: all conditions above hold -/
example : GridOk ⟨4, 4, 4⟩ ⟨1, 1, 1, 0, 4, 0, 4, 0, 4⟩ ∧
    PcOk ⟨4, 4, 4⟩ ⟨1, 1, 1, 0, 4, 0, 4, 0, 4⟩ ⟨fun f => if f % 2 = 0 then 1 else -1, fun _ => 1 / 2, fun _ => 1 / 4⟩ ∧
    InGrid ⟨4, 4, 4⟩ ⟨1, 1, 1, 0, 4, 0, 4, 0, 4⟩ 4 ⟨7 / 2, 1 / 2, 2⟩ := by
  refine ⟨⟨by norm_num, by norm_num, by norm_num, by norm_num, by norm_num, by norm_num, by norm_num⟩,
    ⟨?_, by norm_num, by norm_num, by norm_num, ?_⟩, ?_⟩
  · intro f _; dsimp only; split_ifs <;> norm_num
  · intro _
    refine ⟨by norm_num, by norm_num, by norm_num, fun f _ => ?_⟩
    rw [abs_of_pos (by norm_num)]; norm_num
  · norm_num [InGrid]

end LCP.Adve
