import Verif.Grid.Props
import Mathlib.MeasureTheory.Measure.Lebesgue.Basic
import Mathlib.Tactic.FieldSimp
import Mathlib.Tactic.Positivity
import Mathlib.Tactic.NormNum

/-!
# Cell volumes: C30
-/
namespace LCP.Grid
open MeasureTheory

/-- Specification: length of the part of the `i`-th slab of width `d` inside `[a,b)` (Lebesgue measure). -/
noncomputable def slabLen (d a b : ℝ) (i : ℕ) : ℝ :=
  (volume (Set.Ico ((i : ℝ) * d) (((i : ℝ) + 1) * d) ∩ Set.Ico a b)).toReal

theorem slabLen_eq (d a b : ℝ) (i : ℕ) :
    slabLen d a b i = max 0 (min (((i : ℝ) + 1) * d) b - max ((i : ℝ) * d) a) := by
  unfold slabLen
  rw [Set.Ico_inter_Ico, Real.volume_Ico, ENNReal.toReal_ofReal', max_comm]

theorem slabLen_nonneg (d a b : ℝ) (i : ℕ) : 0 ≤ slabLen d a b i := by rw [slabLen_eq]; exact le_max_left _ _

/-- the slabs partition `[a,b)` -/
theorem sum_slabLen {d a b : ℝ} (hd : 0 ≤ d) (ha : 0 ≤ a) (hab : a ≤ b) {n : ℕ} (hb : b ≤ n * d) :
    ∑ i ∈ Finset.range n, slabLen d a b i = b - a := by
  -- telescoping with the clamp function
  have key : ∀ i : ℕ, slabLen d a b i = max a (min b (((i + 1 : ℕ) : ℝ) * d)) - max a (min b ((i : ℝ) * d)) := by
    intro i
    rw [slabLen_eq]
    push_cast
    have : (i : ℝ) * d ≤ ((i : ℝ) + 1) * d := by nlinarith
    rcases le_total b ((i : ℝ) * d) with h1 | h1 <;> rcases le_total b (((i : ℝ) + 1) * d) with h2 | h2 <;>
      rcases le_total a ((i : ℝ) * d) with h3 | h3 <;> rcases le_total a (((i : ℝ) + 1) * d) with h4 | h4 <;>
      simp only [max_def, min_def] <;> split_ifs <;> linarith
  simp_rw [key]
  rw [Finset.sum_range_sub (fun i : ℕ => max a (min b ((i : ℝ) * d)))]
  simp only [Nat.cast_zero, zero_mul]
  rw [min_eq_left hb, max_eq_right hab, min_eq_right (ha.trans hab), max_eq_left ha]

/-- the `i`-th slab of width `d` meets the closed interval `[a,b]` -/
def Meets (d a b : ℝ) (i : ℕ) : Prop := max ((i : ℝ) * d) a ≤ min (((i : ℝ) + 1) * d) b

theorem slabLen_meets {d a b : ℝ} {i : ℕ} (h : Meets d a b i) :
    slabLen d a b i = min (((i : ℝ) + 1) * d) b - max ((i : ℝ) * d) a ∧
      0 ≤ min (((i : ℝ) + 1) * d) b - max ((i : ℝ) * d) a := by
  rw [slabLen_eq]
  have := sub_nonneg.2 h
  exact ⟨max_eq_right this, this⟩

/-- at least two of the three directions meet -/
def TwoMeet (b : Box) (i j k : ℕ) : Prop :=
  (Meets b.dx b.x0 b.x1 i ∧ Meets b.dy b.y0 b.y1 j) ∨ (Meets b.dx b.x0 b.x1 i ∧ Meets b.dz b.z0 b.z1 k) ∨
  (Meets b.dy b.y0 b.y1 j ∧ Meets b.dz b.z0 b.z1 k)

/-- **C30** (partial) If in at least two directions the slab of the cell meets the closed domain, the computed cell
volume is the volume of the intersection of the cell with the domain.  Missing: cells outside the domain in two
directions, where the claim is false (`dv_outside_positive`). -/
theorem dv_is_intersection_volume_partial {d : Dims} (h : d.Layout) (b : Box) {i j k c : ℕ} (hc : IsCell d i j k)
    (hr : ravel d i j k = some c) (ho : TwoMeet b i j k) :
    dvEval d b c = slabLen b.dx b.x0 b.x1 i * slabLen b.dy b.y0 b.y1 j * slabLen b.dz b.z0 b.z1 k := by
  obtain ⟨c', h1, h2, h3⟩ := ravel_unravel h hc
  rw [hr] at h1; obtain rfl : c = c' := by simpa using h1
  rw [unravel_eq h h2] at h3
  simp only [Prod.mk.injEq] at h3
  obtain ⟨e1, e2, e3⟩ := h3
  unfold dvEval
  simp only [e1, e2, e3]
  rcases ho with ⟨p, q⟩ | ⟨p, q⟩ | ⟨p, q⟩
  · obtain ⟨p1, p2⟩ := slabLen_meets p
    obtain ⟨q1, q2⟩ := slabLen_meets q
    rw [p1, q1, slabLen_eq b.dz, mul_max_of_nonneg _ _ (mul_nonneg p2 q2), mul_zero]
  · obtain ⟨p1, p2⟩ := slabLen_meets p
    obtain ⟨q1, q2⟩ := slabLen_meets q
    rw [p1, q1, slabLen_eq b.dy, mul_max_of_nonneg _ _ p2, max_mul_of_nonneg _ _ q2, mul_zero, zero_mul]
  · obtain ⟨p1, p2⟩ := slabLen_meets p
    obtain ⟨q1, q2⟩ := slabLen_meets q
    rw [p1, q1, slabLen_eq b.dx, max_mul_of_nonneg _ _ p2, max_mul_of_nonneg _ _ q2, zero_mul, zero_mul]

theorem sum_range_mul' (f : ℕ → ℝ) (a b : ℕ) :
    ∑ c ∈ Finset.range (a * b), f c = ∑ i ∈ Finset.range a, ∑ j ∈ Finset.range b, f (i * b + j) := by
  induction a with
  | zero => simp
  | succ a ih => rw [Finset.sum_range_succ, ← ih, Nat.succ_mul, Finset.sum_range_add]

/-- **C30** (partial) If every cell meets the domain in at least two directions, the cell volumes add up to the volume
of the domain.  Same gap as above (`dv_sum_wrong`). -/
theorem dv_sum_partial {d : Dims} (h : d.Layout) (b : Box)
    (hx : 0 ≤ b.dx ∧ 0 ≤ b.x0 ∧ b.x0 ≤ b.x1 ∧ b.x1 ≤ (max 1 d.nx : ℕ) * b.dx)
    (hy : 0 ≤ b.dy ∧ 0 ≤ b.y0 ∧ b.y0 ≤ b.y1 ∧ b.y1 ≤ (max 1 d.ny : ℕ) * b.dy)
    (hz : 0 ≤ b.dz ∧ 0 ≤ b.z0 ∧ b.z0 ≤ b.z1 ∧ b.z1 ≤ (max 1 d.nz : ℕ) * b.dz)
    (ho : ∀ i j k, IsCell d i j k → TwoMeet b i j k) :
    ∑ c ∈ Finset.range d.nCell, dvEval d b c = (b.x1 - b.x0) * (b.y1 - b.y0) * (b.z1 - b.z0) := by
  unfold Dims.nCell
  simp only [m1_eq]
  rw [sum_range_mul', sum_range_mul']
  rw [← sum_slabLen hx.1 hx.2.1 hx.2.2.1 hx.2.2.2, ← sum_slabLen hy.1 hy.2.1 hy.2.2.1 hy.2.2.2,
    ← sum_slabLen hz.1 hz.2.1 hz.2.2.1 hz.2.2.2]
  rw [Finset.sum_mul_sum, Finset.sum_mul]
  apply Finset.sum_congr rfl
  intro i hi
  rw [Finset.sum_mul]
  apply Finset.sum_congr rfl
  intro j hj
  rw [Finset.mul_sum]
  apply Finset.sum_congr rfl
  intro k hk
  have hc : IsCell d i j k := ⟨by simpa using hi, by simpa using hj, by simpa using hk⟩
  exact dv_is_intersection_volume_partial h b hc (ravel_eq h hc) (ho i j k hc)

/-- **C30** In particular the whole-grid domain (the usual case) has cells of volume `dx dy dz`. -/
theorem dv_full_domain {d : Dims} (h : d.Layout) (b : Box) (hx : 0 ≤ b.dx ∧ b.x0 = 0 ∧ b.x1 = (max 1 d.nx : ℕ) * b.dx)
    (hy : 0 ≤ b.dy ∧ b.y0 = 0 ∧ b.y1 = (max 1 d.ny : ℕ) * b.dy)
    (hz : 0 ≤ b.dz ∧ b.z0 = 0 ∧ b.z1 = (max 1 d.nz : ℕ) * b.dz) {c : ℕ} (hc : c < d.nCell) :
    dvEval d b c = b.dx * b.dy * b.dz := by
  have key : ∀ (n i : ℕ) (e a1 : ℝ), 0 ≤ e → a1 = (n : ℝ) * e → i < n →
      min (((i : ℝ) + 1) * e) a1 - max ((i : ℝ) * e) 0 = e := by
    intro n i e a1 he ha hi
    have h1 : ((i : ℝ) + 1) * e ≤ a1 := by
      rw [ha]; exact mul_le_mul_of_nonneg_right (by exact_mod_cast hi) he
    rw [min_eq_left h1, max_eq_left (by positivity)]; ring
  obtain ⟨⟨c1, c2, c3⟩, _⟩ := unravel_ravel h hc
  rw [unravel_eq h hc] at c1 c2 c3
  unfold dvEval
  simp only [hx.2.1, hy.2.1, hz.2.1]
  rw [key _ _ _ _ hx.1 hx.2.2 c1, key _ _ _ _ hy.1 hy.2.2 c2, key _ _ _ _ hz.1 hz.2.2 c3]
  have := mul_nonneg (mul_nonneg hx.1 hy.1) hz.1
  exact max_eq_right this

/-- A 2 x 2 x 1 grid of unit cells with the domain [1.5,2) x [1.5,2) x [0,1), accepted by the sanity checks. -/
noncomputable def exBox : Box := { dx := 1, dy := 1, dz := 1, x0 := 3/2, x1 := 2, y0 := 3/2, y1 := 2, z0 := 0, z1 := 1 }

/-- **C30** (negation) Cell (0,0,0) does not meet the domain, yet it is given the positive volume 1/4: the product of
two negative overlaps. -/
theorem dv_outside_positive :
    dvEval ⟨2, 2, 1⟩ exBox 0 = 1 / 4 ∧ slabLen exBox.dx exBox.x0 exBox.x1 0 = 0 := by
  constructor
  · simp only [dvEval, exBox]; norm_num
  · rw [slabLen_eq]; simp only [exBox]; norm_num

/-- **C30** (negation) The cell volumes add up to twice the volume of that domain. -/
theorem dv_sum_wrong : ∑ c ∈ Finset.range (Dims.nCell ⟨2, 2, 1⟩), dvEval ⟨2, 2, 1⟩ exBox c = 1 / 2 ∧
    (exBox.x1 - exBox.x0) * (exBox.y1 - exBox.y0) * (exBox.z1 - exBox.z0) = 1 / 4 := by
  constructor
  · rw [show Dims.nCell ⟨2, 2, 1⟩ = 4 by rfl]
    simp only [Finset.sum_range_succ, Finset.sum_range_zero, dvEval, exBox]
    norm_num
  · simp only [exBox]; norm_num

/-- non-vacuity: a domain smaller than the grid satisfying the hypotheses of `dv_sum_partial` -/
noncomputable def exBox2 : Box :=
  { dx := 2, dy := 1, dz := 1, x0 := 1, x1 := 3, y0 := 1/2, y1 := 1, z0 := 0, z1 := 1 }

example : Dims.Layout ⟨2, 1, 1⟩ ∧ ∀ i j k, IsCell ⟨2, 1, 1⟩ i j k → TwoMeet exBox2 i j k := by
  refine ⟨Or.inr (Or.inr (Or.inr (by simp))), ?_⟩
  rintro i j k ⟨h1, h2, h3⟩
  right; right
  have hj : j = 0 := by simpa using h2
  have hk : k = 0 := by simpa using h3
  subst hj hk
  simp only [Meets, exBox2]
  norm_num

end LCP.Grid
