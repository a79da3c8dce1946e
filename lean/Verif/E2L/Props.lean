import Verif.E2L.Model
import Verif.Grid.Props
import Mathlib.Tactic.Ring
import Mathlib.Tactic.Linarith
import Mathlib.Tactic.NormNum
import Mathlib.Tactic.IntervalCases

/-!
# Eulerian fields are copied to the right cells (C25), halos of Courant numbers (C26)
-/
namespace LCP.E2L
open LCP.Grid

/-! ### Specification -/

/-- element of the caller's array that belongs to grid point `(I, j, k)` — `I` counted over all devices of the process —
according to the strides the caller gave -/
def elem (nd : ℕ) (s : Strides) (I j k : ℤ) : ℤ :=
  match nd with
  | 0 => 0
  | 1 => I
  | 2 => s.s0 * I + s.s1 * k
  | _ => s.s0 * I + s.s1 * j + s.s2 * k

/-- the strides describe an `NX × NY × NZ` array with fastest index z and, in 3D, either x or y slowest; rows may be padded.
(1D: the code ignores the strides and assumes 1.) -/
def GoodStrides (nd : ℕ) (s : Strides) (NX NY NZ : ℕ) : Prop :=
  match nd with
  | 0 => True
  | 1 => True
  | 2 => s.s1 = 1 ∧ (NZ : ℤ) ≤ s.s0
  | _ => s.s2 = 1 ∧ (((NZ : ℤ) ≤ s.s1 ∧ NY * s.s1 ≤ s.s0) ∨ ((NZ : ℤ) ≤ s.s0 ∧ NX * s.s0 ≤ s.s1 ∧ s.s0 < s.s1))

/-- number of elements along y and z of an array extended by `ey`, `ez` -/
def effY (d : Dims) (ey : ℕ) : ℕ := if d.nDims = 3 then d.ny + ey else 1
def effZ (d : Dims) (ez : ℕ) : ℕ := if d.nDims = 2 ∨ d.nDims = 3 then d.nz + ez else 1

/-! ### Lemmas -/

theorem toInt32_of {x c : ℤ} (h : ∃ m : ℤ, x = c + m * 2 ^ 32) (h1 : -2 ^ 31 ≤ c) (h2 : c < 2 ^ 31) : toInt32 x = c := by
  obtain ⟨m, rfl⟩ := h
  unfold toInt32
  rw [show c + m * 2 ^ 32 = c + ((2 ^ 32 : ℕ) : ℤ) * m by push_cast; ring, Int.add_mul_bmod_self_left]
  apply Int.bmod_eq_of_le
  · norm_num at *; exact h1
  · norm_num at *; exact h2

theorem toUInt32_diff (x : ℤ) : ∃ m : ℤ, toUInt32 x = x + m * 2 ^ 32 := by
  refine ⟨-(x / 2 ^ 32), ?_⟩
  unfold toUInt32
  have := Int.emod_add_mul_ediv x (2 ^ 32)
  linarith

theorem decode {I j k NY NZ : ℕ} (hj : j < NY) (hk : k < NZ) :
    ((I * NY + j) * NZ + k) / NZ = I * NY + j ∧ ((I * NY + j) * NZ + k) % NZ = k ∧ (I * NY + j) % NY = j ∧
    ((I * NY + j) * NZ + k) / (NZ * NY) = I := by
  have h1 : ((I * NY + j) * NZ + k) / NZ = I * NY + j := by
    rw [mul_comm, Nat.mul_add_div (by omega), Nat.div_eq_of_lt hk, Nat.add_zero]
  refine ⟨h1, ?_, ?_, ?_⟩
  · rw [mul_comm, Nat.mul_add_mod, Nat.mod_eq_of_lt hk]
  · rw [mul_comm, Nat.mul_add_mod, Nat.mod_eq_of_lt hj]
  · rw [← Nat.div_div_eq_div_mul, h1, mul_comm, Nat.mul_add_div (by omega), Nat.div_eq_of_lt hj, Nat.add_zero]

/-- value of the map at a non-negative global grid point -/
theorem l2e_interior {D : Dom} (hL : D.d.Layout) {s : Strides} {ex ey ez : ℕ} {offset : ℤ} {q I j k : ℕ}
    (hs : GoodStrides D.d.nDims s (D.nxTot + ex) (effY D.d ey) (effZ D.d ez))
    (hI : I < D.nxTot + ex) (hj : j < effY D.d ey) (hk : k < effZ D.d ez)
    (hc : D.d.nDims ≠ 0 → toInt32 (D.nCellBfr + offset + q) = (((I * effY D.d ey + j) * effZ D.d ez + k : ℕ) : ℤ)) :
    l2e D s ex ey ez offset q = elem D.d.nDims s I j k := by
  rcases hL with h | h | h | h
  · have hn := nDims0 h
    simp [l2e, hn, elem, periodicCellno]
  · have hn := nDims1 h
    have hc := hc (by omega)
    simp only [effY, effZ, hn] at hc hj hk
    simp only [OfNat.one_ne_ofNat, if_false, or_self, Nat.lt_one_iff] at hj hk
    subst hj hk
    simp only [l2e, hn, elem]
    rw [hc]
    simp only [periodicCellno, OfNat.one_ne_ofNat, if_false, or_self]
    push_cast
    rw [if_neg (by push_cast at *; omega), if_neg (by omega)]; ring
  · have hn := nDims2 h
    have hc := hc (by omega)
    simp only [effY, effZ, hn, GoodStrides] at hc hj hk hs
    simp only [Nat.reduceEqDiff, if_false, or_false, if_true, Nat.lt_one_iff] at hj hk hs hc
    subst hj
    obtain ⟨h1, h2, h3, h4⟩ := decode (I := I) (j := 0) (k := k) (NY := 1) (NZ := D.d.nz + ez) (by omega) hk
    simp only [l2e, hn, elem]
    rw [hc]
    rw [show ((D.d.nz : ℤ) + ez) = ((D.d.nz + ez : ℕ) : ℤ) by push_cast; ring, ← Int.ofNat_tdiv, ← Int.ofNat_tmod, h1, h2]
    obtain ⟨hs1, hs2⟩ := hs
    have hIz : (I : ℤ) + 1 ≤ D.nxTot + ex := by exact_mod_cast hI
    have hkz : (k : ℤ) < D.d.nz + ez := by exact_mod_cast hk
    have hp : (0 : ℤ) ≤ (D.d.nz : ℤ) + ez := by positivity
    push_cast at hs2 ⊢
    have e1 : s.s0 * ((I : ℤ) + 1) ≤ s.s0 * (D.nxTot + ex) := mul_le_mul_of_nonneg_left hIz (by omega)
    have e2 : 0 ≤ s.s0 * (I : ℤ) := mul_nonneg (by omega) (by positivity)
    simp only [periodicCellno]
    rw [hs1]
    rw [if_neg, if_neg]
    · ring
    · have : (0 : ℤ) ≤ k := by positivity
      linarith
    · have : s.s0 * ((I : ℤ) + 1) = s.s0 * I + s.s0 := by ring
      have : ((D.nxTot : ℤ) + ex) * s.s0 = s.s0 * (D.nxTot + ex) := by ring
      linarith
  · have hn := nDims3 h
    have hc := hc (by omega)
    simp only [effY, effZ, hn, GoodStrides] at hc hj hk hs
    simp only [if_true, or_true] at hj hk hs hc
    obtain ⟨h1, h2, h3, h4⟩ := decode (I := I) hj hk
    simp only [l2e, hn, elem]
    rw [hc]
    rw [show ((D.d.nz : ℤ) + ez) = ((D.d.nz + ez : ℕ) : ℤ) by push_cast; ring,
      show ((D.d.ny : ℤ) + ey) = ((D.d.ny + ey : ℕ) : ℤ) by push_cast; ring, ← Int.natCast_mul,
      ← Int.ofNat_tdiv, ← Int.ofNat_tmod, ← Int.ofNat_tdiv, ← Int.ofNat_tmod, h1, h2, h3, h4]
    obtain ⟨hs2, hs⟩ := hs
    have hIz : (I : ℤ) + 1 ≤ D.nxTot + ex := by exact_mod_cast hI
    have hI0 : (0 : ℤ) ≤ I := by positivity
    have hj0 : (0 : ℤ) ≤ j := by positivity
    have hk0 : (0 : ℤ) ≤ k := by positivity
    have hjz : (j : ℤ) + 1 ≤ ((D.d.ny + ey : ℕ) : ℤ) := by exact_mod_cast hj
    have hkz : (k : ℤ) < ((D.d.nz + ez : ℕ) : ℤ) := by exact_mod_cast hk
    have hNY : (1 : ℤ) ≤ ((D.d.ny + ey : ℕ) : ℤ) := by exact_mod_cast (by omega)
    have hNX : (1 : ℤ) ≤ ((D.nxTot + ex : ℕ) : ℤ) := by exact_mod_cast (by omega)
    have hIz' : (I : ℤ) + 1 ≤ ((D.nxTot + ex : ℕ) : ℤ) := by exact_mod_cast hI
    simp only [periodicCellno]
    generalize ((D.d.ny + ey : ℕ) : ℤ) = NY at *
    generalize ((D.d.nz + ez : ℕ) : ℤ) = NZ at *
    have hcast : ((D.nxTot : ℤ) + ex) = ((D.nxTot + ex : ℕ) : ℤ) := by push_cast; ring
    rw [hcast]
    generalize ((D.nxTot + ex : ℕ) : ℤ) = NX at *
    rcases hs with ⟨ha, hb⟩ | ⟨ha, hb, hlt⟩
    · have hs1 : 0 ≤ s.s1 := by linarith
      have hle : s.s1 ≤ s.s0 := by nlinarith
      rw [max_eq_left hle, if_pos rfl, hs2]
      have e1 : s.s1 * (j + 1) ≤ s.s1 * NY := mul_le_mul_of_nonneg_left hjz hs1
      have e2 : s.s0 * (I + 1) ≤ s.s0 * NX := mul_le_mul_of_nonneg_left hIz' (by linarith)
      have e3 : 0 ≤ s.s0 * (I : ℤ) := mul_nonneg (by linarith) hI0
      have e4 : 0 ≤ s.s1 * (j : ℤ) := mul_nonneg hs1 hj0
      rw [if_neg, if_neg] <;> linarith
    · have hs0 : 0 ≤ s.s0 := by linarith
      rw [max_eq_right hlt.le, if_neg hlt.ne', hs2]
      have e1 : s.s1 * (j + 1) ≤ s.s1 * NY := mul_le_mul_of_nonneg_left hjz (by linarith)
      have e2 : s.s0 * (I + 1) ≤ s.s0 * NX := mul_le_mul_of_nonneg_left hIz' hs0
      have e3 : 0 ≤ s.s0 * (I : ℤ) := mul_nonneg hs0 hI0
      have e4 : 0 ≤ s.s1 * (j : ℤ) := mul_nonneg (by linarith) hj0
      rw [if_neg, if_neg] <;> linarith

theorem effY_eq {d : Dims} (h : d.Layout) : effY d 0 = max 1 d.ny := by
  unfold effY
  rcases h with h | h | h | h
  · simp [nDims0 h, h]
  · simp [nDims1 h, h]
  · simp [nDims2 h, h]
  · simp [nDims3 h]; omega

theorem effZ_eq {d : Dims} (h : d.Layout) : effZ d 0 = max 1 d.nz := by
  unfold effZ
  rcases h with h | h | h | h
  · simp [nDims0 h, h]
  · simp [nDims1 h, h]
  · simp [nDims2 h]; omega
  · simp [nDims3 h]; omega

/-- **C25** The element of the caller's array that is copied to (and from) cell `(i,j,k)` of a device which has `nxBfr` columns to
its left is the one the strides assign to grid point `(nxBfr + i, j, k)`: any padding, x or y slowest. -/
theorem scalar_map {D : Dom} (hL : D.d.Layout) {s : Strides} {i j k q : ℕ}
    (hs : GoodStrides D.d.nDims s D.nxTot (max 1 D.d.ny) (max 1 D.d.nz))
    (hsize : D.nxTot * max 1 D.d.ny * max 1 D.d.nz ≤ 2 ^ 31) (hx : D.nxBfr + D.d.nx ≤ D.nxTot)
    (hc : IsCell D.d i j k) (hq : ravel D.d i j k = some q) (h0 : D.d.nDims = 0 → D.nxBfr = 0 ∧ D.nxTot = 1) :
    l2eScalar D s q = elem D.d.nDims s ((D.nxBfr + i : ℕ) : ℤ) j k := by
  have hr := ravel_eq hL hc
  rw [hq, Option.some.injEq] at hr
  obtain ⟨h1, h2, h3⟩ := hc
  have hI : D.nxBfr + i < D.nxTot := by
    rcases hL with h | h | h | h
    · have := h0 (nDims0 h); rw [h.1] at h1; omega
    all_goals omega
  unfold l2eScalar
  apply l2e_interior hL
  · rw [effY_eq hL, effZ_eq hL]; exact hs
  · exact hI
  · rw [effY_eq hL]; exact h2
  · rw [effZ_eq hL]; exact h3
  · intro _
    rw [effY_eq hL, effZ_eq hL]
    have hlt : ((D.nxBfr + i) * max 1 D.d.ny + j) * max 1 D.d.nz + k < D.nxTot * max 1 D.d.ny * max 1 D.d.nz := by
      have a : (D.nxBfr + i) * max 1 D.d.ny + j + 1 ≤ D.nxTot * max 1 D.d.ny := by
        have : (D.nxBfr + i + 1) * max 1 D.d.ny ≤ D.nxTot * max 1 D.d.ny := Nat.mul_le_mul_right _ hI
        have e : (D.nxBfr + i + 1) * max 1 D.d.ny = (D.nxBfr + i) * max 1 D.d.ny + max 1 D.d.ny := by ring
        omega
      have b := Nat.mul_le_mul_right (max 1 D.d.nz) a
      have e : ((D.nxBfr + i) * max 1 D.d.ny + j + 1) * max 1 D.d.nz =
        ((D.nxBfr + i) * max 1 D.d.ny + j) * max 1 D.d.nz + max 1 D.d.nz := by ring
      omega
    apply toInt32_of
    · refine ⟨0, ?_⟩
      rw [hr]
      unfold Dom.nCellBfr
      rw [m1_eq, m1_eq]
      push_cast
      ring
    · have : (0 : ℤ) ≤ ((((D.nxBfr + i) * max 1 D.d.ny + j) * max 1 D.d.nz + k : ℕ) : ℤ) := by positivity
      linarith
    · exact_mod_cast lt_of_lt_of_le hlt hsize

/-- distinct grid points have distinct array elements -/
theorem elem_injective {nd : ℕ} {s : Strides} {NX NY NZ : ℕ} (hs : GoodStrides nd s NX NY NZ) {I j k I' j' k' : ℕ}
    (hI : I < NX) (hI' : I' < NX) (hj : j < NY) (hj' : j' < NY) (hk : k < NZ) (hk' : k' < NZ)
    (h0 : nd = 0 → NX = 1) (h1 : nd ≤ 1 → NZ = 1) (h2 : nd ≤ 2 → NY = 1)
    (he : elem nd s I j k = elem nd s I' j' k') : I = I' ∧ j = j' ∧ k = k' := by
  -- one digit: `a*b + r = a'*b + r'` with small remainders
  have digit : ∀ (b a a' r r' : ℤ), 0 ≤ r → r < b → 0 ≤ r' → r' < b → b * a + r = b * a' + r' → a = a' ∧ r = r' := by
    intro b a a' r r' h1 h2 h3 h4 h
    have hb : 0 < b := by omega
    have : a = a' := by
      by_contra hne
      rcases lt_or_gt_of_ne hne with hlt | hlt
      · have : b * (a + 1) ≤ b * a' := mul_le_mul_of_nonneg_left (by omega) hb.le
        have : b * (a + 1) = b * a + b := by ring
        omega
      · have : b * (a' + 1) ≤ b * a := mul_le_mul_of_nonneg_left (by omega) hb.le
        have : b * (a' + 1) = b * a' + b := by ring
        omega
    subst this
    exact ⟨rfl, by linarith⟩
  have hkz : (k : ℤ) < NZ := by exact_mod_cast hk
  have hkz' : (k' : ℤ) < NZ := by exact_mod_cast hk'
  have hk0 : (0 : ℤ) ≤ k := by positivity
  have hk0' : (0 : ℤ) ≤ k' := by positivity
  have hIz : (I : ℤ) + 1 ≤ NX := by exact_mod_cast hI
  have hIz' : (I' : ℤ) + 1 ≤ NX := by exact_mod_cast hI'
  have hI0 : (0 : ℤ) ≤ I := by positivity
  have hI0' : (0 : ℤ) ≤ I' := by positivity
  have hjz : (j : ℤ) + 1 ≤ NY := by exact_mod_cast hj
  have hjz' : (j' : ℤ) + 1 ≤ NY := by exact_mod_cast hj'
  have hj0 : (0 : ℤ) ≤ j := by positivity
  have hj0' : (0 : ℤ) ≤ j' := by positivity
  match nd, hs, he, h0, h1, h2 with
  | 0, _, _, h0, h1, h2 =>
    have := h0 rfl; have := h1 (by omega); have := h2 (by omega)
    omega
  | 1, _, he, _, h1, h2 =>
    have := h1 (by omega); have := h2 (by omega)
    simp only [elem] at he
    omega
  | 2, hs, he, _, _, h2 =>
    have := h2 (by omega)
    simp only [elem, GoodStrides] at he hs
    rw [hs.1, one_mul, one_mul] at he
    obtain ⟨a, b⟩ := digit _ _ _ _ _ hk0 (by omega) hk0' (by omega) he
    omega
  | (n + 3), hs, he, _, _, _ =>
    simp only [elem, GoodStrides] at he hs
    obtain ⟨hs2, hs⟩ := hs
    rw [hs2, one_mul, one_mul] at he
    rcases hs with ⟨ha, hb⟩ | ⟨ha, hb, hlt⟩
    · have hs1 : 0 ≤ s.s1 := by omega
      have e1 : s.s1 * ((j : ℤ) + 1) ≤ s.s1 * NY := mul_le_mul_of_nonneg_left hjz hs1
      have e1' : s.s1 * ((j' : ℤ) + 1) ≤ s.s1 * NY := mul_le_mul_of_nonneg_left hjz' hs1
      have e4 : 0 ≤ s.s1 * (j : ℤ) := mul_nonneg hs1 hj0
      have e4' : 0 ≤ s.s1 * (j' : ℤ) := mul_nonneg hs1 hj0'
      obtain ⟨a, b⟩ := digit s.s0 I I' (s.s1 * j + k) (s.s1 * j' + k') (by linarith) (by linarith) (by linarith)
        (by linarith) (by linarith)
      obtain ⟨c, d⟩ := digit s.s1 j j' k k' hk0 (by omega) hk0' (by omega) b
      omega
    · have hs0 : 0 ≤ s.s0 := by omega
      have e1 : s.s0 * ((I : ℤ) + 1) ≤ s.s0 * NX := mul_le_mul_of_nonneg_left hIz hs0
      have e1' : s.s0 * ((I' : ℤ) + 1) ≤ s.s0 * NX := mul_le_mul_of_nonneg_left hIz' hs0
      have e4 : 0 ≤ s.s0 * (I : ℤ) := mul_nonneg hs0 hI0
      have e4' : 0 ≤ s.s0 * (I' : ℤ) := mul_nonneg hs0 hI0'
      obtain ⟨a, b⟩ := digit s.s1 j j' (s.s0 * I + k) (s.s0 * I' + k') (by linarith) (by linarith) (by linarith)
        (by linarith) (by linarith)
      obtain ⟨c, d⟩ := digit s.s0 I I' k k' hk0 (by omega) hk0' (by omega) b
      omega

/-! ### Copying -/

theorem syncOut_untouched {α : Type} (f : ℕ → ℤ) (sched : List ℕ) (v : ℕ → α) (data : Mem α) (p : ℤ)
    (h : ∀ q ∈ sched, f q ≠ p) : syncOut f sched v data p = data p := by
  induction sched generalizing data with
  | nil => rfl
  | cons a l ih =>
    have : syncOut f (a :: l) v data = syncOut f l v (Function.update data (f a) (v a)) := rfl
    rw [this, ih _ (fun q hq => h q (List.mem_cons_of_mem _ hq)), Function.update_of_ne]
    exact (h a List.mem_cons_self).symm

theorem syncOut_written {α : Type} (f : ℕ → ℤ) (sched : List ℕ) (v : ℕ → α) (data : Mem α)
    (hinj : ∀ a ∈ sched, ∀ b ∈ sched, f a = f b → a = b) {q : ℕ} (hq : q ∈ sched) :
    syncOut f sched v data (f q) = v q := by
  induction sched generalizing data with
  | nil => simp at hq
  | cons a l ih =>
    have hstep : syncOut f (a :: l) v data = syncOut f l v (Function.update data (f a) (v a)) := rfl
    rw [hstep]
    by_cases hl : q ∈ l
    · exact ih _ (fun x hx y hy => hinj x (List.mem_cons_of_mem _ hx) y (List.mem_cons_of_mem _ hy)) hl
    · have hqa : q = a := by rcases List.mem_cons.1 hq with h | h <;> [exact h; exact absurd h hl]
      subst hqa
      rw [syncOut_untouched, Function.update_self]
      intro b hb he
      have := hinj b (List.mem_cons_of_mem _ hb) q List.mem_cons_self he
      subst this; exact hl hb

/-- hypotheses on a device and the caller's array used below: documented grid layout, good strides, array indices fit an int,
the device's columns lie within the process's -/
structure Good (D : Dom) (s : Strides) : Prop where
  layout : D.d.Layout
  strides : GoodStrides D.d.nDims s D.nxTot (max 1 D.d.ny) (max 1 D.d.nz)
  size : D.nxTot * max 1 D.d.ny * max 1 D.d.nz ≤ 2 ^ 31
  cols : D.nxBfr + D.d.nx ≤ D.nxTot
  parcel : D.d.nDims = 0 → D.nxBfr = 0 ∧ D.nxTot = 1

theorem Good.map {D : Dom} {s : Strides} (g : Good D s) {i j k q : ℕ} (hc : IsCell D.d i j k)
    (hq : ravel D.d i j k = some q) : l2eScalar D s q = elem D.d.nDims s ((D.nxBfr + i : ℕ) : ℤ) j k :=
  scalar_map g.layout g.strides g.size g.cols hc hq g.parcel

theorem cell_of {d : Dims} (h : d.Layout) {q : ℕ} (hq : q < d.nCell) :
    ∃ i j k, IsCell d i j k ∧ ravel d i j k = some q := by
  obtain ⟨hc, hr⟩ := unravel_ravel h hq
  exact ⟨_, _, _, hc, hr⟩

theorem Good.col_lt {D : Dom} {s : Strides} (g : Good D s) {i j k : ℕ} (hc : IsCell D.d i j k) : D.nxBfr + i < D.nxTot := by
  have h1 := hc.1
  have hcols := g.cols
  rcases g.layout with h | h | h | h
  · have := g.parcel (nDims0 h); rw [h.1] at h1; omega
  all_goals omega

theorem dims_one {d : Dims} (h : d.Layout) : (d.nDims ≤ 1 → max 1 d.nz = 1) ∧ (d.nDims ≤ 2 → max 1 d.ny = 1) := by
  rcases h with h | h | h | h
  · simp [h]
  · simp [h]
  · rw [nDims2 h]; simp [h]
  · rw [nDims3 h]; simp

/-- cells of two devices of one process (or of the same device) that use the same array element are the same cell -/
theorem scalar_injective {D D' : Dom} {s : Strides} (g : Good D s) (g' : Good D' s) (ht : D.nxTot = D'.nxTot)
    (hn : D.d.nDims = D'.d.nDims) (hy : D.d.ny = D'.d.ny) (hz : D.d.nz = D'.d.nz)
    {i j k q i' j' k' q' : ℕ} (hc : IsCell D.d i j k) (hq : ravel D.d i j k = some q)
    (hc' : IsCell D'.d i' j' k') (hq' : ravel D'.d i' j' k' = some q') (he : l2eScalar D s q = l2eScalar D' s q') :
    D.nxBfr + i = D'.nxBfr + i' ∧ j = j' ∧ k = k' := by
  rw [g.map hc hq, g'.map hc' hq', ← hn] at he
  have hcy := hc'.2.1
  have hcz := hc'.2.2
  rw [← hy] at hcy
  rw [← hz] at hcz
  have hI' := g'.col_lt hc'
  rw [← ht] at hI'
  exact elem_injective g.strides (g.col_lt hc) hI' hc.2.1 hcy hc.2.2 hcz (fun h => (g.parcel h).2)
    (dims_one g.layout).1 (dims_one g.layout).2 he

theorem scalar_injective_idx {D : Dom} {s : Strides} (g : Good D s) {q q' : ℕ} (hq : q < D.d.nCell) (hq' : q' < D.d.nCell)
    (he : l2eScalar D s q = l2eScalar D s q') : q = q' := by
  obtain ⟨i, j, k, hc, hr⟩ := cell_of g.layout hq
  obtain ⟨i', j', k', hc', hr'⟩ := cell_of g.layout hq'
  obtain ⟨h1, h2, h3⟩ := scalar_injective g g rfl rfl rfl rfl hc hr hc' hr' he
  have : i = i' := by omega
  subst this h2 h3
  rw [hr] at hr'
  exact Option.some.inj hr'

/-- **C25** (partial) Reading a field in gives every cell the element of its grid point. -/
theorem sync_in_partial {α : Type} {D : Dom} {s : Strides} (g : Good D s) (data : Mem α) {i j k q : ℕ} (hc : IsCell D.d i j k)
    (hq : ravel D.d i j k = some q) (hlt : q < D.d.nCell) :
    (syncIn (l2eScalar D s) D.d.nCell data)[q]? = some (data (elem D.d.nDims s ((D.nxBfr + i : ℕ) : ℤ) j k)) := by
  simp [syncIn, hlt, g.map hc hq]

/-- **C25** (partial) Writing a field out, in whatever order the threads do it, puts every cell's value in the element of its grid point
and touches no other element — in particular none of another device's. -/
theorem sync_out_partial {α : Type} {D : Dom} {s : Strides} (g : Good D s) (sched : List ℕ)
    (hsched : sched.Perm (List.range D.d.nCell)) (v : ℕ → α) (data : Mem α) :
    (∀ i j k q, IsCell D.d i j k → ravel D.d i j k = some q → q < D.d.nCell →
      syncOut (l2eScalar D s) sched v data (elem D.d.nDims s ((D.nxBfr + i : ℕ) : ℤ) j k) = v q) ∧
    (∀ p, (∀ i j k, IsCell D.d i j k → elem D.d.nDims s ((D.nxBfr + i : ℕ) : ℤ) j k ≠ p) →
      syncOut (l2eScalar D s) sched v data p = data p) := by
  have hm : ∀ q, q ∈ sched ↔ q < D.d.nCell := fun q => by rw [hsched.mem_iff, List.mem_range]
  constructor
  · intro i j k q hc hq hlt
    rw [← g.map hc hq]
    apply syncOut_written
    · intro a ha b hb he
      exact scalar_injective_idx g ((hm a).1 ha) ((hm b).1 hb) he
    · exact (hm q).2 hlt
  · intro p hp
    apply syncOut_untouched
    intro q hq he
    obtain ⟨i, j, k, hc, hr⟩ := cell_of g.layout ((hm q).1 hq)
    rw [g.map hc hr] at he
    exact hp i j k hc he

/-- **C25** (partial) Copying in and out unchanged restores the caller's array; copying out and in returns the same field. -/
theorem sync_roundtrip_partial {α : Type} [Inhabited α] {D : Dom} {s : Strides} (g : Good D s) (sched : List ℕ)
    (hsched : sched.Perm (List.range D.d.nCell)) (data : Mem α) (v : List α) (hv : v.length = D.d.nCell) :
    syncOut (l2eScalar D s) sched (fun q => (syncIn (l2eScalar D s) D.d.nCell data).getD q default) data = data ∧
    syncIn (l2eScalar D s) D.d.nCell (syncOut (l2eScalar D s) sched (fun q => v.getD q default) data) = v := by
  have hm : ∀ q, q ∈ sched ↔ q < D.d.nCell := fun q => by rw [hsched.mem_iff, List.mem_range]
  have hinj : ∀ a ∈ sched, ∀ b ∈ sched, l2eScalar D s a = l2eScalar D s b → a = b := fun a ha b hb he =>
    scalar_injective_idx g ((hm a).1 ha) ((hm b).1 hb) he
  constructor
  · funext p
    by_cases hp : ∃ q ∈ sched, l2eScalar D s q = p
    · obtain ⟨q, hq, rfl⟩ := hp
      rw [syncOut_written _ _ _ _ hinj hq]
      have := (hm q).1 hq
      simp [syncIn, this]
    · apply syncOut_untouched
      intro q hq he
      exact hp ⟨q, hq, he⟩
  · apply List.ext_getElem
    · simp [syncIn, hv]
    · intro q h1 h2
      simp only [syncIn, List.getElem_map, List.getElem_range]
      rw [syncOut_written _ _ _ _ hinj ((hm q).2 (by omega))]
      simp [h2]

/-- **C25** Devices of one process never write the same element, so sharing the caller's array between them is safe. -/
theorem devices_disjoint {D D' : Dom} {s : Strides} (g : Good D s) (g' : Good D' s) (ht : D.nxTot = D'.nxTot)
    (hn : D.d.nDims = D'.d.nDims) (hy : D.d.ny = D'.d.ny) (hz : D.d.nz = D'.d.nz)
    (hdis : D.nxBfr + D.d.nx ≤ D'.nxBfr) {q q' : ℕ} (hq : q < D.d.nCell) (hq' : q' < D'.d.nCell) (hx : 0 < D.d.nx) :
    l2eScalar D s q ≠ l2eScalar D' s q' := by
  intro he
  obtain ⟨i, j, k, hc, hr⟩ := cell_of g.layout hq
  obtain ⟨i', j', k', hc', hr'⟩ := cell_of g'.layout hq'
  have h := (scalar_injective g g' ht hn hy hz hc hr hc' hr' he).1
  have := hc.1
  omega

/-- the hypotheses are met: second of two devices, 4×3×5 cells of a 6×3×5 grid, x slowest (padded rows) and y slowest -/
example : Good ⟨⟨4, 3, 5⟩, 2, 6⟩ ⟨21, 7, 1⟩ := by
  refine ⟨by simp [Dims.Layout], ?_, by norm_num, by norm_num, ?_⟩
  · rw [show (⟨4, 3, 5⟩ : Dims).nDims = 3 from rfl]; exact ⟨rfl, Or.inl (by norm_num)⟩
  · intro h; exact absurd h (by decide)
example : Good ⟨⟨4, 3, 5⟩, 2, 6⟩ ⟨5, 30, 1⟩ := by
  refine ⟨by simp [Dims.Layout], ?_, by norm_num, by norm_num, ?_⟩
  · rw [show (⟨4, 3, 5⟩ : Dims).nDims = 3 from rfl]; exact ⟨rfl, Or.inr (by norm_num)⟩
  · intro h; exact absurd h (by decide)

/-- **C25** (negation; what the partial theorems leave out) A dense array with y slowest over a grid with a single column in x
has equal strides in x and y; the code then takes x for the slowest dimension and "wraps" elements that are not in any
halo: cell (0,2,0) of a 1×3×5 grid is read from element 5, which belongs to cell (0,1,0), instead of 10. -/
theorem single_column_wrong :
    ravel ⟨1, 3, 5⟩ 0 2 0 = some 10 ∧ elem 3 ⟨5, 5, 1⟩ 0 2 0 = 10 ∧ l2eScalar ⟨⟨1, 3, 5⟩, 0, 1⟩ ⟨5, 5, 1⟩ 10 = 5 ∧
    elem 3 ⟨5, 5, 1⟩ 0 1 0 = 5 := by
  refine ⟨by decide, by decide, by decide, by decide⟩

/-- Profiles (Python bindings, bindings/python/util.hpp:99-127): with zero horizontal strides every cell at height `k` reads
element `k`. -/
theorem profile_broadcast {D : Dom} (hL : D.d.Layout) {s : Strides} (hs : s.s0 = 0) (hs1 : D.d.nDims = 3 → s.s1 = 0 ∧ s.s2 = 1)
    (hs2 : D.d.nDims = 2 → s.s1 = 1) (hn : D.d.nDims = 2 ∨ D.d.nDims = 3)
    (hsize : D.nxTot * max 1 D.d.ny * max 1 D.d.nz ≤ 2 ^ 31) (hx : D.nxBfr + D.d.nx ≤ D.nxTot)
    {i j k q : ℕ} (hc : IsCell D.d i j k) (hq : ravel D.d i j k = some q) :
    l2eScalar D s q = k := by
  have hr := ravel_eq hL hc
  rw [hq, Option.some.injEq] at hr
  obtain ⟨h1, h2, h3⟩ := hc
  have hlt : ((D.nxBfr + i) * max 1 D.d.ny + j) * max 1 D.d.nz + k < 2 ^ 31 := by
    have hI : D.nxBfr + i < D.nxTot := by
      rcases hL with h | h | h | h
      · rw [nDims0 h] at hn; omega
      all_goals omega
    have a : (D.nxBfr + i) * max 1 D.d.ny + j + 1 ≤ D.nxTot * max 1 D.d.ny := by
      have : (D.nxBfr + i + 1) * max 1 D.d.ny ≤ D.nxTot * max 1 D.d.ny := Nat.mul_le_mul_right _ hI
      have e : (D.nxBfr + i + 1) * max 1 D.d.ny = (D.nxBfr + i) * max 1 D.d.ny + max 1 D.d.ny := by ring
      omega
    have b := Nat.mul_le_mul_right (max 1 D.d.nz) a
    have e : ((D.nxBfr + i) * max 1 D.d.ny + j + 1) * max 1 D.d.nz =
      ((D.nxBfr + i) * max 1 D.d.ny + j) * max 1 D.d.nz + max 1 D.d.nz := by ring
    omega
  have hci : toInt32 ((D.nCellBfr : ℤ) + q) = ((((D.nxBfr + i) * max 1 D.d.ny + j) * max 1 D.d.nz + k : ℕ) : ℤ) := by
    apply toInt32_of
    · refine ⟨0, ?_⟩
      rw [hr]
      unfold Dom.nCellBfr
      rw [m1_eq, m1_eq]
      push_cast
      ring
    · have : (0 : ℤ) ≤ ((((D.nxBfr + i) * max 1 D.d.ny + j) * max 1 D.d.nz + k : ℕ) : ℤ) := by positivity
      linarith
    · exact_mod_cast hlt
  obtain ⟨d1, d2, d3, d4⟩ := decode (I := D.nxBfr + i) h2 h3
  rcases hn with hn | hn
  · have hz : max 1 D.d.nz = D.d.nz := by
      rcases hL with h | h | h | h
      · rw [nDims0 h] at hn; omega
      · rw [nDims1 h] at hn; omega
      all_goals omega
    unfold l2eScalar l2e
    simp only [hn, hs, hs2 hn, hci, zero_mul, mul_zero, zero_add, one_mul, periodicCellno, Nat.cast_zero, add_zero]
    rw [hz] at d2
    rw [← Int.ofNat_tmod, hz, d2, if_pos (Int.natCast_nonneg k), sub_zero]
  · have hz : max 1 D.d.nz = D.d.nz := by
      rcases hL with h | h | h | h
      · rw [nDims0 h] at hn; omega
      · rw [nDims1 h] at hn; omega
      all_goals omega
    unfold l2eScalar l2e
    simp only [hn, hs, hs1 hn, hci, zero_mul, mul_zero, zero_add, one_mul, periodicCellno, Nat.cast_zero, add_zero, max_self]
    rw [hz] at d2
    rw [← Int.ofNat_tmod, hz, d2, if_pos (Int.natCast_nonneg k), sub_zero]

example : l2eScalar ⟨⟨4, 3, 5⟩, 2, 6⟩ ⟨0, 0, 1⟩ 38 = 3 := by decide

end LCP.E2L
