import Verif.Src.Cells
import Mathlib.Data.List.Chain
import Mathlib.Data.List.GetD

/-!
# Facts about the list operations used by the matching source
-/
namespace LCP.Src

/-- strict and non-strict order of pairs (cell, bin) -/
def Before (a b : ℕ × ℕ) : Prop := a.1 < b.1 ∨ a.1 = b.1 ∧ a.2 < b.2

def NotAfter (a b : ℕ × ℕ) : Prop := a.1 < b.1 ∨ a.1 = b.1 ∧ a.2 ≤ b.2

theorem twoKeys_iff (a b : ℕ × ℕ) : twoKeys a b = true ↔ Before a b := by
  unfold twoKeys Before
  split_ifs with h1 h2 <;> simp <;> omega

theorem Before.trans {a b c : ℕ × ℕ} (h1 : Before a b) (h2 : Before b c) : Before a c := by
  unfold Before at *; omega

theorem Before.irrefl {a : ℕ × ℕ} : ¬ Before a a := by unfold Before; omega

theorem before_of {a b : ℕ × ℕ} (h : NotAfter a b) (hn : a ≠ b) : Before a b := by
  unfold NotAfter at h; unfold Before
  have : ¬ (a.1 = b.1 ∧ a.2 = b.2) := fun h' => hn (Prod.ext h'.1 h'.2)
  omega

instance : IsTrans (ℕ × ℕ) Before := ⟨fun _ _ _ => Before.trans⟩

/-! ### unique_by_key -/

theorem unique_head (a : ℕ × ℕ) (t : List (ℕ × ℕ)) : ∃ r, uniqueByKey (a :: t) = a :: r := by
  rw [uniqueByKey]
  cases h : uniqueByKey t with
  | nil => exact ⟨[], rfl⟩
  | cons b r =>
    simp only
    split_ifs
    · exact ⟨_, rfl⟩
    · exact ⟨_, rfl⟩

theorem unique_sublist (l : List (ℕ × ℕ)) : (uniqueByKey l).Sublist l := by
  induction l with
  | nil => exact List.Sublist.refl _
  | cons a t ih =>
    rw [uniqueByKey]
    cases h : uniqueByKey t with
    | nil => exact (List.nil_sublist t).cons_cons a
    | cons b r =>
      rw [h] at ih
      simp only
      split_ifs
      · exact ((List.sublist_cons_self b r).trans ih).cons_cons a
      · exact ih.cons_cons a

theorem unique_chain (l : List (ℕ × ℕ)) : (uniqueByKey l).IsChain (fun a b => a.2 ≠ b.2) := by
  induction l with
  | nil => exact List.IsChain.nil
  | cons a t ih =>
    rw [uniqueByKey]
    cases h : uniqueByKey t with
    | nil => exact List.IsChain.singleton a
    | cons b r =>
      rw [h] at ih
      simp only
      split_ifs with hab
      · cases r with
        | nil => exact List.IsChain.singleton a
        | cons c r' =>
          rw [List.isChain_cons_cons] at ih ⊢
          exact ⟨by rw [hab]; exact ih.1, ih.2⟩
      · exact List.isChain_cons_cons.2 ⟨hab, ih⟩

theorem unique_mem {l : List (ℕ × ℕ)} (hl : l.IsChain (fun a b => a.2 = b.2 → a.1 = b.1)) {x : ℕ × ℕ} (hx : x ∈ l) : x ∈ uniqueByKey l := by
  induction l with
  | nil => simp at hx
  | cons a t ih =>
    cases t with
    | nil => simpa [uniqueByKey] using hx
    | cons b t' =>
      rw [List.isChain_cons_cons] at hl
      obtain ⟨r, hr⟩ := unique_head b t'
      have ih' := ih hl.2
      rw [hr] at ih'
      rw [uniqueByKey, hr]
      simp only
      split_ifs with hab
      · have : a = b := Prod.ext (hl.1 hab) hab
        rcases List.mem_cons.1 hx with rfl | hx
        · exact List.mem_cons_self
        · rw [this]; exact ih' hx
      · rcases List.mem_cons.1 hx with rfl | hx
        · exact List.mem_cons_self
        · exact List.mem_cons_of_mem _ (ih' hx)

theorem unique_strict {l : List (ℕ × ℕ)} (hl : l.Pairwise NotAfter) : (uniqueByKey l).Pairwise Before := by
  have h1 := hl.sublist (unique_sublist l)
  have h2 := unique_chain l
  rw [← List.isChain_iff_pairwise]
  have h3 : (uniqueByKey l).IsChain NotAfter := h1.isChain
  rw [List.isChain_iff_getElem] at h2 h3 ⊢
  intro i hi
  exact before_of (h3 i hi) (fun he => h2 i hi (by rw [he]))

/-! ### binary search -/

theorem search_iff {l : List (ℕ × ℕ)} (hl : l.Pairwise Before) (q : ℕ × ℕ) : binarySearch l q = true ↔ q ∈ l := by
  unfold binarySearch
  induction l with
  | nil => simp
  | cons a t ih =>
    rw [List.pairwise_cons] at hl
    by_cases ha : twoKeys a q = true
    · rw [List.dropWhile_cons_of_pos (p := fun x => twoKeys x q) ha, ih hl.2]
      have : q ≠ a := by rintro rfl; exact Before.irrefl ((twoKeys_iff _ _).1 ha)
      simp [this]
    · rw [List.dropWhile_cons_of_neg (p := fun x => twoKeys x q) ha]
      simp only
      by_cases hq : twoKeys q a = true
      · have hb := (twoKeys_iff _ _).1 hq
        rw [hq]
        simp only [Bool.not_true, Bool.false_eq_true, List.mem_cons, false_iff, not_or]
        refine ⟨by rintro rfl; exact Before.irrefl hb, fun hm => ?_⟩
        exact Before.irrefl (hb.trans (hl.1 q hm))
      · have h1 : ¬ Before a q := fun h => ha ((twoKeys_iff _ _).2 h)
        have h2 : ¬ Before q a := fun h => hq ((twoKeys_iff _ _).2 h)
        have : q = a := by unfold Before at h1 h2; exact Prod.ext (by omega) (by omega)
        simp [this]
        rw [this] at hq; simpa using hq

/-! ### reduce_by_key: runs -/

/-- the runs found by `reduce_by_key` -/
theorem runs_spec (ks : List ℕ) :
    let R := reduceByKey (ks.map fun k => (k, 1))
    R.flatMap (fun g => List.replicate g.2 g.1) = ks ∧ (∀ g ∈ R, 0 < g.2) ∧ R.IsChain (fun a b => a.1 ≠ b.1) := by
  induction ks with
  | nil => simp [reduceByKey]
  | cons k t ih =>
    simp only [List.map_cons, reduceByKey_cons] at ih ⊢
    cases h : reduceByKey (t.map fun k => (k, 1)) with
    | nil =>
      rw [h] at ih
      simp only [List.flatMap_nil] at ih
      simp [← ih.1]
    | cons g r =>
      rw [h] at ih
      obtain ⟨i1, i2, i3⟩ := ih
      simp only
      split_ifs with hk
      · refine ⟨?_, ?_, ?_⟩
        · rw [List.flatMap_cons] at i1 ⊢
          rw [← i1]
          simp only [hk]
          rw [Nat.add_comm, List.replicate_succ]; rfl
        · intro x hx
          rcases List.mem_cons.1 hx with rfl | hx
          · simp
          · exact i2 x (List.mem_cons_of_mem _ hx)
        · cases r with
          | nil => exact List.IsChain.singleton _
          | cons c r' =>
            rw [List.isChain_cons_cons] at i3 ⊢
            exact ⟨by simpa [hk] using i3.1, i3.2⟩
      · refine ⟨?_, ?_, ?_⟩
        · rw [List.flatMap_cons, ← i1]; simp
        · intro x hx
          rcases List.mem_cons.1 hx with rfl | hx
          · simp
          · exact i2 x hx
        · exact List.isChain_cons_cons.2 ⟨hk, i3⟩

/-- offset of a run -/
def start (R : List (ℕ × ℕ)) (g : ℕ) : ℕ := exclusiveScan (fun j => (R.getD j (0, 0)).2) g

def size (R : List (ℕ × ℕ)) (g : ℕ) : ℕ := (R.getD g (0, 0)).2

theorem start_cons (a : ℕ × ℕ) (R : List (ℕ × ℕ)) (g : ℕ) : start (a :: R) (g + 1) = a.2 + start R g := by
  unfold start
  induction g with
  | zero => simp [exclusiveScan]
  | succ n ih =>
    rw [LCP.Init.scan_succ, ih, LCP.Init.scan_succ]
    simp; omega

theorem flat_getD (R : List (ℕ × ℕ)) (g i d : ℕ) (hg : g < R.length) (hi : i < size R g) :
    (R.flatMap fun g => List.replicate g.2 g.1).getD (start R g + i) d = (R.getD g (0, 0)).1 := by
  induction R generalizing g with
  | nil => simp at hg
  | cons a R ih =>
    rw [List.flatMap_cons]
    cases g with
    | zero =>
      simp only [size, List.getD_cons_zero] at hi
      rw [show start (a :: R) 0 = 0 from rfl, Nat.zero_add, List.getD_append _ _ _ _ (by simpa using hi)]
      simp [List.getD_eq_getElem?_getD, hi]
    | succ g =>
      simp only [size, List.getD_cons_succ] at hi
      rw [start_cons, List.getD_append_right _ _ _ _ (by simp; omega)]
      simp only [List.length_replicate, List.getD_cons_succ]
      rw [show a.2 + start R g + i - a.2 = start R g + i by omega]
      exact ih g (by simpa using hg) hi

theorem flat_length (R : List (ℕ × ℕ)) : (R.flatMap fun g => List.replicate g.2 g.1).length = start R R.length := by
  induction R with
  | nil => rfl
  | cons a R ih => rw [List.flatMap_cons, List.length_append, ih, List.length_cons, start_cons, List.length_replicate]

end LCP.Src
