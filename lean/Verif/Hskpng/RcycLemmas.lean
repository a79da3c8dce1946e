import Verif.Hskpng.Rcyc
import Mathlib.Algebra.BigOperators.Intervals
import Mathlib.Tactic.Ring
import Mathlib.Tactic.Linarith
import Mathlib.Algebra.BigOperators.Ring.Finset

/-! # Helper lemmas for recycling -/
namespace LCP.Rcyc
variable {ι : Type}

theorem nFlagged_le (s : State ι) : nFlagged s ≤ s.N := by
  unfold nFlagged
  exact (Finset.card_filter_le _ _).trans (by simp)

theorem nRcyc_le (s : State ι) (sid : List ℕ) : nRcyc s sid ≤ nFlagged s := by
  unfold nRcyc; split_ifs <;> omega

theorem zero_iff {s : State ι} {sid : List ℕ} (h : IsCellSort s.N s.n sid) {p : ℕ} (hp : p < s.N) :
    s.n (idAt sid p) = 0 ↔ p < nFlagged s := by
  have := h.lt_iff_lt_card 1 p hp
  unfold nFlagged
  omega

/-- generic fold of single-position writes: a position not written keeps its value -/
theorem foldl_update_ne {β : Type*} (tgt : ℕ → ℕ) (val : (ℕ → β) → ℕ → β) (L : List ℕ) (v : ℕ → β) (i : ℕ)
    (h : ∀ t ∈ L, tgt t ≠ i) : L.foldl (fun v t => Function.update v (tgt t) (val v t)) v i = v i := by
  induction L generalizing v with
  | nil => rfl
  | cons t L ih =>
    rw [List.foldl_cons, ih _ (fun t' ht' => h t' (List.mem_cons_of_mem _ ht'))]
    exact Function.update_of_ne (h t (by simp)).symm _ _

/-- a position written once by iteration `t` with a value depending only on data nobody else writes -/
theorem foldl_update_eq {β : Type*} (tgt : ℕ → ℕ) (val : (ℕ → β) → ℕ → β) (src : ℕ → ℕ) (g : β → β)
    (hval : ∀ v t, val v t = g (v (src t)))
    (L : List ℕ) (hn : L.Nodup) (hinj : ∀ a ∈ L, ∀ b ∈ L, tgt a = tgt b → a = b)
    (v : ℕ → β) (t : ℕ) (ht : t ∈ L) (hs : ∀ t' ∈ L, t' ≠ t → tgt t' ≠ src t) :
    L.foldl (fun v t => Function.update v (tgt t) (val v t)) v (tgt t) = g (v (src t)) := by
  induction L generalizing v with
  | nil => simp at ht
  | cons a L ih =>
    rw [List.nodup_cons] at hn
    rw [List.foldl_cons]
    by_cases hat : a = t
    · subst hat
      rw [foldl_update_ne]
      · simp [hval]
      · intro t' ht' he
        have := hinj t' (List.mem_cons_of_mem _ ht') a (by simp) he
        subst this; exact hn.1 ht'
    · have ht' : t ∈ L := by
        rcases List.mem_cons.1 ht with h | h
        · exact absurd h.symm hat
        · exact h
      rw [ih hn.2 (fun a ha b hb => hinj a (List.mem_cons_of_mem _ ha) b (List.mem_cons_of_mem _ hb)) _ ht'
        (fun t' h1 h2 => hs t' (List.mem_cons_of_mem _ h1) h2)]
      rw [Function.update_of_ne]
      exact (hs a (by simp) hat).symm

/-- invariant: positions in `Z` stay zero in `incN` when sources of writes into `Z` are in `Z` -/
theorem foldl_zero_inv (tgt src : ℕ → ℕ) (g : ℕ → ℕ) (hg : g 0 = 0) (Z : ℕ → Prop) (L : List ℕ)
    (hZ : ∀ t ∈ L, Z (tgt t) → Z (src t)) (v : ℕ → ℕ) (hv : ∀ i, Z i → v i = 0) :
    ∀ i, Z i → L.foldl (fun v t => Function.update v (tgt t) (g (v (src t)))) v i = 0 := by
  induction L generalizing v with
  | nil => exact hv
  | cons a L ih =>
    rw [List.foldl_cons]
    apply ih (fun t ht => hZ t (List.mem_cons_of_mem _ ht))
    intro i hi
    by_cases hia : i = tgt a
    · subst hia
      rw [Function.update_self, hv _ (hZ a (by simp) hi), hg]
    · rw [Function.update_of_ne hia, hv i hi]

section
set_option linter.unusedSectionVars false
set_option linter.unusedVariables false
variable {s : State ι} {sid : List ℕ} (h : IsCellSort s.N s.n sid) {m : ℕ} (hm : m ≤ nFlagged s)
include h hm

theorem tgt_inj (L : List ℕ) : ∀ a ∈ L, ∀ b ∈ L, idAt sid a = idAt sid b → a = b :=
  fun _ _ _ _ he => h.id_injective he

/-- attributes after the copy loops -/
theorem copy_good {L : List ℕ} (hL : L.Perm (List.range m)) (v : ℕ → ℝ) {t : ℕ} (ht : t < m)
    (hg : nFlagged s ≤ s.N - 1 - t) : copyProp s.N sid L v (idAt sid t) = v (idAt sid (s.N - 1 - t)) := by
  have := nFlagged_le s
  refine foldl_update_eq (fun t => idAt sid t) (fun v t => v (idAt sid (s.N - 1 - t)))
    (fun t => idAt sid (s.N - 1 - t)) id (fun _ _ => rfl) L
    (hL.nodup_iff.2 List.nodup_range) (tgt_inj h hm L) v t (by rw [hL.mem_iff]; simpa using ht) ?_
  intro t' ht' _ he
  have := h.id_injective he
  rw [hL.mem_iff, List.mem_range] at ht'
  omega

theorem copy_rest {L : List ℕ} (hL : L.Perm (List.range m)) (v : ℕ → ℝ) {p : ℕ} (hp : m ≤ p) :
    copyProp s.N sid L v (idAt sid p) = v (idAt sid p) := by
  refine foldl_update_ne (fun t => idAt sid t) (fun v t => v (idAt sid (s.N - 1 - t))) L v _ ?_
  intro t ht he
  have := h.id_injective he
  rw [hL.mem_iff, List.mem_range] at ht
  omega

theorem inc_good {L : List ℕ} (hL : L.Perm (List.range m)) {t : ℕ} (ht : t < m)
    (hg : nFlagged s ≤ s.N - 1 - t) :
    incN s.N sid L s.n (idAt sid t) = s.n (idAt sid (s.N - 1 - t)) - s.n (idAt sid (s.N - 1 - t)) / 2 := by
  refine foldl_update_eq (fun t => idAt sid t) (fun v t => v (idAt sid (s.N - 1 - t)) - v (idAt sid (s.N - 1 - t)) / 2)
    (fun t => idAt sid (s.N - 1 - t)) (fun x => x - x / 2) (fun _ _ => rfl) L
    (hL.nodup_iff.2 List.nodup_range) (tgt_inj h hm L) s.n t (by rw [hL.mem_iff]; simpa using ht) ?_
  intro t' ht' _ he
  have := h.id_injective he
  rw [hL.mem_iff, List.mem_range] at ht'
  omega

theorem inc_rest {L : List ℕ} (hL : L.Perm (List.range m)) {p : ℕ} (hp : m ≤ p) :
    incN s.N sid L s.n (idAt sid p) = s.n (idAt sid p) := by
  refine foldl_update_ne (fun t => idAt sid t)
    (fun v t => v (idAt sid (s.N - 1 - t)) - v (idAt sid (s.N - 1 - t)) / 2) L s.n _ ?_
  intro t ht he
  have := h.id_injective he
  rw [hL.mem_iff, List.mem_range] at ht
  omega

theorem inc_bad {L : List ℕ} (hL : L.Perm (List.range m)) {t : ℕ} (htN : t < s.N) (ht : t < nFlagged s)
    (hb : m ≤ t ∨ s.N - 1 - t < nFlagged s) : incN s.N sid L s.n (idAt sid t) = 0 := by
  have hN := nFlagged_le s
  refine foldl_zero_inv (fun t => idAt sid t) (fun t => idAt sid (s.N - 1 - t)) (fun x => x - x / 2) rfl
    (fun i => ∃ p, i = idAt sid p ∧ p < nFlagged s ∧ (m ≤ p ∨ s.N - 1 - p < nFlagged s)) L ?_ s.n ?_ _
    ⟨t, rfl, ht, hb⟩
  · rintro t' ht' ⟨p, hp, h1, h2⟩
    have := h.id_injective hp
    subst this
    rw [hL.mem_iff, List.mem_range] at ht'
    have h3 : s.N - 1 - t' < nFlagged s := by omega
    exact ⟨s.N - 1 - t', rfl, h3, by right; omega⟩
  · rintro i ⟨p, rfl, h1, -⟩
    exact (zero_iff h (by omega)).2 h1

theorem dec_val {L : List ℕ} (hL : L.Perm (List.range m)) (v : ℕ → ℕ) {p : ℕ} (hp : p < s.N) :
    decN s.N sid L v (idAt sid p) = if s.N - 1 - p < m then v (idAt sid p) / 2 else v (idAt sid p) := by
  have hN := nFlagged_le s
  have hinj : ∀ a ∈ L, ∀ b ∈ L, idAt sid (s.N - 1 - a) = idAt sid (s.N - 1 - b) → a = b := by
    intro a ha b hb he
    have := h.id_injective he
    rw [hL.mem_iff, List.mem_range] at ha hb
    omega
  by_cases hpm : s.N - 1 - p < m
  · rw [if_pos hpm]
    have hp' : s.N - 1 - (s.N - 1 - p) = p := by omega
    have := foldl_update_eq (fun t => idAt sid (s.N - 1 - t)) (fun v t => v (idAt sid (s.N - 1 - t)) / 2)
      (fun t => idAt sid (s.N - 1 - t)) (fun x => x / 2) (fun _ _ => rfl) L
      (hL.nodup_iff.2 List.nodup_range) hinj v (s.N - 1 - p) (by rw [hL.mem_iff]; simpa using hpm)
      (fun t' ht' hne he => hne (hinj t' ht' _ (by rw [hL.mem_iff]; simpa using hpm) he))
    rw [hp'] at this
    exact this
  · rw [if_neg hpm]
    refine foldl_update_ne (fun t => idAt sid (s.N - 1 - t)) (fun v t => v (idAt sid (s.N - 1 - t)) / 2) L v _ ?_
    intro t ht he
    have := h.id_injective he
    rw [hL.mem_iff, List.mem_range] at ht
    omega

end

/-- closed form of the split state at sorted positions -/
theorem split_pos {s : State ι} {sid : List ℕ} (h : IsCellSort s.N s.n sid) {σ : Scheds ι}
    (hσ : σ.Valid (nRcyc s sid)) (p : ℕ) (hp : p < s.N) :
    (p < nRcyc s sid ∧ nFlagged s ≤ s.N - 1 - p ∧
      (split s sid σ).n (idAt sid p) = s.n (idAt sid (s.N - 1 - p)) - s.n (idAt sid (s.N - 1 - p)) / 2 ∧
      (split s sid σ).attr (idAt sid p) = s.attr (idAt sid (s.N - 1 - p))) ∨
    (s.N - 1 - p < nRcyc s sid ∧ nFlagged s ≤ p ∧
      (split s sid σ).n (idAt sid p) = s.n (idAt sid p) / 2 ∧
      (split s sid σ).attr (idAt sid p) = s.attr (idAt sid p)) ∨
    (nRcyc s sid ≤ s.N - 1 - p ∧ nFlagged s ≤ p ∧
      (split s sid σ).n (idAt sid p) = s.n (idAt sid p) ∧
      (split s sid σ).attr (idAt sid p) = s.attr (idAt sid p)) ∨
    (p < nFlagged s ∧ (nRcyc s sid ≤ p ∨ s.N - 1 - p < nFlagged s) ∧ (split s sid σ).n (idAt sid p) = 0) := by
  have hm := nRcyc_le s sid
  have hN := nFlagged_le s
  by_cases hz : p < nFlagged s
  · by_cases hg : p < nRcyc s sid ∧ nFlagged s ≤ s.N - 1 - p
    · left
      refine ⟨hg.1, hg.2, ?_, ?_⟩
      · simp only [split]
        rw [dec_val h hm hσ.dec _ hp, if_neg (by omega), inc_good h hm hσ.inc hg.1 hg.2]
      · funext a
        simp only [split]
        rw [copy_good h hm (hσ.copy a) _ hg.1 hg.2]
    · right; right; right
      have hb : nRcyc s sid ≤ p ∨ s.N - 1 - p < nFlagged s := by omega
      refine ⟨hz, hb, ?_⟩
      simp only [split]
      rw [dec_val h hm hσ.dec _ hp, inc_bad h hm hσ.inc hp hz hb]
      split_ifs <;> rfl
  · have hattr : (split s sid σ).attr (idAt sid p) = s.attr (idAt sid p) := by
      funext a
      simp only [split]
      rw [copy_rest h hm (hσ.copy a) _ (by omega)]
    by_cases hd : s.N - 1 - p < nRcyc s sid
    · right; left
      refine ⟨hd, by omega, ?_, hattr⟩
      simp only [split]
      rw [dec_val h hm hσ.dec _ hp, if_pos hd, inc_rest h hm hσ.inc (by omega)]
    · right; right; left
      refine ⟨by omega, by omega, ?_, hattr⟩
      simp only [split]
      rw [dec_val h hm hσ.dec _ hp, if_neg hd, inc_rest h hm hσ.inc (by omega)]

/-- Σ n·f is not changed by splitting -/
theorem split_sum {s : State ι} {sid : List ℕ} (h : IsCellSort s.N s.n sid) {σ : Scheds ι}
    (hσ : σ.Valid (nRcyc s sid)) (f : (ι → ℝ) → ℝ) :
    ∑ i ∈ Finset.range s.N, ((split s sid σ).n i : ℝ) * f ((split s sid σ).attr i) =
    ∑ i ∈ Finset.range s.N, (s.n i : ℝ) * f (s.attr i) := by
  have hm := nRcyc_le s sid
  have hN := nFlagged_le s
  rw [h.sum_id, h.sum_id (fun i => (s.n i : ℝ) * f (s.attr i))]
  -- the change at position p is antisymmetric under reflection
  let G : ℕ → ℝ := fun p => ((s.n (idAt sid p) : ℝ) - ((s.n (idAt sid p) / 2 : ℕ) : ℝ)) * f (s.attr (idAt sid p))
  let D : ℕ → ℝ := fun p =>
    if p < nRcyc s sid ∧ nFlagged s ≤ s.N - 1 - p then G (s.N - 1 - p)
    else if s.N - 1 - p < nRcyc s sid ∧ nFlagged s ≤ p then - G p else 0
  have h1 : ∀ p ∈ Finset.range s.N,
      ((split s sid σ).n (idAt sid p) : ℝ) * f ((split s sid σ).attr (idAt sid p)) =
        (s.n (idAt sid p) : ℝ) * f (s.attr (idAt sid p)) + D p := by
    intro p hp
    rw [Finset.mem_range] at hp
    rcases split_pos h hσ p hp with ⟨a1, a2, a3, a4⟩ | ⟨a1, a2, a3, a4⟩ | ⟨a1, a2, a3, a4⟩ | ⟨a1, a2, a3⟩
    · have hz : s.n (idAt sid p) = 0 := (zero_iff h hp).2 (by omega)
      simp only [D, a1, a2, and_self, if_true, G]
      rw [a3, a4, hz, Nat.cast_sub (Nat.div_le_self _ _)]
      simp
    · have hne : ¬ (p < nRcyc s sid ∧ nFlagged s ≤ s.N - 1 - p) := by omega
      simp only [D, hne, if_false, a1, a2, and_self, if_true, G]
      rw [a3, a4]; ring
    · have hne : ¬ (p < nRcyc s sid ∧ nFlagged s ≤ s.N - 1 - p) := by omega
      have hne2 : ¬ (s.N - 1 - p < nRcyc s sid ∧ nFlagged s ≤ p) := by omega
      simp only [D, hne, hne2, if_false]
      rw [a3, a4]; ring
    · have hne : ¬ (p < nRcyc s sid ∧ nFlagged s ≤ s.N - 1 - p) := by omega
      have hne2 : ¬ (s.N - 1 - p < nRcyc s sid ∧ nFlagged s ≤ p) := by omega
      have hz : s.n (idAt sid p) = 0 := (zero_iff h hp).2 (by omega)
      simp only [D, hne, hne2, if_false]
      rw [a3, hz]; simp
  rw [Finset.sum_congr rfl h1, Finset.sum_add_distrib]
  have h2 : ∑ p ∈ Finset.range s.N, D p = - ∑ p ∈ Finset.range s.N, D p := by
    conv_lhs => rw [← Finset.sum_range_reflect]
    rw [← Finset.sum_neg_distrib]
    apply Finset.sum_congr rfl
    intro p hp
    rw [Finset.mem_range] at hp
    have hpp : s.N - 1 - (s.N - 1 - p) = p := by omega
    simp only [D, hpp]
    by_cases c1 : p < nRcyc s sid ∧ nFlagged s ≤ s.N - 1 - p
    · have : ¬ (s.N - 1 - p < nRcyc s sid ∧ nFlagged s ≤ p) := by omega
      simp [c1, this]
    · by_cases c2 : s.N - 1 - p < nRcyc s sid ∧ nFlagged s ≤ p
      · simp [c1, c2]
      · simp [c1, c2]
  have h3 : ∑ p ∈ Finset.range s.N, D p = 0 := by linarith
  rw [h3, add_zero]

/-- Σ n·f is not changed by removing zero-multiplicity super-droplets -/
theorem removeN0_sum (s : State ι) (f : (ι → ℝ) → ℝ) :
    ∑ i ∈ Finset.range (removeN0 s).N, ((removeN0 s).n i : ℝ) * f ((removeN0 s).attr i) =
    ∑ i ∈ Finset.range s.N, (s.n i : ℝ) * f (s.attr i) := by
  have hl : ∀ (l : List ℕ) (w : ℕ → ℝ), ∑ i ∈ Finset.range l.length, w (l.getD i 0) = (l.map w).sum := by
    intro l w
    induction l with
    | nil => simp
    | cons a l ih =>
      rw [List.length_cons, Finset.sum_range_succ', List.map_cons, List.sum_cons, ← ih]
      simp [add_comm]
  simp only [removeN0]
  rw [hl _ (fun j => (s.n j : ℝ) * f (s.attr j))]
  have hr : ∑ i ∈ Finset.range s.N, (s.n i : ℝ) * f (s.attr i) =
      ((List.range s.N).map (fun j => (s.n j : ℝ) * f (s.attr j))).sum := rfl
  rw [hr]
  generalize List.range s.N = l
  induction l with
  | nil => simp
  | cons a l ih =>
    by_cases ha : s.n a = 0
    · simp [ha]; simpa using ih
    · simp [ha]; simpa using ih

theorem removeN0_pos (s : State ι) (i : ℕ) (hi : i < (removeN0 s).N) : (removeN0 s).n i ≠ 0 := by
  simp only [removeN0] at hi ⊢
  rw [List.getD_eq_getElem _ _ hi]
  have := List.getElem_mem hi
  rw [List.mem_filter] at this
  simpa using this.2

end LCP.Rcyc
