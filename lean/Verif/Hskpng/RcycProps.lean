import Verif.Hskpng.RcycLemmas

/-!
# Recycling: property theorems (C08, C09)
-/
namespace LCP.Rcyc
variable {ι : Type}

/-- Specification: multiplicity-weighted total of an arbitrary function of the attributes. -/
def total (s : State ι) (f : (ι → ℝ) → ℝ) : ℝ := ∑ i ∈ Finset.range s.N, (s.n i : ℝ) * f (s.attr i)

/-- **C08** Recycling conserves Σ n·f(attributes) for every function `f`, for every outcome `sid` of the
unstable sort and all execution orders `σ`. -/
theorem rcyc_conserves (pcm : Bool) {s : State ι} {sid : List ℕ} (h : IsCellSort s.N s.n sid) {σ : Scheds ι}
    (hσ : σ.Valid (nRcyc s sid)) (f : (ι → ℝ) → ℝ) :
    total (rcyc pcm s sid σ).1 f = total s f := by
  unfold rcyc total
  split_ifs
  · rfl
  · exact removeN0_sum s f
  · exact removeN0_sum s f
  · exact (removeN0_sum _ f).trans (split_sum h hσ f)
  · exact split_sum h hσ f

/-- **C08** The number of super-droplets never grows, and the return value is the number of flagged ones. -/
theorem rcyc_count (pcm : Bool) (s : State ι) (sid : List ℕ) (σ : Scheds ι) :
    (rcyc pcm s sid σ).1.N ≤ s.N ∧
      (rcyc pcm s sid σ).2 = ((Finset.range s.N).filter (fun i => s.n i = 0)).card := by
  have hrem : ∀ s : State ι, (removeN0 s).N ≤ s.N := by
    intro s
    simp only [removeN0]
    exact (List.length_filter_le _ _).trans (by simp)
  have hfl : nFlagged s = ((Finset.range s.N).filter (fun i => s.n i = 0)).card := by
    unfold nFlagged
    congr 1
    apply Finset.filter_congr
    intro i _; omega
  unfold rcyc
  split_ifs with h0
  · exact ⟨le_rfl, by omega⟩
  · exact ⟨hrem s, hfl⟩
  · exact ⟨hrem s, hfl⟩
  · exact ⟨(hrem _).trans le_rfl, hfl⟩
  · exact ⟨le_rfl, hfl⟩

/-- **C08** Nothing new is invented: every live super-droplet afterwards carries the complete attribute set of
some live super-droplet before, with a multiplicity not larger than that one's. -/
theorem rcyc_clones (pcm : Bool) {s : State ι} {sid : List ℕ} (h : IsCellSort s.N s.n sid) {σ : Scheds ι}
    (hσ : σ.Valid (nRcyc s sid)) (i : ℕ) (hi : i < (rcyc pcm s sid σ).1.N) (hn : (rcyc pcm s sid σ).1.n i ≠ 0) :
    ∃ j < s.N, (rcyc pcm s sid σ).1.attr i = s.attr j ∧ (rcyc pcm s sid σ).1.n i ≤ s.n j ∧ s.n j ≠ 0 := by
  have hrem : ∀ (t : State ι) (i : ℕ), i < (removeN0 t).N → ∃ j < t.N, (removeN0 t).attr i = t.attr j ∧
      (removeN0 t).n i = t.n j ∧ t.n j ≠ 0 := by
    intro t i hi
    simp only [removeN0] at hi ⊢
    have hm := List.getElem_mem hi
    rw [List.mem_filter] at hm
    refine ⟨(List.filter (fun i => decide (t.n i ≠ 0)) (List.range t.N))[i],
      List.mem_range.1 hm.1, ?_, ?_, of_decide_eq_true hm.2⟩
    · rw [List.getD_eq_getElem _ _ hi]
    · rw [List.getD_eq_getElem _ _ hi]
  have hspl : ∀ i < s.N, (split s sid σ).n i ≠ 0 →
      ∃ j < s.N, (split s sid σ).attr i = s.attr j ∧ (split s sid σ).n i ≤ s.n j ∧ s.n j ≠ 0 := by
    intro i hi hne
    obtain ⟨p, hp, rfl⟩ := h.exists_pos hi
    rcases split_pos h hσ p hp with ⟨a1, a2, a3, a4⟩ | ⟨a1, a2, a3, a4⟩ | ⟨a1, a2, a3, a4⟩ | ⟨a1, a2, a3⟩
    · exact ⟨_, h.id_lt (by omega), a4, by omega, by omega⟩
    · exact ⟨_, h.id_lt hp, a4, by omega, by omega⟩
    · exact ⟨_, h.id_lt hp, a4, by omega, by omega⟩
    · exact absurd a3 hne
  unfold rcyc at hi hn ⊢
  split_ifs at hi hn ⊢ with h1 h2 h3 h4
  · exact ⟨i, hi, rfl, le_rfl, hn⟩
  · obtain ⟨j, hj, e1, e2, e3⟩ := hrem s i hi
    exact ⟨j, hj, e1, e2.le, e3⟩
  · obtain ⟨j, hj, e1, e2, e3⟩ := hrem s i hi
    exact ⟨j, hj, e1, e2.le, e3⟩
  · obtain ⟨j, hj, e1, e2, e3⟩ := hrem _ i hi
    obtain ⟨k, hk, f1, f2, f3⟩ := hspl j hj e3
    exact ⟨k, hk, e1.trans f1, e2.le.trans f2, f3⟩
  · exact hspl i hi hn

/-- facts about `n_splittable` -/
theorem nSplittable_spec (s : State ι) (sid : List ℕ) :
    (nSplittable s sid < s.N ∧ s.n (idAt sid (s.N - 1 - nSplittable s sid)) = 1 ∧
      ∀ t < nSplittable s sid, s.n (idAt sid (s.N - 1 - t)) ≠ 1) ∨
    (nSplittable s sid = s.N ∧ ∀ t < s.N, s.n (idAt sid (s.N - 1 - t)) ≠ 1) := by
  unfold nSplittable
  cases hf : (List.range s.N).find? (fun t => decide (s.n (idAt sid (s.N - 1 - t)) = 1)) with
  | none =>
    right
    refine ⟨rfl, fun t ht => ?_⟩
    have := List.find?_eq_none.1 hf t (by simpa using ht)
    simpa using this
  | some T =>
    left
    obtain ⟨h1, h2⟩ := List.find?_range_eq_some.1 hf
    refine ⟨by simpa using h2.1, by simpa using h1, ?_⟩
    intro t ht
    have := h2.2 t ht
    simpa using this

/-- **C09** (partial) After recycling no super-droplet has zero multiplicity, provided the run is purely
constant-multiplicity, or some super-droplet has multiplicity exactly one, or at most half of the
super-droplets were flagged.  Missing: the remaining case, where the claim is false
(`rcyc_zeros_survive`). -/
theorem rcyc_no_zeros_partial (pcm : Bool) {s : State ι} {sid : List ℕ} (h : IsCellSort s.N s.n sid) {σ : Scheds ι}
    (hσ : σ.Valid (nRcyc s sid))
    (hyp : pcm = true ∨ (∃ i < s.N, s.n i = 1) ∨ 2 * ((Finset.range s.N).filter (fun i => s.n i = 0)).card ≤ s.N)
    (i : ℕ) (hi : i < (rcyc pcm s sid σ).1.N) : (rcyc pcm s sid σ).1.n i ≠ 0 := by
  have hfl : nFlagged s = ((Finset.range s.N).filter (fun i => s.n i = 0)).card := by
    unfold nFlagged
    congr 1
    apply Finset.filter_congr
    intro i _; omega
  rw [← hfl] at hyp
  have hN := nFlagged_le s
  unfold rcyc at hi ⊢
  split_ifs at hi ⊢ with h1 h2 h3 h4
  · obtain ⟨p, hp, rfl⟩ := h.exists_pos hi
    intro h0
    have := (zero_iff h hp).1 h0
    omega
  · exact removeN0_pos s i hi
  · exact removeN0_pos s i hi
  · exact removeN0_pos _ i hi
  · -- everything flagged was recycled
    have hm : nRcyc s sid = nFlagged s := le_antisymm (nRcyc_le s sid) (by omega)
    have hms : nFlagged s ≤ nSplittable s sid := by
      unfold nRcyc at hm; split_ifs at hm <;> omega
    -- donors hold at least two droplets
    have hdon : ∀ t < nFlagged s, nFlagged s ≤ s.N - 1 - t ∧ 2 ≤ s.n (idAt sid (s.N - 1 - t)) := by
      intro t ht
      rcases nSplittable_spec s sid with ⟨a1, a2, a3⟩ | ⟨a1, a2⟩
      · have hmono := h.key_mono (p := s.N - 1 - nSplittable s sid) (q := s.N - 1 - t) (by omega) (by omega)
        have hne := a3 t (by omega)
        rw [a2] at hmono
        have : ¬ (s.N - 1 - t < nFlagged s) := by
          intro hlt
          have := (zero_iff h (p := s.N - 1 - t) (by omega)).2 hlt
          omega
        omega
      · rcases hyp with hyp | ⟨j, hj, hj1⟩ | hyp
        · exact absurd hyp h2
        · exfalso
          obtain ⟨p, hp, rfl⟩ := h.exists_pos hj
          have := a2 (s.N - 1 - p) (by omega)
          rw [show s.N - 1 - (s.N - 1 - p) = p by omega] at this
          exact this hj1
        · have hge : nFlagged s ≤ s.N - 1 - t := by omega
          have hnz : s.n (idAt sid (s.N - 1 - t)) ≠ 0 := by
            intro h0
            have := (zero_iff h (p := s.N - 1 - t) (by omega)).1 h0
            omega
          have := a2 t (by omega)
          omega
    have hi' : i < s.N := hi
    obtain ⟨p, hp, rfl⟩ := h.exists_pos hi'
    show (split s sid σ).n _ ≠ 0
    rcases split_pos h hσ p hp with ⟨a1, a2, a3, a4⟩ | ⟨a1, a2, a3, a4⟩ | ⟨a1, a2, a3, a4⟩ | ⟨a1, a2, a3⟩
    · have := (hdon p (by omega)).2; omega
    · have := (hdon (s.N - 1 - p) (by omega)).2
      rw [show s.N - 1 - (s.N - 1 - p) = p by omega] at this
      omega
    · rw [a3]
      intro h0
      have := (zero_iff h hp).1 h0
      omega
    · have := (hdon p (by omega)).1
      omega

/-- **C09** (negation) In the remaining case the claim fails: without `pure_const_multi`, with no super-droplet of
multiplicity one and more than half of them flagged, some zero-multiplicity super-droplet survives. -/
theorem rcyc_zeros_survive {s : State ι} {sid : List ℕ} (h : IsCellSort s.N s.n sid) {σ : Scheds ι}
    (hσ : σ.Valid (nRcyc s sid)) (h1 : ∀ i < s.N, s.n i ≠ 1)
    (h2 : s.N < 2 * ((Finset.range s.N).filter (fun i => s.n i = 0)).card) :
    ∃ i < (rcyc false s sid σ).1.N, (rcyc false s sid σ).1.n i = 0 := by
  have hfl : nFlagged s = ((Finset.range s.N).filter (fun i => s.n i = 0)).card := by
    unfold nFlagged
    congr 1
    apply Finset.filter_congr
    intro i _; omega
  rw [← hfl] at h2
  have hN := nFlagged_le s
  have hsp : nSplittable s sid = s.N := by
    rcases nSplittable_spec s sid with ⟨a1, a2, a3⟩ | ⟨a1, a2⟩
    · exact absurd a2 (h1 _ (h.id_lt (by omega)))
    · exact a1
  have hm : nRcyc s sid = nFlagged s := by unfold nRcyc; rw [hsp, if_neg (by omega)]
  have hr : rcyc false s sid σ = (split s sid σ, nFlagged s) := by
    unfold rcyc
    rw [if_neg (by omega), if_neg (by simp), if_neg (by omega), if_neg (by omega)]
  rw [hr]
  refine ⟨idAt sid (s.N - nFlagged s), h.id_lt (by omega), ?_⟩
  rcases split_pos h hσ (s.N - nFlagged s) (by omega) with ⟨a1, a2, a3, a4⟩ | ⟨a1, a2, a3, a4⟩ | ⟨a1, a2, a3, a4⟩ | ⟨a1, a2, a3⟩
  · omega
  · omega
  · omega
  · exact a3

/-! ### Non-vacuity -/

/-- four super-droplets with multiplicities 0,7,1,3 -/
def ex1 : State (Fin 2) := { N := 4, n := fun i => [0, 7, 1, 3].getD i 0, attr := fun i _ => i }

example : IsCellSort ex1.N ex1.n [0, 2, 3, 1] ∧
    (⟨fun _ => [0], [0], [0]⟩ : Scheds (Fin 2)).Valid (nRcyc ex1 [0, 2, 3, 1]) ∧
    (∃ i < ex1.N, ex1.n i = 1) ∧
    (rcyc false ex1 [0, 2, 3, 1] ⟨fun _ => [0], [0], [0]⟩).1.n 0 = 4 ∧
    (rcyc false ex1 [0, 2, 3, 1] ⟨fun _ => [0], [0], [0]⟩).1.n 1 = 3 := by
  refine ⟨⟨by decide, by decide⟩, ⟨fun _ => ?_, ?_, ?_⟩, ⟨2, by decide, by decide⟩, by decide, by decide⟩ <;> decide +revert

/-- the counterexample 0,0,0,5 of C09 -/
def ex2 : State (Fin 2) := { N := 4, n := fun i => [0, 0, 0, 5].getD i 0, attr := fun i _ => i }

example : IsCellSort ex2.N ex2.n [0, 1, 2, 3] ∧
    (⟨fun _ => [0, 1, 2], [0, 1, 2], [0, 1, 2]⟩ : Scheds (Fin 2)).Valid (nRcyc ex2 [0, 1, 2, 3]) ∧
    (∀ i < ex2.N, ex2.n i ≠ 1) ∧ ex2.N < 2 * ((Finset.range ex2.N).filter (fun i => ex2.n i = 0)).card ∧
    (List.range (rcyc false ex2 [0, 1, 2, 3] ⟨fun _ => [0, 1, 2], [0, 1, 2], [0, 1, 2]⟩).1.N).map
      (rcyc false ex2 [0, 1, 2, 3] ⟨fun _ => [0, 1, 2], [0, 1, 2], [0, 1, 2]⟩).1.n = [3, 0, 0, 2] := by
  refine ⟨⟨by decide, by decide⟩, ⟨fun _ => ?_, ?_, ?_⟩, by decide, by decide, by decide⟩ <;> decide +revert

end LCP.Rcyc
