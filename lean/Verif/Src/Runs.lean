import Verif.Src.Lists
import Mathlib.Data.Fintype.Card

/-!
# Runs of bin numbers among super-droplets sorted by (cell, dry radius)
-/
namespace LCP.Src
open LCP.Init

/-- the pair at a position -/
def at' (K : List (ℕ × ℕ)) (p : ℕ) : ℕ × ℕ := K.getD p (0, outOfBins)

/-- what sorting by (cell, dry radius) means for pairs (cell, bin): cells ascend, bins ascend in a cell, and in a cell those out of bins are not between
others -/
structure Good (K : List (ℕ × ℕ)) : Prop where
  mono : ∀ p q, p < q → q < K.length → (at' K p).1 < (at' K q).1 ∨
    (at' K p).1 = (at' K q).1 ∧ ((at' K p).2 = outOfBins ∨ (at' K q).2 = outOfBins ∨ (at' K p).2 ≤ (at' K q).2)
  convex : ∀ p q r, p < q → q < r → r < K.length → (at' K p).1 = (at' K r).1 → (at' K p).2 ≠ outOfBins → (at' K r).2 ≠ outOfBins →
    (at' K q).2 ≠ outOfBins

theorem Good.same {K : List (ℕ × ℕ)} (h : Good K) {p q r : ℕ} (hpq : p ≤ q) (hqr : q ≤ r) (hr : r < K.length) (he : at' K p = at' K r)
    (hb : (at' K p).2 ≠ outOfBins) : at' K q = at' K p := by
  rcases hpq.eq_or_lt with rfl | hpq
  · rfl
  rcases hqr.eq_or_lt with rfl | hqr
  · exact he.symm
  have m1 := h.mono p q hpq (by omega)
  have m2 := h.mono q r hqr hr
  have c := h.convex p q r hpq hqr hr (by rw [he]) hb (by rw [← he]; exact hb)
  rw [← he] at m2
  apply Prod.ext <;> omega

variable (K : List (ℕ × ℕ))

/-- the runs -/
def runs : List (ℕ × ℕ) := reduceByKey (K.map fun p => (p.2, 1))

theorem runs_eq : runs K = reduceByKey ((K.map Prod.snd).map fun k => (k, 1)) := by simp [runs, List.map_map]; rfl

theorem runs_flat : (runs K).flatMap (fun g => List.replicate g.2 g.1) = K.map Prod.snd := by
  rw [runs_eq]; exact (runs_spec _).1

theorem runs_pos {g : ℕ} (hg : g < (runs K).length) : 0 < size (runs K) g := by
  have := (runs_spec (K.map Prod.snd)).2.1
  rw [← runs_eq] at this
  unfold size
  rw [List.getD_eq_getElem _ _ hg]
  exact this _ (List.getElem_mem hg)

theorem runs_ne {g : ℕ} (hg : g + 1 < (runs K).length) : ((runs K).getD g (0, 0)).1 ≠ ((runs K).getD (g + 1) (0, 0)).1 := by
  have := (runs_spec (K.map Prod.snd)).2.2
  rw [← runs_eq, List.isChain_iff_getElem] at this
  rw [List.getD_eq_getElem _ _ (by omega), List.getD_eq_getElem _ _ hg]
  exact this g hg

theorem runs_length : K.length = start (runs K) (runs K).length := by
  rw [← flat_length, runs_flat, List.length_map]

theorem start_mono {R : List (ℕ × ℕ)} {a b : ℕ} (h : a ≤ b) : start R a ≤ start R b := scan_mono _ h

theorem start_succ (R : List (ℕ × ℕ)) (g : ℕ) : start R (g + 1) = start R g + size R g := rfl

/-- position `p` belongs to run `g` -/
def InRun (g p : ℕ) : Prop := g < (runs K).length ∧ start (runs K) g ≤ p ∧ p < start (runs K) g + size (runs K) g

variable {K}

theorem InRun.lt {g p : ℕ} (h : InRun K g p) : p < K.length := by
  rw [runs_length K]
  have := start_mono (R := runs K) (show g + 1 ≤ (runs K).length from h.1)
  rw [start_succ] at this
  exact lt_of_lt_of_le h.2.2 this

theorem InRun.key {g p : ℕ} (h : InRun K g p) : (at' K p).2 = ((runs K).getD g (0, 0)).1 := by
  have h1 := flat_getD (runs K) g (p - start (runs K) g) outOfBins h.1 (by have := h.2; omega)
  rw [runs_flat, show start (runs K) g + (p - start (runs K) g) = p by have := h.2.1; omega] at h1
  rw [← h1]
  unfold at'
  rw [List.getD_eq_getElem _ _ h.lt, List.getD_eq_getElem _ _ (by simpa using h.lt), List.getElem_map]

theorem inRun_exists {p : ℕ} (hp : p < K.length) : ∃ g, InRun K g p := by
  rw [runs_length K] at hp
  obtain ⟨g, h1, h2, h3⟩ := scan_cover (fun j => ((runs K).getD j (0, 0)).2) (runs K).length p hp
  exact ⟨g, h1, h2, h3⟩

theorem inRun_start {g : ℕ} (hg : g < (runs K).length) : InRun K g (start (runs K) g) :=
  ⟨hg, le_refl _, by have := runs_pos K hg; omega⟩

/-- positions whose keys agree everywhere between them are in one run -/
theorem inRun_same {g g' p q : ℕ} (h : InRun K g p) (h' : InRun K g' q) (hpq : p ≤ q)
    (hk : ∀ r, p ≤ r → r ≤ q → (at' K r).2 = (at' K p).2) : g = g' := by
  by_contra hne
  have hlt : g < g' := by
    by_contra hge
    have : g' + 1 ≤ g := by omega
    have h1 := start_mono (R := runs K) this
    rw [start_succ] at h1
    have := h.2.1; have := h'.2.2; omega
  have hg1 : g + 1 < (runs K).length := by have := h'.1; omega
  have hin := inRun_start hg1
  have h2 : start (runs K) (g + 1) ≤ q := (start_mono hlt).trans h'.2.1
  have h3 : p ≤ start (runs K) (g + 1) := by rw [start_succ]; have := h.2.2; omega
  have h4 := hk _ h3 h2
  rw [hin.key, h.key] at h4
  exact runs_ne K hg1 h4.symm

/-! ### How many runs -/

/-- slots (cell, bin): runs inside the bins are no more than the slots, runs out of bins no more than the cells plus one -/
theorem runs_bound (hK : Good K) (slots : Finset (ℕ × ℕ)) (nCell : ℕ) (hs : ∀ p < K.length, (at' K p).2 ≠ outOfBins → at' K p ∈ slots)
    (hc : ∀ p < K.length, (at' K p).1 < nCell) : (runs K).length ≤ slots.card + nCell + 1 := by
  classical
  set R := runs K
  let inn := (Finset.range R.length).filter fun g => (R.getD g (0, 0)).1 ≠ outOfBins
  let out := (Finset.range R.length).filter fun g => (R.getD g (0, 0)).1 = outOfBins ∧ 0 < g
  have hsub : Finset.range R.length ⊆ inn ∪ (out ∪ {0}) := by
    intro g hg
    by_cases h1 : (R.getD g (0, 0)).1 = outOfBins
    · by_cases h2 : g = 0
      · simp [h2]
      · apply Finset.mem_union_right; apply Finset.mem_union_left
        exact Finset.mem_filter.2 ⟨hg, h1, by omega⟩
    · exact Finset.mem_union_left _ (Finset.mem_filter.2 ⟨hg, h1⟩)
  have hcard := Finset.card_le_card hsub
  rw [Finset.card_range] at hcard
  have hu1 := Finset.card_union_le inn (out ∪ {0})
  have hu2 := Finset.card_union_le out {0}
  have hin : inn.card ≤ slots.card := by
    apply Finset.card_le_card_of_injOn (fun g => at' K (start R g))
    · intro g hg
      obtain ⟨hg1, hg2⟩ := Finset.mem_filter.1 hg
      have hr := inRun_start (K := K) (Finset.mem_range.1 hg1)
      exact hs _ hr.lt (by rw [hr.key]; exact hg2)
    · intro g hg g' hg' he
      obtain ⟨hg1, hg2⟩ := Finset.mem_filter.1 hg
      obtain ⟨hg1', hg2'⟩ := Finset.mem_filter.1 hg'
      have hr := inRun_start (K := K) (Finset.mem_range.1 hg1)
      have hr' := inRun_start (K := K) (Finset.mem_range.1 hg1')
      simp only at he
      rcases le_total (start R g) (start R g') with hle | hle
      · exact inRun_same hr hr' hle fun r h1 h2 => by rw [hK.same h1 h2 hr'.lt he (by rw [hr.key]; exact hg2)]
      · exact (inRun_same hr' hr hle fun r h1 h2 => by rw [hK.same h1 h2 hr.lt he.symm (by rw [hr'.key]; exact hg2')]).symm
  have hout : out.card ≤ nCell := by
    have : out.card ≤ (Finset.range nCell).card := by
      -- facts about an outer run and the position before it
      have fact : ∀ g ∈ out, InRun K g (start R g) ∧ (at' K (start R g)).2 = outOfBins ∧ 0 < start R g ∧ (at' K (start R g - 1)).2 ≠ outOfBins := by
        intro g hg
        obtain ⟨hg1, hg2, hg3⟩ := Finset.mem_filter.1 hg
        have hgl := Finset.mem_range.1 hg1
        have hr := inRun_start (K := K) hgl
        obtain ⟨m, rfl⟩ : ∃ m, g = m + 1 := ⟨g - 1, by omega⟩
        have hm : m < R.length := by omega
        have hpos := runs_pos K hm
        have hst : start R (m + 1) = start R m + size R m := start_succ R m
        have hpos' : 0 < size R m := hpos
        have hprev : InRun K m (start R (m + 1) - 1) := ⟨hm, by show start R m ≤ _; omega, by show _ < start R m + size R m; omega⟩
        refine ⟨hr, by rw [hr.key]; exact hg2, by omega, ?_⟩
        rw [hprev.key, ← hg2]
        exact runs_ne K hgl
      apply Finset.card_le_card_of_injOn (fun g => (at' K (start R g - 1)).1)
      · intro g hg
        obtain ⟨h1, _, _, _⟩ := fact g hg
        exact Finset.mem_coe.2 (Finset.mem_range.2 (hc _ (by have := h1.lt; omega)))
      · have key : ∀ g ∈ out, ∀ g' ∈ out, g < g' → (at' K (start R g - 1)).1 ≠ (at' K (start R g' - 1)).1 := by
          intro g hg g' hg' hlt he
          obtain ⟨h1, h2, h3, h4⟩ := fact g hg
          obtain ⟨h1', h2', h3', h4'⟩ := fact g' hg'
          have hs1 : start R g < start R g' := by
            have a := start_mono (R := R) (show g + 1 ≤ g' from hlt)
            rw [start_succ] at a
            have := runs_pos K h1.1
            have b : 0 < size R g := this
            omega
          have hne : start R g ≠ start R g' - 1 := by intro hh; rw [hh] at h2; exact h4' h2
          exact hK.convex (start R g - 1) (start R g) (start R g' - 1) (by omega) (by omega) (by have := h1'.lt; omega) he h4 h4' h2
        intro g hg g' hg' he
        by_contra hne
        rcases lt_or_gt_of_ne hne with h | h
        · exact key g hg g' hg' h he
        · exact key g' hg' g hg h he.symm
    simpa using this
  simp only [Finset.card_singleton] at hu2
  omega

end LCP.Src
