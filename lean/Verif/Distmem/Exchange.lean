import Verif.Distmem.Props
import Mathlib.Data.Multiset.Basic
import Mathlib.Data.Fintype.Fin
import Mathlib.Tactic.Positivity
import Mathlib.Data.Fin.VecNotation
import Mathlib.Tactic.FinCases

/-!
# C29: exchange of super-droplets between neighbouring subdomains
-/
namespace LCP.Distmem
open Finset

variable {m : ℕ}

theorem lft_rgt (r : Fin (m + 1)) : lftRank (rgtRank r) = r := by
  unfold lftRank rgtRank
  by_cases h : r.val < m
  · simp [h]
  · have : r.val = m := by omega
    ext; simp [this]

theorem rgt_lft (r : Fin (m + 1)) : rgtRank (lftRank r) = r := by
  unfold lftRank rgtRank
  by_cases h : 0 < r.val
  · have h2 : r.val - 1 < m := by omega
    ext; simp [h, h2]; omega
  · have h2 : r.val = 0 := by omega
    ext; simp [h2]

def rgtEquiv : Fin (m + 1) ≃ Fin (m + 1) := ⟨rgtRank, lftRank, lft_rgt, rgt_lft⟩
def lftEquiv : Fin (m + 1) ≃ Fin (m + 1) := ⟨lftRank, rgtRank, rgt_lft, lft_rgt⟩

section sums
variable {M : Type} [AddCommMonoid M]

theorem sum_filter_n0 (g : Sd → M) (hz : ∀ s, s.n = 0 → g s = 0) (l : List Sd) :
    ((l.filter (fun s => decide (s.n ≠ 0))).map g).sum = (l.map g).sum := by
  induction l with
  | nil => simp
  | cons a l ih =>
    by_cases h : a.n = 0
    · simp [h, hz a h] at ih ⊢; exact ih
    · simp [h] at ih ⊢; rw [ih]

theorem sum_split (g : Sd → M) (hz : ∀ s, s.n = 0 → g s = 0) (r : Rank) (hx : r.x0 ≤ r.x1) :
    (r.flagged.map g).sum + (r.lft.map g).sum + (r.rgt.map g).sum = (r.sds.map g).sum := by
  unfold Rank.flagged Rank.lft Rank.rgt
  induction r.sds with
  | nil => simp
  | cons a l ih =>
    rw [List.map_cons, List.map_cons, List.map_cons, List.sum_cons, List.sum_cons, ← ih]
    by_cases h1 : a.x < r.x0
    · have h2 : ¬ a.x ≥ r.x1 := by push Not; linarith
      rw [if_pos (Or.inl h1), hz { a with n := 0 } rfl, List.filter_cons_of_pos (by simpa using h1), List.filter_cons_of_neg (by simpa using h2)]
      simp only [List.map_cons, List.sum_cons]
      abel
    · by_cases h2 : a.x ≥ r.x1
      · rw [if_pos (Or.inr h2), hz { a with n := 0 } rfl, List.filter_cons_of_neg (by simpa using h1), List.filter_cons_of_pos (by simpa using h2)]
        simp only [List.map_cons, List.sum_cons]
        abel
      · rw [if_neg (by tauto), List.filter_cons_of_neg (by simpa using h1), List.filter_cons_of_neg (by simpa using h2)]
        abel

/-- the general budget: whatever quantity `g` is attached to a super-droplet (zero for those of zero multiplicity) and is unchanged by the
translation to the neighbour's coordinates, its total over all subdomains after the exchange plus what left through open
boundaries is the total before -/
theorem exchange_sum (g : Fin (m + 1) → Sd → M) (st st' : Fin (m + 1) → Rank) (h : exchange st = some st')
    (hz : ∀ r s, s.n = 0 → g r s = 0) (hx : ∀ r, (st r).x0 ≤ (st r).x1)
    (hopen : ∀ r, (st r).openR = (st (rgtRank r)).openL)
    (hL : ∀ r, (st r).openR = false → ∀ s ∈ (st (rgtRank r)).lft,
      g r (away (st r).x0 (st r).x1 (remote (st (rgtRank r)).x0 (st r).x1 s)) = g (rgtRank r) s)
    (hR : ∀ r, (st r).openL = false → ∀ s ∈ (st (lftRank r)).rgt,
      g r (away (st r).x0 (st r).x1 (remote (st (lftRank r)).x1 (st r).x0 s)) = g (lftRank r) s) :
    ∑ r, ((st' r).sds.map (g r)).sum
      + (∑ r, (if (st r).openL then ((st r).lft.map (g r)).sum else 0)
        + ∑ r, (if (st r).openR then ((st r).rgt.map (g r)).sum else 0))
    = ∑ r, ((st r).sds.map (g r)).sum := by
  unfold exchange at h
  split at h
  swap
  · exact absurd h (by simp)
  simp only [Option.some.injEq] at h
  subst h
  have e1 : ∑ r, ((fromRgt st r).map (g r)).sum = ∑ r, (if (st r).openL then 0 else ((st r).lft.map (g r)).sum) := by
    rw [← Equiv.sum_comp (rgtEquiv (m := m)) (fun r => (if (st r).openL then 0 else ((st r).lft.map (g r)).sum))]
    apply sum_congr rfl
    intro r _
    change _ = (if (st (rgtRank r)).openL then 0 else ((st (rgtRank r)).lft.map (g (rgtRank r))).sum)
    unfold fromRgt
    rw [← hopen r]
    cases ho : (st r).openR with
    | true => simp
    | false =>
      simp only [Bool.false_eq_true, if_false, List.map_map]
      congr 1
      apply List.map_congr_left
      intro s hs
      exact hL r ho s hs
  have e2 : ∑ r, ((fromLft st r).map (g r)).sum = ∑ r, (if (st r).openR then 0 else ((st r).rgt.map (g r)).sum) := by
    rw [← Equiv.sum_comp (lftEquiv (m := m)) (fun r => (if (st r).openR then 0 else ((st r).rgt.map (g r)).sum))]
    apply sum_congr rfl
    intro r _
    change _ = (if (st (lftRank r)).openR then 0 else ((st (lftRank r)).rgt.map (g (lftRank r))).sum)
    unfold fromLft
    have := hopen (lftRank r)
    rw [rgt_lft] at this
    rw [this]
    cases ho : (st r).openL with
    | true => simp
    | false =>
      simp only [Bool.false_eq_true, if_false, List.map_map]
      congr 1
      apply List.map_congr_left
      intro s hs
      exact hR r ho s hs
  have e3 : ∀ r, (((((st r).flagged ++ fromRgt st r ++ fromLft st r).filter (fun s => decide (s.n ≠ 0))).map (g r)).sum
      = ((st r).flagged.map (g r)).sum + ((fromRgt st r).map (g r)).sum + ((fromLft st r).map (g r)).sum) := by
    intro r
    rw [sum_filter_n0 (g r) (hz r)]
    simp [add_assoc]
  rw [sum_congr rfl (fun r _ => e3 r), sum_add_distrib, sum_add_distrib, e1, e2]
  rw [← sum_congr rfl (fun r _ => sum_split (g r) (hz r) (st r) (hx r))]
  rw [sum_add_distrib, sum_add_distrib]
  have a1 : ∑ r, ((st r).lft.map (g r)).sum = ∑ r, (if (st r).openL then 0 else ((st r).lft.map (g r)).sum)
      + ∑ r, (if (st r).openL then ((st r).lft.map (g r)).sum else 0) := by
    rw [← sum_add_distrib]; apply sum_congr rfl; intro r _; cases (st r).openL <;> simp
  have a2 : ∑ r, ((st r).rgt.map (g r)).sum = ∑ r, (if (st r).openR then 0 else ((st r).rgt.map (g r)).sum)
      + ∑ r, (if (st r).openR then ((st r).rgt.map (g r)).sum else 0) := by
    rw [← sum_add_distrib]; apply sum_congr rfl; intro r _; cases (st r).openR <;> simp
  rw [a1, a2]
  abel

end sums

/-! ### Specification -/

/-- no super-droplet moved further than the width of the neighbouring subdomain -/
def Moved (st : Fin (m + 1) → Rank) : Prop :=
  ∀ r, ∀ s ∈ (st r).sds, (st r).x0 - ((st (lftRank r)).x1 - (st (lftRank r)).x0) ≤ s.x ∧
    s.x < (st r).x1 + ((st (rgtRank r)).x1 - (st (rgtRank r)).x0)

/-- the subdomains are laid side by side in a periodic domain of length `L`, subdomain `r` having the origin of its coordinates at `off r` -/
def Tiled (st : Fin (m + 1) → Rank) (off : Fin (m + 1) → ℝ) (L : ℝ) : Prop :=
  ∀ r, ∃ k : ℤ, off (rgtRank r) + (st (rgtRank r)).x0 = off r + (st r).x1 + k * L

/-- what identifies a live super-droplet: multiplicity, attributes, position in the whole (periodic) domain as a fraction of its length -/
noncomputable def ident (off L : ℝ) (s : Sd) : ℕ × (ℕ → ℝ) × ℝ := (s.n, s.attr, Int.fract ((off + s.x) / L))

/-- all live super-droplets of a list, with their identities -/
noncomputable def idents (off L : ℝ) (l : List Sd) : Multiset (ℕ × (ℕ → ℝ) × ℝ) :=
  ((l.filter (fun s => decide (s.n ≠ 0))).map (ident off L) : List _)

theorem idents_eq (off L : ℝ) (l : List Sd) :
    idents off L l = (l.map (fun s => if s.n = 0 then (0 : Multiset (ℕ × (ℕ → ℝ) × ℝ)) else {ident off L s})).sum := by
  unfold idents
  induction l with
  | nil => simp
  | cons a l ih =>
    by_cases h : a.n = 0
    · simp [h] at ih ⊢; exact ih
    · simp only [h, ne_eq, not_false_eq_true, decide_true, List.filter_cons_of_pos, List.map_cons, if_false, List.sum_cons]
      simp only [ne_eq] at ih
      rw [← ih, ← Multiset.cons_coe, Multiset.singleton_add]

theorem away_noop_from_rgt {st : Fin (m + 1) → Rank} (hm : Moved st) {r : Fin (m + 1)} {s : Sd} (hs : s ∈ (st (rgtRank r)).lft) :
    (st r).x0 ≤ (remote (st (rgtRank r)).x0 (st r).x1 s).x ∧ (remote (st (rgtRank r)).x0 (st r).x1 s).x < (st r).x1 ∧
    away (st r).x0 (st r).x1 (remote (st (rgtRank r)).x0 (st r).x1 s) = remote (st (rgtRank r)).x0 (st r).x1 s := by
  unfold Rank.lft at hs
  simp only [List.mem_filter, decide_eq_true_eq] at hs
  have h := (hm (rgtRank r) s hs.1).1
  rw [lft_rgt] at h
  have a : (st r).x0 ≤ (remote (st (rgtRank r)).x0 (st r).x1 s).x := by simp only [remote]; linarith
  have b : (remote (st (rgtRank r)).x0 (st r).x1 s).x < (st r).x1 := by simp only [remote]; linarith [hs.2]
  refine ⟨a, b, ?_⟩
  unfold away
  rw [if_neg (not_le.2 b), if_neg (not_lt.2 a)]

theorem away_noop_from_lft {st : Fin (m + 1) → Rank} (hm : Moved st) {r : Fin (m + 1)} {s : Sd} (hs : s ∈ (st (lftRank r)).rgt) :
    (st r).x0 ≤ (remote (st (lftRank r)).x1 (st r).x0 s).x ∧ (remote (st (lftRank r)).x1 (st r).x0 s).x < (st r).x1 ∧
    away (st r).x0 (st r).x1 (remote (st (lftRank r)).x1 (st r).x0 s) = remote (st (lftRank r)).x1 (st r).x0 s := by
  unfold Rank.rgt at hs
  simp only [List.mem_filter, decide_eq_true_eq] at hs
  have h := (hm (lftRank r) s hs.1).2
  rw [rgt_lft] at h
  have a : (st r).x0 ≤ (remote (st (lftRank r)).x1 (st r).x0 s).x := by simp only [remote]; linarith [hs.2]
  have b : (remote (st (lftRank r)).x1 (st r).x0 s).x < (st r).x1 := by simp only [remote]; linarith
  refine ⟨a, b, ?_⟩
  unfold away
  rw [if_neg (not_le.2 b), if_neg (not_lt.2 a)]

/-- **C29** (partial: the exchange must succeed, see `buffer_too_small` and `check_before_removal`).  In a periodic domain without open
ends the multiset of live super-droplets (multiplicity, attributes, position in the whole domain) over all subdomains is unchanged: nothing is lost
or duplicated, and positions are correctly translated. -/
theorem exchange_identity_partial (st st' : Fin (m + 1) → Rank) (off : Fin (m + 1) → ℝ) (L : ℝ) (hLp : 0 < L)
    (h : exchange st = some st') (hx : ∀ r, (st r).x0 ≤ (st r).x1) (hm : Moved st) (ht : Tiled st off L)
    (hopen : ∀ r, (st r).openR = false ∧ (st r).openL = false) :
    ∑ r, idents (off r) L (st' r).sds = ∑ r, idents (off r) L (st r).sds := by
  have hid : ∀ (a b : ℝ) (s t : Sd) (k : ℤ), s.n = t.n → s.attr = t.attr → b + t.x = a + s.x + k * L → ident a L s = ident b L t := by
    intro a b s t k h1 h2 h3
    unfold ident
    rw [h1, h2, h3]
    have : (a + s.x + k * L) / L = (a + s.x) / L + k := by field_simp
    rw [this, Int.fract_add_intCast]
  have key := exchange_sum (M := Multiset (ℕ × (ℕ → ℝ) × ℝ))
    (fun r s => if s.n = 0 then 0 else {ident (off r) L s}) st st' h
    (fun r s hs => by simp [hs]) hx (fun r => by rw [(hopen r).1, (hopen _).2])
    (fun r _ s hs => by
      rw [(away_noop_from_rgt hm hs).2.2]
      obtain ⟨k, hk⟩ := ht r
      have : ident (off r) L (remote (st (rgtRank r)).x0 (st r).x1 s) = ident (off (rgtRank r)) L s :=
        hid _ _ _ _ k rfl rfl (by simp only [remote]; linarith)
      simp only [this]; rfl)
    (fun r _ s hs => by
      rw [(away_noop_from_lft hm hs).2.2]
      obtain ⟨k, hk⟩ := ht (lftRank r)
      rw [rgt_lft] at hk
      have : ident (off r) L (remote (st (lftRank r)).x1 (st r).x0 s) = ident (off (lftRank r)) L s :=
        hid _ _ _ _ (-k) rfl rfl (by simp only [remote]; push_cast; linarith)
      simp only [this]; rfl)
  simp only [(hopen _).1, (hopen _).2, Bool.false_eq_true, if_false, sum_const_zero, add_zero] at key
  simpa only [idents_eq] using key

/-- **C29** (partial, same proviso) The multiplicity-weighted sum of any function of the attributes over all subdomains, plus what left
through open ends, is unchanged — for any displacements. -/
theorem exchange_budget_partial (st st' : Fin (m + 1) → Rank) (f : (ℕ → ℝ) → ℝ)
    (h : exchange st = some st') (hx : ∀ r, (st r).x0 ≤ (st r).x1) (hopen : ∀ r, (st r).openR = (st (rgtRank r)).openL) :
    ∑ r, ((st' r).sds.map (fun s => s.n * f s.attr)).sum
      + (∑ r, (if (st r).openL then (((st r).sds.filter (fun s => decide (s.x < (st r).x0))).map (fun s => s.n * f s.attr)).sum else 0)
        + ∑ r, (if (st r).openR then (((st r).sds.filter (fun s => decide (s.x ≥ (st r).x1))).map (fun s => s.n * f s.attr)).sum else 0))
    = ∑ r, ((st r).sds.map (fun s => s.n * f s.attr)).sum :=
  exchange_sum (fun _ s => (s.n : ℝ) * f s.attr) st st' h (fun r s hs => by simp [hs]) hx hopen
    (fun _ _ _ _ => rfl) (fun _ _ _ _ => rfl)

/-- **C29** (partial, same proviso) After the exchange every super-droplet is inside the subdomain that holds it. -/
theorem exchange_inside_partial (st st' : Fin (m + 1) → Rank) (h : exchange st = some st') (hm : Moved st) :
    ∀ r, ∀ s ∈ (st' r).sds, (st' r).x0 ≤ s.x ∧ s.x < (st' r).x1 ∧ s.n ≠ 0 := by
  unfold exchange at h
  split at h
  swap
  · exact absurd h (by simp)
  simp only [Option.some.injEq] at h
  subst h
  intro r s hs
  simp only [List.mem_filter, List.mem_append, decide_eq_true_eq] at hs
  obtain ⟨hs, hn⟩ := hs
  suffices (st r).x0 ≤ s.x ∧ s.x < (st r).x1 from ⟨this.1, this.2, hn⟩
  rcases hs with (hs | hs) | hs
  · unfold Rank.flagged at hs
    obtain ⟨t, _, rfl⟩ := List.mem_map.1 hs
    by_cases hc : t.x < (st r).x0 ∨ t.x ≥ (st r).x1
    · rw [if_pos hc] at hn; exact absurd rfl hn
    · rw [if_neg hc]; push Not at hc; exact hc
  · unfold fromRgt at hs
    split at hs
    · exact absurd hs (by simp)
    · obtain ⟨t, ht, rfl⟩ := List.mem_map.1 hs
      obtain ⟨a, b, c⟩ := away_noop_from_rgt hm ht
      rw [c]; exact ⟨a, b⟩
  · unfold fromLft at hs
    split at hs
    · exact absurd hs (by simp)
    · obtain ⟨t, ht, rfl⟩ := List.mem_map.1 hs
      obtain ⟨a, b, c⟩ := away_noop_from_lft hm ht
      rw [c]; exact ⟨a, b⟩

/-! ### Concrete cases -/

/-- two subdomains [0,2) and [0,2) of a periodic domain of length 4; one droplet leaves the first to the left, one to the right -/
noncomputable def exSt : Fin 2 → Rank := ![⟨0, 2, [⟨3, -1/2, fun _ => 1⟩, ⟨5, 1, fun _ => 2⟩, ⟨7, 9/4, fun _ => 3⟩], 4, 10, false, false⟩,
  ⟨0, 2, [⟨2, 1/2, fun _ => 4⟩], 4, 10, false, false⟩]

theorem exSt_lft0 : (exSt 0).lft = [⟨3, -1/2, fun _ => 1⟩] := by
  norm_num [exSt, Rank.lft, List.filter_cons]
theorem exSt_rgt0 : (exSt 0).rgt = [⟨7, 9/4, fun _ => 3⟩] := by
  norm_num [exSt, Rank.rgt, List.filter_cons]
theorem exSt_lft1 : (exSt 1).lft = [] := by norm_num [exSt, Rank.lft, List.filter_cons]
theorem exSt_rgt1 : (exSt 1).rgt = [] := by norm_num [exSt, Rank.rgt, List.filter_cons]

theorem exSt_from0 : (fromRgt exSt 0).length = 0 ∧ (fromLft exSt 0).length = 0 := by
  have a : rgtRank (0 : Fin 2) = 1 := by decide
  have b : lftRank (0 : Fin 2) = 1 := by decide
  unfold fromRgt fromLft
  rw [a, b, exSt_lft1, exSt_rgt1]
  simp

theorem exSt_from1 : (fromRgt exSt 1).length = 1 ∧ (fromLft exSt 1).length = 1 := by
  have a : rgtRank (1 : Fin 2) = 0 := by decide
  have b : lftRank (1 : Fin 2) = 0 := by decide
  unfold fromRgt fromLft
  rw [a, b, exSt_lft0, exSt_rgt0]
  simp [exSt]

/-- the hypotheses are met: the exchange succeeds, displacements are smaller than the subdomains, the subdomains tile the domain -/
example : (exchange exSt).isSome ∧ Moved exSt ∧ Tiled exSt ![0, 2] 4 ∧ ∀ r, (exSt r).openR = false ∧ (exSt r).openL = false := by
  have hc : ∀ r, 4 ≤ (exSt r).cap' ∧ (exSt r).nSdMax = 10 ∧ (exSt r).sds.length ≤ 3 := by
    intro r
    fin_cases r
    · refine ⟨?_, by simp [exSt], by simp [exSt]⟩
      change 4 ≤ (exSt 0).cap'
      unfold Rank.cap'
      rw [exSt_lft0, exSt_rgt0]; simp [exSt]
    · refine ⟨?_, by simp [exSt], by simp [exSt]⟩
      change 4 ≤ (exSt 1).cap'
      unfold Rank.cap'
      rw [exSt_lft1, exSt_rgt1]; simp [exSt]
  refine ⟨?_, ?_, ?_, ?_⟩
  · unfold exchange
    rw [if_pos]
    · rfl
    · intro r
      obtain ⟨h1, h2, h3⟩ := hc r
      have : (fromRgt exSt r).length ≤ 1 ∧ (fromLft exSt r).length ≤ 1 := by
        fin_cases r
        · have := exSt_from0; constructor <;> [exact this.1.le.trans (by omega); exact this.2.le.trans (by omega)]
        · have := exSt_from1; exact ⟨this.1.le, this.2.le⟩
      omega
  · intro r s hs
    fin_cases r
    · have a : rgtRank (0 : Fin 2) = 1 := by decide
      have b : lftRank (0 : Fin 2) = 1 := by decide
      change (exSt 0).x0 - ((exSt (lftRank 0)).x1 - (exSt (lftRank 0)).x0) ≤ s.x ∧ s.x < (exSt 0).x1 + ((exSt (rgtRank 0)).x1 - (exSt (rgtRank 0)).x0)
      rw [a, b]
      simp [exSt] at hs ⊢
      rcases hs with rfl | rfl | rfl <;> norm_num
    · have a : rgtRank (1 : Fin 2) = 0 := by decide
      have b : lftRank (1 : Fin 2) = 0 := by decide
      change (exSt 1).x0 - ((exSt (lftRank 1)).x1 - (exSt (lftRank 1)).x0) ≤ s.x ∧ s.x < (exSt 1).x1 + ((exSt (rgtRank 1)).x1 - (exSt (rgtRank 1)).x0)
      rw [a, b]
      simp [exSt] at hs ⊢
      subst hs; norm_num
  · intro r
    fin_cases r
    · exact ⟨0, by have a : rgtRank (0 : Fin 2) = 1 := by decide
                   change _ + (exSt (rgtRank 0)).x0 = _
                   simp [a, exSt]⟩
    · exact ⟨-1, by have a : rgtRank (1 : Fin 2) = 0 := by decide
                    change _ + (exSt (rgtRank 1)).x0 = _
                    simp [a, exSt]; norm_num⟩
  · intro r; fin_cases r <;> simp [exSt]

/-! ### Where the full claim fails -/

/-- **C29, negation**: buffers are enlarged according to the number of super-droplets a subdomain *sends*; when a neighbour sends more than
the buffer of the receiver holds, the exchange fails.  For every buffer size there is such a population. -/
theorem buffer_too_small (cap : ℕ) : ∃ st : Fin 2 → Rank, (∀ r, (st r).cap = cap ∧ (st r).x0 < (st r).x1 ∧ (st r).openL = false ∧ (st r).openR = false
    ∧ (st r).nSdMax ≥ 2 * ((st 0).sds.length + (st 1).sds.length)) ∧ Moved st ∧ exchange st = none := by
  have a0 : rgtRank (0 : Fin 2) = 1 := by decide
  have b0 : lftRank (0 : Fin 2) = 1 := by decide
  have a1 : rgtRank (1 : Fin 2) = 0 := by decide
  have b1 : lftRank (1 : Fin 2) = 0 := by decide
  let st : Fin 2 → Rank := ![⟨0, 2, List.replicate (cap + 1) ⟨1, 2, fun _ => 1⟩, cap, 2 * (cap + 1), false, false⟩,
    ⟨0, 2, [], cap, 2 * (cap + 1), false, false⟩]
  refine ⟨st, ?_, ?_, ?_⟩
  · intro r; fin_cases r <;> simp [st]
  · intro r s hs
    fin_cases r
    · change (st 0).x0 - ((st (lftRank 0)).x1 - (st (lftRank 0)).x0) ≤ s.x ∧ s.x < (st 0).x1 + ((st (rgtRank 0)).x1 - (st (rgtRank 0)).x0)
      rw [a0, b0]
      simp [st] at hs ⊢
      rw [hs]; norm_num
    · simp [st] at hs
  · unfold exchange
    rw [if_neg]
    intro h
    have h1 := (h 1).2.1
    have hl : (fromLft st 1).length = cap + 1 := by
      unfold fromLft
      rw [b1]
      simp [st, Rank.rgt]
    have hc : (st 1).cap' = cap := by
      unfold Rank.cap' Rank.lft Rank.rgt
      simp [st]
    omega

/-- **C29, negation**: the limit `n_sd_max` is checked while the sent super-droplets are still held, so an exchange that would leave
every subdomain within its limit can fail: here both subdomains are full and swap one super-droplet. -/
theorem check_before_removal (k : ℕ) : ∃ st : Fin 2 → Rank, (∀ r, (st r).sds.length = k + 1 ∧ (st r).nSdMax = k + 1 ∧ (st r).cap ≥ k + 1
    ∧ (st r).rgt.length = 1 ∧ (st r).lft.length = 0 ∧ (st r).x0 < (st r).x1 ∧ (st r).openL = false ∧ (st r).openR = false)
    ∧ exchange st = none := by
  have b1 : lftRank (1 : Fin 2) = 0 := by decide
  let R : Rank := ⟨0, 2, ⟨1, 2, fun _ => 1⟩ :: List.replicate k ⟨1, 1, fun _ => 1⟩, k + 1, k + 1, false, false⟩
  have hR : R.rgt.length = 1 ∧ R.lft.length = 0 := by
    constructor
    · unfold Rank.rgt
      rw [List.filter_cons_of_pos (by norm_num [R])]
      have : (List.replicate k (⟨1, 1, fun _ => 1⟩ : Sd)).filter (fun s => decide (s.x ≥ R.x1)) = [] := by
        simp [R]
      simp [this]
    · unfold Rank.lft
      simp [R]
  refine ⟨fun _ => R, ?_, ?_⟩
  · intro r
    exact ⟨by simp [R], rfl, le_refl _, hR.1, hR.2, by norm_num [R], rfl, rfl⟩
  · unfold exchange
    rw [if_neg]
    intro h
    have h1 := (h 1).2.2
    have hl : (fromLft (fun _ : Fin 2 => R) 1).length = 1 := by
      unfold fromLft
      simp [R]
      have := hR.1
      simpa [R] using this
    rw [hl] at h1
    simp [R] at h1
    omega

end LCP.Distmem
