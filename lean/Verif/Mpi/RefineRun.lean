import Verif.Mpi.Refine

/-!
# Whole runs on lists of super-droplets
-/
set_option linter.unusedSimpArgs false

namespace LCP.Mpi
open LCP.E2L LCP.Grid
open LCP.Distmem hiding lft_rgt rgt_lft

variable {m : ℕ} {c : Cfg m}

/-- the memories hold the super-droplets of the subdomains, and nothing has failed so far -/
structure Repr (c : Cfg m) (W : World m) (st : Fin (m + 1) → Rank) : Prop where
  x0 : ∀ r, (st r).x0 = c.x0 r
  x1 : ∀ r, (st r).x1 = c.x1 r
  cap : ∀ r, (st r).cap = (W r).cap
  max : ∀ r, (st r).nSdMax = c.nSdMax r
  openL : ∀ r, (st r).openL = !c.linkL r
  openR : ∀ r, (st r).openR = !c.linkR r
  holds : ∀ r, Holds c (W r) (st r).sds
  err : ∀ r, (W r).err = false
  lftX1 : ∀ r, c.linkL r = true → (W r).lftX1 = c.x1 (lftRank r)
  rgtX0 : ∀ r, c.linkR r = true → (W r).rgtX0 = c.x0 (rgtRank r)

section
variable {W : World m} {st : Fin (m + 1) → Rank}

private theorem lft_eq (h : Repr c W st) (r : Fin (m + 1)) : (st r).lft = (st r).sds.filter (pL c r) := by
  unfold Rank.lft pL; rw [h.x0 r]
private theorem rgt_eq (h : Repr c W st) (r : Fin (m + 1)) : (st r).rgt = (st r).sds.filter (pR c r) := by
  unfold Rank.rgt pR; rw [h.x1 r]

private theorem flagged_eq (h : Repr c W st) (r : Fin (m + 1)) (M : Mem) :
    ((st r).sds.map (own c r M)).filter (fun s => decide (s.n ≠ 0)) = (st r).flagged.filter (fun s => decide (s.n ≠ 0)) := by
  unfold Rank.flagged
  rw [h.x0 r, h.x1 r]
  induction (st r).sds with
  | nil => rfl
  | cons s l ih =>
    rw [List.map_cons, List.map_cons, List.filter_cons, List.filter_cons, ih]
    by_cases hp : s.x < c.x0 r ∨ s.x ≥ c.x1 r
    · have h1 : (own c r M s).n = 0 := by simp [own, pL, pR, hp]
      rw [if_pos hp]
      simp [h1]
    · have h2 : ¬ s.x < c.x0 r := fun h => hp (Or.inl h)
      have h3 : ¬ s.x ≥ c.x1 r := fun h => hp (Or.inr h)
      have h1 : own c r M s = s := by
        have e1 : pL c r s = false := by simp only [pL]; exact decide_eq_false h2
        have e2 : pR c r s = false := by simp only [pR]; exact decide_eq_false h3
        simp [own, e1, e2, mvL, mvR]
      rw [if_neg hp, h1]

/-- **the exchange**, together with `bcnd` before it and the removal after it: either a message does not fit or there are too many super-droplets
in a subdomain, and this is reported, or the memories hold what `exchange` says -/
theorem exchange_repr (hm : 0 < m) (hj : c.jx < c.nv) (hx : ∀ r, c.x0 r ≤ c.x1 r) (h : Repr c W st) :
    match exchange st with
    | none => ∃ r, (postM c (bulkExch c (fun r => bcndM c r (W r)) r)).err = true
    | some st' => Repr c (fun r => postM c (bulkExch c (fun r => bcndM c r (W r)) r)) st' := by
  obtain ⟨Wb, hWb⟩ : ∃ Wb : World m, Wb = fun r => bcndM c r (W r) := ⟨_, rfl⟩
  rw [← hWb]
  have b0 : ∀ r, Wb r = bcndM c r (W r) := fun r => by rw [hWb]
  have bs := fun r => bcnd_spec (r := r) hj (h.holds r)
  have bi := fun r => bcnd_ids (r := r) hj (h.holds r)
  have sb : ∀ r, Stage c (Wb r) (st r).sds (nb c r) id [] (ids (pL c r) (st r).sds) (ids (pR c r) (st r).sds) := by
    intro r
    rw [b0]
    obtain ⟨h1, h2, h3, h4, h5, h6, h7⟩ := bs r
    refine ⟨by rw [h3]; rfl, by rw [h1]; simp, fun j hjn => ?_, (bi r).1, (bi r).2⟩
    rw [h2, (h.holds r).v j hjn]; simp
  have capb : ∀ r, (Wb r).cap = (st r).cap' := by
    intro r
    rw [b0, (bs r).2.2.2.2.2.2]
    unfold Rank.cap'
    rw [lft_eq h, rgt_eq h, h.cap r]
  have errb : ∀ r, (Wb r).err = false := fun r => by rw [b0, (bs r).2.2.2.1, h.err r]
  have lx : ∀ r, c.linkL r = true → (Wb r).lftX1 = c.x1 (lftRank r) := fun r hl => by rw [b0, (bs r).2.2.2.2.1, h.lftX1 r hl]
  have rx : ∀ r, c.linkR r = true → (Wb r).rgtX0 = c.x0 (rgtRank r) := fun r hl => by rw [b0, (bs r).2.2.2.2.2.1, h.rgtX0 r hl]
  obtain ⟨W1, hW1⟩ : ∃ W1 : World m, W1 = fun r => ex1 c r (Wb r) := ⟨_, rfl⟩
  have s1 := fun r => ex1_spec hj (sb r)
  have e1 : ∀ r, W1 r = ex1 c r (Wb r) := fun r => by rw [hW1]
  have out1 : ∀ r, c.linkL r = true → (W1 r).outN = (sentL c r (Wb r) (st r).sds).map Sd.n ∧
      (W1 r).outR = wire c (sentL c r (Wb r) (st r).sds) := by
    intro r hl
    rw [e1]
    refine ⟨?_, ((s1 r).2.1 hl).2⟩
    rw [((s1 r).2.1 hl).1, sentL, List.map_map]
    apply List.map_congr_left
    intro s hs
    exact nb_L (hx r) hl (List.mem_filter.1 hs).2
  have s2 := fun r => ex2_spec (r := r) hj (hx r) (W := W1) (M0 := Wb r) (l := (st r).sds)
    (S := sentL c (rgtRank r) (Wb (rgtRank r)) (st (rgtRank r)).sds)
    (by rw [e1]; exact (s1 r).1) (by rw [e1]; exact (s1 r).2.2.2.1)
    (fun hl => (out1 _ (by rw [linkL_rgt hm]; exact hl)).1) (fun hl => (out1 _ (by rw [linkL_rgt hm]; exact hl)).2)
  obtain ⟨W2, hW2⟩ : ∃ W2 : World m, W2 = fun r => ex2 c r W1 := ⟨_, rfl⟩
  have e2 : ∀ r, W2 r = ex2 c r W1 := fun r => by rw [hW2]
  have out2 : ∀ r, c.linkR r = true → (W2 r).outN = (sentR c r (Wb r) (st r).sds).map Sd.n ∧
      (W2 r).outR = wire c (sentR c r (Wb r) (st r).sds) := by
    intro r hl
    rw [e2]
    refine ⟨?_, ((s2 r).2.1 hl).2⟩
    rw [((s2 r).2.1 hl).1, sentR, List.map_map]
    rfl
  have s3 := fun r => ex3_spec (r := r) hj (W := W2) (M0 := Wb r) (l := (st r).sds)
    (S := sentR c (lftRank r) (Wb (lftRank r)) (st (lftRank r)).sds)
    (by rw [e2]; exact (s2 r).1)
    (fun hl => (out2 _ (by rw [linkR_lft hm]; exact hl)).1) (fun hl => (out2 _ (by rw [linkR_lft hm]; exact hl)).2)
  have hex : bulkExch c Wb = fun r => ex3 c r W2 := by
    unfold bulkExch; dsimp only; rw [← hW1, ← hW2]
  rw [hex]
  have fR : ∀ r, (if c.linkR r then (sentL c (rgtRank r) (Wb (rgtRank r)) (st (rgtRank r)).sds).map (away (c.x0 r) (c.x1 r)) else [])
      = fromRgt st r := by
    intro r
    unfold fromRgt
    rw [h.openR r]
    cases hl : c.linkR r
    · simp
    · simp only [if_true, Bool.not_true, Bool.false_eq_true, if_false]
      have hl2 : c.linkL (rgtRank r) = true := by rw [linkL_rgt hm]; exact hl
      rw [sentL, List.map_map, lft_eq h, lx _ hl2, lft_rgt, h.x0 r, h.x1 r, h.x0 (rgtRank r)]
      rfl
  have fL : ∀ r, (if c.linkL r then (sentR c (lftRank r) (Wb (lftRank r)) (st (lftRank r)).sds).map (away (c.x0 r) (c.x1 r)) else [])
      = fromLft st r := by
    intro r
    unfold fromLft
    rw [h.openL r]
    cases hl : c.linkL r
    · simp
    · simp only [if_true, Bool.not_true, Bool.false_eq_true, if_false]
      have hl2 : c.linkR (lftRank r) = true := by rw [linkR_lft hm]; exact hl
      rw [sentR, List.map_map, rgt_eq h, rx _ hl2, rgt_lft, h.x0 r, h.x1 r, h.x1 (lftRank r)]
      rfl
  have err2 : ∀ r, (W2 r).err = decide ((st r).cap' < (fromRgt st r).length) := by
    intro r
    rw [e2, (s2 r).2.2.2.2.2, e1, (s1 r).2.2.2.2.2, (s1 r).2.2.2.2.1, errb, capb, Bool.false_or, ← fR r]
    cases c.linkR r <;> simp
  have cap2 : ∀ r, (W2 r).cap = (st r).cap' := fun r => by
    rw [e2, (s2 r).2.2.2.2.1, e1, (s1 r).2.2.2.2.1, capb]
  have err3 : ∀ r, (ex3 c r W2).err = (decide ((st r).cap' < (fromRgt st r).length) || decide ((st r).cap' < (fromLft st r).length) ||
      decide ((st r).nSdMax < (st r).sds.length + (fromRgt st r).length + (fromLft st r).length)) := by
    intro r
    rw [(s3 r).2.2.2.2, err2, cap2, h.max r, fR r, ← fL r]
    cases c.linkL r <;> simp
  unfold exchange
  by_cases hc : ∀ r, (fromRgt st r).length ≤ (st r).cap' ∧ (fromLft st r).length ≤ (st r).cap' ∧
      (st r).sds.length + (fromRgt st r).length + (fromLft st r).length ≤ (st r).nSdMax
  · rw [if_pos hc]
    dsimp only
    have p := fun r => post_spec (s3 r).1
    refine ⟨h.x0, h.x1, fun r => ?_, h.max, h.openL, h.openR, fun r => ?_, fun r => ?_, fun r hl => ?_, fun r hl => ?_⟩
    · rw [(p r).2.2.2.1, (s3 r).2.2.2.1, cap2]
    · have := (p r).1
      rw [fR r, fL r, List.filter_append, List.filter_append, flagged_eq h] at this
      rw [List.filter_append, List.filter_append]
      exact this
    · obtain ⟨a, b, d⟩ := hc r
      rw [(p r).2.2.2.2.1, err3]
      rw [decide_eq_false (by omega), decide_eq_false (by omega), decide_eq_false (by omega)]; rfl
    · rw [(p r).2.1, (s3 r).2.1, e2, (s2 r).2.2.1, e1, (s1 r).2.2.1, lx r hl]
    · rw [(p r).2.2.1, (s3 r).2.2.1, e2, (s2 r).2.2.2.1, e1, (s1 r).2.2.2.1, rx r hl]
  · rw [if_neg hc]
    dsimp only
    push Not at hc
    obtain ⟨r, hr⟩ := hc
    refine ⟨r, ?_⟩
    show (ex3 c r W2).err = true
    rw [err3]
    by_cases a : (fromRgt st r).length ≤ (st r).cap'
    · by_cases b : (fromLft st r).length ≤ (st r).cap'
      · have := hr a b
        rw [decide_eq_true (show (st r).nSdMax < _ from this)]; simp
      · rw [decide_eq_true (show (st r).cap' < (fromLft st r).length by omega)]; simp
    · rw [decide_eq_true (show (st r).cap' < (fromRgt st r).length by omega)]; simp

end

end LCP.Mpi
