import Verif.Mpi.Check

/-!
# Every schedule of a distributed run ends in the same state
-/
set_option linter.unusedSimpArgs false

namespace LCP.Mpi
open LCP.E2L LCP.Grid LCP.Distmem

variable {m : ℕ}

private theorem Counts.tail {c : Cfg m} {r : Fin (m + 1)} {f : Mem → Mem} {p : List (I m)} {j : ℕ} (h : Counts c r (.loc f :: p) j) :
    Counts c r p j := ⟨h.s1, h.s3, h.s0, h.r1, h.r3, h.r0, h.uL, h.uR, h.cR, h.cL⟩

/-- second part of a time step -/
noncomputable def stepB (c : Cfg m) (k : ℕ) (r : Fin (m + 1)) : List (I m) :=
  Instr.loc (dynM c k r) :: .loc (bcndM c r) :: ((if c.adve k then exchProg c r else []) ++ [.loc (postM c)])

private theorem tag_ge (co : Comp) : 12331 ≤ ctag co := by cases co <;> decide

private theorem stepB_nR (c : Cfg m) (k : ℕ) (r b : Fin (m + 1)) {t : ℕ} (ht : 4 ≤ t) : nR b t (stepB c k r) = 0 := by
  have h1 : 0 ≠ t := by omega
  have h2 : 1 ≠ t := by omega
  have h3 : 2 ≠ t := by omega
  have h4 : 3 ≠ t := by omega
  unfold stepB
  cases c.adve k <;> simp [nR, nR_append, (exch_counts ..).2, ind, h1, h2, h3, h4]

private theorem stepB_nS (c : Cfg m) {k : ℕ} (ha : c.adve k = true) (r : Fin (m + 1)) :
    (c.linkL r = true → nS (lftRank r) 1 (stepB c k r) = 1) ∧ (c.linkR r = true → nS (rgtRank r) 3 (stepB c k r) = 1) := by
  unfold stepB
  constructor <;> intro h <;> simp [nS, nS_append, (exch_counts ..).1, ind, h, ha]

private theorem stepB_oks {c : Cfg m} {i : ℕ} (k : ℕ) (r : Fin (m + 1)) {L rest} (hL : AllStale c r L) (hu : Uses (Before True i) L) :
    Oks (place c) r L (stepB c k r) rest ∧ (stepB c k r).foldl next L = L := by
  have lc : ∀ k {f : Mem → Mem}, (∀ M, (f M).cour = M.cour) → Ok (place c) r L k (.loc f) := fun k f h => by
    have := ok_loc (c := c) (r := r) (L := L) (X := []) (k := k) hL h (by simp)
    simpa using this
  have he : Oks (place c) r L (if c.adve k then exchProg c r else []) ([.loc (postM c)] ++ rest) ∧
      (if c.adve k then exchProg c r else []).foldl next L = L := by
    cases c.adve k
    · exact ⟨trivial, rfl⟩
    · exact exch_oks r hL hu
  refine ⟨⟨lc _ (fun _ => rfl), lc _ (fun _ => rfl), ?_⟩, ?_⟩
  · refine Oks.append he.1 ?_
    show Oks (place c) r (List.foldl next L (if c.adve k then exchProg c r else [])) _ _
    rw [he.2]; exact ⟨lc _ (fun _ => rfl), trivial⟩
  · unfold stepB
    rw [List.foldl_cons, List.foldl_cons, List.foldl_append]
    show List.foldl next (List.foldl next L _) _ = L
    rw [he.2]; rfl

private theorem syncCour_oks {c : Cfg m} (hw : Wide c) {d : Prop} {r : Fin (m + 1)} {L rest} (i k : ℕ)
    (hs : Ok (place c) r L (courProg c k r ++ rest) (.loc (syncCour c i r)))
    (hL : AllStale c r L) (hu : Uses (Before d k) L) :
    Oks (place c) r L (.loc (syncCour c i r) :: courProg c k r) rest ∧
    AllStale c r ((Instr.loc (syncCour c i r) :: courProg c k r).foldl next L) ∧
    Uses (Before d (k + 1)) ((Instr.loc (syncCour c i r) :: courProg c k r).foldl next L) := by
  obtain ⟨h1, h2, h3⟩ := cour_oks hw k r (rest := rest) hL hu
  exact ⟨⟨hs, h1⟩, h2, h3⟩

private theorem pend_stale {c : Cfg m} {r : Fin (m + 1)} {L} (hL : AllStale c r L) (a : Fin (m + 1)) (t : ℕ) (k : List (I m)) :
    pend a t L k = nR a t k := by
  unfold pend; rw [hL.rcvs]; simp

theorem chk_steps (hm : 0 < m) {c : Cfg m} (hw : Wide c) (ha : c.h ≠ 0 → ∀ k, c.adve k = true) (r : Fin (m + 1)) (k j : ℕ) {L}
    (hL : AllStale c r L) (hu : Uses (Before True (k + 1)) L) : Chk (place c) r L (stepsProg c r k j) := by
  induction j generalizing k L with
  | zero =>
    intro h0
    refine ⟨fun _ co => ?_, fun _ co => Or.inl ?_⟩ <;> rw [pend_stale hL] <;> exact Nat.le_refl _
  | succ j ih =>
    have e : stepsProg c r k (j + 1) = (.loc (syncCour c (k + 1) r) :: courProg c (k + 1) r) ++ (stepB c k r ++ stepsProg c r (k + 1) j) := by
      simp [stepsProg, stepProg, stepB]
    rw [e]
    have hc : c.h ≠ 0 → Counts c r (courProg c (k + 1) r ++ (stepB c k r ++ stepsProg c r (k + 1) j)) (j + 1) := fun h0 => by
      have := Counts.steps r h0 (ha h0) k (j + 1)
      rw [e] at this
      exact this.tail
    obtain ⟨a1, a2, a3⟩ := syncCour_oks hw (rest := stepB c k r ++ stepsProg c r (k + 1) j) (k + 1) (k + 1)
      (ok_sync hm hc hL (k + 1)) hL hu
    obtain ⟨b1, b2⟩ := stepB_oks (c := c) k r (rest := stepsProg c r (k + 1) j) a2 a3
    refine chk_append (places_of fun h0 => ?_) a1 (chk_append (places_of fun h0 => ?_) b1 ?_)
    · have hS := Counts.steps r h0 (ha h0) (k + 1) j
      have hB := stepB_nS c (ha h0 k) r
      obtain ⟨c1, c2, c3⟩ := cour_counts c (k + 1) r h0
      have nc : ∀ b t, nR b t (.loc (syncCour c (k + 1) r) :: courProg c (k + 1) r) = nR b t (courProg c (k + 1) r) := fun _ _ => rfl
      refine ⟨fun hl co => ?_, fun hr co => Or.inl ?_⟩
      · have := tag_ge co
        have h1 := (c2 co).1
        have h2 := hS.uL co
        have h3 := stepB_nR c k r (lftRank r) (t := 1 * ctag co) (by omega)
        rw [pend_stale hL, nR_append, nR_append, nS_append, nc, hB.1 hl, hS.s1 hl, h3]
        omega
      · have := tag_ge co
        have h1 := (c2 co).2
        have h2 := hS.uR co
        have h3 := stepB_nR c k r (rgtRank r) (t := 2 * ctag co) (by omega)
        rw [pend_stale hL, nR_append, nR_append, nS_append, nc, hB.2 hr, hS.s3 hr, h3]
        omega
    · have hS := Counts.steps r h0 (ha h0) (k + 1) j
      refine ⟨fun hl co => ?_, fun hr co => Or.inl ?_⟩
      · have := tag_ge co
        have h2 := hS.uL co
        have h3 := stepB_nR c k r (lftRank r) (t := 1 * ctag co) (by omega)
        rw [pend_stale a2, nR_append, hS.s1 hl, h3]
        omega
      · have := tag_ge co
        have h2 := hS.uR co
        have h3 := stepB_nR c k r (rgtRank r) (t := 2 * ctag co) (by omega)
        rw [pend_stale a2, nR_append, hS.s3 hr, h3]
        omega
    · rw [b2]
      exact ih (k + 1) a2 a3

theorem chk_prog (hm : 0 < m) {c : Cfg m} (hw : Wide c) (ha : c.h ≠ 0 → ∀ k, c.adve k = true) (K : ℕ) (r : Fin (m + 1)) :
    Chk (place c) r [] (prog c K r) := by
  have e : prog c K r = (.loc (syncCour c 0 r) :: courProg c 0 r) ++ (domProg c r ++ stepsProg c r 0 K) := by
    simp [prog, initProg]
  rw [e]
  have hL : AllStale c r [] := fun e he => by simp at he
  obtain ⟨a1, a2, a3⟩ := syncCour_oks hw (d := False) (rest := domProg c r ++ stepsProg c r 0 K) 0 0
    (fun e he => by simp at he) hL (fun e he => by simp at he)
  obtain ⟨b1, b2, b3⟩ := dom_oks (c := c) r (rest := stepsProg c r 0 K) a2 a3
  refine chk_append (places_of fun h0 => ?_) a1 (chk_append (places_of fun h0 => ?_) b1 ?_)
  · have hS := Counts.steps r h0 (ha h0) 0 K
    obtain ⟨c1, c2, c3⟩ := cour_counts c 0 r h0
    have nc : ∀ b t, nR b t (.loc (syncCour c 0 r) :: courProg c 0 r) = nR b t (courProg c 0 r) := fun _ _ => rfl
    have ns : ∀ b t, nS b t (.loc (syncCour c 0 r) :: courProg c 0 r) = nS b t (courProg c 0 r) := fun _ _ => rfl
    refine ⟨fun hl co => ?_, fun hr co => Or.inr ⟨?_, ?_, ?_⟩⟩
    · have := tag_ge co
      have h1 := (c2 co).1
      have h2 := hS.uL co
      have h3 : nR (lftRank r) (1 * ctag co) (domProg c r) = 0 := by
        rw [(dom_counts ..).2]; simp only [ind]; rw [if_neg (by omega), if_neg (by omega)]
      have h4 : nS (lftRank r) 1 (domProg c r) = 1 := by
        rw [(dom_counts ..).1]; simp [ind, hl]
      rw [pend_stale hL, nR_append, nR_append, nS_append, nc, hS.s1 hl, h3, h4]
      omega
    · have := tag_ge co
      have h1 := (c2 co).2
      have h2 := hS.uR co
      have h3 : nR (rgtRank r) (2 * ctag co) (domProg c r) = 0 := by
        rw [(dom_counts ..).2]; simp only [ind]; rw [if_neg (by omega), if_neg (by omega)]
      rw [pend_stale hL, nR_append, nR_append, nS_append, nc, hS.s3 hr, h3]
      omega
    · rw [ns]; exact (c1 _ 3 (by omega)).1
    · have h4 : nS (rgtRank r) 0 (domProg c r) = 1 := by
        rw [(dom_counts ..).1]; simp [ind, hr]
      have h5 : nS (rgtRank r) 3 (domProg c r) = 0 := by
        rw [(dom_counts ..).1]; simp [ind]
      rw [nS_append, nS_append, h4, h5, hS.s3 hr, hS.s0 hr, Nat.zero_add]
  · have hS := Counts.steps r h0 (ha h0) 0 K
    refine ⟨fun hl co => ?_, fun hr co => Or.inl ?_⟩
    · have := tag_ge co
      have h2 := hS.uL co
      have h3 : nR (lftRank r) (1 * ctag co) (domProg c r) = 0 := by
        rw [(dom_counts ..).2]; simp only [ind]; rw [if_neg (by omega), if_neg (by omega)]
      rw [pend_stale a2, nR_append, hS.s1 hl, h3]
      omega
    · have := tag_ge co
      have h2 := hS.uR co
      have h3 : nR (rgtRank r) (2 * ctag co) (domProg c r) = 0 := by
        rw [(dom_counts ..).2]; simp only [ind]; rw [if_neg (by omega), if_neg (by omega)]
      rw [pend_stale a2, nR_append, hS.s3 hr, h3]
      omega
  · exact chk_steps hm hw ha r 0 K b2 b3

/-- what every schedule of a program on given memories comes to: a bound on its length, progress without relying on buffering, and the
memories at the end -/
def EndsIn (p : Fin (m + 1) → List (I m)) (W : World m) (V : World m) : Prop :=
  ∃ N, ∀ ρ u, Run (start p W) ρ u → ρ.length ≤ N ∧
    ((∃ α u', Due u α ∧ Step u α u') ∨ (∀ r, (u.loc r).prog = [] ∧ (u.loc r).mem = V r)) ∧
    ∃ σ t, DueRun u σ t ∧ Final t ∧ ∀ r, (t.loc r).mem = V r

theorem run_ends (hm : 0 < m) {c : Cfg m} (hd : c.SameDims) (hw : Wide c) (ha : c.h ≠ 0 → ∀ k, c.adve k = true) (K : ℕ) (W : World m) :
    EndsIn (prog c K) W (bulkRun c K W) := by
  obtain ⟨σ, hσ⟩ := seg_prog hm hd K W
  refine ⟨σ.length, fun ρ u hρ => ?_⟩
  obtain ⟨h1, ⟨σ', h2⟩, h3⟩ := disciplined (chk_prog hm hw ha K) (Bal.prog hm hd K) hσ (start_final _) hρ
  refine ⟨h1, ?_, σ', _, h2, start_final _, fun r => rfl⟩
  by_cases hs : ∃ α u', Due u α ∧ Step u α u'
  · exact Or.inl hs
  · right
    have := h3 (fun α u' hd hst => hs ⟨α, u', hd, hst⟩)
    rw [this]
    exact fun r => ⟨rfl, rfl⟩

end LCP.Mpi
