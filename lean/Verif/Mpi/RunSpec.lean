import Verif.Mpi.RefineRun
import Verif.Mpi.Halos
import Verif.Mpi.Schedules

/-!
# A distributed run, specified without messages

The specification: at each time step, Courant numbers are those passed by the user, with the halo taken from the neighbours at the same step; every process
advances its own super-droplets; then those beyond the ends of the subdomains go to the neighbours (or out).
-/
set_option linter.unusedSimpArgs false

namespace LCP.Mpi
open LCP.E2L LCP.Grid
open LCP.Distmem hiding lft_rgt rgt_lft

variable {m : ℕ}

/-! ### Specification -/

/-- Courant numbers passed by the user, or else those from before -/
noncomputable def passed (u : Fin (m + 1) → Option (Comp → ℕ → ℝ)) (A : Cours m) : Cours m := fun r => (u r).getD (A r)

/-- Courant numbers used by the processes: after `init` (0), in step `k` (`k + 1`); `A` are those in the memory before `init` -/
noncomputable def inUse (c : Cfg m) (A : Cours m) : ℕ → Cours m
  | 0 => haloed c (passed (fun r => c.user r 0) A)
  | k + 1 => haloed c (passed (fun r => c.user r (k + 1)) (inUse c A k))

/-- how a process advances its super-droplets in a step: positions, sizes, collisions, sources, ... -/
abbrev Law (m : ℕ) := Fin (m + 1) → ℕ → (Comp → ℕ → ℝ) → List Sd → List Sd

/-- every process for itself -/
def advance (D : Law m) (k : ℕ) (C : Cours m) (st : Fin (m + 1) → Rank) : Fin (m + 1) → Rank :=
  fun r => { st r with sds := D r k (C r) (st r).sds }

/-- without advection nothing is sent; those beyond an open end are removed -/
noncomputable def stay (st : Fin (m + 1) → Rank) : Fin (m + 1) → Rank := fun r =>
  { st r with
    sds := (st r).sds.filter (fun s => decide (s.n ≠ 0 ∧ ¬ ((st r).openL = true ∧ s.x < (st r).x0) ∧ ¬ ((st r).openR = true ∧ s.x ≥ (st r).x1)))
    cap := (st r).cap' }

/-- one step -/
noncomputable def specStep (adve : ℕ → Bool) (D : Law m) (C : ℕ → Cours m) (k : ℕ) (st : Fin (m + 1) → Rank) : Option (Fin (m + 1) → Rank) :=
  if adve k then exchange (advance D k (C (k + 1)) st) else some (stay (advance D k (C (k + 1)) st))

/-- `K` steps; `none`: the library reports an error -/
noncomputable def specRun (adve : ℕ → Bool) (D : Law m) (C : ℕ → Cours m) : ℕ → (Fin (m + 1) → Rank) → Option (Fin (m + 1) → Rank)
  | 0, st => some st
  | K + 1, st => (specRun adve D C K st).bind (specStep adve D C K)

/-- the computations on arrays are those of the law -/
def Follows (c : Cfg m) (D : Law m) : Prop := ∀ r k C (P : Parts) l, P.n = l.map Sd.n → (∀ j < c.nv, P.v j = l.map (comp c j)) →
  (c.dyn r k C P).n = (D r k C l).map Sd.n ∧ ∀ j < c.nv, (c.dyn r k C P).v j = (D r k C l).map (comp c j)

/-- the subdomains at the beginning, as given by the options and by `init` -/
structure Begins (c : Cfg m) (W : World m) (st : Fin (m + 1) → Rank) : Prop where
  x0 : ∀ r, (st r).x0 = c.x0 r
  x1 : ∀ r, (st r).x1 = c.x1 r
  cap : ∀ r, (st r).cap = (W r).cap
  max : ∀ r, (st r).nSdMax = c.nSdMax r
  openL : ∀ r, (st r).openL = !c.linkL r
  openR : ∀ r, (st r).openR = !c.linkR r
  holds : ∀ r, Holds c (W r) (st r).sds
  err : ∀ r, (W r).err = false

/-! ### Proof -/

section proof
variable {c : Cfg m}

theorem err_exch {W : World m} {r : Fin (m + 1)} (h : (W r).err = true) : (bulkExch c W r).err = true := by
  have u1 : ∀ M : Mem, (unpackN M).err = M.err := fun M => by unfold unpackN; dsimp only; split <;> rfl
  have u2 : ∀ r (M : Mem), (unpackR c r M).err = M.err := fun r M => by unfold unpackR; split <;> rfl
  have e1 : (ex1 c r (W r)).err = true := by unfold ex1; split <;> exact h
  have e2 : (ex2 c r (fun r => ex1 c r (W r))).err = true := by
    unfold ex2
    split
    · show (unpackR c r _).err = true
      rw [u2]
      show (unpackN _).err = true
      rw [u1]
      simp only [getCount, e1, Bool.true_or]
    · exact e1
  unfold bulkExch ex3
  dsimp only
  generalize (fun r => ex2 c r (fun r => ex1 c r (W r))) = W2 at *
  have k1 : ∀ M : Mem, M.err = true → (resizeM c r M).err = true := fun M h => by simp [resizeM, h]
  apply k1
  have hk : ∀ M : Mem, M.err = true → (if c.linkR r then flagR M else M).err = true := fun M h => by split <;> exact h
  have e3 : ∀ M : Mem, M.err = true → (getCount M).err = true := fun M h => by simp [getCount, h]
  cases c.linkL r
  · simp only [Bool.false_eq_true, if_false]
    exact hk _ e2
  · simp only [if_true]
    rw [u2]
    apply hk
    show (unpackN _).err = true
    rw [u1]
    exact e3 _ e2

theorem err_step (k : ℕ) {W : World m} {r : Fin (m + 1)} (h : (W r).err = true) (hs : c.SameCols) (hd : c.SameDims) (hw : Wide c) :
    (bulkStep c k W r).err = true := by
  have e1 : (bulkCour c (fun r => syncCour c (k + 1) r (W r)) r).err = true := by
    rw [bulkCour_eq hs hd hw]
    show (syncCour c (k + 1) r (W r)).err = true
    unfold syncCour; split <;> exact h
  unfold bulkStep
  cases c.adve k
  · exact e1
  · exact err_exch e1

/-- memories in the course of a run -/
structure InRun (c : Cfg m) (A : Cours m) (k : ℕ) (W : World m) (st : Fin (m + 1) → Rank) : Prop where
  repr : Repr c W st
  cour : ∀ r, (W r).cour = inUse c A k r

private theorem cour_exch (W : World m) (r : Fin (m + 1)) : (bulkExch c W r).cour = (W r).cour := by
  have u1 : ∀ M : Mem, (unpackN M).cour = M.cour := fun M => by unfold unpackN; dsimp only; split <;> rfl
  have u2 : ∀ r (M : Mem), (unpackR c r M).cour = M.cour := fun r M => by unfold unpackR; split <;> rfl
  have e1 : (ex1 c r (W r)).cour = (W r).cour := by unfold ex1; split <;> rfl
  have e2 : (ex2 c r (fun r => ex1 c r (W r))).cour = (W r).cour := by
    unfold ex2
    split
    · show (unpackR c r _).cour = _
      rw [u2]
      show (unpackN _).cour = _
      rw [u1]
      exact e1
    · exact e1
  unfold bulkExch ex3
  dsimp only
  rw [← e2]
  generalize (fun r => ex2 c r (fun r => ex1 c r (W r))) = W2 at *
  have k1 : ∀ M : Mem, (resizeM c r M).cour = M.cour := fun M => rfl
  have hk : ∀ M : Mem, (if c.linkR r then flagR M else M).cour = M.cour := fun M => by split <;> rfl
  rw [k1]
  cases c.linkL r
  · simp only [Bool.false_eq_true, if_false]
    rw [hk]
  · simp only [if_true]
    rw [u2]
    show (if c.linkR r then flagR _ else _ : Mem).cour = _
    rw [hk]
    show (unpackN _).cour = _
    rw [u1]
    rfl

private theorem sync_cour (k : ℕ) (r : Fin (m + 1)) (M : Mem) : (syncCour c k r M).cour = (c.user r k).getD M.cour := by
  unfold syncCour; cases c.user r k <;> rfl
private theorem sync_eq (k : ℕ) (r : Fin (m + 1)) (M : Mem) (C : Comp → ℕ → ℝ) : { syncCour c k r M with cour := C } = { M with cour := C } := by
  unfold syncCour; cases c.user r k <;> rfl

private theorem stay_repr (hj : c.jx < c.nv) {W : World m} {st : Fin (m + 1) → Rank} (h : Repr c W st) :
    Repr c (fun r => postM c (bcndM c r (W r))) (stay st) := by
  have hb : ∀ r, Holds c (bcndM c r (W r)) ((st r).sds.map (fun s => { s with n := nb c r s })) := by
    intro r
    obtain ⟨h1, h2, h3, h4, h5, h6, h7⟩ := bcnd_spec (r := r) hj (h.holds r)
    refine ⟨by rw [h3]; simp, by rw [h1, List.map_map]; rfl, fun j hjn => ?_⟩
    rw [h2, (h.holds r).v j hjn, List.map_map]; rfl
  have hf : ∀ r, ((st r).sds.map (fun s => { s with n := nb c r s })).filter (fun s => decide (s.n ≠ 0)) = (stay st r).sds := by
    intro r
    show _ = (st r).sds.filter _
    rw [h.openL r, h.openR r, h.x0 r, h.x1 r]
    induction (st r).sds with
    | nil => rfl
    | cons s l ih =>
      rw [List.map_cons, List.filter_cons, List.filter_cons, ih]
      by_cases hz : nb c r s = 0
      · have : ¬ (s.n ≠ 0 ∧ ¬ ((!c.linkL r) = true ∧ s.x < c.x0 r) ∧ ¬ ((!c.linkR r) = true ∧ s.x ≥ c.x1 r)) := by
          rintro ⟨a1, a2, a3⟩
          revert hz
          unfold nb pL pR
          cases hl : c.linkL r <;> cases hr : c.linkR r <;> simp [hl, hr] at a2 a3 ⊢ <;> simp [a1, a2, a3]
        rw [decide_eq_false this]
        simp [hz]
      · have : (s.n ≠ 0 ∧ ¬ ((!c.linkL r) = true ∧ s.x < c.x0 r) ∧ ¬ ((!c.linkR r) = true ∧ s.x ≥ c.x1 r)) ∧ nb c r s = s.n := by
          revert hz
          unfold nb pL pR
          cases hl : c.linkL r <;> cases hr : c.linkR r <;> by_cases b1 : s.x < c.x0 r <;> by_cases b2 : s.x ≥ c.x1 r <;>
            simp [b1, b2]
        rw [decide_eq_true this.1, this.2]
        simp [this.1.1]
  refine ⟨h.x0, h.x1, fun r => ?_, h.max, h.openL, h.openR, fun r => ?_, fun r => ?_, fun r hl => ?_, fun r hl => ?_⟩
  · obtain ⟨h1, h2, h3, h4, h5, h6, h7⟩ := bcnd_spec (r := r) hj (h.holds r)
    show (st r).cap' = (bcndM c r (W r)).cap
    rw [h7]
    unfold Rank.cap' Rank.lft Rank.rgt pL pR
    rw [h.cap r, h.x0 r, h.x1 r]
  · have := (post_spec (hb r)).1
    rw [hf r] at this
    exact this
  · exact h.err r
  · exact h.lftX1 r hl
  · exact h.rgtX0 r hl

private theorem inrun_step (hm : 0 < m) (hj : c.jx < c.nv) (hx : ∀ r, c.x0 r ≤ c.x1 r) (hs : c.SameCols) (hd : c.SameDims) (hw : Wide c)
    {D : Law m} (hD : Follows c D) {A : Cours m} (k : ℕ) {W : World m} {st : Fin (m + 1) → Rank} (h : InRun c A k W st) :
    match specStep c.adve D (inUse c A) k st with
    | none => ∃ r, (bulkStep c k W r).err = true
    | some st' => InRun c A (k + 1) (bulkStep c k W) st' := by
  obtain ⟨W1, hW1⟩ : ∃ W1 : World m, W1 = fun r => dynM c k r (bulkCour c (fun r => syncCour c (k + 1) r (W r)) r) := ⟨_, rfl⟩
  have hc : ∀ r, (bulkCour c (fun r => syncCour c (k + 1) r (W r)) r) = { W r with cour := inUse c A (k + 1) r } := by
    intro r
    rw [bulkCour_eq hs hd hw]
    have e : (fun r => (syncCour c (k + 1) r (W r)).cour) = passed (fun r => c.user r (k + 1)) (inUse c A k) := by
      funext r
      rw [sync_cour, h.cour r]; rfl
    rw [e, sync_eq]
    rfl
  have hr : Repr c W1 (advance D k (inUse c A (k + 1)) st) := by
    refine ⟨h.repr.x0, h.repr.x1, fun r => ?_, h.repr.max, h.repr.openL, h.repr.openR, fun r => ?_, fun r => ?_, fun r hl => ?_, fun r hl => ?_⟩
    · rw [hW1]; dsimp only; rw [hc]; exact h.repr.cap r
    · obtain ⟨f1, f2⟩ := hD r k (inUse c A (k + 1) r) ⟨(W r).n, (W r).v⟩ (st r).sds (h.repr.holds r).n (h.repr.holds r).v
      rw [hW1]; dsimp only; rw [hc]
      refine ⟨?_, f1, f2⟩
      show ((c.dyn r k (inUse c A (k + 1) r) ⟨(W r).n, (W r).v⟩).n).length = _
      rw [f1, List.length_map]; rfl
    · rw [hW1]; dsimp only; rw [hc]; exact h.repr.err r
    · rw [hW1]; dsimp only; rw [hc]; exact h.repr.lftX1 r hl
    · rw [hW1]; dsimp only; rw [hc]; exact h.repr.rgtX0 r hl
  have hcour : ∀ r, (W1 r).cour = inUse c A (k + 1) r := by intro r; rw [hW1]; dsimp only; rw [hc]; rfl
  unfold specStep
  cases ha : c.adve k
  · simp only [Bool.false_eq_true, if_false]
    have e : bulkStep c k W = fun r => postM c (bcndM c r (W1 r)) := by
      unfold bulkStep; rw [hW1]; simp only [ha, Bool.false_eq_true, if_false]
    rw [e]
    exact ⟨stay_repr hj hr, fun r => hcour r⟩
  · simp only [if_true]
    have e : bulkStep c k W = fun r => postM c (bulkExch c (fun r => bcndM c r (W1 r)) r) := by
      unfold bulkStep; rw [hW1]; simp only [ha, if_true]
    rw [e]
    have := exchange_repr hm hj hx hr
    cases hex : exchange (advance D k (inUse c A (k + 1)) st) with
    | none => rw [hex] at this; exact this
    | some st' =>
      rw [hex] at this
      refine ⟨this, fun r => ?_⟩
      show (bulkExch c (fun r => bcndM c r (W1 r)) r).cour = _
      rw [cour_exch]
      exact hcour r

private theorem bulkSteps_succ (k j : ℕ) (W : World m) : bulkSteps c k (j + 1) W = bulkStep c (k + j) (bulkSteps c k j W) := by
  induction j generalizing k W with
  | zero => rfl
  | succ j ih =>
    show bulkSteps c (k + 1) (j + 1) (bulkStep c k W) = _
    rw [ih, show k + 1 + j = k + (j + 1) by omega]; rfl

/-- the run of all processes together computes the specification -/
theorem bulkRun_spec (hm : 0 < m) (hj : c.jx < c.nv) (hx : ∀ r, c.x0 r ≤ c.x1 r) (hs : c.SameCols) (hd : c.SameDims) (hw : Wide c)
    {D : Law m} (hD : Follows c D) {W : World m} {st : Fin (m + 1) → Rank} (h : Begins c W st) (K : ℕ) :
    match specRun c.adve D (inUse c (fun r => (W r).cour)) K st with
    | none => ∃ r, (bulkRun c K W r).err = true
    | some st' => Repr c (bulkRun c K W) st' ∧ ∀ r, (bulkRun c K W r).cour = inUse c (fun r => (W r).cour) K r := by
  obtain ⟨W0, hW0⟩ : ∃ W0, W0 = bulkDom c (bulkCour c (fun r => syncCour c 0 r (W r))) := ⟨_, rfl⟩
  have h0 : InRun c (fun r => (W r).cour) 0 W0 st := by
    have hc : ∀ r, (bulkCour c (fun r => syncCour c 0 r (W r)) r) = { W r with cour := inUse c (fun r => (W r).cour) 0 r } := by
      intro r
      rw [bulkCour_eq hs hd hw]
      have e : (fun r => (syncCour c 0 r (W r)).cour) = passed (fun r => c.user r 0) (fun r => (W r).cour) := by
        funext r
        rw [sync_cour]; rfl
      rw [e, sync_eq]
      rfl
    have e0 : ∀ r, W0 r = { W r with
        cour := inUse c (fun r => (W r).cour) 0 r
        lftX1 := if c.linkL r then c.x1 (lftRank r) else (W r).lftX1
        rgtX0 := if c.linkR r then c.x0 (rgtRank r) else (W r).rgtX0 } := by
      intro r; rw [hW0]; unfold bulkDom; rw [hc]
    refine ⟨⟨h.x0, h.x1, fun r => by rw [e0]; exact h.cap r, h.max, h.openL, h.openR, fun r => ?_, fun r => by rw [e0]; exact h.err r,
      fun r hl => by rw [e0, hl]; rfl, fun r hl => by rw [e0, hl]; rfl⟩, fun r => by rw [e0]⟩
    rw [e0]
    exact ⟨(h.holds r).nPart, (h.holds r).n, (h.holds r).v⟩
  have e : bulkRun c K W = bulkSteps c 0 K W0 := by rw [hW0]; rfl
  rw [e]
  clear e
  have key : match specRun c.adve D (inUse c (fun r => (W r).cour)) K st with
    | none => ∃ r, (bulkSteps c 0 K W0 r).err = true
    | some st' => InRun c (fun r => (W r).cour) K (bulkSteps c 0 K W0) st' := by
    induction K with
    | zero => exact h0
    | succ K ih =>
      rw [bulkSteps_succ, Nat.zero_add]
      show match (specRun c.adve D (inUse c (fun r => (W r).cour)) K st).bind (specStep c.adve D (inUse c (fun r => (W r).cour)) K) with
        | none => _ | some st' => _
      cases hK : specRun c.adve D (inUse c (fun r => (W r).cour)) K st with
      | none =>
        rw [hK] at ih
        obtain ⟨r, hr⟩ := ih
        exact ⟨r, err_step K hr hs hd hw⟩
      | some st' =>
        rw [hK] at ih
        exact inrun_step hm hj hx hs hd hw hD K ih
  cases hK : specRun c.adve D (inUse c (fun r => (W r).cour)) K st with
  | none => rw [hK] at key; exact key
  | some st' => rw [hK] at key; exact ⟨key.repr, key.cour⟩

end proof

end LCP.Mpi
