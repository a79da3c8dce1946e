import Verif.Mpi.CanonExch
import Mathlib.Tactic.Ring
import Mathlib.Tactic.IntervalCases

/-!
# Numbers of messages in the programs
-/
set_option linter.unusedSimpArgs false

namespace LCP.Mpi
open LCP.E2L LCP.Grid LCP.Distmem

section general
variable {R T Q P M : Type} [DecidableEq R] [DecidableEq T]


theorem nS_append (b : R) (t : T) (p q : List (Instr R T Q P M)) : nS b t (p ++ q) = nS b t p + nS b t q := by
  induction p with
  | nil => simp [nS]
  | cons i p ih => cases i <;> (simp [nS, ih]; try omega)

theorem nR_append (b : R) (t : T) (p q : List (Instr R T Q P M)) : nR b t (p ++ q) = nR b t p + nR b t q := by
  induction p with
  | nil => simp [nR]
  | cons i p ih => cases i <;> (simp [nR, ih]; try omega)

end general

variable {m : ℕ}

/-- the indicator of a proposition -/
def ind (p : Prop) [Decidable p] : ℕ := if p then 1 else 0

theorem ind_congr {p q : Prop} [Decidable p] [Decidable q] (h : p ↔ q) : ind p = ind q := by
  unfold ind; by_cases hp : p
  · rw [if_pos hp, if_pos (h.1 hp)]
  · rw [if_neg hp, if_neg (fun hq => hp (h.2 hq))]

theorem ind_le (p : Prop) [Decidable p] : ind p ≤ 1 := by unfold ind; split <;> omega

theorem right_counts (c : Cfg m) (k : ℕ) (r : Fin (m + 1)) (co : Comp) (b : Fin (m + 1)) (t : ℕ) :
    nS b t (courRight c k r co) = ind (c.linkR r = true ∧ rgtRank r = b ∧ 1 * ctag co = t) ∧
    nR b t (courRight c k r co) = ind (c.linkL r = true ∧ lftRank r = b ∧ 1 * ctag co = t) := by
  unfold courRight ind
  cases hl : c.linkL r <;> cases hr : c.linkR r <;> simp [nS, nR]

theorem left_counts (c : Cfg m) (k : ℕ) (r : Fin (m + 1)) (co : Comp) (b : Fin (m + 1)) (t : ℕ) :
    nS b t (courLeft c k r co) = ind (c.linkL r = true ∧ lftRank r = b ∧ 2 * ctag co = t) ∧
    nR b t (courLeft c k r co) = ind (c.linkR r = true ∧ rgtRank r = b ∧ 2 * ctag co = t) := by
  unfold courLeft ind
  cases hl : c.linkL r <;> cases hr : c.linkR r <;> simp [nS, nR]

theorem dom_counts (c : Cfg m) (r : Fin (m + 1)) (b : Fin (m + 1)) (t : ℕ) :
    nS b t (domProg c r) = ind (c.linkR r = true ∧ rgtRank r = b ∧ 0 = t) + ind (c.linkL r = true ∧ lftRank r = b ∧ 1 = t) ∧
    nR b t (domProg c r) = ind (c.linkL r = true ∧ lftRank r = b ∧ 0 = t) + ind (c.linkR r = true ∧ rgtRank r = b ∧ 1 = t) := by
  unfold domProg ind
  cases hl : c.linkL r <;> cases hr : c.linkR r <;> simp [nS, nR]

theorem exch_counts (c : Cfg m) (r : Fin (m + 1)) (b : Fin (m + 1)) (t : ℕ) :
    nS b t (exchProg c r) = ind (c.linkL r = true ∧ lftRank r = b ∧ 0 = t) + ind (c.linkL r = true ∧ lftRank r = b ∧ 1 = t) +
      ind (c.linkR r = true ∧ rgtRank r = b ∧ 2 = t) + ind (c.linkR r = true ∧ rgtRank r = b ∧ 3 = t) ∧
    nR b t (exchProg c r) = ind (c.linkR r = true ∧ rgtRank r = b ∧ 0 = t) + ind (c.linkR r = true ∧ rgtRank r = b ∧ 1 = t) +
      ind (c.linkL r = true ∧ lftRank r = b ∧ 2 = t) + ind (c.linkL r = true ∧ lftRank r = b ∧ 3 = t) := by
  unfold exchProg ind
  cases hl : c.linkL r <;> cases hr : c.linkR r <;> (simp [nS, nR]; try omega)

/-- who is on the other side -/
theorem swap_iff (hm : 0 < m) (c : Cfg m) (a b : Fin (m + 1)) (p : Prop) :
    (c.linkR a = true ∧ rgtRank a = b ∧ p) ↔ (c.linkL b = true ∧ lftRank b = a ∧ p) := by
  constructor
  · rintro ⟨h1, rfl, h2⟩
    exact ⟨by rw [linkL_rgt hm]; exact h1, lft_rgt a, h2⟩
  · rintro ⟨h1, rfl, h2⟩
    exact ⟨by rw [linkR_lft hm]; exact h1, rgt_lft b, h2⟩

/-- messages sent by `a` to `b` and those expected by `b` from `a` -/
def Bal (p : Fin (m + 1) → List (I m)) : Prop := ∀ a b t, nS b t (p a) = nR a t (p b)

theorem Bal.append {p q : Fin (m + 1) → List (I m)} (hp : Bal p) (hq : Bal q) : Bal (fun r => p r ++ q r) := by
  intro a b t
  rw [nS_append, nR_append, hp, hq]

theorem Bal.nil : Bal (fun _ : Fin (m + 1) => ([] : List (I m))) := fun _ _ _ => rfl

theorem Bal.loc (f : Fin (m + 1) → Mem → Mem) : Bal (fun r => [Instr.loc (f r)]) := fun _ _ _ => rfl

theorem Bal.right (hm : 0 < m) (c : Cfg m) (k : ℕ) (co : Comp) : Bal (fun r => courRight c k r co) := fun a b t => by
  rw [(right_counts ..).1, (right_counts ..).2]; exact ind_congr (swap_iff hm c a b _)

theorem Bal.left (hm : 0 < m) (c : Cfg m) (k : ℕ) (co : Comp) : Bal (fun r => courLeft c k r co) := fun a b t => by
  rw [(left_counts ..).1, (left_counts ..).2]; exact (ind_congr (swap_iff hm c b a _)).symm

theorem Bal.flat {α : Type} (l : List α) {f : Fin (m + 1) → α → List (I m)} (h : ∀ x, Bal (fun r => f r x)) :
    Bal (fun r => l.flatMap (f r)) := by
  induction l with
  | nil => exact Bal.nil
  | cons x l ih => simp only [List.flatMap_cons]; exact (h x).append ih

theorem Bal.cour (hm : 0 < m) {c : Cfg m} (hd : c.SameDims) (k : ℕ) : Bal (courProg c k) := by
  have e : courProg c k = fun r => if c.h = 0 then [] else
      (comps (c.dims 0)).flatMap (courRight c k r) ++ (comps (c.dims 0)).flatMap (courLeft c k r) := by
    funext r; unfold courProg; rw [comps_eq hd]
  rw [e]
  by_cases h : c.h = 0
  · simp only [h, if_true]; exact Bal.nil
  · simp only [h, if_false]
    exact (Bal.flat _ (fun co => Bal.right hm c k co)).append (Bal.flat _ (fun co => Bal.left hm c k co))

theorem Bal.dom (hm : 0 < m) (c : Cfg m) : Bal (domProg c) := fun a b t => by
  rw [(dom_counts ..).1, (dom_counts ..).2, ind_congr (swap_iff hm c a b _), ← ind_congr (swap_iff hm c b a _)]

theorem Bal.exch (hm : 0 < m) (c : Cfg m) : Bal (exchProg c) := fun a b t => by
  rw [(exch_counts ..).1, (exch_counts ..).2, ind_congr (swap_iff hm c a b _), ind_congr (swap_iff hm c a b _),
    ← ind_congr (swap_iff hm c b a _), ← ind_congr (swap_iff hm c b a _)]

theorem Bal.step (hm : 0 < m) {c : Cfg m} (hd : c.SameDims) (k : ℕ) : Bal (stepProg c k) := by
  have hx : Bal (fun r => if c.adve k then exchProg c r else []) := by
    cases c.adve k
    · exact Bal.nil
    · exact Bal.exch hm c
  exact ((((Bal.loc _).append (Bal.cour hm hd _)).append ((Bal.loc _).append (Bal.loc _))).append hx).append (Bal.loc _)

theorem Bal.steps (hm : 0 < m) {c : Cfg m} (hd : c.SameDims) (k j : ℕ) : Bal (fun r => stepsProg c r k j) := by
  induction j generalizing k with
  | zero => exact Bal.nil
  | succ j ih => exact (Bal.step hm hd k).append (ih _)

/-- every message sent is received: on each channel as many sends as receives -/
theorem Bal.prog (hm : 0 < m) {c : Cfg m} (hd : c.SameDims) (K : ℕ) : Bal (prog c K) :=
  (((Bal.loc _).append (Bal.cour hm hd _)).append (Bal.dom hm c)).append (Bal.steps hm hd 0 K)

/-! ### Exact numbers on the channels that matter -/

theorem comps_cases (d : Dims) : comps d = [] ∨ comps d = [.x] ∨ comps d = [.x, .z] ∨ comps d = [.x, .z, .y] := by
  unfold comps
  by_cases h1 : d.nDims > 0 <;> by_cases h2 : d.nDims > 1 <;> by_cases h3 : d.nDims > 2 <;> simp [h1, h2, h3] <;> omega

/-- numbers of messages in one round of exchange of Courant numbers -/
theorem cour_counts (c : Cfg m) (k : ℕ) (r : Fin (m + 1)) (h : c.h ≠ 0) :
    (∀ b t, t < 4 → nS b t (courProg c k r) = 0 ∧ nR b t (courProg c k r) = 0) ∧
    (∀ co, nR (lftRank r) (1 * ctag co) (courProg c k r) ≤ 1 ∧ nR (rgtRank r) (2 * ctag co) (courProg c k r) ≤ 1) ∧
    (∀ co ∈ comps (c.dims r), (c.linkR r = true → nS (rgtRank r) (1 * ctag co) (courProg c k r) = 1) ∧
      (c.linkL r = true → nS (lftRank r) (2 * ctag co) (courProg c k r) = 1)) := by
  unfold courProg
  rw [if_neg h]
  rcases comps_cases (c.dims r) with e | e | e | e <;> rw [e] <;>
    simp only [List.flatMap_cons, List.flatMap_nil, nS_append, nR_append, nS, nR, (right_counts ..).1, (right_counts ..).2, (left_counts ..).1,
      (left_counts ..).2, List.append_nil, Nat.add_zero] <;> refine ⟨?_, ?_, ?_⟩
  all_goals first
    | (intro b t ht; interval_cases t <;> simp [ind, ctag])
    | (intro co; cases co <;> simp [ind, ctag] <;> (try split_ifs) <;> simp)

/-- numbers of messages in `j` time steps, on the channels that matter for Courant numbers -/
structure Counts (c : Cfg m) (r : Fin (m + 1)) (p : List (I m)) (j : ℕ) : Prop where
  s1 : c.linkL r = true → nS (lftRank r) 1 p = j
  s3 : c.linkR r = true → nS (rgtRank r) 3 p = j
  s0 : c.linkR r = true → nS (rgtRank r) 0 p = j * ind (c.linkL r = true ∧ lftRank r = rgtRank r)
  r1 : c.linkR r = true → nR (rgtRank r) 1 p = j
  r3 : c.linkL r = true → nR (lftRank r) 3 p = j
  r0 : c.linkL r = true → nR (lftRank r) 0 p = j * ind (c.linkR r = true ∧ rgtRank r = lftRank r)
  uL : ∀ co, nR (lftRank r) (1 * ctag co) p ≤ j
  uR : ∀ co, nR (rgtRank r) (2 * ctag co) p ≤ j
  cR : ∀ co ∈ comps (c.dims r), c.linkR r = true → nS (rgtRank r) (1 * ctag co) p = j
  cL : ∀ co ∈ comps (c.dims r), c.linkL r = true → nS (lftRank r) (2 * ctag co) p = j

theorem Counts.nil (c : Cfg m) (r : Fin (m + 1)) : Counts c r [] 0 := by
  constructor <;> simp [nS, nR]

theorem Counts.append {c : Cfg m} {r : Fin (m + 1)} {p q : List (I m)} {i j : ℕ} (hp : Counts c r p i) (hq : Counts c r q j) :
    Counts c r (p ++ q) (i + j) := by
  constructor
  · intro h; rw [nS_append, hp.s1 h, hq.s1 h]
  · intro h; rw [nS_append, hp.s3 h, hq.s3 h]
  · intro h; rw [nS_append, hp.s0 h, hq.s0 h]; ring
  · intro h; rw [nR_append, hp.r1 h, hq.r1 h]
  · intro h; rw [nR_append, hp.r3 h, hq.r3 h]
  · intro h; rw [nR_append, hp.r0 h, hq.r0 h]; ring
  · intro co; rw [nR_append]; exact Nat.add_le_add (hp.uL co) (hq.uL co)
  · intro co; rw [nR_append]; exact Nat.add_le_add (hp.uR co) (hq.uR co)
  · intro co hco h; rw [nS_append, hp.cR co hco h, hq.cR co hco h]
  · intro co hco h; rw [nS_append, hp.cL co hco h, hq.cL co hco h]

private theorem tag_ge (co : Comp) : 12331 ≤ ctag co := by cases co <;> decide

theorem Counts.step {c : Cfg m} (r : Fin (m + 1)) {k : ℕ} (h : c.h ≠ 0) (ha : c.adve k = true) : Counts c r (stepProg c k r) 1 := by
  obtain ⟨c1, c2, c3⟩ := cour_counts c (k + 1) r h
  have e1 := fun b t => exch_counts c r b t
  have es : ∀ b t, nS b t (stepProg c k r) = nS b t (courProg c (k + 1) r) + nS b t (exchProg c r) := by
    intro b t; simp only [stepProg, ha, if_true, nS_append, nS]; omega
  have er : ∀ b t, nR b t (stepProg c k r) = nR b t (courProg c (k + 1) r) + nR b t (exchProg c r) := by
    intro b t; simp only [stepProg, ha, if_true, nR_append, nR]; omega
  constructor
  · intro hl; rw [es, (c1 _ 1 (by omega)).1, (e1 _ _).1]; simp [ind, hl]
  · intro hl; rw [es, (c1 _ 3 (by omega)).1, (e1 _ _).1]; simp [ind, hl]
  · intro hl; rw [es, (c1 _ 0 (by omega)).1, (e1 _ _).1]; simp [ind, hl]
  · intro hl; rw [er, (c1 _ 1 (by omega)).2, (e1 _ _).2]; simp [ind, hl]
  · intro hl; rw [er, (c1 _ 3 (by omega)).2, (e1 _ _).2]; simp [ind, hl]
  · intro hl; rw [er, (c1 _ 0 (by omega)).2, (e1 _ _).2]; simp [ind, hl]
  · intro co; have := tag_ge co
    rw [er, (e1 _ _).2]
    have : nR (lftRank r) (1 * ctag co) (courProg c (k + 1) r) ≤ 1 := (c2 co).1
    have : ∀ n : ℕ, n < 4 → n ≠ 1 * ctag co := by intro n hn; omega
    simp only [ind, this 0 (by omega), this 1 (by omega), this 2 (by omega), this 3 (by omega), and_false, if_false]; omega
  · intro co; have := tag_ge co
    rw [er, (e1 _ _).2]
    have : nR (rgtRank r) (2 * ctag co) (courProg c (k + 1) r) ≤ 1 := (c2 co).2
    have : ∀ n : ℕ, n < 4 → n ≠ 2 * ctag co := by intro n hn; omega
    simp only [ind, this 0 (by omega), this 1 (by omega), this 2 (by omega), this 3 (by omega), and_false, if_false]; omega
  · intro co hco hl; have := tag_ge co
    rw [es, (e1 _ _).1, (c3 co hco).1 hl]
    have : ∀ n : ℕ, n < 4 → n ≠ 1 * ctag co := by intro n hn; omega
    simp only [ind, this 0 (by omega), this 1 (by omega), this 2 (by omega), this 3 (by omega), and_false, if_false]
  · intro co hco hl; have := tag_ge co
    rw [es, (e1 _ _).1, (c3 co hco).2 hl]
    have : ∀ n : ℕ, n < 4 → n ≠ 2 * ctag co := by intro n hn; omega
    simp only [ind, this 0 (by omega), this 1 (by omega), this 2 (by omega), this 3 (by omega), and_false, if_false]

theorem Counts.steps {c : Cfg m} (r : Fin (m + 1)) (h : c.h ≠ 0) (ha : ∀ k, c.adve k = true) (k j : ℕ) :
    Counts c r (stepsProg c r k j) j := by
  induction j generalizing k with
  | zero => exact Counts.nil c r
  | succ j ih =>
    have := (Counts.step r h (ha k)).append (ih (k + 1))
    rw [Nat.add_comm 1 j] at this; exact this

end LCP.Mpi
