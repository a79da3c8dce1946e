import Verif.Mpi.Determinacy

/-!
# A static discipline that keeps all reachable states safe

A program is checked statement by statement with the list of the requests that may still be open.  A buffer may be touched if
no request that uses it may be open, or if the process has meanwhile received a message that its partner sends only after having taken the
message in question.
-/
namespace LCP.Mpi

variable {R T Q P M : Type} [DecidableEq R] [DecidableEq T] [DecidableEq Q]

/-- a request that may be open -/
inductive Ent (R T Q P M : Type) where
  | snd (q : Q) (b : R) (t : T) (rd : M → P)
  | rcv (q : Q) (a : R) (t : T) (wr : P → M → M)

def Ent.q : Ent R T Q P M → Q
  | .snd q _ _ _ => q
  | .rcv q _ _ _ => q

/-- those that are receives from `a` with tag `t` -/
def rcvs (a : R) (t : T) (L : List (Ent R T Q P M)) : List (Q × (P → M → M)) :=
  L.filterMap (fun e => match e with
    | .rcv q a' t' wr => if a' = a ∧ t' = t then some (q, wr) else none
    | .snd _ _ _ _ => none)

/-- number of sends to `b` with tag `t` in a program -/
def nS (b : R) (t : T) : List (Instr R T Q P M) → ℕ
  | [] => 0
  | .isend _ b' t' _ :: k => (if b' = b ∧ t' = t then 1 else 0) + nS b t k
  | _ :: k => nS b t k

/-- number of receives from `a` with tag `t` in a program -/
def nR (a : R) (t : T) : List (Instr R T Q P M) → ℕ
  | [] => 0
  | .irecv _ a' t' _ :: k => (if a' = a ∧ t' = t then 1 else 0) + nR a t k
  | _ :: k => nR a t k

/-- requests that may be open after a statement -/
def next (L : List (Ent R T Q P M)) : Instr R T Q P M → List (Ent R T Q P M)
  | .loc _ => L
  | .isend q b t rd => L ++ [.snd q b t rd]
  | .irecv q a t wr => L ++ [.rcv q a t wr]
  | .wait q => L.filter (fun e => e.q ≠ q)

/-- predicates on the places in programs -/
abbrev Place (R T Q P M : Type) := R → List (Ent R T Q P M) → List (Instr R T Q P M) → Prop

/-- the message sent by `self` to `b` with tag `c` has been taken whenever `self` is at the place `L`, `k`: all places `L'`, `k'` of
`b`'s program (those with `ψ`) from which not more is still to be sent than `self` still expects are behind the receive in question -/
def Covered (ψ : Place R T Q P M) (self b : R) (c : T) (L : List (Ent R T Q P M)) (k : List (Instr R T Q P M)) : Prop :=
  b ≠ self ∧ ∀ L' k', ψ b L' k' → (∀ n, nS self n k' ≤ (rcvs b n L).length + nR b n k) →
    (rcvs self c L').length + nR self c k' ≤ nS b c k

/-- the statement keeps off the buffers of requests that may be open -/
def Ok (ψ : Place R T Q P M) (self : R) (L : List (Ent R T Q P M)) (k : List (Instr R T Q P M)) : Instr R T Q P M → Prop
  | .loc f => ∀ e ∈ L, match e with
      | .snd _ b t rd => (∀ m, rd (f m) = rd m) ∨ Covered ψ self b t L k
      | .rcv _ _ _ wr => ∀ p m, f (wr p m) = wr p (f m)
  | .isend q _ _ rd => ∀ e ∈ L, e.q ≠ q ∧ match e with
      | .snd _ _ _ _ => True
      | .rcv _ _ _ wr => ∀ p m, rd (wr p m) = rd m
  | .irecv q a t wr => ∀ e ∈ L, e.q ≠ q ∧ match e with
      | .snd _ _ _ rd => ∀ p m, rd (wr p m) = rd m
      | .rcv _ a' t' wr' => (a', t') ≠ (a, t) → ∀ p p' m, wr p (wr' p' m) = wr' p' (wr p m)
  | .wait _ => True

/-- the whole program is checked, and `ψ` holds at all its places -/
def Chk (ψ : Place R T Q P M) (self : R) : List (Ent R T Q P M) → List (Instr R T Q P M) → Prop
  | L, [] => ψ self L []
  | L, i :: k => ψ self L (i :: k) ∧ Ok ψ self L k i ∧ Chk ψ self (next L i) k

/-- `L` lists the open requests of a process (and maybe others) -/
structure Tracked (l : Loc R T Q P M) (L : List (Ent R T Q P M)) : Prop where
  snd : ∀ b t q rd, Msg.user q rd ∈ l.out (b, t) → Ent.snd q b t rd ∈ L
  rcv : ∀ a t, (l.inn (a, t)).Sublist (rcvs a t L)

structure PCompat (L : List (Ent R T Q P M)) : Prop where
  sr : ∀ q b t rd, Ent.snd q b t rd ∈ L → ∀ q' a t' wr, Ent.rcv q' a t' wr ∈ L → ∀ p m, rd (wr p m) = rd m
  rr : ∀ q a t wr, Ent.rcv q a t wr ∈ L → ∀ q' a' t' wr', Ent.rcv q' a' t' wr' ∈ L → (a, t) ≠ (a', t') →
    ∀ p p' m, wr p (wr' p' m) = wr' p' (wr p m)

/-- on every channel as many messages are still to come as are still to be taken -/
def Balance (s : State R T Q P M) : Prop :=
  ∀ a b t, ((s.loc a).out (b, t)).length + (s.net (a, b, t)).length + nS b t (s.loc a).prog
    = ((s.loc b).inn (a, t)).length + nR a t (s.loc b).prog

/-- invariant of disciplined programs -/
def Inv (ψ : Place R T Q P M) (s : State R T Q P M) : Prop :=
  (∃ L : R → List (Ent R T Q P M), ∀ r, Tracked (s.loc r) (L r) ∧ PCompat (L r) ∧ Chk ψ r (L r) (s.loc r).prog) ∧ Balance s

omit [DecidableEq Q] in
theorem mem_rcvs {a : R} {t : T} {L : List (Ent R T Q P M)} {q wr} : (q, wr) ∈ rcvs a t L ↔ Ent.rcv q a t wr ∈ L := by
  simp only [rcvs, List.mem_filterMap]
  constructor
  · rintro ⟨e, he, h⟩
    cases e with
    | snd => simp at h
    | rcv q' a' t' wr' =>
      simp only [Option.ite_none_right_eq_some, Option.some.injEq, Prod.mk.injEq] at h
      obtain ⟨⟨rfl, rfl⟩, rfl, rfl⟩ := h
      exact he
  · intro h
    exact ⟨_, h, by simp⟩

theorem Chk.place {ψ : Place R T Q P M} {r L k} (h : Chk ψ r L k) : ψ r L k := by
  cases k with
  | nil => exact h
  | cons i k => exact h.1

omit [DecidableEq Q] in
theorem rcvs_append (a : R) (t : T) (L L' : List (Ent R T Q P M)) : rcvs a t (L ++ L') = rcvs a t L ++ rcvs a t L' := by
  simp [rcvs]

theorem rcvs_filter (a : R) (t : T) (L : List (Ent R T Q P M)) (q : Q) :
    rcvs a t (L.filter (fun e => e.q ≠ q)) = (rcvs a t L).filter (fun e => e.1 ≠ q) := by
  induction L with
  | nil => rfl
  | cons e L ih =>
    cases e with
    | snd q' b t' rd =>
      by_cases hq : q' = q
      · simpa [rcvs, List.filter_cons, Ent.q, hq] using ih
      · simpa [rcvs, List.filter_cons, Ent.q, hq] using ih
    | rcv q' a' t' wr =>
      by_cases hc : a' = a ∧ t' = t <;> by_cases hq : q' = q <;>
        simpa [rcvs, List.filter_cons, Ent.q, hq, hc, List.filterMap_cons] using ih

/-- disciplined programs only reach safe states -/
theorem Inv.safe {ψ : Place R T Q P M} {s : State R T Q P M} (h : Inv ψ s) : Safe s := by
  obtain ⟨⟨L, hL⟩, hB⟩ := h
  intro r
  obtain ⟨ht, hc, hk⟩ := hL r
  have rm : ∀ c q wr, (q, wr) ∈ (s.loc r).inn c → Ent.rcv q c.1 c.2 wr ∈ L r := fun c q wr h =>
    mem_rcvs.1 ((ht.rcv c.1 c.2).subset h)
  constructor
  · intro c q rd h1 c' q' wr h2 p m
    exact hc.sr _ _ _ _ (ht.snd c.1 c.2 q rd h1) _ _ _ _ (rm _ _ _ h2) p m
  · intro c c' hne q wr q' wr' h1 h2 p p' m
    exact hc.rr _ _ _ _ (rm _ _ _ h1) _ _ _ _ (rm _ _ _ h2) (fun e => hne (Prod.ext (congrArg Prod.fst e) (congrArg Prod.snd e))) p p' m
  · intro f k hp c q rd h1 m
    rw [hp] at hk
    have hok := hk.2.1 _ (ht.snd c.1 c.2 q rd h1)
    rcases hok with hok | ⟨hne, hcov⟩
    · exact hok m
    · exfalso
      obtain ⟨ht', _, hk'⟩ := hL c.1
      have := hcov _ _ hk'.place (fun n => by
        have hb := hB c.1 r n
        rw [hp] at hb
        have := (ht.rcv c.1 n).length_le
        simp only [nR] at hb
        omega)
      have hb := hB r c.1 c.2
      rw [hp] at hb
      have hl := (ht'.rcv r c.2).length_le
      have : 0 < ((s.loc r).out (c.1, c.2)).length := List.length_pos_of_mem h1
      simp only [nS] at hb
      omega
  · intro f k hp c q wr h1 p m
    rw [hp] at hk
    exact hk.2.1 _ (rm _ _ _ h1) p m

/-- one process: how the static picture follows a step -/
private theorem step_local {ψ : Place R T Q P M} {r : R} {l l' : Loc R T Q P M} {α L} (h : LStep l α l')
    (ht : Tracked l L) (hc : PCompat L) (hk : Chk ψ r L l.prog) :
    ∃ L', Tracked l' L' ∧ PCompat L' ∧ Chk ψ r L' l'.prog := by
  cases h with
  | @loc f k h =>
    rw [h] at hk
    exact ⟨L, ⟨ht.snd, ht.rcv⟩, hc, hk.2.2⟩
  | @isend q b t rd k h =>
    rw [h] at hk
    refine ⟨_, ⟨?_, ?_⟩, ?_, hk.2.2⟩
    · intro b' t' q' rd' hm
      by_cases hch : (b', t') = (b, t)
      · cases hch
        simp only [Function.update_self, List.mem_append, List.mem_singleton, Msg.user.injEq] at hm
        rcases hm with hm | ⟨rfl, rfl⟩
        · exact List.mem_append_left _ (ht.snd _ _ _ _ hm)
        · simp [next]
      · simp only [Function.update_of_ne hch] at hm
        exact List.mem_append_left _ (ht.snd _ _ _ _ hm)
    · intro a t'
      simp only [next, rcvs_append]
      exact (ht.rcv a t').trans (List.sublist_append_left _ _)
    · have hok := hk.2.1
      constructor
      · intro q1 b1 t1 rd1 h1 q2 a2 t2 wr2 h2 p m
        simp only [next, List.mem_append, List.mem_singleton, reduceCtorEq, or_false, Ent.snd.injEq] at h1 h2
        rcases h1 with h1 | ⟨rfl, rfl, rfl, rfl⟩
        · exact hc.sr _ _ _ _ h1 _ _ _ _ h2 p m
        · exact (hok _ h2).2 p m
      · intro q1 b1 t1 rd1 h1 q2 a2 t2 wr2 h2
        simp only [next, List.mem_append, List.mem_singleton, reduceCtorEq, or_false] at h1 h2
        exact hc.rr _ _ _ _ h1 _ _ _ _ h2
  | @irecv q a t wr k h =>
    rw [h] at hk
    refine ⟨_, ⟨?_, ?_⟩, ?_, hk.2.2⟩
    · intro b' t' q' rd' hm
      exact List.mem_append_left _ (ht.snd _ _ _ _ hm)
    · intro a' t'
      by_cases hch : (a', t') = (a, t)
      · cases hch
        simp only [Function.update_self, next, rcvs_append]
        refine (ht.rcv a t).append ?_
        simp [rcvs]
      · simp only [Function.update_of_ne hch, next, rcvs_append]
        exact (ht.rcv a' t').trans (List.sublist_append_left _ _)
    · have hok := hk.2.1
      constructor
      · intro q1 b1 t1 rd1 h1 q2 a2 t2 wr2 h2 p m
        simp only [next, List.mem_append, List.mem_singleton, reduceCtorEq, or_false, Ent.rcv.injEq] at h1 h2
        rcases h2 with h2 | ⟨rfl, rfl, rfl, rfl⟩
        · exact hc.sr _ _ _ _ h1 _ _ _ _ h2 p m
        · exact (hok _ h1).2 p m
      · intro q1 a1 t1 wr1 h1 q2 a2 t2 wr2 h2 hne p p' m
        simp only [next, List.mem_append, List.mem_singleton, Ent.rcv.injEq] at h1 h2
        rcases h1 with h1 | ⟨rfl, rfl, rfl, rfl⟩ <;> rcases h2 with h2 | ⟨rfl, rfl, rfl, rfl⟩
        · exact hc.rr _ _ _ _ h1 _ _ _ _ h2 hne p p' m
        · exact ((hok _ h1).2 hne p' p m).symm
        · exact (hok _ h2).2 (Ne.symm hne) p p' m
        · exact absurd rfl hne
  | @wait q k h ho hi =>
    rw [h] at hk
    refine ⟨_, ⟨?_, ?_⟩, ?_, hk.2.2⟩
    · intro b t q' rd hm
      simp only [next, List.mem_filter, ne_eq, decide_not, Bool.not_eq_eq_eq_not, Bool.not_true, decide_eq_false_iff_not]
      refine ⟨ht.snd _ _ _ _ hm, ?_⟩
      rintro rfl
      exact ho _ _ hm
    · intro a t
      have e : (l.inn (a, t)) = (l.inn (a, t)).filter (fun e => e.1 ≠ q) := by
        symm
        rw [List.filter_eq_self]
        rintro ⟨q', wr⟩ hm
        simp only [ne_eq, decide_not, Bool.not_eq_eq_eq_not, Bool.not_true, decide_eq_false_iff_not]
        rintro rfl
        exact hi _ _ hm
      simp only [next, rcvs_filter]
      rw [e]
      exact (ht.rcv a t).filter _
    · constructor
      · intro q1 b1 t1 rd1 h1 q2 a2 t2 wr2 h2
        exact hc.sr _ _ _ _ (List.mem_filter.1 h1).1 _ _ _ _ (List.mem_filter.1 h2).1
      · intro q1 b1 t1 rd1 h1 q2 a2 t2 wr2 h2
        exact hc.rr _ _ _ _ (List.mem_filter.1 h1).1 _ _ _ _ (List.mem_filter.1 h2).1
  | @cap b t q z h =>
    refine ⟨L, ⟨?_, ht.rcv⟩, hc, hk⟩
    intro b' t' q' rd' hm
    by_cases hch : (b', t') = (b, t)
    · cases hch
      simp only [Function.update_self] at hm
      exact ht.snd _ _ _ _ (capQ_mem h hm)
    · simp only [Function.update_of_ne hch] at hm
      exact ht.snd _ _ _ _ hm
  | @snd b t p z h =>
    refine ⟨L, ⟨?_, ht.rcv⟩, hc, hk⟩
    intro b' t' q' rd' hm
    by_cases hch : (b', t') = (b, t)
    · cases hch
      simp only [Function.update_self] at hm
      exact ht.snd _ _ _ _ (by rw [h]; exact List.mem_cons_of_mem _ hm)
    · simp only [Function.update_of_ne hch] at hm
      exact ht.snd _ _ _ _ hm
  | @dlv a t p q wr z h =>
    refine ⟨L, ⟨ht.snd, ?_⟩, hc, hk⟩
    intro a' t'
    by_cases hch : (a', t') = (a, t)
    · cases hch
      simp only [Function.update_self]
      refine List.Sublist.trans ?_ (ht.rcv a t)
      rw [h]
      exact List.sublist_cons_self _ _
    · simp only [Function.update_of_ne hch]
      exact ht.rcv a' t'

/-- what a process contributes to the balance -/
private theorem bal_local {l l' : Loc R T Q P M} {α} (h : LStep l α l') (b : R) (t : T) :
    ((l'.out (b, t)).length + nS b t l'.prog + (match α with | .s b' t' _ => if (b', t') = (b, t) then 1 else 0 | _ => 0)
      = (l.out (b, t)).length + nS b t l.prog) ∧
    ((l'.inn (b, t)).length + nR b t l'.prog + (match α with | .d a' t' _ => if (a', t') = (b, t) then 1 else 0 | _ => 0)
      = (l.inn (b, t)).length + nR b t l.prog) := by
  cases h with
  | loc h => simp [h, nS, nR]
  | wait h => simp [h, nS, nR]
  | @isend q b' t' rd k h =>
    by_cases hch : (b', t') = (b, t)
    · cases hch; simp [h, nS, nR]; omega
    · have h2 : ¬ (b' = b ∧ t' = t) := by simpa using hch
      simp [h, nS, nR, h2, Function.update_of_ne (Ne.symm hch)]
  | @irecv q b' t' rd k h =>
    by_cases hch : (b', t') = (b, t)
    · cases hch; simp [h, nS, nR]; omega
    · have h2 : ¬ (b' = b ∧ t' = t) := by simpa using hch
      simp [h, nS, nR, h2, Function.update_of_ne (Ne.symm hch)]
  | @cap b' t' q z h =>
    by_cases hch : (b', t') = (b, t)
    · cases hch; simp [capQ_length h]
    · simp [Function.update_of_ne (Ne.symm hch)]
  | @snd b' t' q z h =>
    by_cases hch : (b', t') = (b, t)
    · cases hch; simp [h]; omega
    · simp [hch, Function.update_of_ne (Ne.symm hch)]
  | @dlv b' t' p q wr z h =>
    by_cases hch : (b', t') = (b, t)
    · cases hch; simp [h]; omega
    · simp [hch, Function.update_of_ne (Ne.symm hch)]

/-- the invariant is kept -/
theorem Inv.step {ψ : Place R T Q P M} {s s' : State R T Q P M} {α} (h : Inv ψ s) (hs : Step s α s') : Inv ψ s' := by
  obtain ⟨⟨L, hL⟩, hB⟩ := h
  have key : ∀ {r l' β}, LStep (s.loc r) β l' → ∃ L' : R → List (Ent R T Q P M), ∀ r', Tracked (Function.update s.loc r l' r') (L' r') ∧
      PCompat (L' r') ∧ Chk ψ r' (L' r') (Function.update s.loc r l' r').prog := by
    intro r l' β hl
    obtain ⟨L1, h1, h2, h3⟩ := step_local hl (hL r).1 (hL r).2.1 (hL r).2.2
    refine ⟨Function.update L r L1, fun r' => ?_⟩
    by_cases hr : r' = r
    · subst hr; simp only [Function.update_self]; exact ⟨h1, h2, h3⟩
    · simp only [Function.update_of_ne hr]; exact hL r'
  have out0 : ∀ {r l' β}, LStep (s.loc r) β l' → (∀ b t p, β ≠ .s b t p) → ∀ a b t,
      ((Function.update s.loc r l' a).out (b, t)).length + nS b t (Function.update s.loc r l' a).prog
        = ((s.loc a).out (b, t)).length + nS b t (s.loc a).prog := by
    intro r l' β hl hβ a b t
    by_cases hr : a = r
    · subst hr
      rw [Function.update_self]
      have := (bal_local hl b t).1
      cases β with
      | s b t p => exact absurd rfl (hβ _ _ _)
      | x | c | d => simpa using this
    · rw [Function.update_of_ne hr]
  have in0 : ∀ {r l' β}, LStep (s.loc r) β l' → (∀ b t p, β ≠ .d b t p) → ∀ a b t,
      ((Function.update s.loc r l' a).inn (b, t)).length + nR b t (Function.update s.loc r l' a).prog
        = ((s.loc a).inn (b, t)).length + nR b t (s.loc a).prog := by
    intro r l' β hl hβ a b t
    by_cases hr : a = r
    · subst hr
      rw [Function.update_self]
      have := (bal_local hl b t).2
      cases β with
      | d b t p => exact absurd rfl (hβ _ _ _)
      | x | c | s => simpa using this
    · rw [Function.update_of_ne hr]
  cases hs with
  | exec hl =>
    refine ⟨key hl, fun a b t => ?_⟩
    have h1 := out0 hl (by simp) a b t
    have h2 := in0 hl (by simp) b a t
    have h3 := hB a b t
    dsimp only; omega
  | cap hl =>
    refine ⟨key hl, fun a b t => ?_⟩
    have h1 := out0 hl (by simp) a b t
    have h2 := in0 hl (by simp) b a t
    have h3 := hB a b t
    dsimp only; omega
  | @snd a0 b0 t0 p l' hl =>
    refine ⟨key hl, fun a b t => ?_⟩
    have h2 := in0 hl (by simp) b a t
    have h3 := hB a b t
    dsimp only
    by_cases hch : (a, b, t) = (a0, b0, t0)
    · cases hch
      have := (bal_local hl b0 t0).1
      simp only [if_true] at this
      simp only [Function.update_self, List.length_append, List.length_singleton]
      omega
    · rw [Function.update_of_ne hch]
      by_cases ha : a = a0
      · subst ha
        have := (bal_local hl b t).1
        have hne : ¬ (b0, t0) = (b, t) := by rintro ⟨⟩; exact hch rfl
        simp only [if_neg hne] at this
        simp only [Function.update_self]
        omega
      · rw [Function.update_of_ne ha]; omega
  | @dlv a0 b0 t0 p z l' hn hl =>
    refine ⟨key hl, fun a b t => ?_⟩
    have h1 := out0 hl (by simp) a b t
    have h3 := hB a b t
    dsimp only
    by_cases hch : (a, b, t) = (a0, b0, t0)
    · cases hch
      have := (bal_local hl a0 t0).2
      simp only [if_true] at this
      rw [hn] at h3
      simp only [Function.update_self, List.length_cons] at h3 ⊢
      omega
    · rw [Function.update_of_ne hch]
      by_cases hb : b = b0
      · subst hb
        have := (bal_local hl a t).2
        have hne : ¬ (a0, t0) = (a, t) := by rintro ⟨⟩; exact hch rfl
        simp only [if_neg hne] at this
        simp only [Function.update_self]
        omega
      · rw [Function.update_of_ne hb]; omega

/-- the initial state: nothing posted, nothing on its way -/
def start (prog : R → List (Instr R T Q P M)) (mem : R → M) : State R T Q P M :=
  { loc := fun r => { prog := prog r, mem := mem r, out := fun _ => [], inn := fun _ => [] }, net := fun _ => [] }

theorem Inv.start {ψ : Place R T Q P M} {prog : R → List (Instr R T Q P M)} (mem : R → M) (h : ∀ r, Chk ψ r [] (prog r))
    (hb : ∀ a b t, nS b t (prog a) = nR a t (prog b)) : Inv ψ (start prog mem) := by
  refine ⟨⟨fun _ => [], fun r => ⟨⟨by simp [Mpi.start], by simp [Mpi.start]⟩, ⟨by simp, by simp⟩, h r⟩⟩, fun a b t => ?_⟩
  simpa [Mpi.start] using hb a b t

/-- **Disciplined programs**: if one schedule of due steps runs to completion, every schedule can be continued to the same final state and
none is longer -/
theorem disciplined {ψ : Place R T Q P M} {prog : R → List (Instr R T Q P M)} {mem : R → M} (h : ∀ r, Chk ψ r [] (prog r))
    (hb : ∀ a b t, nS b t (prog a) = nR a t (prog b)) {σ t} (hr : DueRun (start prog mem) σ t) (ht : Final t)
    {ρ u} (hρ : Run (start prog mem) ρ u) :
    ρ.length ≤ σ.length ∧ (∃ σ', DueRun u σ' t) ∧ ((∀ α u', Due u α → ¬ Step u α u') → u = t) := by
  have hi := Inv.start mem h hb
  obtain ⟨σ', h1, h2⟩ := all_schedules (Inv ψ) (fun _ _ _ a b => a.step b) (fun _ a => a.safe) hi hr ht hρ
  exact ⟨by omega, ⟨σ', h1⟩, stops_at (Inv ψ) (fun _ _ _ a b => a.step b) (fun _ a => a.safe) hi hr ht hρ⟩

end LCP.Mpi
