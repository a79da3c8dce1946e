import Verif.Mpi.Sem

/-!
# Programs that keep off buffers in use have one result

If no process touches a buffer while a message may still be read from it or written to it, then steps of the system commute, and so one
complete schedule decides all of them.
-/
namespace LCP.Mpi

variable {R T Q P M : Type} [DecidableEq R] [DecidableEq T] [DecidableEq Q]

/-! ### Copying of messages -/

omit [DecidableEq Q] in
private theorem upd_mem {α β : Type} [DecidableEq α] {g : α → List β} {c c' : α} {z : List β} {e : β}
    (h : e ∈ Function.update g c z c') : e ∈ z ∨ e ∈ g c' := by
  by_cases hc : c' = c
  · subst hc; rw [Function.update_self] at h; exact Or.inl h
  · rw [Function.update_of_ne hc] at h; exact Or.inr h

theorem capQ_append {q : Q} {m : M} {k z l : List (Msg Q P M)} (h : capQ q m k = some z) :
    capQ q m (k ++ l) = some (z ++ l) ∧ pos q (k ++ l) = pos q k := by
  induction k generalizing z with
  | nil => simp [capQ] at h
  | cons e k ih =>
    cases e with
    | lib p =>
      simp only [capQ, Option.map_eq_some_iff] at h
      obtain ⟨y, hy, rfl⟩ := h
      simp [capQ, pos, ih hy]
    | user q' rd =>
      simp only [capQ] at h
      by_cases hq : q' = q
      · simp only [hq, if_true, Option.some.injEq] at h; subst h; simp [capQ, pos, hq]
      · simp only [hq, if_false, Option.map_eq_some_iff] at h
        obtain ⟨y, hy, rfl⟩ := h
        simp [capQ, pos, hq, ih hy]

theorem capQ_congr {q : Q} {m m' : M} {k : List (Msg Q P M)} (h : ∀ rd, Msg.user q rd ∈ k → rd m' = rd m) :
    capQ q m' k = capQ q m k := by
  induction k with
  | nil => rfl
  | cons e k ih =>
    have ih := ih (fun rd hr => h rd (List.mem_cons_of_mem _ hr))
    cases e with
    | lib p => simp [capQ, ih]
    | user q' rd =>
      by_cases hq : q' = q
      · subst hq; simp [capQ, h rd List.mem_cons_self]
      · simp [capQ, hq, ih]

theorem capQ_mem {q : Q} {m : M} {k z : List (Msg Q P M)} (h : capQ q m k = some z) {q' rd} (hm : Msg.user q' rd ∈ z) :
    Msg.user q' rd ∈ k := by
  induction k generalizing z with
  | nil => simp [capQ] at h
  | cons e k ih =>
    cases e with
    | lib p =>
      simp only [capQ, Option.map_eq_some_iff] at h
      obtain ⟨y, hy, rfl⟩ := h
      simp only [List.mem_cons, reduceCtorEq, false_or] at hm ⊢
      exact ih hy hm
    | user q'' rd' =>
      simp only [capQ] at h
      by_cases hq : q'' = q
      · simp only [hq, if_true, Option.some.injEq] at h; subst h
        simp only [List.mem_cons, reduceCtorEq, false_or] at hm
        exact List.mem_cons_of_mem _ hm
      · simp only [hq, if_false, Option.map_eq_some_iff] at h
        obtain ⟨y, hy, rfl⟩ := h
        rcases List.mem_cons.1 hm with h1 | h1
        · rw [h1]; exact List.mem_cons_self
        · exact List.mem_cons_of_mem _ (ih hy h1)

theorem capQ_length {q : Q} {m : M} {k z : List (Msg Q P M)} (h : capQ q m k = some z) : z.length = k.length := by
  induction k generalizing z with
  | nil => simp [capQ] at h
  | cons e k ih =>
    cases e with
    | lib p =>
      simp only [capQ, Option.map_eq_some_iff] at h
      obtain ⟨y, hy, rfl⟩ := h
      simp [ih hy]
    | user q'' rd' =>
      simp only [capQ] at h
      by_cases hq : q'' = q
      · simp only [hq, if_true, Option.some.injEq] at h; subst h; rfl
      · simp only [hq, if_false, Option.map_eq_some_iff] at h
        obtain ⟨y, hy, rfl⟩ := h
        simp [ih hy]

theorem capQ_comm {q q' : Q} (hne : q ≠ q') {m : M} {k z z' : List (Msg Q P M)} (h : capQ q m k = some z)
    (h' : capQ q' m k = some z') :
    ∃ w, capQ q' m z = some w ∧ capQ q m z' = some w ∧ pos q z' = pos q k := by
  induction k generalizing z z' with
  | nil => simp [capQ] at h
  | cons e k ih =>
    cases e with
    | lib p =>
      simp only [capQ, Option.map_eq_some_iff] at h h'
      obtain ⟨y, hy, rfl⟩ := h
      obtain ⟨y', hy', rfl⟩ := h'
      obtain ⟨w, h1, h2, h3⟩ := ih hy hy'
      exact ⟨.lib p :: w, by simp [capQ, h1], by simp [capQ, h2], by simp [pos, h3]⟩
    | user q'' rd =>
      simp only [capQ] at h h'
      by_cases hq : q'' = q
      · subst hq
        simp only [if_true, Option.some.injEq] at h
        simp only [if_neg hne, Option.map_eq_some_iff] at h'
        obtain ⟨y', hy', rfl⟩ := h'
        subst h
        exact ⟨.lib (rd m) :: y', by simp [capQ, hy'], by simp [capQ], by simp [pos]⟩
      · simp only [if_neg hq, Option.map_eq_some_iff] at h
        obtain ⟨y, hy, rfl⟩ := h
        by_cases hq' : q'' = q'
        · subst hq'
          simp only [if_true, Option.some.injEq] at h'
          subst h'
          exact ⟨.lib (rd m) :: y, by simp [capQ], by simp [capQ, hy], by simp [pos, hq]⟩
        · simp only [if_neg hq', Option.map_eq_some_iff] at h'
          obtain ⟨y', hy', rfl⟩ := h'
          obtain ⟨w, h1, h2, h3⟩ := ih hy hy'
          exact ⟨.user q'' rd :: w, by simp [capQ, h1, hq'], by simp [capQ, h2, hq], by simp [pos, h3, hq]⟩

theorem capQ_lib {q : Q} {m : M} {p : P} {k z : List (Msg Q P M)} (h : capQ q m (.lib p :: k) = some z) :
    ∃ y, capQ q m k = some y ∧ z = .lib p :: y := by
  simp only [capQ, Option.map_eq_some_iff] at h
  obtain ⟨y, hy, rfl⟩ := h
  exact ⟨y, hy, rfl⟩

/-! ### One process -/

/-- no buffer in use is touched: messages being read and messages being written are kept apart, and the next statement keeps off both -/
structure LSafe (l : Loc R T Q P M) : Prop where
  sr : ∀ c q rd, Msg.user q rd ∈ l.out c → ∀ c' q' wr, (q', wr) ∈ l.inn c' → ∀ p m, rd (wr p m) = rd m
  rr : ∀ c c', c ≠ c' → ∀ q wr q' wr', (q, wr) ∈ l.inn c → (q', wr') ∈ l.inn c' → ∀ p p' m, wr p (wr' p' m) = wr' p' (wr p m)
  fs : ∀ f k, l.prog = .loc f :: k → ∀ c q rd, Msg.user q rd ∈ l.out c → ∀ m, rd (f m) = rd m
  fr : ∀ f k, l.prog = .loc f :: k → ∀ c q wr, (q, wr) ∈ l.inn c → ∀ p m, f (wr p m) = wr p (f m)

theorem exec_cap {l l1 l2 : Loc R T Q P M} (hs : LSafe l) {b t q} (h1 : LStep l .x l1) (h2 : LStep l (.c b t q) l2) :
    ∃ l', LStep l1 (.c b t q) l' ∧ LStep l2 .x l' := by
  cases h2 with
  | @cap _ _ _ z hc =>
    cases h1 with
    | loc h =>
      refine ⟨_, .cap (z := _) (by
        rw [← hc]; exact capQ_congr (fun rd hr => hs.fs _ _ h _ _ rd hr _)), ?_⟩
      exact .loc h
    | @isend q' b' t' rd k h =>
      by_cases hk : (b, t) = (b', t')
      · obtain ⟨rfl, rfl⟩ := Prod.mk.injEq .. ▸ hk
        refine ⟨_, .cap (z := _) (by simp only [Function.update_self]; exact (capQ_append hc).1), ?_⟩
        have := LStep.isend (l := { l with out := Function.update l.out (b, t) z }) h
        simpa only [Function.update_self, Function.update_idem] using this
      · refine ⟨_, .cap (z := _) (by simp only [Function.update_of_ne hk]; exact hc), ?_⟩
        have := LStep.isend (l := { l with out := Function.update l.out (b, t) z }) h
        dsimp only; rw [Function.update_comm (Ne.symm hk)]
        simpa only [Function.update_of_ne (Ne.symm hk)] using this
    | irecv h => exact ⟨_, .cap hc, .irecv h⟩
    | wait h ho hi =>
      refine ⟨_, .cap hc, .wait h (fun ch rd hm => ?_) hi⟩
      rcases upd_mem hm with h1 | h1
      · exact ho _ _ (capQ_mem hc h1)
      · exact ho _ _ h1

theorem exec_snd {l l1 l2 : Loc R T Q P M} {b t p} (h1 : LStep l .x l1) (h2 : LStep l (.s b t p) l2) :
    ∃ l', LStep l1 (.s b t p) l' ∧ LStep l2 .x l' := by
  cases h2 with
  | @snd _ _ _ z hc =>
    cases h1 with
    | loc h => exact ⟨_, .snd hc, .loc h⟩
    | @isend q' b' t' rd k h =>
      by_cases hk : (b, t) = (b', t')
      · obtain ⟨rfl, rfl⟩ := Prod.mk.injEq .. ▸ hk
        refine ⟨_, .snd (z := _) (by simp only [Function.update_self]; rw [hc, List.cons_append]), ?_⟩
        have := LStep.isend (l := { l with out := Function.update l.out (b, t) z }) h
        simpa only [Function.update_self, Function.update_idem] using this
      · refine ⟨_, .snd (z := _) (by simp only [Function.update_of_ne hk]; exact hc), ?_⟩
        have := LStep.isend (l := { l with out := Function.update l.out (b, t) z }) h
        dsimp only; rw [Function.update_comm (Ne.symm hk)]
        simpa only [Function.update_of_ne (Ne.symm hk)] using this
    | irecv h => exact ⟨_, .snd hc, .irecv h⟩
    | wait h ho hi =>
      refine ⟨_, .snd hc, .wait h (fun ch rd hm => ?_) hi⟩
      rcases upd_mem hm with h1 | h1
      · exact ho (b, t) rd (by rw [hc]; exact List.mem_cons_of_mem _ h1)
      · exact ho _ _ h1

theorem exec_dlv {l l1 l2 : Loc R T Q P M} (hs : LSafe l) {a t p} (h1 : LStep l .x l1) (h2 : LStep l (.d a t p) l2) :
    ∃ l', LStep l1 (.d a t p) l' ∧ LStep l2 .x l' := by
  cases h2 with
  | @dlv _ _ _ q0 wr0 z hc =>
    cases h1 with
    | @loc f k h =>
      refine ⟨_, .dlv hc, ?_⟩
      have := LStep.loc (l := { l with mem := wr0 p l.mem, inn := Function.update l.inn (a, t) z }) h
      have e := hs.fr _ _ h _ _ _ (by rw [hc]; exact List.mem_cons_self) p l.mem
      simp only [e] at this
      exact this
    | isend h => exact ⟨_, .dlv hc, .isend h⟩
    | @irecv q' b' t' rd k h =>
      by_cases hk : (a, t) = (b', t')
      · obtain ⟨rfl, rfl⟩ := Prod.mk.injEq .. ▸ hk
        refine ⟨_, .dlv (z := _) (by simp only [Function.update_self]; rw [hc, List.cons_append]), ?_⟩
        have := LStep.irecv (l := { l with mem := wr0 p l.mem, inn := Function.update l.inn (a, t) z }) h
        simpa only [Function.update_self, Function.update_idem] using this
      · refine ⟨_, .dlv (z := _) (by simp only [Function.update_of_ne hk]; exact hc), ?_⟩
        have := LStep.irecv (l := { l with mem := wr0 p l.mem, inn := Function.update l.inn (a, t) z }) h
        dsimp only; rw [Function.update_comm (Ne.symm hk)]
        simpa only [Function.update_of_ne (Ne.symm hk)] using this
    | wait h ho hi =>
      refine ⟨_, .dlv hc, .wait h ho (fun ch wr hm => ?_)⟩
      rcases upd_mem hm with h1 | h1
      · exact hi (a, t) wr (by rw [hc]; exact List.mem_cons_of_mem _ h1)
      · exact hi _ _ h1

theorem cap_cap {l l1 l2 : Loc R T Q P M} {b t q b' t' q'} (hne : (b, t, q) ≠ (b', t', q')) (h1 : LStep l (.c b t q) l1)
    (h2 : LStep l (.c b' t' q') l2) : ∃ l', LStep l1 (.c b' t' q') l' ∧ LStep l2 (.c b t q) l' := by
  cases h1 with
  | cap h1 =>
    cases h2 with
    | cap h2 =>
      by_cases hk : (b, t) = (b', t')
      · obtain ⟨rfl, rfl⟩ := Prod.mk.injEq .. ▸ hk
        obtain ⟨w, e1, e2, _⟩ := capQ_comm (q := q) (q' := q') (by rintro rfl; exact hne rfl) h1 h2
        refine ⟨_, .cap (z := w) (by simpa using e1), ?_⟩
        have := LStep.cap (l := { l with out := Function.update l.out (b, t) _ }) (b := b) (t := t) (q := q) (z := w) (by simpa using e2)
        simpa only [Function.update_idem] using this
      · refine ⟨_, .cap (z := _) (by simp only [Function.update_of_ne (Ne.symm hk)]; exact h2), ?_⟩
        dsimp only; rw [Function.update_comm hk]
        exact LStep.cap (l := { l with out := Function.update l.out (b', t') _ }) (by simp only [Function.update_of_ne hk]; exact h1)

theorem cap_snd {l l1 l2 : Loc R T Q P M} {b t q b' t' p} (h1 : LStep l (.c b t q) l1)
    (h2 : LStep l (.s b' t' p) l2) : ∃ l', LStep l1 (.s b' t' p) l' ∧ LStep l2 (.c b t q) l' := by
  cases h1 with
  | cap h1 =>
    cases h2 with
    | snd h2 =>
      by_cases hk : (b, t) = (b', t')
      · obtain ⟨rfl, rfl⟩ := Prod.mk.injEq .. ▸ hk
        rw [h2] at h1
        obtain ⟨y, hy, rfl⟩ := capQ_lib h1
        refine ⟨_, .snd (z := y) (by simp), ?_⟩
        have := LStep.cap (l := { l with out := Function.update l.out (b, t) _ }) (b := b) (t := t) (q := q) (z := y) (by simpa using hy)
        simpa only [Function.update_idem] using this
      · refine ⟨_, .snd (z := _) (by simp only [Function.update_of_ne (Ne.symm hk)]; exact h2), ?_⟩
        dsimp only; rw [Function.update_comm hk]
        exact LStep.cap (l := { l with out := Function.update l.out (b', t') _ }) (by simp only [Function.update_of_ne hk]; exact h1)

theorem cap_dlv {l l1 l2 : Loc R T Q P M} (hs : LSafe l) {b t q a t' p} (h1 : LStep l (.c b t q) l1)
    (h2 : LStep l (.d a t' p) l2) : ∃ l', LStep l1 (.d a t' p) l' ∧ LStep l2 (.c b t q) l' := by
  cases h1 with
  | cap h1 =>
    cases h2 with
    | dlv h2 =>
      refine ⟨_, .dlv h2, ?_⟩
      exact LStep.cap (l := { l with mem := _, inn := Function.update l.inn (a, t') _ }) (by
        simp only; rw [← h1]; exact capQ_congr (fun rd hr => hs.sr _ _ rd hr _ _ _ (by rw [h2]; exact List.mem_cons_self) _ _))

theorem snd_snd {l l1 l2 : Loc R T Q P M} {b t p b' t' p'} (hne : (b, t) ≠ (b', t')) (h1 : LStep l (.s b t p) l1)
    (h2 : LStep l (.s b' t' p') l2) : ∃ l', LStep l1 (.s b' t' p') l' ∧ LStep l2 (.s b t p) l' := by
  cases h1 with
  | snd h1 =>
    cases h2 with
    | snd h2 =>
      refine ⟨_, .snd (z := _) (by simp only [Function.update_of_ne (Ne.symm hne)]; exact h2), ?_⟩
      dsimp only; rw [Function.update_comm hne]
      exact LStep.snd (l := { l with out := Function.update l.out (b', t') _ }) (by simp only [Function.update_of_ne hne]; exact h1)

theorem snd_dlv {l l1 l2 : Loc R T Q P M} {b t p a t' p'} (h1 : LStep l (.s b t p) l1)
    (h2 : LStep l (.d a t' p') l2) : ∃ l', LStep l1 (.d a t' p') l' ∧ LStep l2 (.s b t p) l' := by
  cases h1 with
  | snd h1 =>
    cases h2 with
    | dlv h2 => exact ⟨_, .dlv h2, .snd h1⟩

theorem dlv_dlv {l l1 l2 : Loc R T Q P M} (hs : LSafe l) {a t p a' t' p'} (hne : (a, t) ≠ (a', t')) (h1 : LStep l (.d a t p) l1)
    (h2 : LStep l (.d a' t' p') l2) : ∃ l', LStep l1 (.d a' t' p') l' ∧ LStep l2 (.d a t p) l' := by
  cases h1 with
  | @dlv _ _ _ q wr z h1 =>
    cases h2 with
    | @dlv _ _ _ q' wr' z' h2 =>
      refine ⟨_, .dlv (z := _) (by simp only [Function.update_of_ne (Ne.symm hne)]; exact h2), ?_⟩
      have e := hs.rr _ _ hne q wr q' wr' (by rw [h1]; exact List.mem_cons_self) (by rw [h2]; exact List.mem_cons_self) p p' l.mem
      dsimp only; rw [Function.update_comm hne]
      have := LStep.dlv (l := { l with mem := wr' p' l.mem, inn := Function.update l.inn (a', t') z' }) (a := a) (t := t) (p := p)
        (q := q) (wr := wr) (z := z) (by simp only [Function.update_of_ne hne]; exact h1)
      simpa only [e] using this

/-- one process: the outcome of a step is determined -/
theorem LStep.det {l l1 l2 : Loc R T Q P M} {α} (h1 : LStep l α l1) (h2 : LStep l α l2) : l1 = l2 := by
  cases h1 with
  | loc h => cases h2 <;> simp_all
  | isend h => cases h2 <;> simp_all
  | irecv h => cases h2 <;> simp_all
  | wait h => cases h2 <;> simp_all
  | cap h => cases h2; simp_all
  | snd h => cases h2; simp_all
  | dlv h => cases h2; simp_all

end LCP.Mpi
