import Verif.Step.Model
import Mathlib.Tactic.Linarith
import Mathlib.Tactic.NormNum
import Mathlib.Tactic.FieldSimp
import Mathlib.Data.Finset.Card
import Mathlib.Data.Finset.Range

/-!
# Stepping protocol (C20), variable time step (C21), coalescence substep adaptation (C22), source cadence (C36)
-/
namespace LCP.Step

/-! ### C20 -/

/-- invariant: the most recent successes in a trace explain the flags -/
structure Inv (s : St) (tr : List (Kind × Bool)) : Prop where
  init : s.init = true ↔ ∃ b, (Kind.init, b) ∈ tr
  init2 : (s.cond = true ∨ s.async = true) → s.init = true
  cond : s.cond = true → ∃ p q, tr = p ++ (Kind.sync, true) :: q ∧ ∀ e ∈ q, e.2 = true → e.1 = Kind.sync
  async : s.async = true → ∃ p q, tr = p ++ (Kind.cond, true) :: q ∧ ∀ e ∈ q, e.2 = false
  excl : ¬ (s.cond = true ∧ s.async = true)
  nSync : s.nSync = tr.count (Kind.sync, true)
  nCond : s.nCond = tr.count (Kind.cond, true)
  nAsync : s.nAsync = tr.count (Kind.async, true)

/-- what the trace says: every successful step_cond is preceded by a successful sync_in, with nothing but failed calls and
further sync_in's in between; every successful step_async by a successful step_cond with nothing but failed calls in
between; every successful sync_in, step_cond, step_async by a call of init -/
def Ordered (tr : List (Kind × Bool)) : Prop :=
  (∀ p q, tr = p ++ (Kind.cond, true) :: q →
    ∃ p1 p2, p = p1 ++ (Kind.sync, true) :: p2 ∧ ∀ e ∈ p2, e.2 = true → e.1 = Kind.sync) ∧
  (∀ p q, tr = p ++ (Kind.async, true) :: q →
    ∃ p1 p2, p = p1 ++ (Kind.cond, true) :: p2 ∧ ∀ e ∈ p2, e.2 = false) ∧
  (∀ p q k, tr = p ++ (k, true) :: q → k ≠ Kind.init → ∃ b, (Kind.init, b) ∈ p)

theorem append_singleton_split {α : Type} {tr p q : List α} {e x : α} (h : tr ++ [e] = p ++ x :: q) :
    (q = [] ∧ p = tr ∧ x = e) ∨ ∃ q', tr = p ++ x :: q' := by
  rcases List.eq_nil_or_concat q with rfl | ⟨q', y, rfl⟩
  · left
    have := List.append_inj' h rfl
    exact ⟨rfl, this.1.symm, (by simpa using this.2.symm)⟩
  · right
    refine ⟨q', ?_⟩
    have h' : tr ++ [e] = (p ++ x :: q') ++ [y] := by simpa using h
    exact (List.append_inj' h' rfl).1

/-- one elementary call keeps the invariant and the order -/
theorem ordered_fail {tr : List (Kind × Bool)} (h : Ordered tr) (k : Kind) : Ordered (tr ++ [(k, false)]) := by
  obtain ⟨h1, h2, h3⟩ := h
  refine ⟨?_, ?_, ?_⟩
  · intro p q he
    rcases append_singleton_split he with ⟨_, _, h⟩ | ⟨q', h⟩
    · simp at h
    · exact h1 p q' h
  · intro p q he
    rcases append_singleton_split he with ⟨_, _, h⟩ | ⟨q', h⟩
    · simp at h
    · exact h2 p q' h
  · intro p q k' he hk
    rcases append_singleton_split he with ⟨_, _, h⟩ | ⟨q', h⟩
    · simp at h
    · exact h3 p q' k' h hk

theorem step_inv {s s' : St} {tr : List (Kind × Bool)} {k : Kind} {b : Bool} (hi : Inv s tr) (ho : Ordered tr)
    (h : (k = .init ∧ ∃ a, doInit a s = ⟨b, s'⟩) ∨ (k = .sync ∧ ∃ c a, syncIn c a s = ⟨b, s'⟩) ∨
      (k = .cond ∧ ∃ c o, stepCond c o s = ⟨b, s'⟩) ∨ (k = .async ∧ ∃ c o, stepAsync c o s = ⟨b, s'⟩)) :
    Inv s' (tr ++ [(k, b)]) ∧ Ordered (tr ++ [(k, b)]) := by
  -- appending a failed event to the witnesses
  have wc : ∀ {f : Kind × Bool}, f.2 = false → s.cond = true →
      ∃ p q, tr ++ [f] = p ++ (Kind.sync, true) :: q ∧ ∀ e ∈ q, e.2 = true → e.1 = Kind.sync := by
    intro f hf hc
    obtain ⟨p, q, h1, h2⟩ := hi.cond hc
    refine ⟨p, q ++ [f], by rw [h1]; simp, ?_⟩
    intro e he
    rcases List.mem_append.1 he with h | h
    · exact h2 e h
    · rw [List.mem_singleton] at h; subst h; rw [hf]; simp
  have wa : ∀ {f : Kind × Bool}, f.2 = false → s.async = true →
      ∃ p q, tr ++ [f] = p ++ (Kind.cond, true) :: q ∧ ∀ e ∈ q, e.2 = false := by
    intro f hf hc
    obtain ⟨p, q, h1, h2⟩ := hi.async hc
    refine ⟨p, q ++ [f], by rw [h1]; simp, ?_⟩
    intro e he
    rcases List.mem_append.1 he with h | h
    · exact h2 e h
    · rw [List.mem_singleton] at h; subst h; exact hf
  have hinit : ∀ (k : Kind) (b : Bool), k ≠ .init → ((∃ b', (Kind.init, b') ∈ tr ++ [(k, b)]) ↔ ∃ b', (Kind.init, b') ∈ tr) := by
    intro k b hk
    constructor
    · rintro ⟨b', h⟩
      rcases List.mem_append.1 h with h | h
      · exact ⟨b', h⟩
      · simp at h; exact absurd h.1.symm hk
    · rintro ⟨b', h⟩; exact ⟨b', List.mem_append_left _ h⟩
  rcases h with ⟨rfl, a, h⟩ | ⟨rfl, c, a, h⟩ | ⟨rfl, c, o, h⟩ | ⟨rfl, c, o, h⟩
  · -- init
    unfold doInit at h
    by_cases h0 : s.init = true
    · rw [if_pos h0] at h
      simp only [Res.mk.injEq] at h
      obtain ⟨rfl, rfl⟩ := h
      refine ⟨⟨?_, hi.init2, wc rfl, wa rfl, hi.excl, ?_, ?_, ?_⟩, ordered_fail ho _⟩
      · exact ⟨fun _ => ⟨false, by simp⟩, fun _ => h0⟩
      · rw [hi.nSync]; simp
      · rw [hi.nCond]; simp
      · rw [hi.nAsync]; simp
    · rw [if_neg h0] at h
      have hc0 : s.cond = false := by
        cases hc : s.cond with
        | false => rfl
        | true => exact absurd (hi.init2 (Or.inl hc)) h0
      have ha0 : s.async = false := by
        cases hc : s.async with
        | false => rfl
        | true => exact absurd (hi.init2 (Or.inr hc)) h0
      have hs' : s' = { s with init := true } := by
        cases a <;> simp at h <;> exact h.2.symm
      subst hs'
      refine ⟨⟨⟨fun _ => ⟨b, by simp⟩, fun _ => rfl⟩, fun _ => rfl, ?_, ?_, ?_, ?_, ?_, ?_⟩, ?_⟩
      · intro h; simp [hc0] at h
      · intro h; simp [ha0] at h
      · simp [hc0]
      · show s.nSync = _; rw [hi.nSync]; simp
      · show s.nCond = _; rw [hi.nCond]; simp
      · show s.nAsync = _; rw [hi.nAsync]; simp
      · cases b with
        | false => exact ordered_fail ho _
        | true =>
          obtain ⟨h1, h2, h3⟩ := ho
          refine ⟨?_, ?_, ?_⟩
          · intro p q he
            rcases append_singleton_split he with ⟨_, _, h⟩ | ⟨q', h⟩
            · simp at h
            · exact h1 p q' h
          · intro p q he
            rcases append_singleton_split he with ⟨_, _, h⟩ | ⟨q', h⟩
            · simp at h
            · exact h2 p q' h
          · intro p q k' he hk
            rcases append_singleton_split he with ⟨_, _, h⟩ | ⟨q', h⟩
            · simp at h; exact absurd h hk
            · exact h3 p q' k' h hk
  · -- sync_in
    unfold syncIn at h
    have fail : b = false → s' = s → Inv s' (tr ++ [(Kind.sync, b)]) ∧ Ordered (tr ++ [(Kind.sync, b)]) := by
      rintro rfl rfl
      refine ⟨⟨?_, hi.init2, wc rfl, wa rfl, hi.excl, ?_, ?_, ?_⟩, ordered_fail ho _⟩
      · rw [hinit _ _ (by simp)]; exact hi.init
      · rw [hi.nSync]; simp
      · rw [hi.nCond]; simp
      · rw [hi.nAsync]; simp
    by_cases h0 : s.init = true
    · by_cases ha : s.async = true
      · simp [h0, ha] at h; exact fail h.1 h.2.symm
      · by_cases hok : syncArgsOk c a = true
        · simp [h0, ha, hok] at h
          obtain ⟨rfl, rfl⟩ := h
          refine ⟨⟨?_, fun _ => rfl, ?_, ?_, ?_, ?_, ?_, ?_⟩, ?_⟩
          · rw [hinit _ _ (by simp), ← hi.init]; simp [h0]
          · intro _; exact ⟨tr, [], rfl, by simp⟩
          · intro h; simp at h
          · simp
          · simp [hi.nSync]
          · simp [hi.nCond]
          · simp [hi.nAsync]
          · obtain ⟨h1, h2, h3⟩ := ho
            refine ⟨?_, ?_, ?_⟩
            · intro p q he
              rcases append_singleton_split he with ⟨_, _, h⟩ | ⟨q', h⟩
              · simp at h
              · exact h1 p q' h
            · intro p q he
              rcases append_singleton_split he with ⟨_, _, h⟩ | ⟨q', h⟩
              · simp at h
              · exact h2 p q' h
            · intro p q k' he hk
              rcases append_singleton_split he with ⟨_, hp, h⟩ | ⟨q', h⟩
              · rw [hp]; exact hi.init.1 h0
              · exact h3 p q' k' h hk
        · simp [h0, ha, hok] at h; exact fail h.1 h.2.symm
    · simp [h0] at h; exact fail h.1 h.2.symm
  · -- step_cond
    unfold stepCond at h
    have fail : b = false → s' = s → Inv s' (tr ++ [(Kind.cond, b)]) ∧ Ordered (tr ++ [(Kind.cond, b)]) := by
      rintro rfl rfl
      refine ⟨⟨?_, hi.init2, wc rfl, wa rfl, hi.excl, ?_, ?_, ?_⟩, ordered_fail ho _⟩
      · rw [hinit _ _ (by simp)]; exact hi.init
      · rw [hi.nSync]; simp
      · rw [hi.nCond]; simp
      · rw [hi.nAsync]; simp
    by_cases hc : s.cond = true
    · by_cases ht : (o.turbCond && !c.turbCond) = true
      · simp only [hc, ht, Bool.not_true, Bool.false_eq_true, if_false, if_true, Res.mk.injEq] at h
        exact fail h.1.symm h.2.symm
      · have h0 : s.init = true := hi.init2 (Or.inl hc)
        by_cases hd : (o.dtPos && !c.variableDt) = true
        · simp only [hc, ht, hd, Bool.not_true, Bool.false_eq_true, if_false, if_true, Res.mk.injEq] at h
          obtain ⟨rfl, rfl⟩ := h
          refine ⟨⟨?_, ?_, ?_, wa rfl, ?_, ?_, ?_, ?_⟩, ordered_fail ho _⟩
          · rw [hinit _ _ (by simp)]; exact hi.init
          · intro _; exact h0
          · intro h; simp at h
          · simp
          · show s.nSync = _; rw [hi.nSync]; simp
          · show s.nCond = _; rw [hi.nCond]; simp
          · show s.nAsync = _; rw [hi.nAsync]; simp
        · simp only [hc, ht, hd, Bool.not_true, Bool.false_eq_true, if_false, Res.mk.injEq] at h
          obtain ⟨rfl, rfl⟩ := h
          refine ⟨⟨?_, ?_, ?_, ?_, ?_, ?_, ?_, ?_⟩, ?_⟩
          · rw [hinit _ _ (by simp)]; exact hi.init
          · intro _; exact h0
          · intro h; simp at h
          · intro _; exact ⟨tr, [], rfl, by simp⟩
          · simp
          · simp [hi.nSync]
          · simp [hi.nCond]
          · simp [hi.nAsync]
          · obtain ⟨h1, h2, h3⟩ := ho
            refine ⟨?_, ?_, ?_⟩
            · intro p q he
              rcases append_singleton_split he with ⟨_, hp, h⟩ | ⟨q', h⟩
              · rw [hp]; exact hi.cond hc
              · exact h1 p q' h
            · intro p q he
              rcases append_singleton_split he with ⟨_, _, h⟩ | ⟨q', h⟩
              · simp at h
              · exact h2 p q' h
            · intro p q k' he hk
              rcases append_singleton_split he with ⟨_, hp, h⟩ | ⟨q', h⟩
              · rw [hp]; exact hi.init.1 h0
              · exact h3 p q' k' h hk
    · simp only [hc, Bool.not_false, if_true, Res.mk.injEq] at h
      exact fail h.1.symm h.2.symm
  · -- step_async
    unfold stepAsync at h
    by_cases ha : s.async = true
    · have h0 : s.init = true := hi.init2 (Or.inr ha)
      have hc : s.cond = false := by
        cases hc : s.cond with
        | false => rfl
        | true => exact absurd ⟨hc, ha⟩ hi.excl
      have failing : ∀ hf : ℕ, b = false → s' = { s with async := false, half := hf } →
          Inv s' (tr ++ [(Kind.async, b)]) ∧ Ordered (tr ++ [(Kind.async, b)]) := by
        rintro hf rfl rfl
        refine ⟨⟨?_, ?_, ?_, ?_, ?_, ?_, ?_, ?_⟩, ordered_fail ho _⟩
        · rw [hinit _ _ (by simp)]; exact hi.init
        · intro _; exact h0
        · intro h; simp [hc] at h
        · intro h; simp at h
        · simp
        · show s.nSync = _; rw [hi.nSync]; simp
        · show s.nCond = _; rw [hi.nCond]; simp
        · show s.nAsync = _; rw [hi.nAsync]; simp
      by_cases h1 : asyncOptsOk c o = true
      · by_cases h2 : (o.dtPos && !c.variableDt) = true
        · simp only [ha, h1, h2, Bool.not_true, Bool.false_eq_true, if_false, if_true, Res.mk.injEq] at h
          exact failing s.half h.1.symm h.2.symm
        · by_cases h3 : asyncLateOk c o = true
          · simp only [ha, h1, h2, h3, Bool.not_true, Bool.false_eq_true, if_false, Res.mk.injEq] at h
            obtain ⟨rfl, rfl⟩ := h
            refine ⟨⟨?_, ?_, ?_, ?_, ?_, ?_, ?_, ?_⟩, ?_⟩
            · rw [hinit _ _ (by simp)]; exact hi.init
            · intro _; exact h0
            · intro h; simp [hc] at h
            · intro h; simp at h
            · simp
            · simp [hi.nSync]
            · simp [hi.nCond]
            · simp [hi.nAsync]
            · obtain ⟨g1, g2, g3⟩ := ho
              refine ⟨?_, ?_, ?_⟩
              · intro p q he
                rcases append_singleton_split he with ⟨_, _, h⟩ | ⟨q', h⟩
                · simp at h
                · exact g1 p q' h
              · intro p q he
                rcases append_singleton_split he with ⟨_, hp, h⟩ | ⟨q', h⟩
                · rw [hp]; exact hi.async ha
                · exact g2 p q' h
              · intro p q k' he hk
                rcases append_singleton_split he with ⟨_, hp, h⟩ | ⟨q', h⟩
                · rw [hp]; exact hi.init.1 h0
                · exact g3 p q' k' h hk
          · simp only [ha, h1, h2, h3, Bool.not_true, Bool.not_false, Bool.false_eq_true, if_false, if_true, Res.mk.injEq] at h
            exact failing (s.half + 1) h.1.symm h.2.symm
      · simp only [ha, h1, Bool.not_true, Bool.not_false, Bool.false_eq_true, if_false, if_true, Res.mk.injEq] at h
        exact failing s.half h.1.symm h.2.symm
    · simp only [ha, Bool.not_false, if_true, Res.mk.injEq] at h
      obtain ⟨rfl, rfl⟩ := h
      refine ⟨⟨?_, hi.init2, wc rfl, wa rfl, hi.excl, ?_, ?_, ?_⟩, ordered_fail ho _⟩
      · rw [hinit _ _ (by simp)]; exact hi.init
      · rw [hi.nSync]; simp
      · rw [hi.nCond]; simp
      · rw [hi.nAsync]; simp

theorem exec_inv {c : Cfg} {s : St} {tr : List (Kind × Bool)} (hi : Inv s tr) (ho : Ordered tr) (a : Call) :
    Inv (exec c s a).1 (tr ++ (exec c s a).2) ∧ Ordered (tr ++ (exec c s a).2) := by
  cases a with
  | init b => exact step_inv hi ho (Or.inl ⟨rfl, b, rfl⟩)
  | syncIn a => exact step_inv hi ho (Or.inr (Or.inl ⟨rfl, c, a, rfl⟩))
  | stepCond o => exact step_inv hi ho (Or.inr (Or.inr (Or.inl ⟨rfl, c, o, rfl⟩)))
  | stepAsync o => exact step_inv hi ho (Or.inr (Or.inr (Or.inr ⟨rfl, c, o, rfl⟩)))
  | stepSync a o =>
    have h1 := step_inv (s' := (syncIn c a s).st) (k := .sync) (b := (syncIn c a s).ok) hi ho
      (Or.inr (Or.inl ⟨rfl, c, a, rfl⟩))
    unfold exec
    dsimp only
    cases hok : (syncIn c a s).ok with
    | false =>
      simp only [Bool.false_eq_true, if_false]
      rw [hok] at h1; exact h1
    | true =>
      simp only [if_true]
      rw [hok] at h1
      have h2 := step_inv (s' := (stepCond c o (syncIn c a s).st).st) (k := .cond) (b := (stepCond c o (syncIn c a s).st).ok)
        h1.1 h1.2 (Or.inr (Or.inr (Or.inl ⟨rfl, c, o, rfl⟩)))
      simpa using h2

/-- **C20** For every sequence of API calls on a new object: every accepted step_cond follows an accepted sync_in (with only
failed calls or repeated sync_in's in between), every accepted step_async follows an accepted step_cond with nothing
but failed calls in between, nothing but init is accepted before init was called; the phases performed are exactly the
accepted calls. -/
theorem protocol_order (c : Cfg) (l : List Call) :
    Ordered (run c {} l).2 ∧
    (run c {} l).1.nSync = (run c {} l).2.count (Kind.sync, true) ∧
    (run c {} l).1.nCond = (run c {} l).2.count (Kind.cond, true) ∧
    (run c {} l).1.nAsync = (run c {} l).2.count (Kind.async, true) := by
  have gen : ∀ (l : List Call) (s : St) (tr : List (Kind × Bool)), Inv s tr → Ordered tr →
      Inv (run c s l).1 (tr ++ (run c s l).2) ∧ Ordered (tr ++ (run c s l).2) := by
    intro l
    induction l with
    | nil => intro s tr hi ho; simpa [run] using ⟨hi, ho⟩
    | cons a l ih =>
      intro s tr hi ho
      obtain ⟨h1, h2⟩ := exec_inv (c := c) hi ho a
      have := ih _ _ h1 h2
      simpa [run, List.append_assoc] using this
  have h0 : Inv {} [] := ⟨by simp, by simp, by simp, by simp, by simp, by simp, by simp, by simp⟩
  have ho : Ordered [] := ⟨by simp, by simp, by simp⟩
  obtain ⟨h1, h2⟩ := gen l {} [] h0 ho
  simp only [List.nil_append] at h1 h2
  exact ⟨h2, h1.nSync, h1.nCond, h1.nAsync⟩

/-- **C20** sync_in before init, or while a step_async is pending, is refused without any effect; step_cond without a
preceding sync_in and step_async without a preceding step_cond likewise; a second init likewise. -/
theorem wrong_order_refused (c : Cfg) (s : St) :
    (∀ a, s.init = false ∨ s.async = true → syncIn c a s = ⟨false, s⟩) ∧
    (∀ o, s.cond = false → stepCond c o s = ⟨false, s⟩) ∧
    (∀ o, s.async = false → stepAsync c o s = ⟨false, s⟩) ∧
    (∀ b, s.init = true → doInit b s = ⟨false, s⟩) := by
  refine ⟨?_, ?_, ?_, ?_⟩
  · rintro a (h | h)
    · simp [syncIn, h]
    · unfold syncIn; cases s.init <;> simp [h]
  · intro o h; simp [stepCond, h]
  · intro o h; simp [stepAsync, h]
  · intro b h; simp [doInit, h]

/-- arguments and options that suit the configuration -/
def goodArgs (c : Cfg) : SyncArgs :=
  { th := true, rv := true, cx := false, cy := false, cz := false,
    diss := c.turbAdve || c.turbCond || c.turbCoal, ambient := if c.chem then 6 else 0 }
/-- all processes off -/
def noneOpts : Opts := { adve := false, sedi := false, subs := false, cond := false, coal := false, src := false, rlx := false, chemDsl := false, chemDsc := false, chemRct := false, turbAdve := false, turbCond := false, dtPos := false }

/-- **C20** No deadlock: in every state after init was called, at least one of sync_in and step_async is accepted, so a
full step can always be completed: an optional step_async, then step_sync, then step_async. -/
theorem no_deadlock (c : Cfg) (s : St) (hi : s.init = true) :
    (s.async = true → (stepAsync c noneOpts s).ok = true ∧ (stepAsync c noneOpts s).st.async = false ∧
      (stepAsync c noneOpts s).st.init = true) ∧
    (s.async = false → (syncIn c (goodArgs c) s).ok = true ∧
      (stepCond c noneOpts (syncIn c (goodArgs c) s).st).ok = true ∧
      (stepAsync c noneOpts (stepCond c noneOpts (syncIn c (goodArgs c) s).st).st).ok = true) := by
  have hargs : syncArgsOk c (goodArgs c) = true := by
    unfold syncArgsOk goodArgs courantOk
    cases c.chem <;> cases c.turbAdve <;> cases c.turbCond <;> cases c.turbCoal <;> simp
  constructor
  · intro ha
    simp [stepAsync, ha, noneOpts, asyncOptsOk, asyncLateOk, hi]
  · intro ha
    simp [syncIn, hi, ha, hargs, stepCond, stepAsync, noneOpts, asyncOptsOk, asyncLateOk]

/-- **C20** (negation of one clause) "accepted only after a *successful* init" is false: an init that threw (e.g. missing rhod)
still opens the way to sync_in, because the flag is set before the checks. -/
theorem sync_after_failed_init (c : Cfg) :
    ∃ l, (run c {} l).2 = [(Kind.init, false), (Kind.sync, true)] := by
  refine ⟨[.init false, .syncIn (goodArgs c)], ?_⟩
  have hargs : syncArgsOk c (goodArgs c) = true := by
    unfold syncArgsOk goodArgs courantOk
    cases c.chem <;> cases c.turbAdve <;> cases c.turbCond <;> cases c.turbCoal <;> simp
  simp [run, exec, doInit, syncIn, hargs]

/-- **C20** (negation) a step_async refused because of its options is not repeatable with corrected options: it consumes the
pending step (and, for the source/relaxation checks, has already moved the super-droplets). -/
theorem async_throw_consumes (c : Cfg) (s : St) (o : Opts) (ha : s.async = true) :
    ∀ o', (stepAsync c o' (stepAsync c o s).st).ok = false := by
  have hst : (stepAsync c o s).st.async = false := by
    unfold stepAsync
    simp only [ha, Bool.not_true, Bool.false_eq_true, if_false]
    split_ifs <;> rfl
  intro o'
  rw [(wrong_order_refused c _).2.2.1 o' hst]

/-- … and it can be half done: a source request without a source type throws after advection -/
theorem async_half_done (c : Cfg) (h1 : c.srcOff = true) (h2 : c.srcBoxNull = false) (s : St) (ha : s.async = true) :
    (stepAsync c { noneOpts with src := true } s).ok = false ∧
    (stepAsync c { noneOpts with src := true } s).st.half = s.half + 1 := by
  simp [stepAsync, ha, noneOpts, asyncOptsOk, asyncLateOk, h1, h2]

/-- a complete legal session is accepted -/
example (c : Cfg) : (run c {} [.init true, .stepSync (goodArgs c) noneOpts, .stepAsync noneOpts]).2 =
    [(Kind.init, true), (Kind.sync, true), (Kind.cond, true), (Kind.async, true)] := by
  have hargs : syncArgsOk c (goodArgs c) = true := by
    unfold syncArgsOk goodArgs courantOk
    cases c.chem <;> cases c.turbAdve <;> cases c.turbCond <;> cases c.turbCoal <;> simp
  simp [run, exec, doInit, syncIn, hargs, stepCond, stepAsync, noneOpts, asyncOptsOk, asyncLateOk]

/-! ### C21 -/

/-- **C21** one process: at least one substep; a substep is never longer than the default one if the default has more
than one, and the number of substeps is the smallest with that property. -/
theorem adjustOne_ok {dt0 dt : ℝ} {sstp : ℕ} (h0 : 0 < dt0) (hs : 1 ≤ sstp) :
    1 ≤ adjustOne dt0 dt sstp ∧
    (dt ≤ 0 → adjustOne dt0 dt sstp = sstp) ∧
    (0 < dt → 1 < sstp → dt / adjustOne dt0 dt sstp ≤ dt0 / sstp ∧
      ∀ m : ℕ, 1 ≤ m → dt / m ≤ dt0 / sstp → adjustOne dt0 dt sstp ≤ m) ∧
    (sstp = 1 → adjustOne dt0 dt sstp = 1) := by
  unfold adjustOne
  refine ⟨?_, ?_, ?_, ?_⟩
  · split_ifs with h
    · rw [Nat.one_le_ceil_iff]
      have : (0:ℝ) < sstp := by exact_mod_cast hs
      have := h.1
      positivity
    · exact hs
  · intro h; rw [if_neg (fun hh => absurd hh.1 (not_lt.2 h))]
  · intro hdt hs1
    rw [if_pos ⟨hdt, hs1⟩]
    have hsp : (0:ℝ) < sstp := by exact_mod_cast hs
    have hq : 0 < (sstp : ℝ) * dt / dt0 := by positivity
    have hc : (sstp : ℝ) * dt / dt0 ≤ ⌈(sstp : ℝ) * dt / dt0⌉₊ := Nat.le_ceil _
    have hcp : (0:ℝ) < ⌈(sstp : ℝ) * dt / dt0⌉₊ := lt_of_lt_of_le hq hc
    refine ⟨?_, ?_⟩
    · rw [div_le_div_iff₀ hcp hsp]
      rw [div_le_iff₀ h0] at hc
      linarith
    · intro m hm hle
      rw [Nat.ceil_le]
      have hmp : (0:ℝ) < m := by exact_mod_cast hm
      rw [div_le_div_iff₀ hmp hsp] at hle
      rw [div_le_iff₀ h0]
      linarith
  · intro h; subst h; simp

/-- **C21** `opts.dt`: refused without `variable_dt_switch`; otherwise the step is `opts.dt`, all four substep counts are at
least one, substeps of processes that are substepped by default are not longer than the default substep; `opts.dt ≤ 0`
restores exactly the defaults. -/
theorem adjust_ok (i : SstpInit) (dt : ℝ) (h0 : 0 < i.dt) (h1 : 1 ≤ i.sstpCond) (h2 : 1 ≤ i.sstpCoal) (h3 : 1 ≤ i.sstpChem)
    (h4 : 1 ≤ i.sstpCondAct) :
    (adjust i dt = none ↔ 0 < dt ∧ i.variableDt = false) ∧
    (∀ a, adjust i dt = some a →
      (1 ≤ a.sstpCond ∧ 1 ≤ a.sstpCoal ∧ 1 ≤ a.sstpChem ∧ 1 ≤ a.sstpCondAct) ∧
      (0 < dt → a.dt = dt ∧
        (1 < i.sstpCond → a.dt / a.sstpCond ≤ i.dt / i.sstpCond) ∧ (1 < i.sstpCoal → a.dt / a.sstpCoal ≤ i.dt / i.sstpCoal) ∧
        (1 < i.sstpChem → a.dt / a.sstpChem ≤ i.dt / i.sstpChem) ∧
        (1 < i.sstpCondAct → a.dt / a.sstpCondAct ≤ i.dt / i.sstpCondAct)) ∧
      (dt ≤ 0 → a.dt = i.dt ∧ a.sstpCond = i.sstpCond ∧ a.sstpCoal = i.sstpCoal ∧ a.sstpChem = i.sstpChem ∧
        a.sstpCondAct = i.sstpCondAct)) := by
  constructor
  · unfold adjust
    split_ifs with h
    · simp only [true_iff]; exact h
    · simp only [false_iff]; exact h
  · intro a ha
    unfold adjust at ha
    by_cases h : dt > 0 ∧ i.variableDt = false
    · rw [if_pos h] at ha; exact absurd ha (by simp)
    rw [if_neg h] at ha
    obtain rfl := Option.some.inj ha
    have c1 := adjustOne_ok (dt := dt) h0 h1
    have c2 := adjustOne_ok (dt := dt) h0 h2
    have c3 := adjustOne_ok (dt := dt) h0 h3
    have c4 := adjustOne_ok (dt := dt) h0 h4
    refine ⟨⟨c1.1, c2.1, c3.1, c4.1⟩, ?_, ?_⟩
    · intro hdt
      simp only [gt_iff_lt, hdt, if_true, true_and]
      exact ⟨fun h => (c1.2.2.1 hdt h).1, fun h => (c2.2.2.1 hdt h).1, fun h => (c3.2.2.1 hdt h).1, fun h => (c4.2.2.1 hdt h).1⟩
    · intro hdt
      simp only [gt_iff_lt, not_lt.2 hdt, if_false, true_and]
      exact ⟨c1.2.1 hdt, c2.2.1 hdt, c3.2.1 hdt, c4.2.1 hdt⟩

example : adjust { dt := 1, sstpCond := 10, sstpCoal := 1, sstpChem := 1, sstpCondAct := 1, variableDt := true } (1 / 4) =
    some { dt := 1 / 4, sstpCond := 3, sstpCoal := 1, sstpChem := 1, sstpCondAct := 1 } := by
  have : ⌈((10:ℕ):ℝ) * (1/4) / 1⌉₊ = 3 := by rw [Nat.ceil_eq_iff (by norm_num)]; norm_num
  unfold adjust adjustOne
  norm_num
  norm_num at this
  exact this

/-! ### C22 -/

/-- **C22** (negation) The number of coalescence substeps of a step does not depend on what happened before: whatever the
history left in the current settings `cur`, `cur'` (in particular an increase after multiple collisions), the next step
makes the same number of substeps.  The full claim "stays increased" is therefore false. -/
theorem sstp_coal_forgotten (i : SstpInit) (dt : ℝ) (coal multi multi' : Bool) (cur cur' : Sstp) :
    (asyncCoal i dt coal multi cur).map Prod.fst = (asyncCoal i dt coal multi' cur').map Prod.fst := by
  unfold asyncCoal
  simp [Option.map_map, Function.comp_def]

/-- **C22** concretely: with one substep by default, multiple collisions raise the setting to 2, and the next step still
makes a single substep. -/
theorem sstp_coal_witness (i : SstpInit) (hi : i.sstpCoal = 1) (cur : Sstp) :
    ∃ a, asyncCoal i (-1) true true cur = some (1, a) ∧ a.sstpCoal = 2 ∧
      ∀ multi, ∃ b, asyncCoal i (-1) true multi a = some (1, b) := by
  have h : adjust i (-1) = some { dt := i.dt, sstpCond := i.sstpCond, sstpCoal := 1, sstpChem := i.sstpChem, sstpCondAct := i.sstpCondAct } := by
    unfold adjust adjustOne
    simp [hi]
  refine ⟨{ dt := i.dt, sstpCond := i.sstpCond, sstpCoal := 2, sstpChem := i.sstpChem, sstpCondAct := i.sstpCondAct }, ?_, rfl, ?_⟩
  · simp [asyncCoal, h]
  · intro multi
    cases multi <;> simp [asyncCoal, h]

/-- **C22** (partial) what does hold: after a step with multiple collisions the setting left behind is one more than the number
of substeps made, and it is unchanged otherwise. -/
theorem sstp_coal_partial (i : SstpInit) (dt : ℝ) (multi : Bool) (cur : Sstp) {m : ℕ} {a : Sstp}
    (h : asyncCoal i dt true multi cur = some (m, a)) : a.sstpCoal = if multi then m + 1 else m := by
  unfold asyncCoal at h
  rw [Option.map_eq_some_iff] at h
  obtain ⟨b, _, hb⟩ := h
  simp only [Prod.mk.injEq, if_true] at hb
  obtain ⟨rfl, rfl⟩ := hb
  cases multi <;> simp

/-! ### C36 -/

/-- **C36** if the source was switched on at step `a` (it is the first step, or the option was off in the step before) and
stays on for steps `a .. a+len`, then aerosol is added exactly in the steps `a, a+sup, a+2sup, …`. -/
theorem source_cadence (sup : ℕ) (on : ℕ → Bool) (a len : ℕ) (hstart : a = 0 ∨ on (a - 1) = false)
    (hon : ∀ k ≤ len, on (a + k) = true) : ∀ k ≤ len, (fires sup on (a + k) = true ↔ sup ∣ k) := by
  have h0 : ctr on a = 0 := by
    cases a with
    | zero => rfl
    | succ a =>
      rcases hstart with h | h
      · omega
      · simp only [Nat.add_sub_cancel] at h
        simp [ctr, ctrNext, h]
  have hc : ∀ k ≤ len, ctr on (a + k) = k := by
    intro k
    induction k with
    | zero => intro _; simpa using h0
    | succ k ih =>
      intro hk
      rw [← Nat.add_assoc, ctr, ctrNext, hon k (by omega), ih (by omega)]
      simp
  intro k hk
  unfold fires
  rw [hon k hk, hc k hk]
  simp [Nat.dvd_iff_mod_eq_zero]

/-- **C36** with the option off nothing is added, and the count starts afresh. -/
theorem source_off (sup : ℕ) (on : ℕ → Bool) (t : ℕ) (h : on t = false) : fires sup on t = false ∧ ctr on (t + 1) = 0 := by
  simp [fires, ctr, ctrNext, h]

/-- **C36** in any `sup` consecutive steps with the source on, aerosol is added exactly once. -/
theorem source_once (sup : ℕ) (hs : 0 < sup) (on : ℕ → Bool) (a len : ℕ) (hstart : a = 0 ∨ on (a - 1) = false)
    (hon : ∀ k ≤ len, on (a + k) = true) (b : ℕ) (hb : b + sup ≤ len + 1) :
    ∃! k, k < sup ∧ fires sup on (a + b + k) = true := by
  have hf : ∀ k < sup, (fires sup on (a + b + k) = true ↔ sup ∣ b + k) := by
    intro k hk
    rw [Nat.add_assoc]
    exact source_cadence sup on a len hstart hon (b + k) (by omega)
  have hmod : b % sup < sup := Nat.mod_lt _ hs
  have hdm := Nat.div_add_mod b sup
  by_cases hb0 : b % sup = 0
  · refine ⟨0, ⟨hs, (hf 0 hs).2 (by simpa using Nat.dvd_of_mod_eq_zero hb0)⟩, ?_⟩
    rintro k ⟨hk, hfk⟩
    have hd := (hf k hk).1 hfk
    have : sup ∣ k := (Nat.dvd_add_right (Nat.dvd_of_mod_eq_zero hb0)).1 hd
    exact Nat.eq_zero_of_dvd_of_lt this hk
  · refine ⟨sup - b % sup, ⟨by omega, (hf _ (by omega)).2 ⟨b / sup + 1, ?_⟩⟩, ?_⟩
    · rw [Nat.mul_add]; omega
    · rintro k ⟨hk, hfk⟩
      obtain ⟨q, hq⟩ := (hf k hk).1 hfk
      have h1 : sup * (b / sup) + (b % sup + k) = sup * q := by omega
      have hdvd : sup ∣ b % sup + k := by
        have : sup ∣ sup * (b / sup) + (b % sup + k) := by rw [h1]; exact Nat.dvd_mul_right _ _
        exact (Nat.dvd_add_right (Nat.dvd_mul_right _ _)).1 this
      obtain ⟨r, hr⟩ := hdvd
      have : r = 1 := by
        have hr0 : r ≠ 0 := by rintro rfl; omega
        by_contra h
        have : 2 ≤ r := by omega
        have : sup * 2 ≤ sup * r := Nat.mul_le_mul_left _ this
        omega
      subst this; omega

example : (List.range 7).map (fires 3 (fun t => decide (t ≠ 4))) = [true, false, false, true, false, true, false] := by decide

end LCP.Step
