import Verif.Icicle.Async

/-!
# The driver never touches the library while a step runs in the background (C108)
-/
namespace LCP.Icicle
open LCP.Step Relation

/-- the library after `k` complete time steps -/
def done (k : ℕ) : St := { init := true, nSync := k, nCond := k, nAsync := k }

/-- the options of a time step are ones the library accepts in `step_cond` and `step_async` -/
structure StepOk (c : Cfg) (a : SyncArgs) (o : Opts) : Prop where
  args : ArgsMatch c a
  opts : OptsMatch c o
  turbCond : o.turbCond = true → c.turbCond = true

/-- what the diagnostics ought to see: the initial state, and the state after each time step whose number is a multiple of
the output frequency; `t0` is the number of the first time step, `n` their count -/
def expected (freq t0 n : ℕ) : List St :=
  done 0 :: ((List.range n).filter fun k => (t0 + k) % freq = 0).map fun k => done (k + 1)

/-! ### an eager interpreter, in which the background task completes at once -/

def eager (c : Cfg) : St → Bool → List St → List Act → Option (St × Bool × List St)
  | s, p, log, [] => some (s, p, log)
  | s, p, log, .assertValid :: l => if p then eager c s p log l else none
  | s, p, log, .assertInvalid :: l => if p then none else eager c s p log l
  | s, p, log, .get :: l => if p then eager c s false log l else none
  | s, p, log, .sync a o :: l => if p then none else
      if (stepSync c a o s).ok then eager c (stepSync c a o s).st p log l else none
  | s, p, log, .async o :: l => if p then none else
      if (Step.stepAsync c o s).ok then eager c (Step.stepAsync c o s).st p log l else none
  | s, p, log, .launch o :: l => if p then none else
      if (Step.stepAsync c o s).ok then eager c (Step.stepAsync c o s).st true log l else none
  | s, p, log, .diag :: l => if p then none else eager c s p (log ++ [s]) l
  | s, _, log, .dropFtr :: l => eager c s false log l
  | s, p, log, .dropLib :: l => if p then none else eager c s p log l

/-- the state in which the background task, if any, has completed -/
def canon (c : Cfg) (m : M) : Option (St × Bool) :=
  match m.ftr with
  | .invalid => some (m.lib, false)
  | .running o => if (Step.stepAsync c o m.lib).ok then some ((Step.stepAsync c o m.lib).st, true) else none
  | .ready true => some (m.lib, true)
  | .ready false => none

def Inv (c : Cfg) (fin : St × Bool × List St) (m : M) : Prop :=
  ∃ s p, canon c m = some (s, p) ∧ eager c s p m.log m.todo = some fin

theorem inv_step {c : Cfg} {fin : St × Bool × List St} {m m' : M} (hi : Inv c fin m) (ht : Tr c m m') : Inv c fin m' := by
  obtain ⟨s, p, hc, he⟩ := hi
  cases ht with
  | bg hf =>
    rename_i o
    refine ⟨s, p, ?_, he⟩
    simp only [canon, hf] at hc
    split at hc
    · rename_i hok
      simp only [canon, hok]
      exact hc
    · exact absurd hc (by simp)
  | main hl hm =>
    rename_i x l
    rw [hl] at he
    cases hf : m.ftr with
    | invalid =>
      simp only [canon, hf, Option.some.injEq, Prod.mk.injEq] at hc
      obtain ⟨rfl, rfl⟩ := hc
      cases x <;> simp only [act, libCall, hf] at hm <;> simp only [eager] at he
      · cases hm
      · cases hm; exact ⟨m.lib, false, by simp [canon], by simpa using he⟩
      · cases hm
      · rename_i a o
        by_cases hok : (stepSync c a o m.lib).ok = true
        · simp only [hok, if_true] at hm he
          cases hm
          exact ⟨(stepSync c a o m.lib).st, false, by simp [canon], by simpa using he⟩
        · simp [hok] at hm
      · rename_i o
        cases hm
        by_cases hok : (Step.stepAsync c o m.lib).ok = true
        · exact ⟨(Step.stepAsync c o m.lib).st, true, by simp [canon, hok], by simpa [hok] using he⟩
        · simp [hok] at he
      · rename_i o
        by_cases hok : (Step.stepAsync c o m.lib).ok = true
        · simp only [hok, if_true] at hm he
          cases hm
          exact ⟨(Step.stepAsync c o m.lib).st, false, by simp [canon], by simpa using he⟩
        · simp [hok] at hm
      · cases hm; exact ⟨m.lib, false, by simp [canon], by simpa using he⟩
      · cases hm; exact ⟨m.lib, false, by simp [canon], by simpa using he⟩
      · cases hm; exact ⟨m.lib, false, by simp [canon], by simpa using he⟩
    | running o' =>
      simp only [canon, hf] at hc
      split at hc
      · rename_i hok'
        simp only [Option.some.injEq, Prod.mk.injEq] at hc
        obtain ⟨rfl, rfl⟩ := hc
        cases x <;> simp only [act, libCall, hf] at hm <;> simp only [eager] at he <;> try (cases hm; done)
        cases hm
        exact ⟨(Step.stepAsync c o' m.lib).st, true, by simp [canon, hok'], by simpa using he⟩
      · exact absurd hc (by simp)
    | ready b =>
      cases b with
      | false => simp [canon, hf] at hc
      | true =>
        simp only [canon, hf, Option.some.injEq, Prod.mk.injEq] at hc
        obtain ⟨rfl, rfl⟩ := hc
        cases x <;> simp only [act, libCall, hf] at hm <;> simp only [eager] at he
        · cases hm; exact ⟨m.lib, true, by simp [canon], by simpa using he⟩
        · cases hm
        · cases hm; exact ⟨m.lib, false, by simp [canon], by simpa using he⟩
        · simp at he
        · simp at he
        · simp at he
        · simp at he
        · cases hm; exact ⟨m.lib, false, by simp [canon], by simpa using he⟩
        · simp at he

theorem inv_safe {c : Cfg} {fin : St × Bool × List St} {m : M} (hi : Inv c fin m) : ¬ Trouble c m := by
  rintro ⟨x, l, hl, hx⟩
  obtain ⟨s, p, hc, he⟩ := hi
  rw [hl] at he
  cases hf : m.ftr with
  | invalid =>
    simp only [canon, hf, Option.some.injEq, Prod.mk.injEq] at hc
    obtain ⟨rfl, rfl⟩ := hc
    cases x <;> simp only [act, libCall, hf] at hx <;> simp only [eager] at he <;> (try simp at he) <;> try (simp at hx; done)
    · rename_i a o; simp [he.1] at hx
    · rename_i o; simp [he.1] at hx
  | running o' =>
    simp only [canon, hf] at hc
    split at hc
    · simp only [Option.some.injEq, Prod.mk.injEq] at hc
      obtain ⟨rfl, rfl⟩ := hc
      cases x <;> simp only [act, libCall, hf] at hx <;> simp only [eager] at he <;> (try simp at he) <;> simp at hx
    · exact absurd hc (by simp)
  | ready b =>
    cases b with
    | false => simp [canon, hf] at hc
    | true =>
      simp only [canon, hf, Option.some.injEq, Prod.mk.injEq] at hc
      obtain ⟨rfl, rfl⟩ := hc
      cases x <;> simp only [act, libCall, hf] at hx <;> simp only [eager] at he <;> (try simp at he) <;> simp at hx

/-- whoever is not in trouble and has something to do can go on -/
theorem progress {c : Cfg} {m : M} (ht : ¬ Trouble c m) (hn : m.todo ≠ []) : ∃ m', Tr c m m' := by
  obtain ⟨x, l, hl⟩ : ∃ x l, m.todo = x :: l := by
    cases h : m.todo with
    | nil => exact absurd h hn
    | cons x l => exact ⟨x, l, rfl⟩
  cases hx : act c m l x with
  | next m' => exact ⟨m', .main hl hx⟩
  | blocked =>
    cases hf : m.ftr with
    | running o => exact ⟨_, .bg hf⟩
    | invalid =>
      cases x <;> simp only [act, libCall, hf] at hx <;> try (exact absurd hx (by simp))
      all_goals (split at hx <;> exact absurd hx (by simp))
    | ready b =>
      cases b <;> cases x <;> simp only [act, libCall, hf] at hx <;> try (exact absurd hx (by simp))
      all_goals (split at hx <;> exact absurd hx (by simp))
  | assertion => exact absurd ⟨x, l, hl, Or.inl hx⟩ ht
  | badFuture => exact absurd ⟨x, l, hl, Or.inr (Or.inl hx)⟩ ht
  | race => exact absurd ⟨x, l, hl, Or.inr (Or.inr (Or.inl hx))⟩ ht
  | threw => exact absurd ⟨x, l, hl, Or.inr (Or.inr (Or.inr hx))⟩ ht

/-! ### the eager run of the driver -/

theorem eager_append (c : Cfg) (s : St) (p : Bool) (log : List St) (l l' : List Act) :
    eager c s p log (l ++ l') = (eager c s p log l).bind fun r => eager c r.1 r.2.1 r.2.2 l' := by
  induction l generalizing s p log with
  | nil => rfl
  | cons x l ih =>
    cases x <;> simp only [List.cons_append, eager] <;> (repeat' split) <;> first | rfl | exact ih _ _ _

theorem stepSync_done {c : Cfg} {a : SyncArgs} {o : Opts} (hd : c.nDims ≤ 3) (h : StepOk c a o) (k : ℕ) :
    stepSync c a o (done k) = ⟨true, { init := true, async := true, nSync := k + 1, nCond := k + 1, nAsync := k }⟩ := by
  have h1 := (syncArgsOk_iff c a hd).2 h.args
  have h2 : (o.turbCond && !c.turbCond) = false := by
    have := h.turbCond
    revert this
    cases o.turbCond <;> cases c.turbCond <;> simp
  have h3 : (o.dtPos && !c.variableDt) = false := by
    have := h.opts.dt
    revert this
    cases o.dtPos <;> cases c.variableDt <;> simp
  simp [stepSync, Step.syncIn, Step.stepCond, done, h1, h2, h3]

theorem stepAsync_done {c : Cfg} {a : SyncArgs} {o : Opts} (h : StepOk c a o) (k : ℕ) :
    Step.stepAsync c o { init := true, async := true, nSync := k + 1, nCond := k + 1, nAsync := k } = ⟨true, done (k + 1)⟩ := by
  have h1 := ((stepAsync_iff c o { init := true, async := true, nSync := k + 1, nCond := k + 1, nAsync := k }).1).2 ⟨rfl, h.opts⟩
  revert h1
  simp only [Step.stepAsync]
  cases asyncOptsOk c o <;> cases asyncLateOk c o <;> cases (o.dtPos && !c.variableDt) <;> simp [done]

/-- whether a future is held when time step `t` begins -/
def pending (async : Bool) (freq t0 t : ℕ) : Bool := async && decide (t ≠ t0) && decide ((t - 1) % freq ≠ 0)

theorem eager_post {c : Cfg} {a : SyncArgs} {o : Opts} (hd : c.nDims ≤ 3) (h : StepOk c a o) (async : Bool) {freq t0 t : ℕ}
    (h0 : t0 ≤ 1) (ht : t0 ≤ t) (k : ℕ) (log : List St) :
    eager c (done k) (pending async freq t0 t) log (postStep async freq a o t) =
      some (done (k + 1), pending async freq t0 (t + 1), if t % freq = 0 then log ++ [done (k + 1)] else log) := by
  have hp : pending async freq t0 t = (async && decide (t ≠ 0) && decide ((t - 1) % freq ≠ 0)) := by
    unfold pending
    cases async
    · rfl
    · by_cases h1 : t = t0
      · subst h1
        have : (t - 1) % freq = 0 := by
          rcases Nat.eq_zero_or_pos t with h | h
          · subst h; simp
          · have : t - 1 = 0 := by omega
            simp [this]
        simp [this]
      · have : t ≠ 0 := by omega
        simp [h1, this]
  have hq : pending async freq t0 (t + 1) = (async && decide (t % freq ≠ 0)) := by
    unfold pending
    have : t + 1 ≠ t0 := by omega
    simp [this]
  rw [hp, hq]
  unfold postStep
  have hs := stepSync_done hd h k
  have hsok : (stepSync c a o (done k)).ok = true := by rw [hs]
  have hsst : (stepSync c a o (done k)).st = { init := true, async := true, nSync := k + 1, nCond := k + 1, nAsync := k } := by rw [hs]
  have ha := stepAsync_done h k
  have haok := congrArg Res.ok ha
  have hast := congrArg Res.st ha
  simp only at haok hast
  cases hb : async && decide (t ≠ 0) && decide ((t - 1) % freq ≠ 0) <;> cases async <;> by_cases hm : t % freq = 0 <;>
    simp [eager, hsok, hsst, haok, hast, hm]

theorem eager_steps {c : Cfg} {a : ℕ → SyncArgs} {o : ℕ → Opts} (hd : c.nDims ≤ 3) (h : ∀ t, StepOk c (a t) (o t)) (async : Bool)
    {freq t0 : ℕ} (h0 : t0 ≤ 1) (n k : ℕ) (log : List St) :
    eager c (done k) (pending async freq t0 (t0 + k)) log (steps async freq a o (t0 + k) n) =
      some (done (k + n), pending async freq t0 (t0 + k + n),
        log ++ ((List.range' k n).filter fun k => (t0 + k) % freq = 0).map fun k => done (k + 1)) := by
  induction n generalizing k log with
  | zero => simp [steps, eager]
  | succ n ih =>
    rw [steps, eager_append, eager_post hd (h _) async h0 (Nat.le_add_right _ _)]
    simp only [Option.bind_some]
    have e : t0 + k + 1 = t0 + (k + 1) := by omega
    rw [e, ih (k + 1)]
    have e2 : k + 1 + n = k + (n + 1) := by omega
    have e3 : t0 + (k + 1) + n = t0 + k + (n + 1) := by omega
    rw [e2, e3, List.range'_succ]
    by_cases hm : (t0 + k) % freq = 0 <;> simp [hm]

theorem eager_start {c : Cfg} {a : ℕ → SyncArgs} {o : ℕ → Opts} (hd : c.nDims ≤ 3) (h : ∀ t, StepOk c (a t) (o t)) (async : Bool)
    {freq t0 : ℕ} (h0 : t0 ≤ 1) (n : ℕ) :
    Inv c (done n, false, expected freq t0 n) (start async freq a o t0 n) := by
  refine ⟨done 0, false, rfl, ?_⟩
  have h := eager_steps (freq := freq) hd h async h0 n 0 [done 0]
  have hp : pending async freq t0 (t0 + 0) = false := by simp [pending]
  rw [hp, Nat.add_zero, Nat.zero_add] at h
  show eager c (done 0) false [] (.diag :: (steps async freq a o t0 n ++ [.dropFtr, .dropLib])) = _
  simp only [eager, Bool.false_eq_true, if_false, List.nil_append]
  rw [eager_append, h, expected, List.range_eq_range']
  rfl

theorem inv_reach {c : Cfg} {fin : St × Bool × List St} {m m' : M} (hi : Inv c fin m) (hr : ReflTransGen (Tr c) m m') : Inv c fin m' := by
  induction hr with
  | refl => exact hi
  | tail _ ht ih => exact inv_step ih ht

/-! ### the claims -/

/-- **C108 (safety).** Whatever the output frequency, the number of time steps, the switch for background steps and the moments
at which background steps complete, the driver never calls the library while a background step may be running, never fails one
of its assertions, never misuses its future and never gets an exception from the library; and it never gets stuck. -/
theorem driver_safe {c : Cfg} {a : ℕ → SyncArgs} {o : ℕ → Opts} (hd : c.nDims ≤ 3) (h : ∀ t, StepOk c (a t) (o t)) (async : Bool)
    {freq t0 : ℕ} (_hf : 0 < freq) (h0 : t0 ≤ 1) (n : ℕ) {m : M} (hr : ReflTransGen (Tr c) (start async freq a o t0 n) m) :
    ¬ Trouble c m ∧ (m.todo ≠ [] → ∃ m', Tr c m m') :=
  have hi := inv_safe (inv_reach (eager_start hd h async h0 n) hr)
  ⟨hi, progress hi⟩

/-- a bound on how much there is left to do -/
def work (m : M) : ℕ := 2 * m.todo.length + (match m.ftr with | .running _ => 1 | _ => 0)

theorem work_lt {c : Cfg} {m m' : M} (h : Tr c m m') : work m' < work m := by
  cases h with
  | bg hf => simp [work, hf]
  | main hl hm =>
    rename_i x l
    cases hf : m.ftr with
    | invalid =>
      cases x <;> simp only [act, libCall, hf] at hm <;> (try split at hm) <;> cases hm <;> simp [work, hl, hf] <;> omega
    | running o' =>
      cases x <;> simp only [act, libCall, hf] at hm <;> cases hm <;> simp [work, hl, hf]
    | ready b =>
      cases b <;> cases x <;> simp only [act, libCall, hf] at hm <;> (try split at hm) <;> cases hm <;> simp [work, hl, hf]

/-- **C108 (termination).** No run of the driver goes on for ever. -/
theorem driver_terminates (c : Cfg) : WellFounded fun m' m : M => Tr c m m' :=
  Subrelation.wf (r := InvImage (· < ·) work) (fun h => work_lt h) (InvImage.wf work Nat.lt_wfRel.wf)

/-- **C108 (output).** When the driver has finished, its diagnostics have seen the initial state and the state after exactly each
time step whose number is a multiple of the output frequency, each with all the time steps so far complete – the same for
background and ordinary steps – and all the steps have been made. -/
theorem driver_output {c : Cfg} {a : ℕ → SyncArgs} {o : ℕ → Opts} (hd : c.nDims ≤ 3) (h : ∀ t, StepOk c (a t) (o t)) (async : Bool)
    {freq t0 : ℕ} (_hf : 0 < freq) (h0 : t0 ≤ 1) (n : ℕ) {m : M} (hr : ReflTransGen (Tr c) (start async freq a o t0 n) m)
    (he : m.todo = []) : m.log = expected freq t0 n ∧ m.lib = done n ∧ m.ftr = .invalid := by
  obtain ⟨s, p, hc, hi⟩ := inv_reach (eager_start (freq := freq) hd h async h0 n) hr
  rw [he] at hi
  simp only [eager, Option.some.injEq, Prod.mk.injEq] at hi
  obtain ⟨rfl, rfl, hlog⟩ := hi
  cases hf : m.ftr with
  | running o' =>
    simp only [canon, hf] at hc
    split at hc
    · simp at hc
    · simp at hc
  | invalid => simp only [canon, hf, Option.some.injEq, Prod.mk.injEq] at hc; exact ⟨hlog, hc.1, rfl⟩
  | ready b => cases b <;> simp [canon, hf] at hc

/-! ### non-vacuity -/

/-- a 2D run without chemistry, with everything the driver switches on -/
def exCfg : Cfg := ⟨2, false, true, true, false, false, false, false, false, true, true, false⟩
def exArgs : SyncArgs := ⟨true, true, false, false, false, false, 0⟩
def exOpts : Opts := ⟨true, true, false, true, true, false, false, false, false, false, false, false, false⟩

example : StepOk exCfg exArgs exOpts :=
  ⟨⟨rfl, rfl, Or.inl ⟨rfl, rfl, rfl⟩, rfl, by decide⟩,
    ⟨by decide, by decide, by decide, by decide, by decide, by decide, by decide, by decide⟩, by decide⟩

/-- five time steps, output every other one: the diagnostics see 0, 2 and 4 complete steps -/
example : expected 2 1 5 = [done 0, done 2, done 4] := by decide

/-- background steps do happen: from the start a state is reached in which one is running -/
example : ∃ m, ReflTransGen (Tr exCfg) (start true 2 (fun _ => exArgs) (fun _ => exOpts) 1 5) m ∧ ∃ o, m.ftr = .running o := by
  exact ⟨_, .head (.main rfl rfl) <| .head (.main rfl rfl) <| .head (.main rfl rfl) <| .head (.main rfl rfl) <|
    .head (.main rfl rfl) .refl, exOpts, rfl⟩

end LCP.Icicle
