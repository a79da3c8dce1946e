import Verif.Step.Accept
import Mathlib.Logic.Relation

/-!
# Model of the asynchronous stepping of the kinematic 2D driver

Sources: models/kinematic_2D/src/kin_cloud_2d_lgrngn.hpp:119-295 (members `prtcls`, `ftr`, `hook_ante_loop`, `hook_post_step`) and
models/kinematic_2D/src/kin_cloud_2d_lgrngn_chem.hpp:158-330 (the same code with chemistry).

The background thread started with `std::async` runs one `step_async` of the library; it may finish at any moment between
its start and the `get()` of its future.  The library itself is the protocol model of `Verif.Step.Model`.
-/
namespace LCP.Icicle
open LCP.Step

/-- backends the driver can be asked for (opts_lgrngn.hpp:269-273) -/
inductive Backend where
  | serial | openmp | cuda | multiCuda
  deriving DecidableEq

/-- whether steps are run in the background: the option, if `std::future` works and the backend runs on a GPU
(kin_cloud_2d_lgrngn.hpp:8, 159, 254-276; in the chemistry variant multi_CUDA is excluded, kin_cloud_2d_lgrngn_chem.hpp:143) -/
def asyncOn (chemVariant futureWorks option : Bool) (b : Backend) : Bool :=
  futureWorks && option && (decide (b = .cuda) || (!chemVariant && decide (b = .multiCuda)))

/-- what the main thread does in `hook_post_step` and at the end of `hook_ante_loop` -/
inductive Act where
  | assertValid
  | assertInvalid
  /-- `ftr.get()` -/
  | get
  | sync (a : SyncArgs) (o : Opts)
  /-- `ftr = std::async(..., step_async, ...)` -/
  | launch (o : Opts)
  | async (o : Opts)
  /-- `diag()`: a series of `diag_*` and `outbuf` calls (kin_cloud_2d_lgrngn.hpp:33-95) -/
  | diag
  /-- destruction of the future: waits for the task, drops its result -/
  | dropFtr
  /-- destruction of the library object -/
  | dropLib

/-- one call of `hook_post_step` at time step `t` with output frequency `freq` (kin_cloud_2d_lgrngn.hpp:220-295, chem variant
kin_cloud_2d_lgrngn_chem.hpp:230-330); `t` is a nonnegative int, so that `t - 1` is only evaluated for `t ≥ 1` -/
def postStep (async : Bool) (freq : ℕ) (a : SyncArgs) (o : Opts) (t : ℕ) : List Act :=
  (if async && decide (t ≠ 0) && decide ((t - 1) % freq ≠ 0) then [.assertValid, .get] else [.assertInvalid]) ++
  [.sync a o] ++
  (if async then [.assertInvalid, .launch o, .assertValid] else [.async o]) ++
  (if t % freq = 0 then (if async then [.assertValid, .get] else []) ++ [.diag] else [])

/-- the calls made for `n` consecutive time steps, the first one being number `t` -/
def steps (async : Bool) (freq : ℕ) (a : ℕ → SyncArgs) (o : ℕ → Opts) : ℕ → ℕ → List Act
  | _, 0 => []
  | t, n + 1 => postStep async freq (a t) (o t) t ++ steps async freq a o (t + 1) n

/-- the future held by the driver: not valid, valid with the task still running, or valid with the task finished
(successfully or by an exception) -/
inductive Ftr where
  | invalid
  | running (o : Opts)
  | ready (ok : Bool)

/-- state of the program: the library object, the future, what the main thread still has to do, and the states of the
library seen by the diagnostics so far -/
structure M where
  lib : St
  ftr : Ftr
  todo : List Act
  log : List St

/-- outcome of one action of the main thread -/
inductive Out where
  | next (m : M)
  /-- waiting for the background task -/
  | blocked
  /-- failed `assert` -/
  | assertion
  /-- `get()` of a future that is not valid, or overwriting a running one without waiting -/
  | badFuture
  /-- a library call while the background task may still be using the library object -/
  | race
  /-- exception from the library -/
  | threw

/-- result of a library call made by the main thread -/
def libCall (m : M) (l : List Act) (r : Res) : Out :=
  match m.ftr with
  | .running _ => .race
  | _ => if r.ok then .next { m with lib := r.st, todo := l } else .threw

/-- `step_sync` (particles_step.ipp:15-29) -/
def stepSync (c : Cfg) (a : SyncArgs) (o : Opts) (s : St) : Res :=
  let r := Step.syncIn c a s
  if r.ok then Step.stepCond c o r.st else r

/-- execution of one action by the main thread -/
def act (c : Cfg) (m : M) (l : List Act) : Act → Out
  | .assertValid => match m.ftr with
    | .invalid => .assertion
    | _ => .next { m with todo := l }
  | .assertInvalid => match m.ftr with
    | .invalid => .next { m with todo := l }
    | _ => .assertion
  | .get => match m.ftr with
    | .invalid => .badFuture
    | .running _ => .blocked
    | .ready true => .next { m with ftr := .invalid, todo := l }
    | .ready false => .threw
  | .sync a o => libCall m l (stepSync c a o m.lib)
  | .async o => libCall m l (Step.stepAsync c o m.lib)
  | .launch o => match m.ftr with
    | .invalid => .next { m with ftr := .running o, todo := l }
    | _ => .badFuture
  | .diag => match m.ftr with
    | .running _ => .race
    | _ => .next { m with todo := l, log := m.log ++ [m.lib] }
  | .dropFtr => match m.ftr with
    | .running _ => .blocked
    | _ => .next { m with ftr := .invalid, todo := l }
  | .dropLib => match m.ftr with
    | .running _ => .race
    | _ => .next { m with todo := l }

/-- one transition of the whole program: the main thread executes its next action, or the background task completes -/
inductive Tr (c : Cfg) : M → M → Prop
  | main {m m' : M} {x : Act} {l : List Act} : m.todo = x :: l → act c m l x = .next m' → Tr c m m'
  | bg {m : M} {o : Opts} : m.ftr = .running o →
      Tr c m { m with lib := (Step.stepAsync c o m.lib).st, ftr := .ready (Step.stepAsync c o m.lib).ok }

/-- the program is in trouble: the next action of the main thread fails an assertion, uses the future wrongly, races with
the background task or throws -/
def Trouble (c : Cfg) (m : M) : Prop :=
  ∃ x l, m.todo = x :: l ∧
    (act c m l x = .assertion ∨ act c m l x = .badFuture ∨ act c m l x = .race ∨ act c m l x = .threw)

/-- the program right after `init` in `hook_ante_loop` (kin_cloud_2d_lgrngn.hpp:198-211), about to write the initial
diagnostics, then to make `n` time steps, numbered from `t0`, and then to be destroyed: members in reverse order of their
declaration, so `ftr` (l.216) before `prtcls` (l.28) -/
def start (async : Bool) (freq : ℕ) (a : ℕ → SyncArgs) (o : ℕ → Opts) (t0 n : ℕ) : M :=
  ⟨{ init := true }, .invalid, .diag :: (steps async freq a o t0 n ++ [.dropFtr, .dropLib]), []⟩

end LCP.Icicle
