import Mathlib.Data.Real.Basic
import Mathlib.Algebra.Order.Floor.Ring
import Mathlib.Algebra.Order.Archimedean.Real.Basic

/-!
# Model of the stepping protocol, time-step adjustment and step counters

Sources: src/particles_step.ipp, src/particles_init.ipp, src/impl/particles_impl_adjust_timesteps.ipp,
src/impl/initialization/particles_impl_init_sanity_check.ipp (l.25-28).
-/
namespace LCP.Step

/-- options fixed at construction (opts_init_t), as far as the stepping checks look at them; `argsOk` tells whether the
remaining checks of `init_sanity_check` (modelled in Verif.Sanity) pass for the arguments of the `init` call -/
structure Cfg where
  nDims : ℕ
  chem : Bool
  coal : Bool
  sedi : Bool
  subs : Bool
  turbAdve : Bool
  turbCond : Bool
  turbCoal : Bool
  variableDt : Bool
  srcOff : Bool
  /-- src_x0 == 0 && src_x1 == 0 -/
  srcBoxNull : Bool
  rlx : Bool

/-- run-time options (opts_t) -/
structure Opts where
  adve : Bool
  sedi : Bool
  subs : Bool
  cond : Bool
  coal : Bool
  src : Bool
  rlx : Bool
  chemDsl : Bool
  chemDsc : Bool
  chemRct : Bool
  turbAdve : Bool
  turbCond : Bool
  /-- dt > 0 -/
  dtPos : Bool

/-- arguments of sync_in: which arrays are passed -/
structure SyncArgs where
  th : Bool
  rv : Bool
  cx : Bool
  cy : Bool
  cz : Bool
  diss : Bool
  ambient : ℕ

/-- flags (particles_impl.ipp:32, 328-331) and, as observable effect, the numbers of completed phases of each kind;
`half` counts step_async calls that threw after having moved/collided super-droplets -/
structure St where
  init : Bool := false
  cond : Bool := false
  async : Bool := false
  nSync : ℕ := 0
  nCond : ℕ := 0
  nAsync : ℕ := 0
  half : ℕ := 0
  deriving DecidableEq

/-- result of a call: returned or threw, with the state left behind -/
structure Res where
  ok : Bool
  st : St

/-- Courant arity check (particles_step.ipp:57-70) -/
def courantOk (c : Cfg) (a : SyncArgs) : Bool :=
  if a.cx || a.cy || a.cz then
    if c.nDims = 0 then false
    else if c.nDims = 1 ∧ (!a.cx || a.cy || a.cz) = true then false
    else if c.nDims = 2 ∧ (!a.cx || a.cy || !a.cz) = true then false
    else if c.nDims = 3 ∧ (!a.cx || !a.cy || !a.cz) = true then false
    else true
  else true

/-- argument checks of sync_in (particles_step.ipp:54-84); chem_gas_n = 6 -/
def syncArgsOk (c : Cfg) (a : SyncArgs) : Bool :=
  let turb := c.turbAdve || c.turbCond || c.turbCoal
  if !a.th || !a.rv then false
  else if !courantOk c a then false
  else if c.chem && a.ambient != 6 then false
  else if !c.chem && a.ambient != 0 then false
  else if turb && !a.diss then false
  else if !turb && a.diss then false
  else true

/-- `init` (particles_init.ipp:16-.., particles_impl_init_sanity_check.ipp:25-28): the flag is set before the other
checks -/
def doInit (argsOk : Bool) (s : St) : Res :=
  if s.init then ⟨false, s⟩
  else if argsOk then ⟨true, { s with init := true }⟩ else ⟨false, { s with init := true }⟩

/-- `sync_in` (particles_step.ipp:31-167) -/
def syncIn (c : Cfg) (a : SyncArgs) (s : St) : Res :=
  if !s.init then ⟨false, s⟩
  else if s.async then ⟨false, s⟩
  else if !syncArgsOk c a then ⟨false, s⟩
  else ⟨true, { s with cond := true, nSync := s.nSync + 1 }⟩

/-- `step_cond` (particles_step.ipp:169-336); the only throws are the listed ones — simplification: the undefined behaviour
and `ambient_chem.at` failure of chemistry options without chem_switch are not modelled, callers are assumed not to do
that -/
def stepCond (c : Cfg) (o : Opts) (s : St) : Res :=
  if !s.cond then ⟨false, s⟩
  else if o.turbCond && !c.turbCond then ⟨false, s⟩
  else
    let s := { s with cond := false }
    if o.dtPos && !c.variableDt then ⟨false, s⟩
    else ⟨true, { s with async := true, nCond := s.nCond + 1 }⟩

/-- option checks at the top of step_async (particles_step.ipp:346-361) -/
def asyncOptsOk (c : Cfg) (o : Opts) : Bool :=
  !((o.chemDsl || o.chemDsc || o.chemRct) && !c.chem) && !(o.coal && !c.coal) && !(o.sedi && !c.sedi) &&
  !(o.subs && !c.subs) && !(o.turbAdve && !c.turbAdve) && !(o.turbAdve && decide (c.nDims = 0))

/-- the two late checks (particles_step.ipp:449-467): source and relaxation, after collisions and advection -/
def asyncLateOk (c : Cfg) (o : Opts) : Bool :=
  !(o.src && !c.srcBoxNull && c.srcOff) && !(o.rlx && !c.rlx)

/-- `step_async` (particles_step.ipp:338-493): clears the flag before the option checks -/
def stepAsync (c : Cfg) (o : Opts) (s : St) : Res :=
  if !s.async then ⟨false, s⟩
  else
    let s := { s with async := false }
    if !asyncOptsOk c o then ⟨false, s⟩
    else if o.dtPos && !c.variableDt then ⟨false, s⟩
    else if !asyncLateOk c o then ⟨false, { s with half := s.half + 1 }⟩
    else ⟨true, { s with nAsync := s.nAsync + 1 }⟩

/-- API calls -/
inductive Call where
  | init (argsOk : Bool)
  | syncIn (a : SyncArgs)
  | stepCond (o : Opts)
  | stepAsync (o : Opts)
  /-- `step_sync` = sync_in; step_cond (particles_step.ipp:15-29) -/
  | stepSync (a : SyncArgs) (o : Opts)

/-- kinds of elementary calls in a trace -/
inductive Kind where
  | init | sync | cond | async
  deriving DecidableEq

/-- one call: new state and the list of elementary calls it made, with success flags (an exception in sync_in skips
step_cond) -/
def exec (c : Cfg) (s : St) : Call → St × List (Kind × Bool)
  | .init a => let r := doInit a s; (r.st, [(.init, r.ok)])
  | .syncIn a => let r := syncIn c a s; (r.st, [(.sync, r.ok)])
  | .stepCond o => let r := stepCond c o s; (r.st, [(.cond, r.ok)])
  | .stepAsync o => let r := stepAsync c o s; (r.st, [(.async, r.ok)])
  | .stepSync a o =>
    let r := syncIn c a s
    if r.ok then let r2 := stepCond c o r.st; (r2.st, [(.sync, true), (.cond, r2.ok)])
    else (r.st, [(.sync, false)])

/-- any sequence of calls -/
def run (c : Cfg) (s : St) : List Call → St × List (Kind × Bool)
  | [] => (s, [])
  | a :: l => let r := exec c s a; let r2 := run c r.1 l; (r2.1, r.2 ++ r2.2)

/-! ### adjust_timesteps -/

/-- substep counts and default step of opts_init -/
structure SstpInit where
  dt : ℝ
  sstpCond : ℕ
  sstpCoal : ℕ
  sstpChem : ℕ
  sstpCondAct : ℕ
  variableDt : Bool

/-- current values -/
structure Sstp where
  dt : ℝ
  sstpCond : ℕ
  sstpCoal : ℕ
  sstpChem : ℕ
  sstpCondAct : ℕ

/-- one line of adjust_timesteps (particles_impl_adjust_timesteps.ipp:17-20) -/
noncomputable def adjustOne (dt0 dt : ℝ) (sstp : ℕ) : ℕ :=
  if dt > 0 ∧ sstp > 1 then ⌈(sstp : ℝ) * dt / dt0⌉₊ else sstp

/-- `adjust_timesteps` (particles_impl_adjust_timesteps.ipp:13-23); `none`: throws -/
noncomputable def adjust (i : SstpInit) (dt : ℝ) : Option Sstp :=
  if dt > 0 ∧ i.variableDt = false then none
  else some {
    sstpCond := adjustOne i.dt dt i.sstpCond
    sstpCoal := adjustOne i.dt dt i.sstpCoal
    sstpChem := adjustOne i.dt dt i.sstpChem
    sstpCondAct := adjustOne i.dt dt i.sstpCondAct
    dt := if dt > 0 then dt else i.dt }

/-- coalescence part of step_async (particles_step.ipp:367, 385-405): `cur` are the current substep settings, `multi` whether
a multiple collision was detected (`*increase_sstp_coal`) in this step; returns the number of coalescence substeps
made, and the settings left behind -/
noncomputable def asyncCoal (i : SstpInit) (dt : ℝ) (coal multi : Bool) (_cur : Sstp) : Option (ℕ × Sstp) :=
  (adjust i dt).map (fun a =>
    (if coal then a.sstpCoal else 0, if coal && multi then { a with sstpCoal := a.sstpCoal + 1 } else a))

/-! ### source and relaxation counters -/

/-- src_stp_ctr / rlx_stp_ctr after a step_async with the option on or off (particles_step.ipp:476-479) -/
def ctrNext (on : Bool) (ctr : ℕ) : ℕ := if on then ctr + 1 else 0

/-- counter seen by step `t` when the option was `on t'` in step t' (initially 0, particles_impl.ipp:349-350) -/
def ctr (on : ℕ → Bool) : ℕ → ℕ
  | 0 => 0
  | t + 1 => ctrNext (on t) (ctr on t)

/-- does step `t` add aerosol? (particles_step.ipp:449-471, `if (src_stp_ctr % supstp != 0) return`
particles_impl_src_dry_distros_simple.ipp:27, ..._matching.ipp:56, particles_impl_src_dry_sizes.ipp:31) -/
def fires (sup : ℕ) (on : ℕ → Bool) (t : ℕ) : Bool := on t && decide (ctr on t % sup = 0)

end LCP.Step
