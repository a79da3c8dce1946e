import Verif.Coal.Props
import Verif.Bcnd.Props
import Verif.Hskpng.RcycProps
import Verif.Adve.Transport
import Verif.Cond.PerCellProps
import Verif.Cond.Adaptive

/-!
# Whole time steps and runs (C104, C105)

Sources: src/particles_step.ipp:186-335 (`step_cond`, its condensation part), 338-504 (`step_async`), src/impl/distributed_memory/particles_impl_post_copy.ipp:19-40.

The processes are those modelled elsewhere (`Cond.condPerCell`, `Cond.condPerPart`, `Cond.condAdaptive`, `Coal.coal`, `Adve.transport`, `Bcnd.bcnd`, `Rcyc.rcyc`, `Rcyc.removeN0`); here
they act, in the order of the code, on one common population.  Shared-memory runs without chemistry and ice.
-/
namespace LCP.Run
open LCP

/-- all attributes of a super-droplet that take part -/
structure Drop extends Coal.SD where
  x : ℝ
  y : ℝ
  z : ℝ

/-- the population and the puddle -/
structure St where
  N : ℕ
  sd : ℕ → Drop
  puddle : Bcnd.Q → ℝ

/-- position in the form used by advection -/
def Drop.pos (d : Drop) : Adve.Pos := { x := d.x, y := d.y, z := d.z }

/-! ### Condensation (step_cond) -/

/-- the population as seen by condensation; `f` holds everything else: fields, grid, the order of sorting, saved fields.  Multiplicities, radii and terminal
velocities come from the population. -/
def toCond (f : Cond.St) (s : St) : Cond.St :=
  { f with d := { f.d with N := s.N, n := fun i => (s.sd i).n }
           rw2 := fun i => (s.sd i).rw2, rd3 := fun i => (s.sd i).rd3, kpa := fun i => (s.sd i).kpa, vt := fun i => (s.sd i).vt }

/-- the ways in which step_cond does condensation (particles_step.ipp:188-268): not at all (opts.cond false), per-cell substeps, per-particle substeps (with or without
mixing, `ordRv` and `ordTh` being the orders in which threads write to cells), per-particle adaptive substeps (`junk`: what its uninitialised variables hold).  `p` holds the
per-particle vectors left by earlier steps; its `s` is not used. -/
inductive How where
  | off
  | percell (allow : Bool)
  | perpart (mix allow : Bool) (ordRv ordTh : List ℕ) (p : Cond.PSt)
  | adaptive (eps mx : ℝ) (act : ℕ) (rc2 : ℕ → ℝ) (junk : ℕ → ℝ × ℝ × ℝ) (allow : Bool) (p : Cond.PSt)

/-- condensation in one of these ways (particles_step.ipp:188-268) -/
noncomputable def How.run (o : Cond.Cfg) : How → Cond.St → Option Cond.St
  | .off, q => some q
  | .percell allow, q => Cond.condPerCell o allow q
  | .perpart mix allow ordRv ordTh p, q => (Cond.condPerPart o mix allow ordRv ordTh { p with s := q }).map (·.s)
  | .adaptive eps mx act rc2 junk allow p, q => (Cond.condAdaptive o eps mx act rc2 junk allow { p with s := q }).map (·.s)

/-- possible inputs: threads write in any order; adaptive substeps are used with one of the two variants of thermodynamics that define a pressure -/
def How.Ok (o : Cond.Cfg) (N : ℕ) : How → Prop
  | .off => True
  | .percell _ => True
  | .perpart _ _ ordRv ordTh _ => ordRv.Perm (List.range N) ∧ ordTh.Perm (List.range N)
  | .adaptive _ _ _ _ _ _ _ => o.tpr.th_dry = true ∨ o.tpr.const_p = true

/-- what condensation changes in the population: wet radii; times in cloud may be updated as well (diag_incloud_time, particles_step.ipp:180-181), and step_async begins with refreshing
terminal velocities (particles_step.ipp:387-388) -/
def ofCond (r : Cond.St) (inc vt : ℕ → ℝ) (s : St) : St :=
  { s with sd := fun i => { s.sd i with rw2 := r.rw2 i, inc := inc i, vt := vt i } }

/-! ### Coalescence -/

/-- inputs of one coalescence sub-step: cells, outcome of the shuffle and sort, volumes, kernel, random numbers, execution orders, and the velocities and
critical radii as refreshed afterwards (hskpng_vterm_invalid, hskpng_approximate_rc2_invalid; particles_step.ipp:395-411) -/
structure CoalIn where
  dt : ℝ
  dv : ℕ → ℝ
  ker : ℕ → Coal.SD → Coal.SD → ℝ
  ijk : ℕ → ℕ
  sid : List ℕ
  constMulti : Bool
  col : ℕ → ℝ
  inc : Bool
  σ : Coal.Scheds
  vt : ℕ → ℝ
  rc2 : ℕ → ℝ

/-- environment of the sub-step for a population of `N` -/
def CoalIn.env (a : CoalIn) (N : ℕ) : Coal.Env :=
  { N := N, dt := a.dt, dv := a.dv, ker := a.ker, ijk := a.ijk, sid := a.sid, constMulti := a.constMulti }

/-- one sub-step (particles_step.ipp:393-401) -/
noncomputable def coalOnce (o : Coal.Opts) (a : CoalIn) (s : St) : Option St :=
  (Coal.coal o (a.env s.N) a.σ { sd := fun i => (s.sd i).toSD, col := a.col, increase := a.inc }).map fun t =>
    { s with sd := fun i => { s.sd i with toSD := { t.sd i with vt := a.vt i, rc2 := a.rc2 i } } }

/-- the inputs are possible: any rearrangement sorted by cell, any execution orders -/
def CoalIn.Ok (a : CoalIn) (N : ℕ) : Prop := (a.env N).Sorted ∧ a.σ.Valid N

/-- all sub-steps of a time step (particles_step.ipp:391-401); no sub-steps if coalescence is off -/
inductive CoalSteps (o : Coal.Opts) : St → St → Prop
  | done (s : St) : CoalSteps o s s
  | step {s t u : St} (a : CoalIn) (ha : a.Ok s.N) (h : coalOnce o a s = some t) (hr : CoalSteps o t u) : CoalSteps o s u

/-! ### Transport, sources, boundaries -/

/-- inputs of transport -/
structure MoveIn where
  init : Adve.Scheme
  hs : ℕ
  d : Grid.Dims
  b : Grid.Box
  o : Adve.TrOpts
  dt : ℝ
  u : ℕ → Adve.Pos
  wLS : ℕ → ℝ
  st : Adve.TrSt

/-- `t` is the population after transport (particles_step.ipp:428-446): super-droplet by super-droplet, see `Adve.transport` -/
def Moved (m : MoveIn) (s t : St) : Prop :=
  t.N = s.N ∧ t.puddle = s.puddle ∧ ∀ i < s.N, ∃ st' p, Adve.transport m.init m.hs m.d m.b m.o m.dt (s.sd i).vt (m.u i) m.wLS m.st (s.sd i).pos = some (st', p) ∧
    t.sd i = { s.sd i with x := p.x, y := p.y, z := p.z }

/-- new super-droplets of the source and of relaxation (particles_step.ipp:452-477), appended -/
structure New where
  k : ℕ
  sd : ℕ → Drop

/-- population with new super-droplets -/
def addNew (w : New) (s : St) : St := { s with N := s.N + w.k, sd := fun i => if i < s.N then s.sd i else w.sd (i - s.N) }

/-- the population as seen by the boundary conditions -/
def toBcnd (s : St) : Bcnd.St :=
  { N := s.N, n := fun i => (s.sd i).n, x := fun i => (s.sd i).x, y := fun i => (s.sd i).y, z := fun i => (s.sd i).z
    rw2 := fun i => (s.sd i).rw2, rd3 := fun i => (s.sd i).rd3, iceA := fun _ => 0, iceC := fun _ => 0, iceRho := fun _ => 0
    chem := fun j i => (s.sd i).chem j, puddle := s.puddle }

/-- boundary conditions (particles_step.ipp:487) -/
noncomputable def bcndRun (o : Bcnd.Opts) (s : St) : St :=
  let r := Bcnd.bcnd o (toBcnd s)
  { N := r.N, puddle := r.puddle
    sd := fun i => { s.sd i with n := r.n i, x := r.x i, y := r.y i, z := r.z i } }

/-! ### Recycling and removal (post_copy) -/

/-- real-valued attributes moved by recycling and removal -/
inductive Attr where
  | rw2 | rd3 | vt | kpa | chem (j : ℕ) | inc | rc2 | x | y | z

/-- attributes of a droplet by name -/
def Drop.get (d : Drop) : Attr → ℝ
  | .rw2 => d.rw2 | .rd3 => d.rd3 | .vt => d.vt | .kpa => d.kpa | .chem j => d.chem j | .inc => d.inc | .rc2 => d.rc2
  | .x => d.x | .y => d.y | .z => d.z

/-- droplet from its multiplicity and attributes -/
def mkDrop (n : ℕ) (a : Attr → ℝ) : Drop :=
  { n := n, rw2 := a .rw2, rd3 := a .rd3, vt := a .vt, kpa := a .kpa, chem := fun j => a (.chem j), inc := a .inc, rc2 := a .rc2, x := a .x, y := a .y, z := a .z }

/-- the population as seen by recycling -/
def toRcyc (s : St) : Rcyc.State Attr := { N := s.N, n := fun i => (s.sd i).n, attr := fun i => (s.sd i).get }

/-- and back -/
def ofRcyc (r : Rcyc.State Attr) (s : St) : St := { s with N := r.N, sd := fun i => mkDrop (r.n i) (r.attr i) }

/-- inputs of recycling: outcome of the sort by multiplicity, execution orders -/
structure RcycIn where
  pcm : Bool
  sid : List ℕ
  σ : Rcyc.Scheds Attr

/-- post_copy (particles_impl_post_copy.ipp:19-40): recycling if asked for, otherwise removal -/
def postCopy (r : Option RcycIn) (s : St) : St :=
  match r with
  | some r => ofRcyc (Rcyc.rcyc r.pcm (toRcyc s) r.sid r.σ).1 s
  | none => ofRcyc (Rcyc.removeN0 (toRcyc s)) s

/-- possible inputs of recycling -/
def RcycOk (r : Option RcycIn) (s : St) : Prop :=
  ∀ a, r = some a → IsCellSort s.N (fun i => (s.sd i).n) a.sid ∧ a.σ.Valid (Rcyc.nRcyc (toRcyc s) a.sid)

/-! ### A time step -/

/-- options of a run -/
structure Cfg where
  coal : Coal.Opts
  bcnd : Bcnd.Opts
  cond : Cond.Cfg

/-- the states passed through in a time step -/
structure Trace where
  /-- at the beginning -/
  a : St
  /-- fields, sorting order, saved fields when condensation begins -/
  fields : Cond.St
  /-- how condensation is done -/
  how : How
  /-- fields and radii after condensation -/
  cond : Cond.St
  inc : ℕ → ℝ
  /-- terminal velocities at the beginning of step_async -/
  vt : ℕ → ℝ
  /-- after coalescence -/
  c : St
  /-- after transport -/
  m : St
  new : New
  rcyc : Option RcycIn

/-- population after condensation -/
def Trace.b (t : Trace) : St := ofCond t.cond t.inc t.vt t.a
/-- population when the boundary conditions are applied -/
def Trace.atWalls (t : Trace) : St := addNew t.new t.m
/-- population at the end -/
noncomputable def Trace.fin (cfg : Cfg) (t : Trace) : St := postCopy t.rcyc (bcndRun cfg.bcnd t.atWalls)

/-- A time step: step_cond, then step_async.  Everything not determined by the state (sorting, random numbers, velocities, flow, source, execution
orders) is arbitrary. -/
structure TimeStep (cfg : Cfg) (t : Trace) : Prop where
  sorted : Cond.Sorted (toCond t.fields t.a).d
  how : t.how.Ok cfg.cond t.a.N
  cond : t.how.run cfg.cond (toCond t.fields t.a) = some t.cond
  coal : CoalSteps cfg.coal t.b t.c
  move : ∃ m, Moved m t.c t.m
  rcyc : RcycOk t.rcyc (bcndRun cfg.bcnd t.atWalls)

/-- a run of `T` time steps: states `s 0 ... s T` at the ends of steps -/
structure History (cfg : Cfg) (T : ℕ) (s : ℕ → St) (t : ℕ → Trace) : Prop where
  step : ∀ k < T, TimeStep cfg (t k)
  beg : ∀ k < T, (t k).a = s k
  fin : ∀ k < T, (t k).fin cfg = s (k + 1)

end LCP.Run
