import Verif.Run.Lemmas
import Verif.Step.Model
import Verif.Diag.ActivationWit

/-!
# The cached critical radii over whole runs: model (C111)

Sources: src/impl/housekeeping/particles_impl_hskpng_rc2.ipp, src/particles_init.ipp:116-117, src/particles_step.ipp:186-335, 338-504 (order of processes),
src/impl/coalescence/particles_impl_coal.ipp:527-545, src/impl/particles_impl.ipp:488-490, src/impl/housekeeping/particles_impl_hskpng_resize.ipp:15-21,
src/impl/chemistry/particles_impl_chem_react.ipp:294-318.

Activation substeps (`sstp_cond_act`) decide on the number of condensation substeps of a droplet by comparing its squared radius with `rc2`, a stored value.
-/
namespace LCP.Run
open LCP

/-- temperature at which the critical radii are computed, in K (particles_impl_hskpng_rc2.ipp:25; `rc2_T` is given in degrees Celsius) -/
noncomputable def critT (rc2_T : ℝ) : ℝ := rc2_T + 273.15

open Classical in
/-- `hskpng_approximate_rc2_invalid` (particles_impl_hskpng_rc2.ipp:14-31): `act` is the current `sstp_cond_act`, `allow` is `allow_sstp_cond` -/
noncomputable def refreshRc2 (act : ℕ) (allow : Bool) (rc2_T : ℝ) (s : St) : St :=
  if act = 1 ∨ allow = false then s
  else { s with sd := fun i => { s.sd i with
    rc2 := if (s.sd i).rc2 = Coal.invalid then Activ.rc2 (s.sd i).rd3 (s.sd i).kpa (critT rc2_T) else (s.sd i).rc2 } }

/-- options of a run that matter here -/
structure CritCfg where
  init : Step.SstpInit
  rc2_T : ℝ
  nChem : ℕ
  /-- more than one hygroscopicity given -/
  kappa : Bool
  incloud : Bool
  bcnd : Bcnd.Opts

/-- `allow_sstp_cond` (particles_impl.ipp:376) -/
def CritCfg.allow (c : CritCfg) : Bool := decide (1 < c.init.sstpCond ∨ 1 < c.init.sstpCondAct)

/-- which passes coalescence makes (particles_impl_coal.ipp:459, 482, 507, 528): stored critical radii are invalidated according to `opts_init`, not to the
current number of substeps -/
def CritCfg.coalOpts (c : CritCfg) : Coal.Opts :=
  { nChem := c.nChem, kappa := c.kappa, incloud := c.incloud, rc2 := decide (1 < c.init.sstpCondAct) && c.allow }

/-- one coalescence sub-step followed by the refresh of terminal velocities (particles_step.ipp:393-401); unlike in `coalOnce`, stored critical radii are kept -/
noncomputable def coalKeep (o : Coal.Opts) (a : CoalIn) (s : St) : Option St :=
  (Coal.coal o (a.env s.N) a.σ { sd := fun i => (s.sd i).toSD, col := a.col, increase := a.inc }).map fun t =>
    { s with sd := fun i => { s.sd i with toSD := { t.sd i with vt := a.vt i } } }

/-- all sub-steps of a time step (particles_step.ipp:391-401) -/
inductive CoalKeepSteps (o : Coal.Opts) : St → St → Prop
  | done (s : St) : CoalKeepSteps o s s
  | step {s t u : St} (a : CoalIn) (ha : a.Ok s.N) (h : coalKeep o a s = some t) (hr : CoalKeepSteps o t u) : CoalKeepSteps o s u

/-- options of one time step (opts_t): time step (not positive: the default), coalescence, chemical reactions -/
structure StepOpts where
  dt : ℝ
  coal : Bool
  chem : Bool

/-- the states passed through -/
structure CritTrace where
  /-- at the beginning, when condensation is called -/
  a : St
  /-- after condensation -/
  b : St
  /-- after chemistry -/
  h : St
  /-- after the coalescence sub-steps -/
  c : St
  /-- after transport -/
  m : St
  new : New
  rcyc : Option RcycIn

/-- critical radii refreshed, only if coalescence is on (particles_step.ipp:391-411) -/
noncomputable def CritTrace.r (k : CritCfg) (o : StepOpts) (t : CritTrace) : St :=
  if o.coal then refreshRc2 (Step.adjustOne k.init.dt o.dt k.init.sstpCondAct) k.allow k.rc2_T t.c else t.c

/-- end of the step -/
noncomputable def CritTrace.fin (k : CritCfg) (t : CritTrace) : St := postCopy t.rcyc (bcndRun k.bcnd (addNew t.new t.m))

/-- A time step.  Condensation: any change of radii, times in cloud and (at the beginning of step_async) terminal velocities.  Chemistry: any change of dry volumes
and of dissolved masses.  New super-droplets come with the value that `hskpng_resize_npart` gives to new entries of `rc2` (particles_impl.ipp:490). -/
structure CritStep (k : CritCfg) (o : StepOpts) (t : CritTrace) : Prop where
  dt : (Step.adjust k.init o.dt).isSome
  cond : t.b.N = t.a.N ∧ t.b.puddle = t.a.puddle ∧ ∀ i, ∃ rw2 inc vt, t.b.sd i = { t.a.sd i with rw2 := rw2, inc := inc, vt := vt }
  chem : if o.chem then t.h.N = t.b.N ∧ t.h.puddle = t.b.puddle ∧ ∀ i, ∃ rd3 ch, t.h.sd i = { t.b.sd i with rd3 := rd3, chem := ch } else t.h = t.b
  coal : if o.coal then CoalKeepSteps k.coalOpts t.h t.c else t.c = t.h
  move : ∃ m, Moved m (t.r k o) t.m
  fresh : ∀ i < t.new.k, (t.new.sd i).rc2 = Coal.invalid
  rcyc : RcycOk t.rcyc (bcndRun k.bcnd (addNew t.new t.m))

/-- a run: the population left by `init` has its critical radii refreshed (particles_init.ipp:117; all were invalid: particles_impl.ipp:490), then `T` steps -/
structure CritRun (k : CritCfg) (T : ℕ) (o : ℕ → StepOpts) (s : ℕ → St) (t : ℕ → CritTrace) : Prop where
  init : ∃ p : St, (∀ i < p.N, (p.sd i).rc2 = Coal.invalid) ∧ s 0 = refreshRc2 k.init.sstpCondAct k.allow k.rc2_T p
  step : ∀ j < T, CritStep k (o j) (t j)
  beg : ∀ j < T, (t j).a = s j
  fin : ∀ j < T, (t j).fin k = s (j + 1)

end LCP.Run
