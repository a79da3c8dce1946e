import Verif.Diag.Model
import Verif.Common.Tpr
import Verif.Toms.Wet
import Verif.Coal.Model

/-!
# Model of the activation diagnostics, the air they use and the in-cloud time

Sources: src/particles_diag.ipp (rw3_cr, RH_minus_Sc, diag_pressure, diag_temperature, diag_RH, diag_RH_ge_Sc, diag_rw_ge_rc,
diag_incloud_time_mom), src/impl/diagnose_SD_attributes/particles_impl_update_incloud_time.ipp,
src/impl/initialization/particles_impl_init_incloud_time.ipp, src/particles_step.ipp (sync_in, step_cond, step_async),
src/impl/housekeeping/particles_impl_hskpng_Tpr.ipp.
-/
namespace LCP.Activ
open LCP.Common

/-- what the activation diagnostics read: super-droplets and counters `d` (multiplicities, cells, selection), their dry volumes,
hygroscopicities, squared wet radii, in-cloud times; the air as last given by the caller (`th`, `rv`, `rhod`, and `p`, which
is given or diagnosed); the temperature and humidity as left by the last `hskpng_Tpr` (particles_impl.ipp:80-130) -/
structure Obj where
  d : Diag.St
  rd3 : ℕ → ℝ
  kpa : ℕ → ℝ
  rw2 : ℕ → ℝ
  inc : ℕ → ℝ
  th : ℕ → ℝ
  rv : ℕ → ℝ
  rhod : ℕ → ℝ
  p : ℕ → ℝ
  T : ℕ → ℝ
  RH : ℕ → ℝ

/-- `detail::rw3_cr` (particles_diag.ipp:40-62): square of the critical radius -/
noncomputable def rc2 (rd3 kpa T : ℝ) : ℝ := Toms.rw3_cr rd3 kpa T ^ (2 / 3 : ℝ)

/-- `detail::RH_minus_Sc` (particles_diag.ipp:93-110) -/
noncomputable def rhMinusSc (rd3 kpa T RH : ℝ) : ℝ := RH - Toms.S_cr rd3 kpa T

/-- `diag_rw_ge_rc` (particles_diag.ipp:383-407): `moms_cmp(rw2, rc2)`, with the temperature of the super-droplet's cell -/
noncomputable def diagRwGeRc (s : Obj) : Option Obj :=
  (Diag.select s.d (.cmp s.rw2 (fun i => rc2 (s.rd3 i) (s.kpa i) (s.T (s.d.ijk i))))).map (fun d => { s with d := d })

/-- `diag_RH_ge_Sc` (particles_diag.ipp:352-380): `moms_ge0(RH - Sc)` -/
noncomputable def diagRHGeSc (s : Obj) : Option Obj :=
  (Diag.select s.d (.ge0 (fun i => rhMinusSc (s.rd3 i) (s.kpa i) (s.T (s.d.ijk i)) (s.RH (s.d.ijk i))))).map
    (fun d => { s with d := d })

/-- `hskpng_Tpr` (particles_impl_hskpng_Tpr.ipp:217-300), the part concerning temperature, pressure and humidity -/
noncomputable def hskpngTpr (o : TprOpts) (s : Obj) : Obj :=
  let T := fun c => TofCell o (s.th c) (s.rhod c) (s.p c)
  let p := fun c => pOfCell o (s.rhod c) (s.rv c) (T c) (s.p c)
  { s with T := T, p := p, RH := fun c => RHof o.RH_formula (p c) (s.rv c) (T c) }

/-- `diag_temperature` (particles_diag.ipp:161-175); `diag_pressure` and `diag_RH` (144-158, 178-192) have the same effect on what is
modelled here, except for the field copied to the output buffer -/
noncomputable def diagTemperature (o : TprOpts) (s : Obj) : Obj :=
  let s := hskpngTpr o s
  { s with d := Diag.diagField s.d s.T }

/-- `sync_in` (particles_step.ipp:99-110): arrays which are not null are copied; the diagnosed fields are not touched -/
def syncIn (th rv rhod : Option (ℕ → ℝ)) (s : Obj) : Obj :=
  { s with th := th.getD s.th, rv := rv.getD s.rv, rhod := rhod.getD s.rhod, d := { s.d with nf := none } }

/-- `incloud_time_updater` on every super-droplet (particles_impl_update_incloud_time.ipp:14-65) -/
noncomputable def updateIncloud (dt : ℝ) (s : Obj) : Obj :=
  { s with inc := fun i => if rc2 (s.rd3 i) (s.kpa i) (s.T (s.d.ijk i)) < s.rw2 i then s.inc i + dt else 0 }

/-- Start of `init` (particles_init.ipp:56-63, 90; particles_impl_init_sync.ipp:17): the pressure array is zero-filled when
allocated and then overwritten only if a pressure profile is passed, which the sanity check requires with `const_p` and forbids
without (particles_impl_init_sanity_check.ipp:145-148); then `hskpng_Tpr` -/
noncomputable def initAir (o : TprOpts) (profile : ℕ → ℝ) (s : Obj) : Obj :=
  hskpngTpr o { s with p := if o.const_p then profile else fun _ => 0 }

/-! ### What happens to in-cloud times in a run -/

/-- one thing that happens to the array of in-cloud times -/
inductive Ev where
  /-- `update_incloud_time(dt)` in `step_cond` (particles_step.ipp:180-181); `act i`: super-droplet `i` is larger than its critical
  size -/
  | cond (dt : ℝ) (act : ℕ → Prop)
  /-- coalescence: `rcv i = some j` if `i` takes up droplets of `j` (particles_impl_coal.ipp:507-525) -/
  | coal (rcv : ℕ → Option ℕ)
  /-- removal and exchange of super-droplets and addition of new ones: what is now number `i` was number `j` before
  (`src i = some j`, hskpng_remove.ipp:49) or is new (`none`, in-cloud time zero: init_incloud_time.ipp:17, or the zero of a resized
  vector, hskpng_resize.ipp:14-20) -/
  | renumber (src : ℕ → Option ℕ)

open Classical in
/-- effect of an event on the array of in-cloud times -/
noncomputable def apply (inc : ℕ → ℝ) : Ev → ℕ → ℝ
  | .cond dt act => fun i => if act i then inc i + dt else 0
  | .coal rcv => fun i => match rcv i with | some j => max (inc j) (inc i) | none => inc i
  | .renumber src => fun i => match src i with | some j => inc j | none => 0

/-- in-cloud times after the events `evs` (first event first), starting with newly initialised super-droplets -/
noncomputable def run (evs : List Ev) : ℕ → ℝ := evs.foldl apply (fun _ => 0)

/-- the event corresponding to `updateIncloud` -/
def condEv (dt : ℝ) (s : Obj) : Ev := .cond dt (fun i => rc2 (s.rd3 i) (s.kpa i) (s.T (s.d.ijk i)) < s.rw2 i)

end LCP.Activ
