import Verif.Pool.Api

/-!
# C87, C88: which histories of API calls are covered
-/
namespace LCP.PoolApi

/-- Conditions on the options and the history under which a call finds the temporary vectors it needs; `poolSize f .realPart` is the number of
per-particle vectors in the pool.  Every call needs an initialised object; diagnostics of selected droplets need a selection since the last
sync_in or step.  Further:
* step_cond (when it is its turn): in-cloud time with a selection held needs two vectors; per-particle substepping must not be combined with
  chemistry, nor — without adaptation and with mixing — with a selection made after sync_in;
* step_async (when it is its turn): predictor-corrector advection needs three vectors, four with chemistry; the cell indices must have been
  calculated, i.e. init has created droplets or a previous step_async returned;
* diag_RH_ge_Sc, diag_rw_ge_rc, diag_precip_rate (and diag_precip_rate_ice_mass with cached terminal velocities and a selection held) need two. -/
def safe (f : Flags) (g : G) : Call → Bool
  | .init => !g.up
  | .syncIn => g.up
  | .stepCond => g.up && (!g.cond ||
      ((!(f.incloud && g.nf) || decide (2 ≤ poolSize f .realPart)) &&
       (!(f.exact && f.allow) || (!f.chem && (f.adaptive || !f.mix || !g.nf)))))
  | .stepAsync => g.up && (!g.async ||
      ((!(f.predCorr && f.d1) || decide (3 + (if f.chem then 1 else 0) ≤ poolSize f .realPart)) && (g.ijk || !f.d1)))
  | .select => g.up
  | .selectCons => g.up && g.sel
  | .selectCmp => g.up && decide (2 ≤ poolSize f .realPart)
  | .moment => g.up && g.sel
  | .sdConc => g.up && g.sel
  | .massDens => g.up && g.sel
  | .precip => g.up && g.sel && decide (2 ≤ poolSize f .realPart)
  | .precipIce => g.up && (!(f.ice && f.vtFast && g.nf) || decide (2 ≤ poolSize f .realPart))
  | .outbuf => g.up
  | .other => g.up

/-- exceptions after which the object is still usable: not a failed init, not an exception in a distributed-memory step_async -/
def usable (f : Flags) (g : G) : Call → Bool → Bool
  | .init, t => !t
  | .stepAsync, t => !(t && f.distmem && g.async)
  | _, _ => true

/-- histories in which every call is safe and no call follows an exception that leaves the object unusable -/
def Legal (f : Flags) : G → List Event → Prop
  | _, [] => True
  | g, e :: l => safe f g e.call = true ∧ usable f g e.call e.thrown = true ∧ Legal f (next f g e.call e.thrown) l

end LCP.PoolApi
