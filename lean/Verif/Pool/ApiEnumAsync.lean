import Verif.Pool.ApiEnum
/-!
# step_async accepted by the analysis, for every configuration
-/
namespace LCP.PoolApi

/-- step_async: the options it depends on -/
def fAsync (nd : Fin 4) (ice timeDep chem distmem predCorr vtFast rlx src matching : Bool) : Flags :=
  ⟨nd, false, false, false, true, ice, timeDep, chem, false, distmem, predCorr, vtFast, false, false, rlx, src, matching⟩
def gAsync : G := ⟨true, false, true, false, true, true⟩
/-- vectors needed -/
def nAsync (f : Flags) : ℕ := if f.predCorr && f.d1 then 3 + (if f.chem then 1 else 0) else poolSize f .realPart

set_option maxRecDepth 100000 in
theorem async_all : (allD fun nd => allB fun chem => allB fun src => allB fun rlx =>
    !((!chem || (!src && !rlx)) && ((!src || decide (2 ≤ nd.val)) && (!rlx || decide (2 ≤ nd.val)))) ||
    (allB fun ice => allB fun matching => !((!matching || src) && (!ice || (!rlx && !matching))) ||
    (allB fun distmem => !(!distmem || (!chem && decide (1 ≤ nd.val))) ||
    (allB fun timeDep => !(!timeDep || ice && src) ||
    (allB fun predCorr => allB fun vtFast =>
      checkS (withN (nAsync (fAsync nd ice timeDep chem distmem predCorr vtFast rlx src matching))
          (fAsync nd ice timeDep chem distmem predCorr vtFast rlx src matching))
        (fAsync nd ice timeDep chem distmem predCorr vtFast rlx src matching) gAsync .stepAsync))))) = true := by
  decide +kernel
end LCP.PoolApi
