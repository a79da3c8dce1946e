import Verif.Pool.ApiEnum
/-!
# step_cond accepted by the analysis, for every configuration
-/
namespace LCP.PoolApi

/-- step_cond: the options it depends on -/
def fCond (nd : Fin 4) (allow exact adaptive mix ice timeDep chem turbCond distmem incloud : Bool) : Flags :=
  ⟨nd, allow, exact, adaptive, mix, ice, timeDep, chem, turbCond, distmem, false, false, incloud, false, false, false, false⟩

def gCond (nf ijk : Bool) : G := ⟨true, true, false, false, nf, ijk⟩

set_option maxRecDepth 100000 in
theorem cond_all : (allB fun exact => allB fun adaptive => allB fun mix => !((!adaptive || exact) && ((mix || exact) && !(mix && adaptive && exact))) ||
    (allB fun ice => allB fun turbCond => !(!ice || !turbCond && !exact) ||
    (allD fun nd => allB fun chem => allB fun distmem => !(!distmem || (!chem && decide (1 ≤ nd.val))) ||
    (allB fun allow => allB fun timeDep => !(!timeDep || ice) ||
    (allB fun incloud => allB fun nf =>
      !(safe (fCond nd allow exact adaptive mix ice timeDep chem turbCond distmem incloud) (gCond nf true) .stepCond &&
        (nf || !safe (fCond nd allow exact adaptive mix ice timeDep chem turbCond distmem incloud) (gCond true true) .stepCond)) ||
    (allB fun ijk =>
      checkS (poolSize (fCond nd allow exact adaptive mix ice timeDep chem turbCond distmem incloud))
        (fCond nd allow exact adaptive mix ice timeDep chem turbCond distmem incloud) (gCond nf ijk) .stepCond)))))) = true := by
  decide +kernel

end LCP.PoolApi
