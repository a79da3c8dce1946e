import Verif.Pool.ApiEnum
/-!
# init, sync_in and the diagnostics accepted by the analysis, for every configuration
-/
namespace LCP.PoolApi

def fInit (nd : Fin 4) (ice timeDep chem vtFast noCcn : Bool) : Flags :=
  ⟨nd, false, false, false, true, ice, timeDep, chem, false, false, false, vtFast, false, noCcn, false, false, false⟩

set_option maxRecDepth 100000 in
theorem init_all : (allD fun nd => allB fun ice => allB fun timeDep => allB fun chem => allB fun vtFast => allB fun noCcn =>
    checkS (poolSize (fInit nd ice timeDep chem vtFast noCcn)) (fInit nd ice timeDep chem vtFast noCcn) g0 .init) = true := by
  decide +kernel

/-- the diagnostics: the options they depend on -/
def fDiag (nd : Fin 4) (ice chem vtFast : Bool) : Flags :=
  ⟨nd, false, false, false, true, ice, false, chem, false, false, false, vtFast, false, false, false, false, false⟩
/-- vectors needed -/
def nDiag (f : Flags) (g : G) : Call → ℕ
  | .selectCmp | .precip => max 2 (poolSize f .realPart)
  | .precipIce => if f.ice && f.vtFast && g.nf then max 2 (poolSize f .realPart) else poolSize f .realPart
  | _ => poolSize f .realPart
def diagCalls : List Call := [.syncIn, .select, .selectCons, .selectCmp, .moment, .sdConc, .massDens, .precip, .precipIce, .outbuf, .other]
def needsSel : Call → Bool
  | .selectCons | .moment | .sdConc | .massDens | .precip => true
  | _ => false

set_option maxRecDepth 100000 in
theorem diag_all : (allD fun nd => allB fun ice => allB fun chem => allB fun vtFast => allB fun sel => allB fun nf => !(!sel || nf) ||
    allB fun ijk => diagCalls.all fun c => !(!needsSel c || sel) ||
    checkS (withN (nDiag (fDiag nd ice chem vtFast) ⟨true, false, false, sel, nf, ijk⟩ c) (fDiag nd ice chem vtFast)) (fDiag nd ice chem vtFast)
      ⟨true, false, false, sel, nf, ijk⟩ c) = true := by
  decide +kernel

end LCP.PoolApi
