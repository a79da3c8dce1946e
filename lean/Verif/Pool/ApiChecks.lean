import Verif.Pool.ApiAnalysis
import Verif.Pool.ApiSpec

/-!
# Checking the API calls with the analysis
-/
namespace LCP.PoolApi

def bitIf (b : Bool) (h : H) : ℕ := if b then 2 ^ h.bit else 0

/-- guards that may / must be live between calls -/
def ain (f : Flags) (g : G) : A :=
  ⟨bitIf g.nf .nF ||| bitIf (f.chem && g.up) .V ||| bitIf (f.d1 && g.up) .i ||| bitIf (f.d3 && g.up) .j ||| bitIf (f.d2 && g.up) .k,
   bitIf g.sel .nF ||| bitIf (f.d1 && g.ijk) .i ||| bitIf (f.d3 && g.ijk) .j ||| bitIf (f.d2 && g.ijk) .k⟩

/-- ghost flags that occur: a selection holds n_filtered; before init nothing is held -/
def G.ok (g : G) : Bool := (!g.sel || g.nf) && (g.up || (!g.nf && !g.ijk && !g.cond && !g.async && !g.sel))

def checkS (sz : PoolId → ℕ) (f : Flags) (g : G) (c : Call) : Bool :=
  match an sz (prog f g c) (ain f g) with
  | none => false
  | some (n, t) => ole n (ain f (next f g c false)) && (!usable f g c true || ole t (ain f (next f g c true)))

end LCP.PoolApi
