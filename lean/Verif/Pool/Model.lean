import Mathlib.Data.List.Basic
import Mathlib.Data.List.Nodup
import Mathlib.Data.Nat.Basic

/-!
# Model of the pool of temporary vectors

Sources: src/detail/tmp_vector_pool.hpp; sizing: src/impl/particles_impl.ipp:495-523; users:
src/impl/advection/particles_impl_adve.ipp:188-190, src/particles_diag.ipp:352-407, 561-590,
src/impl/diagnose_SD_attributes/particles_impl_moms.ipp, src/impl/housekeeping/particles_impl_hskpng_vterm.ipp:198,279.
-/
namespace LCP.Pool

/-- the `in_use` flags of the pool (tmp_vector_pool.hpp:12-18) and the guards alive: handle (identity of the C++ guard
object) ↦ index it holds -/
structure St where
  used : List Bool
  live : List (ℕ × ℕ)
deriving DecidableEq

/-- a new pool of the given size (tmp_vector_pool.hpp:22-28) -/
def fresh (size : ℕ) : St := ⟨List.replicate size false, []⟩

/-- the search of `acquire` (tmp_vector_pool.hpp:43-49): first index whose flag is false -/
def firstFree : List Bool → Option ℕ
  | [] => none
  | b :: t => if b then (firstFree t).map (· + 1) else some 0

/-- constructing a guard (`acquire`, tmp_vector_pool.hpp:42-55, 82-83).  `none`: the pool is exhausted; the C++ code then
(with NDEBUG) returns the index -1 and every access is undefined behaviour -/
def acquire (s : St) (h : ℕ) : Option St :=
  (firstFree s.used).map (fun i => ⟨s.used.set i true, (h, i) :: s.live⟩)

/-- destroying a guard (`release`, tmp_vector_pool.hpp:57-61, 84); destroying a handle that is not alive (a moved-from guard,
an empty pointer) does nothing -/
def destroy (s : St) (h : ℕ) : St :=
  match s.live.find? (fun p => p.1 == h) with
  | none => s
  | some (_, i) => ⟨s.used.set i false, s.live.filter (fun p => !(p.1 == h))⟩

/-- operations on guards; `reset` is `reset_guardp` (tmp_vector_pool.hpp:116-121): destroy, then acquire; `move` is the move
constructor (tmp_vector_pool.hpp:87-89): the new guard takes over the index, the old one becomes invalid -/
inductive Op where
  | acquire (h : ℕ)
  | destroy (h : ℕ)
  | reset (h : ℕ)
  | move (h h' : ℕ)

/-- one operation; a guard object can only be constructed under an identity that is not alive -/
def step (s : St) : Op → Option St
  | .acquire h => if h ∈ s.live.map Prod.fst then none else acquire s h
  | .destroy h => some (destroy s h)
  | .reset h => acquire (destroy s h) h
  | .move h h' =>
    if h' ∈ s.live.map Prod.fst then none
    else some { s with live := s.live.map (fun p => if p.1 = h then (h', p.2) else p) }

/-- a sequence of operations -/
def run (s : St) : List Op → Option St
  | [] => some s
  | o :: l => (step s o).bind (fun t => run t l)

/-! ### Pool sizing -/

/-- options that enter the sizing of `tmp_device_real_part` -/
structure Cfg where
  nDims : ℕ
  sstpCond : ℕ
  sstpCondAct : ℕ
  exactSstp : Bool
  adaptive : Bool
  ice : Bool
  timeDepIceNucl : Bool
  chem : Bool
  turbCond : Bool
  distmem : Bool
  predCorr : Bool
  /-- terminal_velocity == beard77fast -/
  vtFast : Bool

/-- allow_sstp_cond (particles_impl.ipp:376) -/
def Cfg.allowSstp (c : Cfg) : Bool := decide (c.sstpCond > 1) || decide (c.sstpCondAct > 1)
/-- sstp_cond_exact_nomix_adaptive (particles_impl.ipp:378) -/
def Cfg.nomixAdaptive (c : Cfg) : Bool := c.exactSstp && c.allowSstp && c.adaptive

/-- tmp_drp_no (particles_impl.ipp:496-520) -/
def drpNo (c : Cfg) : ℕ :=
  let m := 1
  let m := if c.nDims = 2 then max m 2 else m
  let m := if c.allowSstp then max m 2 else m
  let m := if c.ice && c.timeDepIceNucl then max m 2 else m
  let m := if c.chem then max m 3 else m
  let m := if c.nDims = 3 then max m 3 else m
  let m := if c.turbCond then max m 3 else m
  let m := if c.distmem then max m 3 else m
  let m := if c.allowSstp && c.exactSstp && c.nomixAdaptive then max m 4 else m
  if c.allowSstp && c.exactSstp && !c.nomixAdaptive then max m 7 else m

/-! ### Users (handles: 0 = n_filtered_gp, others local) -/

/-- advection (particles_impl_adve.ipp:167-190): predictor-corrector keeps three vectors -/
def adveOps (c : Cfg) : List Op :=
  if c.nDims = 0 then [] else if c.predCorr then [.acquire 1, .acquire 2, .acquire 3, .destroy 3, .destroy 2, .destroy 1] else []

/-- terminal velocities (particles_impl_hskpng_vterm.ipp:196-200, 276-280) -/
def vtermOps (c : Cfg) : List Op := if c.vtFast then [.acquire 1, .destroy 1] else []

/-- diagnostics: selections by comparing with a stored vector, and the precipitation rate, which needs a selection -/
inductive Diag where
  /-- diag_all, diag_*_rng, ... (moms_all etc., particles_impl_moms.ipp:55, 78, 168, 207) -/
  | select
  /-- consecutive selection -/
  | selectCons
  /-- diag_RH_ge_Sc, diag_rw_ge_rc (particles_diag.ipp:352-407) -/
  | selectCmp
  /-- diag_precip_rate (particles_diag.ipp:561-590) -/
  | precipRate

def diagOps (c : Cfg) : Diag → List Op
  | .select => [.reset 0]
  | .selectCons => []
  | .selectCmp => [.acquire 2, .reset 0, .destroy 2]
  | .precipRate => vtermOps c ++ [.acquire 2, .destroy 2]

end LCP.Pool
