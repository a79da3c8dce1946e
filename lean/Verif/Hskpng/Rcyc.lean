import Verif.SortLemmas
import Mathlib.Data.Real.Basic

/-!
# Model of recycling and removal of super-droplets

Sources: src/impl/housekeeping/particles_impl_rcyc.ipp, particles_impl_hskpng_remove.ipp.

Attributes are `ι → ℝ` for an arbitrary index type `ι` (the vectors in `distmem_real_vctrs` and the chemistry
vectors), each copied by its own parallel loop with its own execution order.
-/
namespace LCP.Rcyc

/-- multiplicities and attributes, by super-droplet id; ids `≥ N` do not exist -/
structure State (ι : Type) where
  N : ℕ
  n : ℕ → ℕ
  attr : ℕ → ι → ℝ

/-- `hskpng_remove_n0` (particles_impl_hskpng_remove.ipp:20-76), seen at the level of whole super-droplets:
stable compaction of those with `n ≠ 0`.  (That the per-vector compactions really amount to this is
property C10, see Remove.lean.) New id `i` is the `i`-th survivor. -/
def removeN0 {ι : Type} (s : State ι) : State ι :=
  let keep := (List.range s.N).filter (fun i => s.n i ≠ 0)
  { N := keep.length
    n := fun i => s.n (keep.getD i 0)
    attr := fun i => s.attr (keep.getD i 0) }

/-- `n_flagged` (rcyc.ipp:49) -/
def nFlagged {ι : Type} (s : State ι) : ℕ := ((Finset.range s.N).filter (fun i => s.n i < 1)).card

/-- `n_splittable` (rcyc.ipp:84-86): offset, from the top of the sorted multiplicities, of the first one
equal to 1; `N` if there is none (`thrust::find` returns the end). -/
def nSplittable {ι : Type} (s : State ι) (sid : List ℕ) : ℕ :=
  ((List.range s.N).find? (fun t => s.n (idAt sid (s.N - 1 - t)) = 1)).getD s.N

/-- `detail::copy_prop` (rcyc.ipp:17-31) for one attribute vector, iterations in the order `L` -/
def copyProp (N : ℕ) (sid : List ℕ) (L : List ℕ) (v : ℕ → ℝ) : ℕ → ℝ :=
  L.foldl (fun v t => Function.update v (idAt sid t) (v (idAt sid (N - 1 - t)))) v

/-- multiplicities of recycled ones (rcyc.ipp:113-121), iterations in the order `L` -/
def incN (N : ℕ) (sid : List ℕ) (L : List ℕ) (v : ℕ → ℕ) : ℕ → ℕ :=
  L.foldl (fun v t => Function.update v (idAt sid t)
    (v (idAt sid (N - 1 - t)) - v (idAt sid (N - 1 - t)) / 2)) v

/-- multiplicities of split ones (rcyc.ipp:124-132), iterations in the order `L` -/
def decN (N : ℕ) (sid : List ℕ) (L : List ℕ) (v : ℕ → ℕ) : ℕ → ℕ :=
  L.foldl (fun v t => Function.update v (idAt sid (N - 1 - t)) (v (idAt sid (N - 1 - t)) / 2)) v

/-- execution orders of the parallel loops over `m` elements -/
structure Scheds (ι : Type) where
  copy : ι → List ℕ
  inc : List ℕ
  dec : List ℕ

/-- each loop executes iterations `0..m-1` once each -/
structure Scheds.Valid {ι : Type} (σ : Scheds ι) (m : ℕ) : Prop where
  copy : ∀ a, (σ.copy a).Perm (List.range m)
  inc : σ.inc.Perm (List.range m)
  dec : σ.dec.Perm (List.range m)

/-- number of super-droplets actually recycled (rcyc.ipp:96) -/
def nRcyc {ι : Type} (s : State ι) (sid : List ℕ) : ℕ :=
  if nSplittable s sid < nFlagged s then nSplittable s sid else nFlagged s

/-- splitting proper (rcyc.ipp:99-133) -/
def split {ι : Type} (s : State ι) (sid : List ℕ) (σ : Scheds ι) : State ι :=
  { N := s.N
    attr := fun i a => copyProp s.N sid (σ.copy a) (fun j => s.attr j a) i
    n := decN s.N sid σ.dec (incN s.N sid σ.inc s.n) }

/-- `impl::rcyc` (rcyc.ipp:43-140): new state and the returned number.  `sid` is the outcome of the unstable
sort by multiplicity (lines 77-80), `pcm` is `pure_const_multi`. -/
def rcyc {ι : Type} (pcm : Bool) (s : State ι) (sid : List ℕ) (σ : Scheds ι) : State ι × ℕ :=
  if nFlagged s = 0 then (s, 0)
  else if pcm then (removeN0 s, nFlagged s)
  else if nSplittable s sid = 0 then (removeN0 s, nFlagged s)
  else if nRcyc s sid < nFlagged s then (removeN0 (split s sid σ), nFlagged s)
  else (split s sid σ, nFlagged s)

end LCP.Rcyc
