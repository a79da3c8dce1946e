import Mathlib.Data.Real.Basic
import Mathlib.Data.List.GetD
import Mathlib.Tactic.Ring

/-!
# Model of `hskpng_remove_n0`: removal vector by vector

Sources: src/impl/housekeeping/particles_impl_hskpng_remove.ipp, particles_impl_hskpng_resize.ipp,
src/impl/initialization/particles_impl_init_chem.ipp, include/libcloudph++/common/chem.hpp.
-/
namespace LCP.Remove

/-- the elements `thrust::remove_if(first, last, stencil, _1 == 0)` keeps, in order
(particles_impl_hskpng_remove.ipp:29-34) -/
def kept {α : Type} (l : List α) (stencil : List ℕ) : List α :=
  ((l.zip stencil).filter (fun q => !(q.2 == 0))).map Prod.fst

/-- what `thrust::remove_if` leaves in the range: the kept elements, followed by elements with unspecified
value (`junk`) up to the old length -/
def removeIf {α : Type} (l : List α) (stencil : List ℕ) (junk : ℕ → α) : List α :=
  kept l stencil ++ (List.range (l.length - (kept l stencil).length)).map junk

/-- `std::vector::resize(m, v)` -/
def resize {α : Type} (l : List α) (m : ℕ) (v : α) : List α := l.take m ++ List.replicate (m - l.length) v

/-- chemical species (include/libcloudph++/common/chem.hpp:9-21): HNO3 NH3 CO2 | SO2 H2O2 O3 S_VI | H -/
abbrev chemAll : ℕ := 8
/-- `chem_rhs_beg = SO2` (chem.hpp:18) -/
abbrev chemRhsBeg : ℕ := 3
/-- `chem_rhs_fin = S_VI + 1` (chem.hpp:19) -/
abbrev chemRhsFin : ℕ := 7

/-- super-droplet attribute storage: the multiplicity vector, the real-valued attribute vectors in
`distmem_real_vctrs`, and (if `chem`) the three vectors holding blocks of `n_part` entries per species -/
structure Store where
  nPart : ℕ
  n : List ℕ
  reals : List (List ℝ)
  chem : Bool
  ante : List ℝ
  rhs : List ℝ
  post : List ℝ
  /-- stored block iterators: species `i` occupies positions `bgn i ..< fin i` of its vector -/
  bgn : ℕ → ℕ
  fin : ℕ → ℕ

/-- selection of the vector that holds species `i` (particles_impl_hskpng_remove.ipp:36-42,
particles_impl_init_chem.ipp:154-160) -/
def Store.vec (s : Store) (i : ℕ) : List ℝ :=
  if i < chemRhsBeg then s.ante else if i < chemRhsFin then s.rhs else s.post

/-- assignment to that vector -/
def Store.setVec (s : Store) (i : ℕ) (v : List ℝ) : Store :=
  if i < chemRhsBeg then { s with ante := v } else if i < chemRhsFin then { s with rhs := v } else { s with post := v }

/-- `init_chem` (particles_impl_init_chem.ipp:138-176): resize (new elements are value-initialised) and recompute
the block iterators -/
def initChem (s : Store) : Store :=
  let off := fun i => if i < chemRhsBeg then 0 else if i < chemRhsFin then chemRhsBeg else chemRhsFin
  { s with
    rhs := resize s.rhs ((chemRhsFin - chemRhsBeg) * s.nPart) 0
    ante := resize s.ante ((chemRhsBeg - 0) * s.nPart) 0
    post := resize s.post ((chemAll - chemRhsFin) * s.nPart) 0
    bgn := fun i => (i - off i) * s.nPart
    fin := fun i => (i + 1 - off i) * s.nPart }

/-- body of the chemistry loop for species `i` (particles_impl_hskpng_remove.ipp:29-45): `remove_if` on the block,
then erase from the new end of the block to its old end.  The stored iterators are not updated. -/
def chemBody (junk : ℕ → ℕ → ℝ) (s : Store) (i : ℕ) : Store :=
  let v := s.vec i
  let block := (v.drop (s.bgn i)).take (s.fin i - s.bgn i)
  let v' := v.take (s.bgn i) ++ removeIf block s.n (junk i) ++ v.drop (s.fin i)
  let newLast := s.bgn i + (kept block s.n).length
  s.setVec i (v'.take newLast ++ v'.drop (s.fin i))

/-- `hskpng_resize_npart` (particles_impl_hskpng_resize.ipp:7-33) for multiplicities and real attributes; the
`n_sd_max` check is `fitsMax` in the theorem. -/
def resizeNpart (fillN : ℕ) (fill : ℕ → ℝ) (s : Store) : Store :=
  { s with n := resize s.n s.nPart fillN
           reals := (s.reals.zipIdx).map (fun q => resize q.1 s.nPart (fill q.2)) }

/-- `hskpng_remove_n0` (particles_impl_hskpng_remove.ipp:19-76). `junk*` are the unspecified values left behind by
`remove_if`. -/
def removeN0 (junkC : ℕ → ℕ → ℝ) (junkR : ℕ → ℕ → ℝ) (junkN : ℕ → ℕ) (fillN : ℕ) (fill : ℕ → ℝ) (s : Store) : Store :=
  -- chemistry, species 7 down to 0
  let s := if s.chem then ((List.range chemAll).reverse).foldl (chemBody junkC) s else s
  -- real vectors
  let s := { s with reals := s.reals.zipIdx.map (fun (q : List ℝ × ℕ) =>
    removeIf (q.1.take s.nPart) s.n (junkR q.2) ++ q.1.drop s.nPart) }
  -- n and n_part
  let m := (kept (s.n.take s.nPart) s.n).length
  let s := { s with n := removeIf (s.n.take s.nPart) s.n junkN ++ s.n.drop s.nPart, nPart := m }
  let s := resizeNpart fillN fill s
  if s.chem then initChem s else s

end LCP.Remove
