import Verif.SortLemmas
import Mathlib.Analysis.SpecialFunctions.Pow.Real

/-!
# Model of sorting, counting, selections and moment diagnostics

Sources: src/impl/housekeeping/particles_impl_hskpng_sort.ipp, particles_impl_hskpng_count.ipp,
src/impl/diagnose_SD_attributes/particles_impl_moms.ipp, particles_impl_fill_outbuf.ipp,
particles_impl_mass_dens.ipp, src/particles_diag.ipp, src/particles_ctor.ipp (outbuf).
-/
namespace LCP.Diag

/-! ### Sorting -/

/-- contract of `thrust::sort_by_key(keys, values)` (unstable): the pairs are permuted, keys end up non-decreasing -/
structure SortByKey {κ : Type} [LE κ] (kv kv' : List (κ × ℕ)) : Prop where
  perm : kv'.Perm kv
  sorted : (kv'.map Prod.fst).Pairwise (· ≤ ·)

/-- `hskpng_sort_helper(false)` (particles_impl_hskpng_sort.ipp:15-57): possible results
`(sorted_ijk, sorted_id)` as a list of pairs -/
def SortPlain (N : ℕ) (ijk : ℕ → ℕ) (out : List (ℕ × ℕ)) : Prop :=
  SortByKey ((List.range N).map (fun i => (ijk i, i))) out

/-- `hskpng_sort_helper(true)` (particles_impl_hskpng_sort.ipp:28-53) with random keys `un`: first the ids are sorted by
the random key (any outcome `mid`), then `sorted_ijk` is permuted accordingly and both are sorted by cell -/
def SortShuffled (N : ℕ) (ijk : ℕ → ℕ) (un : ℕ → ℕ) (out : List (ℕ × ℕ)) : Prop :=
  ∃ mid : List (ℕ × ℕ), SortByKey ((List.range N).map (fun i => (un i, i))) mid ∧
    SortByKey ((mid.map Prod.snd).map (fun i => (ijk i, i))) out

/-! ### Diagnostic state -/

/-- what the diagnostics read and write: `N` super-droplets with multiplicities `n` in cells `ijk`; the currently
selected multiplicities `nf` (`none`: no selection array is held, dereferencing it is undefined behaviour);
`sid` the sorted ids; `cnt` the array pair `count_ijk`/`count_mom` (the first `count_n` entries), and
`num` the array `count_num`, and grid data -/
structure St where
  N : ℕ
  n : ℕ → ℕ
  ijk : ℕ → ℕ
  sid : List ℕ
  nf : Option (ℕ → ℝ)
  nCell : ℕ
  nDims : ℕ
  dv : ℕ → ℝ
  rhod : ℕ → ℝ
  countN : ℕ
  countIjk : ℕ → ℕ
  countMom : ℕ → ℝ

/-- selections (particles_diag.ipp:222-407); `v` etc. are per-super-droplet values -/
inductive Sel where
  /-- `diag_all` -/
  | all
  /-- `moms_rng(lo, hi, v, cons)` -/
  | rng (lo hi : ℝ) (v : ℕ → ℝ) (cons : Bool)
  /-- `moms_cmp(v, w)` -/
  | cmp (v w : ℕ → ℝ)
  /-- `moms_ge0(v)` -/
  | ge0 (v : ℕ → ℝ)
  /-- `moms_gt0(v, cons)` -/
  | gt0 (v : ℕ → ℝ) (cons : Bool)
  /-- `moms_eq0(v, cons)` -/
  | eq0 (v : ℕ → ℝ) (cons : Bool)

/-- `detail::range_filter` (particles_impl_moms.ipp:20-32) -/
noncomputable def rangeFilter (lo hi y x : ℝ) : ℝ := if lo ≤ x ∧ x < hi then y else 0
/-- `detail::comp_filter` (particles_impl_moms.ipp:34-46) -/
noncomputable def compFilter (y x c : ℝ) : ℝ := if c ≤ x then y else 0
/-- conversion of a C++ bool to a number -/
noncomputable def b2r (p : Prop) [Decidable p] : ℝ := if p then 1 else 0

/-- base array: `n`, or the previous `n_filtered` if consecutive (undefined if there is none) -/
def base (s : St) (cons : Bool) : Option (ℕ → ℝ) := if cons then s.nf else some (fun i => (s.n i : ℝ))

/-- the selection functions (particles_impl_moms.ipp:49-234) -/
noncomputable def select (s : St) : Sel → Option St
  | .all => some { s with nf := some (fun i => (s.n i : ℝ)) }
  | .rng lo hi v cons => (base s cons).map (fun y => { s with nf := some (fun i => rangeFilter lo hi (y i) (v i)) })
  | .cmp v w => some { s with nf := some (fun i => compFilter (s.n i) (v i) (w i)) }
  | .ge0 v => some { s with nf := some (fun i => (s.n i : ℝ) * b2r (v i ≥ 0)) }
  | .gt0 v cons => (base s cons).map (fun y => { s with nf := some (fun i => y i * b2r (v i > 0)) })
  | .eq0 v cons => (base s cons).map (fun y => { s with nf := some (fun i => y i * b2r (v i = 0)) })

/-- `detail::moment_counter` (particles_impl_moms.ipp:238-272): real power for `x ≥ 0`, otherwise the power truncated to
an integer -/
noncomputable def momentCounter (xp n x : ℝ) : ℝ :=
  if 0 ≤ x then n * x ^ xp else n * x ^ (if 0 ≤ xp then ⌊xp⌋ else ⌈xp⌉)

/-- write `l` to the beginning of an array -/
def store {M : Type} (l : List M) (old : ℕ → M) : ℕ → M := fun p => if h : p < l.length then l[p] else old p

/-- the reduce_by_key of per-super-droplet values into `count_ijk`, `count_mom` (particles_impl_moms.ipp:288-308) -/
noncomputable def reduceToCount (s : St) (val : ℕ → ℝ) : St :=
  let r := reduceByKey (s.sid.map (fun i => (s.ijk i, val i)))
  { s with countN := r.length
           countIjk := store (r.map Prod.fst) s.countIjk
           countMom := store (r.map Prod.snd) s.countMom }

/-- `moms_calc` (particles_impl_moms.ipp:275-387); undefined (`none`) without a selection -/
noncomputable def momsCalc (s : St) (v : ℕ → ℝ) (power : ℝ) (specific : Bool) : Option St :=
  s.nf.map (fun nf =>
    let s := reduceToCount s (fun i => momentCounter power (nf i) (v i))
    if specific && decide (0 < s.nDims) then
      { s with countMom := fun p => if p < s.countN then s.countMom p / s.dv (s.countIjk p) / s.rhod (s.countIjk p)
                                    else s.countMom p }
    else s)

/-- `diag_sd_conc` (particles_diag.ipp:197-220) -/
noncomputable def diagSdConc (s : St) : Option St :=
  s.nf.map (fun nf => reduceToCount s (fun i => if nf i > 0 then 1 else 0))

/-- `diag_pressure`, `diag_temperature`, `diag_RH` (particles_diag.ipp:146-195): a per-cell field is copied to
`count_mom`, `count_ijk` becomes the identity -/
def diagField (s : St) (f : ℕ → ℝ) : St :=
  { s with countN := s.nCell, countIjk := fun p => p, countMom := fun p => if p < s.nCell then f p else s.countMom p }

/-- `fill_outbuf` (particles_impl_fill_outbuf.ipp:12-37): zero, then `outbuf[count_ijk[p]] = count_mom[p]`, `p < count_n` -/
def fillOutbuf (s : St) : ℕ → ℝ :=
  scatter (fun _ => 0) ((List.range s.countN).map (fun p => (s.countIjk p, s.countMom p)))

/-- `hskpng_count` (particles_impl_hskpng_count.ipp:15-48): overwrites `count_ijk` and `count_n` (and `count_num`), not
`count_mom` -/
def count (s : St) : St :=
  let r := hskpngCount s.ijk s.sid
  { s with countN := r.length, countIjk := store (r.map Prod.fst) s.countIjk }

/-- `outbuf` (particles_ctor.ipp:81-92) -/
def outbuf (s : St) : St × (ℕ → ℝ) := (count s, fillOutbuf s)

end LCP.Diag
