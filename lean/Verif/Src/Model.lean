import Verif.Init.Model

/-!
# Model of the source of aerosol (`opts.src`)

Sources: src/impl/initialization/particles_impl_init_count_num.ipp:113-165, src/impl/sources_and_relaxation_of_SDs/
particles_impl_src{,_dry_distros,_dry_distros_simple,_dry_distros_matching,_dry_sizes}.ipp.

The wet radius given by `init_wet` (see C48) is a parameter.  Not modelled here: ice attributes, in-cloud time; the cadence (`src_stp_ctr % supstp`) is C36.
-/
namespace LCP.Src
open LCP.Grid LCP.Init

/-- the source box `opts_init.src_{x,y,z}{0,1}` -/
structure SrcBox where
  x0 : ℝ
  x1 : ℝ
  y0 : ℝ
  y1 : ℝ
  z0 : ℝ
  z1 : ℝ

/-- index of an edge of the source box (particles_impl_init_count_num.ipp:120-125) -/
noncomputable def edgeIdx (p dp : ℝ) : ℕ := toUint (p / dp + 1 / 2)

/-- `init_count_num_src` (particles_impl_init_count_num.ipp:113-165): number of super-droplets to be created in cell `c`; products of
comparisons.  `none`: exception (0D, 1D) -/
noncomputable def initCountNumSrc (d : Dims) (b : Box) (s : SrcBox) (number : ℕ) : Option (ℕ → ℕ) :=
  let i0 := edgeIdx s.x0 b.dx
  let i1 := edgeIdx s.x1 b.dx
  let j0 := edgeIdx s.y0 b.dy
  let j1 := edgeIdx s.y1 b.dy
  let k0 := edgeIdx s.z0 b.dz
  let k1 := edgeIdx s.z1 b.dz
  match d.nDims with
  | 2 => some fun c => number * (if c % d.nz < k1 then 1 else 0) * (if k0 ≤ c % d.nz then 1 else 0) *
      (if c / d.nz < i1 then 1 else 0) * (if i0 ≤ c / d.nz then 1 else 0)
  | 3 => some fun c => number * (if c % d.nz < k1 then 1 else 0) * (if k0 ≤ c % d.nz then 1 else 0) *
      (if c / (d.nz * d.ny) < i1 then 1 else 0) * (if i0 ≤ c / (d.nz * d.ny) then 1 else 0) *
      (if (c / d.nz) % d.ny < j1 then 1 else 0) * (if j0 ≤ (c / d.nz) % d.ny then 1 else 0)
  | _ => none

/-- a super-droplet: the attributes set by the source (except for those listed in the header) -/
structure Sd where
  cell : ℕ
  rd3 : ℝ
  rw2 : ℝ
  kappa : ℝ
  n : ℕ
  x : ℝ
  y : ℝ
  z : ℝ

/-- what a source of a given size distribution depends on: grid, source box, `src_sd_conc`, `supstp`, `opts_init.dt`, the distribution (number per
unit volume, log-radius and time) with the range of log-radii found for it, hygroscopicity, factors of `init_n_sd_conc`, squared wet
radius given by `init_wet` (cell, dry volume), `n_sd_max` -/
structure Env where
  d : Dims
  b : Box
  s : SrcBox
  number : ℕ
  sup : ℕ
  dt0 : ℝ
  f : ℝ → ℝ
  lo : ℝ
  hi : ℝ
  kappa : ℝ
  cf : ℕ → CellFactor
  wet : ℕ → ℝ → ℝ
  nSdMax : ℕ

/-- random numbers and schedule of one call: log-radii, positions, choice of matching super-droplets, order in which `init_ijk` processes cells -/
structure Rnd where
  lnrd : ℕ → ℝ
  pos : ℕ → Fin 3 → ℝ
  pick : ℕ → ℝ
  order : List ℕ

/-- `multiplier` (particles_impl_src_dry_distros_simple.ipp:28,35-39 with particles_impl_init_dist_analysis.ipp:17-36): `sup_dt` is `supstp * opts_init.dt` -/
noncomputable def mul (e : Env) : ℝ := multiplier0 e.lo e.hi e.number (e.sup * e.dt0) (e.b.dx * e.b.dy * e.b.dz)

/-- multiplicity given by the source to a super-droplet of a given dry radius in a given cell (`init_n_sd_conc`) -/
noncomputable def amount (e : Env) (cell : ℕ) (rd3 : ℝ) : ℕ := initN e.f (mul e) (e.cf cell) rd3

/-- cell index and dry volume of the `idx`-th new super-droplet (`init_ijk`, `init_dry_sd_conc`:
particles_impl_src_dry_distros_simple.ipp:53-54, particles_impl_src_dry_distros_matching.ipp:138-139) -/
noncomputable def newCell (cnt : ℕ → ℕ) (r : Rnd) (old : ℕ) (idx : ℕ) : ℕ := initIjk cnt r.order old (fun _ => 0) (old + idx)

noncomputable def newRd3 (e : Env) (cnt : ℕ → ℕ) (r : Rnd) (old : ℕ) (idx : ℕ) : ℝ :=
  rd3Of (initLnrd e.lo e.hi r.lnrd cnt (initIjk cnt r.order old (fun _ => 0)) old idx)

/-- the remaining attributes (`init_kappa`, `init_n_sd_conc`, `init_wet`, `init_xyz`: particles_impl_src_dry_distros_simple.ipp:57-84,
particles_impl_src_dry_distros_matching.ipp:216-245); `i` is the number among the super-droplets initialised -/
noncomputable def finish (e : Env) (r : Rnd) (i : ℕ) (cell : ℕ) (rd3 : ℝ) : Sd :=
  let p := initXyz e.d e.b (r.pos i) cell
  ⟨cell, rd3, e.wet cell rd3, e.kappa, amount e cell rd3, p.1, p.2.1, p.2.2⟩

/-- number of super-droplets to be created (`thrust::reduce(count_num)`, particles_impl_src_dry_distros_simple.ipp:45) -/
noncomputable def total (e : Env) (cnt : ℕ → ℕ) : ℕ := ((List.range e.d.nCell).map cnt).sum

/-- `src_dry_distros_simple` (particles_impl_src_dry_distros_simple.ipp:18-87) in a step in which it fires.  `none`: exception -/
noncomputable def srcSimple (e : Env) (r : Rnd) (pop : List Sd) : Option (List Sd) :=
  match initCountNumSrc e.d e.b e.s e.number with
  | none => none
  | some cnt =>
    if e.nSdMax < pop.length + total e cnt then none else
    some (pop ++ (List.range (total e cnt)).map fun i =>
      finish e r i (newCell cnt r pop.length i) (newRd3 e cnt r pop.length i))

/-! ### Matching -/

/-- `out_of_bins` (particles_impl_src_dry_distros_matching.ipp:127) -/
abbrev outOfBins : ℕ := 4444444444

/-- `get_bin_no::operator()` (particles_impl_src_dry_distros_matching.ipp:30-43) -/
noncomputable def getBinNo (lo hi rd3 : ℝ) (cnt : ℕ) : ℕ :=
  let l := Real.log rd3 / 3
  if l < lo ∨ hi ≤ l ∨ cnt = 0 then outOfBins else toUint ((l - lo) / (hi - lo) * cnt)

/-- `two_keys_sort` (particles_impl_src_dry_distros_matching.ipp:17-27), on pairs of integers -/
def twoKeys (a b : ℕ × ℕ) : Bool := if a.1 < b.1 then true else if a.1 = b.1 then a.2 < b.2 else false

/-- outcome of the sort by (cell, dry volume) (particles_impl_src_dry_distros_matching.ipp:69-101): a permutation that orders the pairs; ties in
any order -/
structure Sorted (pop : List Sd) (ord : List ℕ) : Prop where
  perm : ord.Perm (List.range pop.length)
  sorted : ∀ p q, p < q → q < ord.length → ∀ a b, pop[ord.getD p 0]? = some a → pop[ord.getD q 0]? = some b →
    a.cell < b.cell ∨ a.cell = b.cell ∧ a.rd3 ≤ b.rd3

/-- `thrust::unique_by_key` (particles_impl_src_dry_distros_matching.ipp:177): keys are the bin numbers (second components), values the cells; the
first pair of every run of equal keys is kept -/
def uniqueByKey : List (ℕ × ℕ) → List (ℕ × ℕ)
  | [] => []
  | a :: t => match uniqueByKey t with
    | [] => [a]
    | b :: r => if a.2 = b.2 then a :: r else a :: b :: r

/-- `thrust::binary_search` of one pair (particles_impl_src_dry_distros_matching.ipp:184-202) in a range sorted by `two_keys_sort` -/
def binarySearch (l : List (ℕ × ℕ)) (q : ℕ × ℕ) : Bool :=
  match l.dropWhile (twoKeys · q) with
  | [] => false
  | h :: _ => !twoKeys q h

/-- bin number of a super-droplet (particles_impl_src_dry_distros_matching.ipp:128-135) -/
noncomputable def binOf (e : Env) (cnt : ℕ → ℕ) (s : Sd) : ℕ := getBinNo e.lo e.hi s.rd3 (cnt s.cell)

/-- the sorted old super-droplets: (cell, bin) -/
noncomputable def sortedKeys (e : Env) (cnt : ℕ → ℕ) (pop : List Sd) (ord : List ℕ) : List (ℕ × ℕ) :=
  ord.map fun id => match pop[id]? with
    | none => (0, outOfBins)
    | some s => (s.cell, binOf e cnt s)

/-- pairs (cell, bin) with a match (particles_impl_src_dry_distros_matching.ipp:152-180) -/
noncomputable def matchedBins (e : Env) (cnt : ℕ → ℕ) (pop : List Sd) (ord : List ℕ) : List (ℕ × ℕ) :=
  uniqueByKey ((sortedKeys e cnt pop ord).filter fun p => p.2 ≠ outOfBins)

/-- numbers of the new super-droplets for which no match was found, in order (particles_impl_src_dry_distros_matching.ipp:182-213) -/
noncomputable def unmatched (e : Env) (cnt : ℕ → ℕ) (r : Rnd) (pop : List Sd) (ord : List ℕ) : List ℕ :=
  (List.range (total e cnt)).filter fun i =>
    !binarySearch (matchedBins e cnt pop ord)
      (newCell cnt r pop.length i, getBinNo e.lo e.hi (newRd3 e cnt r pop.length i) (cnt (newCell cnt r pop.length i)))

/-- (bin, number of old super-droplets) of the runs of equal bin numbers (particles_impl_src_dry_distros_matching.ipp:284-296) -/
noncomputable def bins (e : Env) (cnt : ℕ → ℕ) (pop : List Sd) (ord : List ℕ) : List (ℕ × ℕ) :=
  reduceByKey ((sortedKeys e cnt pop ord).map fun p => (p.2, 1))

/-- with the number of super-droplets in the preceding runs, runs out of bins removed (particles_impl_src_dry_distros_matching.ipp:298-328): triples
(bin, count, offset) -/
noncomputable def binsIn (e : Env) (cnt : ℕ → ℕ) (pop : List Sd) (ord : List ℕ) : List (ℕ × ℕ × ℕ) :=
  let g := bins e cnt pop ord
  ((List.range g.length).map fun i => ((g.getD i (0, 0)).1, (g.getD i (0, 0)).2, exclusiveScan (fun j => (g.getD j (0, 0)).2) i)).filter
    fun t => t.1 ≠ outOfBins

/-- ids of the super-droplets whose multiplicity is increased (particles_impl_src_dry_distros_matching.ipp:330-352, 364, 370): a random one of each run;
both transforms store a real number to an integer -/
noncomputable def picked (e : Env) (cnt : ℕ → ℕ) (r : Rnd) (pop : List Sd) (ord : List ℕ) : List ℕ :=
  (binsIn e cnt pop ord).zipIdx.map fun t => ord.getD (t.1.2.2 + toUint (r.pick t.2 * t.1.2.1)) 0

/-- increase of the multiplicity of one super-droplet (particles_impl_src_dry_distros_matching.ipp:361-410): the source amount for its own dry radius and cell -/
noncomputable def raise (e : Env) (s : Sd) : Sd := { s with n := s.n + amount e s.cell s.rd3 }

/-- `src_dry_distros_matching` (particles_impl_src_dry_distros_matching.ipp:52-417) in a step in which it fires.  `gb`: contents of the new entries of the
vectors (cell, rd3) behind those kept by `remove_if`, unspecified.  `none`: exception -/
noncomputable def srcMatching (e : Env) (r : Rnd) (gb : List (ℕ × ℝ)) (pop : List Sd) (ord : List ℕ) : Option (List Sd) :=
  match initCountNumSrc e.d e.b e.s e.number with
  | none => none
  | some cnt =>
    if e.nSdMax < pop.length + total e cnt then none else
    let new := ((unmatched e cnt r pop ord).map (fun i => (newCell cnt r pop.length i, newRd3 e cnt r pop.length i)) ++ gb).take
      (total e cnt - (matchedBins e cnt pop ord).length)
    if e.nSdMax < pop.length + new.length + (picked e cnt r pop ord).length then none else
    some ((picked e cnt r pop ord).foldl (fun l id => l.modify id (raise e)) pop ++
      new.zipIdx.map fun c => finish e r c.2 c.1.1 c.1.2)

end LCP.Src
