import Verif.Thrust
import Verif.SortLemmas
import Mathlib.Data.List.GetD
import Mathlib.Data.List.Destutter

/-!
# Model of the sorted list of super-droplets and of its "is sorted" flag

Every grid-cell statistic (moments, counts, collision pairs, relaxation) is taken through two arrays, `sorted_id` and
`sorted_ijk`, that are rebuilt only if a flag says they are out of date.  Modelled: who rebuilds, who changes cells or the
number of super-droplets, who touches the flag, and who reads; values of other attributes are not needed.
-/
namespace LCP.SortFlag

/-- cells of super-droplets, `sorted_id`, `sorted_ijk`, `sorted` (particles_impl.ipp:108-110, 153) -/
structure St where
  ijk : List ℕ
  sid : List ℕ
  sijk : List ℕ
  flag : Bool

/-- outcome of `thrust::sort_by_key` (not stable) on keys `ks` and values `vs` -/
structure SortByKey (ks vs ks' vs' : List ℕ) : Prop where
  len : ks'.length = vs'.length
  perm : (ks'.zip vs').Perm (ks.zip vs)
  sorted : ks'.Pairwise (· ≤ ·)

/-- `hskpng_sort_helper` (hskpng_sort.ipp:15-57): `p` is the sequence 0..n_part-1, shuffled if requested (any permutation);
keys are copied through it, then both sorted by key, then the flag is raised -/
def Helper (shuffle : Bool) (s s' : St) : Prop :=
  ∃ p : List ℕ, p.Perm (List.range s.ijk.length) ∧ (shuffle = false → p = List.range s.ijk.length) ∧
    SortByKey (p.map fun i => s.ijk.getD i 0) p s'.sijk s'.sid ∧ s'.ijk = s.ijk ∧ s'.flag = true

/-- `hskpng_sort` (hskpng_sort.ipp:59-64) -/
def DoSort (s s' : St) : Prop := if s.flag then s' = s else Helper false s s'

/-- `remove_if` of entries without a bin and `unique_by_key` over bin numbers, both moving entries of `sorted_ijk`
(src_dry_distros_matching.ipp:152-176): what is left at the front; pairs of cell and bin number (`none`: out of bins) -/
def compact (l : List (ℕ × Option ℕ)) : List ℕ :=
  ((l.filter fun x => x.2.isSome).destutter fun x y => x.2 ≠ y.2).map Prod.fst

/-- sorting done by the matching source (src_dry_distros_matching.ipp:67-98, by cell and dry volume: as far as cells are
concerned, one more sort by key), then the changes of `sorted_ijk` alone (`compact`; entries past the kept ones are
unspecified); the flag is not touched.  Simplification: bin numbers of existing super-droplets are any list `bins` -/
def MatchSort (s s' : St) : Prop :=
  ∃ (ks : List ℕ) (bins : List (Option ℕ)) (rest : List ℕ),
    SortByKey s.ijk (List.range s.ijk.length) ks s'.sid ∧ bins.length = ks.length ∧
    s'.sijk = compact (ks.zip bins) ++ rest ∧ s'.sijk.length = ks.length ∧ s'.ijk = s.ijk ∧ s'.flag = s.flag

/-- `hskpng_resize_npart` (hskpng_resize.ipp:6-33) to `n_part + cs.length` followed by filling of the new entries of `ijk`
with `cs` (init_ijk.ipp): new entries of `sorted_id` and `sorted_ijk` are value-initialised, i.e. zero; flag not touched -/
def grow (s : St) (cs : List ℕ) : St :=
  { ijk := s.ijk ++ cs, sid := s.sid ++ List.replicate cs.length 0, sijk := s.sijk ++ List.replicate cs.length 0, flag := s.flag }

/-- `src` (src.ipp:14-27) in a step in which it fires: with the matching source its sort, then new super-droplets in cells
`cs`; `post_adding_SD`, which would lower the flag, is commented out -/
def Source (matching : Bool) (s : St) (cs : List ℕ) (s' : St) : Prop :=
  ∃ t, (if matching then MatchSort s t else t = s) ∧ s' = grow t cs

/-- operations on the lists that happen inside of API calls -/
inductive Op where
  /-- call of a function that begins with `hskpng_sort()` and then reads the lists up to `n_part`: moms_*, moms_calc after
  them, hskpng_count, cond, ice_dep, ice_nucl_melt, chem_henry, save_liq_ice_content_before_change, diag_sd_conc, diag_max_rw -/
  | read
  /-- `coal`: `hskpng_shuffle_and_sort()`, then reads -/
  | shuffle
  /-- `hskpng_ijk` (hskpng_ijk.ipp:158-200), also preceded by removal, recycling or exchange with other domains:
  any new cells, any number of super-droplets, any contents of the two lists; flag lowered -/
  | relabel
  /-- aerosol source that fires and creates `k` super-droplets -/
  | src (matching : Bool) (k : ℕ)
  /-- relaxation: as `read` (many times, of the first n_part_pre_relax entries), then new super-droplets, then flag lowered
  (rlx_dry_distros.ipp:87-312) -/
  | rlx
  /-- `update_th_rv` / `update_th_freezing` / ... : throws if the flag is down, else reads `count_ijk` (update_th_rv.ipp:82) -/
  | update
deriving DecidableEq

/-- what an operation shows: the lists a reader has seen, an exception, or nothing -/
inductive Ev where
  | saw (s : St)
  | threw
  | quiet

/-- one operation; `saw t` records the lists that the operation worked on -/
inductive Does : Op → St → Ev → St → Prop
  | read {s t} : DoSort s t → Does .read s (.saw t) t
  | shuffle {s t} : Helper true s t → Does .shuffle s (.saw t) t
  | relabel {s ijk sid sijk} : Does .relabel s .quiet ⟨ijk, sid, sijk, false⟩
  | src {m s cs t} : Source m s cs t → Does (.src m cs.length) s .quiet t
  | rlx {s t cs} : DoSort s t → Does .rlx s (.saw t) { grow t cs with flag := false }
  | update {s} : s.flag = true → Does .update s (.saw s) s
  | updateThrow {s} : s.flag = false → Does .update s .threw s

/-- operations of API calls in a row -/
inductive Runs : List Op → St → List Ev → St → Prop
  | nil {s} : Runs [] s [] s
  | cons {o os s e t es u} : Does o s e t → Runs os t es u → Runs (o :: os) s (e :: es) u

/-- options that matter (opts.hpp, opts_init.hpp:77); numbers of substeps and of diagnostic reads are free -/
structure Opts where
  nucl : Bool
  cond : Bool
  perParticle : Bool
  sstpCond : ℕ
  chemReads : ℕ
  coal : Bool
  sstpCoal : ℕ
  adve : Bool
  predCorr : Bool
  /-- `none`: source off, disabled in this domain or not firing in this step; else: matching or not, and number of
  super-droplets it creates -/
  src : Option (Bool × ℕ)
  rlx : Bool
  xchng : Bool

/-- `step_cond` (particles_step.ipp:147-300): nucleation reads and updates; condensation sorts, then per substep saves
contents, grows droplets, updates th and rv; chemistry reads -/
def condOps (o : Opts) : List Op :=
  (if o.nucl then [.read, .update] else []) ++
  (if o.cond then .read :: (if o.perParticle then [.read, .read, .update]
      else (List.replicate o.sstpCond [.read, .read, .update]).flatten) else []) ++
  List.replicate o.chemReads .read

/-- `step_async` (particles_step.ipp:303-470) with `post_copy` (post_copy.ipp:19-35): coalescence, advection (two relabellings
in the predictor-corrector scheme, adve.ipp:199, 253), source, relaxation, exchange (mpi_exchange.ipp:323), relabelling, count -/
def asyncOps (o : Opts) : List Op :=
  (if o.coal then (List.replicate o.sstpCoal [.shuffle, .read]).flatten else []) ++
  (if o.adve && o.predCorr then [.relabel, .relabel] else []) ++
  (match o.src with | none => [] | some q => [.src q.1 q.2]) ++ (if o.rlx then [.rlx] else []) ++
  (if o.xchng then [.relabel] else []) ++ [.relabel, .read]

/-- API calls; diagnostics are any number of reads -/
inductive Api where
  | cond (o : Opts)
  | async (o : Opts)
  | diag (k : ℕ)

def apiOps : Api → List Op
  | .cond o => condOps o
  | .async o => asyncOps o
  | .diag k => List.replicate k .read

/-- state just after the super-droplets have been initialised (flag is false since construction, particles_impl.ipp:346);
`init` then calls `hskpng_count` (particles_init.ipp:127) -/
def initial (ijk sid sijk : List ℕ) : St := ⟨ijk, sid, sijk, false⟩

/-- operations of a history: init, then API calls in any order -/
def history (l : List Api) : List Op := .read :: l.flatMap apiOps

end LCP.SortFlag
