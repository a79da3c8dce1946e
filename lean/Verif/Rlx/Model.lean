import Verif.Diag.Model
import Verif.Grid.Model
import Mathlib.Analysis.SpecialFunctions.Log.Basic

/-!
# Model of the relaxation of aerosol towards prescribed distributions

Source: src/impl/sources_and_relaxation_of_SDs/particles_impl_rlx_dry_distros.ipp.
The range of log-radii of each distribution (result of `init_dist_analysis_sd_conc`) is a parameter.
-/
namespace LCP.Rlx
open LCP.Grid LCP.Diag

/-- attributes of a super-droplet that the relaxation reads or sets -/
structure Sd where
  n : ℕ
  kpa : ℝ
  rd3 : ℝ
  cell : ℕ

/-- options (opts_init.hpp:95, 171-185; config.hpp:33) and the air density profile used (`rhod[0..nz)`) -/
structure Opts where
  d : Dims
  b : Box
  /-- rlx_bins -/
  bins : ℕ
  /-- rlx_sd_per_bin (a real number) -/
  perBin : ℝ
  /-- rlx_timescale -/
  tau : ℝ
  /-- config.rlx_conc_tolerance (0.1) -/
  tol : ℝ
  /-- aerosol_independent_of_rhod -/
  indep : Bool
  rhoStp : ℝ
  rhod : ℕ → ℝ

/-- one entry of `rlx_dry_distros`: kappa of created droplets, distribution, kappa range, height range; and the log-radius
range found by the analysis -/
structure Distro where
  kappa : ℝ
  f : ℝ → ℝ
  kLo : ℝ
  kHi : ℝ
  z0 : ℝ
  z1 : ℝ
  lnLo : ℝ
  lnHi : ℝ

/-- possible results of `thrust::sort_by_key` (unstable) -/
structure Sorted {κ : Type} (key : κ → ℕ) (l l' : List κ) : Prop where
  perm : l'.Perm l
  sorted : (l'.map key).Pairwise (· ≤ ·)

/-- lines 155-163: selection by kappa, then by dry volume, then the 0th moment per cell, of the super-droplets existing
before relaxation in some cell-sorted order `srt` -/
noncomputable def cellMoments (srt : List Sd) (kLo kHi rLo rHi : ℝ) : List (ℕ × ℝ) :=
  reduceByKey (srt.map fun s =>
    (s.cell, momentCounter 0 (rangeFilter rLo rHi (rangeFilter kLo kHi s.n s.kpa) s.rd3) s.rd3))

/-- lines 168-169: key of a cell is its level -/
def levelKeys (nz : ℕ) (cm : List (ℕ × ℝ)) : List (ℕ × ℝ) := cm.map fun p => (p.1 % nz, p.2)

/-- lines 165-178: zero, `reduce_by_key` by level (`srt2`: outcome of the sort of line 170), scatter -/
noncomputable def horSum (srt2 : List (ℕ × ℝ)) : ℕ → ℝ := scatter (fun _ => 0) (reduceByKey srt2)

/-- `hor_dv_eval` (lines 53-82) -/
noncomputable def horDv (b : Box) (k : ℕ) : ℝ :=
  max 0 ((b.x1 - b.x0) * (b.y1 - b.y0) * (min ((k + 1) * b.dz) b.z1 - max (k * b.dz) b.z0))

/-- number of bins (line 126), truncated -/
noncomputable def nBins (o : Opts) (dd : Distro) (tot : ℝ) : ℕ := ⌊o.bins * (dd.lnHi - dd.lnLo) / tot⌋₊

/-- width of a bin (line 128) -/
noncomputable def binSize (o : Opts) (dd : Distro) (tot : ℝ) : ℝ := (dd.lnHi - dd.lnLo) / nBins o dd tot

/-- edges of bins, as dry volumes (line 132) -/
noncomputable def edge (o : Opts) (dd : Distro) (tot : ℝ) (m : ℕ) : ℝ := Real.exp (3 * (dd.lnLo + m * binSize o dd tot))

/-- expected number of droplets of bin `m` at level `k` (lines 183-207); level range truncated (lines 135-136) -/
noncomputable def expected (o : Opts) (dd : Distro) (tot : ℝ) (m k : ℕ) : ℝ :=
  let e := dd.f (dd.lnLo + (m + 1 / 2) * binSize o dd tot) * binSize o dd tot * horDv o.b k
  let e := if o.indep then e else e * o.rhod k / o.rhoStp
  if (k : ℤ) < ⌊dd.z0 / o.b.dz⌋ ∨ (k : ℤ) ≥ ⌊dd.z1 / o.b.dz⌋ then 0 else e

/-- missing number (lines 210-211) -/
noncomputable def missing (exp hs : ℝ) : ℝ := if exp - hs < 0 then 0 else exp - hs

/-- `calc_n_sd_to_create` (lines 32-51): constructor and operator -/
noncomputable def nSdToCreate (o : Opts) (miss exp : ℝ) : ℕ :=
  if exp > 0 then if miss / exp > o.tol then max 1 ⌊o.perBin + 1 / 2⌋₊ else 0 else 0

/-- multiplicity given to each created super-droplet (lines 252-256), conversion to integer truncates -/
noncomputable def newMult (o : Opts) (dt miss : ℝ) : ℕ := ⌊miss / o.perBin * min (dt / o.tau) 1 + 1 / 2⌋₊

/-- random numbers used for one bin: for `i`, `rd`, `j`; all in [0,1) (urand.hpp:70) -/
structure Rnd where
  ui : ℕ → ℝ
  ur : ℕ → ℝ
  uj : ℕ → ℝ

/-- the body of the bins loop (lines 148-300): super-droplets created for bin `m`, given the horizontal sums `hs`.
`arbitrary_sequence` (lines 230-257) fills levels one after another (see `LCP.Init.initIjk`), so the list of created ones is
the concatenation over levels.  Cell from `i`, `j`, `k` as in `ravel_ijk`. -/
noncomputable def createBin (o : Opts) (dd : Distro) (tot dt : ℝ) (m : ℕ) (hs : ℕ → ℝ) (u : Rnd) : List Sd :=
  let km : List (ℕ × ℕ) := (List.range o.d.nz).flatMap fun k =>
    let miss := missing (expected o dd tot m k) (hs k)
    List.replicate (nSdToCreate o miss (expected o dd tot m k)) (k, newMult o dt miss)
  km.zipIdx.map fun q =>
    let i := ⌊u.ui q.2 * o.d.nx⌋₊
    let j := ⌊u.uj q.2 * o.d.ny⌋₊
    { n := q.1.2
      kpa := dd.kappa
      rd3 := Real.exp (3 * (Real.log (edge o dd tot m ^ (1 / 3 : ℝ)) + u.ur q.2 * binSize o dd tot))
      cell := if o.d.ny = 0 then i * o.d.nz + q.1.1 else i * (o.d.nz * o.d.ny) + j * o.d.nz + q.1.1 }

/-- possible horizontal sums for a bin: any outcomes of the two sorts -/
def HorSum (o : Opts) (dd : Distro) (tot : ℝ) (m : ℕ) (pop : List Sd) (hs : ℕ → ℝ) : Prop :=
  ∃ srt srt2, Sorted Sd.cell pop srt ∧
    Sorted Prod.fst (levelKeys o.d.nz (cellMoments srt dd.kLo dd.kHi (edge o dd tot m) (edge o dd tot (m + 1)))) srt2 ∧
    hs = horSum srt2

/-- the bins loop for one distribution (lines 146-303): possible lists of created super-droplets (for the bins `≥ m0`) -/
inductive Bins (o : Opts) (dd : Distro) (tot dt : ℝ) (pop : List Sd) : ℕ → List Sd → Prop
  | zero : Bins o dd tot dt pop 0 []
  | succ {m l hs u} : Bins o dd tot dt pop m l → HorSum o dd tot m pop hs →
      (∀ p, 0 ≤ u.ui p ∧ u.ui p < 1 ∧ 0 ≤ u.ur p ∧ u.ur p < 1 ∧ 0 ≤ u.uj p ∧ u.uj p < 1) →
      Bins o dd tot dt pop (m + 1) (l ++ createBin o dd tot dt m hs u)

/-- the loop over distributions (lines 111-312): possible created super-droplets -/
inductive Run (o : Opts) (tot dt : ℝ) (pop : List Sd) : List Distro → List Sd → Prop
  | nil : Run o tot dt pop [] []
  | cons {dd ds l l'} : Bins o dd tot dt pop (nBins o dd tot) l → Run o tot dt pop ds l' →
      Run o tot dt pop (dd :: ds) (l ++ l')

/-- `rlx_dry_distros` (lines 87-314): possible populations afterwards -/
def Relax (o : Opts) (dt : ℝ) (ds : List Distro) (pop pop' : List Sd) : Prop :=
  ∃ l, Run o ((ds.map fun dd => dd.lnHi - dd.lnLo).sum) dt pop ds l ∧ pop' = pop ++ l

end LCP.Rlx
