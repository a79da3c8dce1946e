import Verif.Init.Model
import Verif.Toms.Model
import Mathlib.Algebra.BigOperators.Group.Finset.Basic

/-!
# Model of the analysis of size distributions and of the constant-multiplicity initialisation

Sources: src/impl/initialization/particles_impl_init_dist_analysis.ipp, particles_impl_init_count_num.ipp,
particles_impl_init_dry_const_multi.ipp, particles_impl_init_SD_with_distros_{sd_conc,const_multi,tail}.ipp, src/detail/config.hpp.

Real numbers are exact.  A conversion of a real to an unsigned integer is defined only above −1 ([conv.fpint]); the upper limit (2⁶⁴) is not
modelled.
-/
namespace LCP.Init

/-- `config.rd_min_init` (config.hpp) -/
noncomputable abbrev rdMinInit : ℝ := 1 / 10 ^ 14
/-- `config.rd_max_init` (config.hpp) -/
noncomputable abbrev rdMaxInit : ℝ := 1 / 10 ^ 3
/-- `config.bin_precision` (config.hpp) -/
noncomputable abbrev binPrecision : ℝ := 1 / 10 ^ 4
/-- `config.threshold` (config.hpp) -/
noncomputable abbrev distThreshold : ℝ := 10 ^ 20

/-- conversion of a real number to an unsigned integer: truncation, undefined at or below −1 -/
noncomputable def toUint? (x : ℝ) : Option ℕ := if x ≤ -1 then none else some ⌊x⌋₊

/-! ### Automatic detection of the range of radii, `sd_conc` initialisation -/

/-- parameters of the search: `sd_conc`, the `dt` argument (1 at initialisation, the interval between activations for the source) and the cell
volume -/
structure SearchPar where
  sd : ℕ
  dt : ℝ
  vol : ℝ

/-- `multiplier` in the loop (particles_impl_init_dist_analysis.ipp:51-58) -/
noncomputable def searchMult (p : SearchPar) (s : ℝ × ℝ) : ℝ := Real.log (s.2 / s.1) / p.sd * p.dt * p.vol

/-- what one pass through the loop does -/
inductive SearchRes where
  /-- exception: non-zero at the smallest radius -/
  | throwMin
  /-- exception: non-zero at the largest radius -/
  | throwMax
  /-- conversion of a real number below −1 to an unsigned integer -/
  | undefined
  /-- next pass with these limits -/
  | next (s : ℝ × ℝ)
  /-- `found_optimal_range` -/
  | found (lo hi : ℝ)

open Classical in
/-- one pass of the `while` loop (particles_impl_init_dist_analysis.ipp:49-76); state: `rd_min`, `rd_max` -/
noncomputable def searchStep (f : ℝ → ℝ) (p : SearchPar) (s : ℝ × ℝ) : SearchRes :=
  match toUint? (f (Real.log s.1) * searchMult p s), toUint? (f (Real.log s.2) * searchMult p s) with
  | some nMin, some nMax =>
    if s.1 = rdMinInit ∧ nMin ≠ 0 then .throwMin
    else if s.2 = rdMaxInit ∧ nMax ≠ 0 then .throwMax
    else if nMin = 0 then .next (s.1 * (101 / 100), s.2)
    else if nMax = 0 then .next (s.1, s.2 / (101 / 100))
    else .found s.1 s.2
  | _, _ => .undefined

/-- the `while` loop, at most `n` passes; `none`: not finished within them -/
noncomputable def searchLoop (f : ℝ → ℝ) (p : SearchPar) : ℕ → ℝ × ℝ → Option SearchRes
  | 0, _ => none
  | n + 1, s => match searchStep f p s with
    | .next s' => searchLoop f p n s'
    | r => some r

/-- `init_dist_analysis_sd_conc` with automatic detection of the range (particles_impl_init_dist_analysis.ipp:38-77) -/
noncomputable def search (f : ℝ → ℝ) (p : SearchPar) (n : ℕ) : Option SearchRes := searchLoop f p n (rdMinInit, rdMaxInit)

/-! ### Range of radii, constant-multiplicity initialisation -/

/-- `init_dist_analysis_const_multi` (particles_impl_init_dist_analysis.ipp:80-121): logarithms of the limits.  `user`: `rd_min`, `rd_max` if both are given
(non-negative).  `xm`: where `boost::math::tools::brent_find_minima` (not part of the library) puts the maximum; it is arbitrary here. -/
noncomputable def constMultiRange (f : ℝ → ℝ) (user : Option (ℝ × ℝ)) (xm : ℝ) : ℝ × ℝ :=
  match user with
  | some (lo, hi) => (Real.log lo, Real.log hi)
  | none =>
    let g := fun x => f x + -(f xm / distThreshold)
    (LCP.Toms.solveDbl g (Real.log rdMinInit) xm, LCP.Toms.solveDbl g xm (Real.log rdMaxInit))

/-- limits used by `init_SD_with_distros_const_multi` (particles_impl_init_SD_with_distros_const_multi.ipp:14-20); `none`: exception -/
noncomputable def constMultiEntry (f : ℝ → ℝ) (user : Option (ℝ × ℝ)) (xm : ℝ) : Option (ℝ × ℝ) :=
  let r := constMultiRange f user xm
  if r.1 ≥ r.2 then none else some r

/-- limits used by `init_SD_with_distros_tail` (particles_impl_init_SD_with_distros_tail.ipp:14-22), with `hi` the upper limit of the preceding `sd_conc`
initialisation (particles_impl_init_SD_with_distros.ipp:37-41); `none`: exception -/
noncomputable def tailEntry (f : ℝ → ℝ) (user : Option (ℝ × ℝ)) (xm hi : ℝ) : Option (ℝ × ℝ) :=
  let r := constMultiRange f user xm
  if hi ≥ r.2 then none else some (hi, r.2)

/-- limits of the `sd_conc` initialisation with user-defined edges (particles_impl_init_dist_analysis.ipp:22-37,
particles_impl_init_SD_with_distros_sd_conc.ipp:16-22); `none`: exception -/
noncomputable def sdConcUserEntry (user : ℝ × ℝ) : Option (ℝ × ℝ) :=
  if Real.log user.1 ≥ Real.log user.2 then none else some (Real.log user.1, Real.log user.2)

/-! ### Number of super-droplets -/

/-- `detail::integrate` (particles_impl_init_count_num.ipp:14-27) -/
noncomputable def integrate (f : ℝ → ℝ) (lo hi h : ℝ) : ℝ :=
  let n := toUint ((hi - lo) / h)
  ((f lo + f hi) / 2 + ∑ i ∈ Finset.Ico 1 n, f (lo + i * h)) * h

/-- `conc_to_number` (particles_impl_init_count_num.ipp:40-75): `rho` is the density relative to STP, or 1 with `aerosol_independent_of_rhod`; `prof` the
value of the profile at the height of the cell, or 1 -/
noncomputable def concToNumber (conc dv rho prof : ℝ) : ℝ := rho * (conc * dv) * prof

/-- `init_count_num_hlpr` (particles_impl_init_count_num.ipp:77-91): a real stored in an unsigned vector -/
noncomputable def countConstMulti (conc dv rho prof : ℝ) (constMulti : ℕ) : ℕ := toUint (concToNumber conc dv rho prof / constMulti + 1 / 2)

/-! ### Radii -/

/-- number of points of the cumulative distribution (particles_impl_init_dry_const_multi.ipp:28-29) -/
noncomputable def cdfSize (lo hi h : ℝ) : ℕ := toUint ((hi - lo) / h + 1)

/-- `detail::calc_CDF` (particles_impl_init_dry_const_multi.ipp:24-44): values, inclusive scan, division by the last entry -/
noncomputable def cdf (f : ℝ → ℝ) (lo hi h : ℝ) (i : ℕ) : ℝ :=
  (∑ k ∈ Finset.range (i + 1), f (lo + h * k)) / ∑ k ∈ Finset.range (cdfSize lo hi h - 1 + 1), f (lo + h * k)

/-- `thrust::upper_bound` on the first `n` entries of a table: binary search for the first entry above `u`; on tables that are not sorted the result is whatever the
bisection gives -/
noncomputable def upperBoundAux (a : ℕ → ℝ) (u : ℝ) : ℕ → ℕ → ℕ → ℕ
  | 0, lo, _ => lo
  | k + 1, lo, hi =>
    if lo < hi then
      let mid := (lo + hi) / 2
      if u < a mid then upperBoundAux a u k lo mid else upperBoundAux a u k (mid + 1) hi
    else lo

/-- see `upperBoundAux`; `n` halvings are more than enough -/
noncomputable def upperBound (a : ℕ → ℝ) (n : ℕ) (u : ℝ) : ℕ := upperBoundAux a u n 0 n

/-- `init_dry_const_multi` (particles_impl_init_dry_const_multi.ipp:47-88): logarithm of the dry radius for the random number `u` -/
noncomputable def lnrdConstMulti (f : ℝ → ℝ) (lo hi h u : ℝ) : ℝ := lo + (upperBound (cdf f lo hi h) (cdfSize lo hi h) u : ℝ) * h

/-- `init_n_const_multi` (particles_impl_init_n.ipp:147-151) -/
def nConstMulti (constMulti : ℕ) : ℕ := constMulti

end LCP.Init
