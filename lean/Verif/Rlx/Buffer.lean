import Verif.Rlx.Props

/-!
# Storage for random numbers of the relaxation

Source: src/impl/sources_and_relaxation_of_SDs/particles_impl_rlx_dry_distros.ipp:213-300,
src/impl/housekeeping/particles_impl_hskpng_resize.ipp, src/detail/urand.hpp:70-77.
-/
namespace LCP.Rlx
open LCP.Grid LCP.Diag

/-- `n_part_to_init` of one bin (line 217) -/
noncomputable def toInit (o : Opts) (dd : Distro) (tot : ℝ) (m : ℕ) (hs : ℕ → ℝ) : ℕ :=
  ((List.range o.d.nz).map fun k => nSdToCreate o (missing (expected o dd tot m k) (hs k)) (expected o dd tot m k)).sum

/-- number of dimensions (relaxation needs at least two, opts_init sanity checks) -/
def nDims (o : Opts) : ℕ := if o.d.ny = 0 then 2 else 3

/-- result of writing `count` numbers from the beginning of a vector of size `size` in storage for `cap` numbers
(`std::generate_n`, urand.hpp:76): inside of the vector; past its end but in its storage; past its storage -/
inductive Fits where
  | inside
  | pastEnd
  | pastStorage
deriving DecidableEq

/-- see `Fits` -/
def generateN (count size cap : ℕ) : Fits := if count ≤ size then .inside else if count ≤ cap then .pastEnd else .pastStorage

/-- lines 213-222 and 268-271 for one bin: growing of the number of super-droplets, exception if above `n_sd_max`, resize of
temporary vectors (storage for n_sd_max is reserved in init), random numbers for `i`, `rd` and (3D) `j`. `none`: exception.
Result: new number of super-droplets and the fate of the random numbers -/
noncomputable def binStorage (o : Opts) (nSdMax nOld : ℕ) (dd : Distro) (tot : ℝ) (m : ℕ) (hs : ℕ → ℝ) : Option (ℕ × Fits) :=
  let nPart := nOld + toInit o dd tot m hs
  if nPart > nSdMax then none else some (nPart, generateN (toInit o dd tot m hs * nDims o) nPart nSdMax)

/-! ## Properties -/

/-- `toInit` is the number of super-droplets created -/
theorem toInit_eq (o : Opts) (dd : Distro) (tot dt : ℝ) (m : ℕ) (hs : ℕ → ℝ) (u : Rnd) :
    (createBin o dd tot dt m hs u).length = toInit o dd tot m hs := by
  simp [createBin, toInit, List.length_flatMap]

theorem nSdToCreate_le (o : Opts) (a b : ℝ) : nSdToCreate o a b ≤ max 1 ⌊o.perBin + 1 / 2⌋₊ := by
  unfold nSdToCreate
  split
  · split
    · exact le_rfl
    · exact Nat.zero_le _
  · exact Nat.zero_le _

/-- at most the (rounded) requested number per bin and level -/
theorem toInit_le (o : Opts) (dd : Distro) (tot : ℝ) (m : ℕ) (hs : ℕ → ℝ) :
    toInit o dd tot m hs ≤ o.d.nz * max 1 ⌊o.perBin + 1 / 2⌋₊ := by
  unfold toInit
  have := List.sum_le_card_nsmul ((List.range o.d.nz).map fun k =>
    nSdToCreate o (missing (expected o dd tot m k) (hs k)) (expected o dd tot m k)) (max 1 ⌊o.perBin + 1 / 2⌋₊)
    (by intro x hx; obtain ⟨k, _, rfl⟩ := List.mem_map.1 hx; exact nSdToCreate_le _ _ _)
  simpa using this

/-- random numbers of a bin stay inside of the vector iff super-droplets present before are at least as many as the created
ones (2D) or twice the created ones (3D) -/
theorem random_inside_iff (o : Opts) (nSdMax nOld : ℕ) (dd : Distro) (tot : ℝ) (m : ℕ) (hs : ℕ → ℝ) (dt : ℝ) (u : Rnd)
    (hroom : nOld + (createBin o dd tot dt m hs u).length ≤ nSdMax) :
    binStorage o nSdMax nOld dd tot m hs = some (nOld + (createBin o dd tot dt m hs u).length, .inside) ↔
      (if o.d.ny = 0 then 1 else 2) * (createBin o dd tot dt m hs u).length ≤ nOld := by
  rw [toInit_eq] at *
  unfold binStorage generateN nDims
  rw [if_neg (by omega)]
  by_cases h : o.d.ny = 0
  · simp only [h, if_true, Option.some.injEq, Prod.mk.injEq, true_and]
    split
    · constructor
      · intro _; omega
      · intro _; rfl
    · constructor
      · intro hh; split at hh <;> simp at hh
      · intro _; omega
  · simp only [h, if_false, Option.some.injEq, Prod.mk.injEq, true_and]
    split
    · constructor
      · intro _; omega
      · intro _; rfl
    · constructor
      · intro hh; split at hh <;> simp at hh
      · intro _; omega

/-- C81, part that holds: if `n_sd_max` is at least (number of dimensions) x (levels) x (super-droplets per bin), random
numbers of no bin go past the storage, whatever the state; with as many super-droplets already present, they stay inside of
the vector.  Missing (false): without the assumption -/
theorem random_storage_partial (o : Opts) (nSdMax nOld : ℕ) (dd : Distro) (tot : ℝ) (m : ℕ) (hs : ℕ → ℝ)
    (hmax : (if o.d.ny = 0 then 2 else 3) * (o.d.nz * max 1 ⌊o.perBin + 1 / 2⌋₊) ≤ nSdMax) {nPart : ℕ} {f : Fits}
    (h : binStorage o nSdMax nOld dd tot m hs = some (nPart, f)) :
    f ≠ .pastStorage ∧ nPart ≤ nSdMax ∧ (2 * (o.d.nz * max 1 ⌊o.perBin + 1 / 2⌋₊) ≤ nOld → f = .inside) := by
  have hle := toInit_le o dd tot m hs
  generalize o.d.nz * max 1 ⌊o.perBin + 1 / 2⌋₊ = B at hle hmax ⊢
  unfold binStorage at h
  by_cases hn : nOld + toInit o dd tot m hs > nSdMax
  · simp [hn] at h
  · simp only [hn, if_false, Option.some.injEq, Prod.mk.injEq] at h
    obtain ⟨rfl, rfl⟩ := h
    generalize toInit o dd tot m hs = k at hle hn ⊢
    have hd : k * nDims o ≤ nSdMax := by
      unfold nDims
      by_cases h0 : o.d.ny = 0
      · rw [if_pos h0] at hmax ⊢; omega
      · rw [if_neg h0] at hmax ⊢; omega
    have hd2 : 2 * B ≤ nOld → k * nDims o ≤ nOld + k := by
      intro _
      unfold nDims
      by_cases h0 : o.d.ny = 0
      · rw [if_pos h0]; omega
      · rw [if_neg h0]; omega
    refine ⟨?_, by omega, fun hold => ?_⟩
    · unfold generateN
      by_cases h1 : k * nDims o ≤ nOld + k
      · simp [h1]
      · simp [h1, hd]
    · unfold generateN
      rw [if_pos (hd2 hold)]

/-- C81 is false in general: filling of an empty domain.  Whatever is created in the first bin, random numbers go past the end
of the vector; and past the storage as soon as the number of dimensions times the created ones exceeds `n_sd_max`, although
the number of super-droplets does not -/
theorem random_past_end (o : Opts) (nSdMax : ℕ) (dd : Distro) (tot : ℝ) (m : ℕ) (hs : ℕ → ℝ) (hpos : 0 < toInit o dd tot m hs)
    (hroom : toInit o dd tot m hs ≤ nSdMax) :
    ∃ f, binStorage o nSdMax 0 dd tot m hs = some (toInit o dd tot m hs, f) ∧ f ≠ .inside ∧
      (nSdMax < toInit o dd tot m hs * (if o.d.ny = 0 then 2 else 3) → f = .pastStorage) := by
  unfold binStorage nDims
  rw [if_neg (by omega)]
  generalize toInit o dd tot m hs = k at *
  by_cases h0 : o.d.ny = 0
  · simp only [h0, if_true]
    refine ⟨generateN (k * 2) (0 + k) nSdMax, by simp, ?_, ?_⟩
    · unfold generateN
      rw [if_neg (by omega)]
      split <;> simp
    · intro h
      unfold generateN
      rw [if_neg (by omega), if_neg (by omega)]
  · simp only [h0, if_false]
    refine ⟨generateN (k * 3) (0 + k) nSdMax, by simp, ?_, ?_⟩
    · unfold generateN
      rw [if_neg (by omega)]
      split <;> simp
    · intro h
      unfold generateN
      rw [if_neg (by omega), if_neg (by omega)]

/-- one level, two super-droplets per bin, empty domain -/
theorem exO_toInit (kap : ℝ) : toInit (exO 2) (exD kap) 1 0 (fun _ => 0) = 2 := by
  have : nSdToCreate (exO 2) (missing (expected (exO 2) (exD kap) 1 0 0) 0) (expected (exO 2) (exD kap) 1 0 0) = 2 := by
    rw [exO_expected]
    simp only [nSdToCreate, missing_100, exO]
    norm_num
    exact (Nat.floor_eq_iff (by norm_num)).2 ⟨by norm_num, by norm_num⟩
  simp [toInit, exO] at this ⊢
  simpa [exO] using this

/-- reachable: the relaxation of `exRelax` (empty population, horizontal sums zero) with `n_sd_max = 3` -/
theorem random_past_storage : ∃ (o : Opts) (dd : Distro) (hs : ℕ → ℝ) (nSdMax : ℕ), HorSum o dd 1 0 [] hs ∧
    binStorage o nSdMax 0 dd 1 0 hs = some (2, .pastStorage) := by
  refine ⟨exO 2, exD 0, fun _ => 0, 3, horSum_nil _ _ _ _, ?_⟩
  unfold binStorage
  rw [exO_toInit]
  have : 2 ≤ nDims (exO 2) := by unfold nDims; split <;> omega
  have h3 : nDims (exO 2) = 2 ∨ nDims (exO 2) = 3 := by unfold nDims; split <;> simp
  rcases h3 with h | h <;> rw [h] <;> rfl

/-- the assumption of `random_storage_partial` is met by an ordinary configuration -/
example : (if (exO 2).d.ny = 0 then 2 else 3) * ((exO 2).d.nz * max 1 ⌊(exO 2).perBin + 1 / 2⌋₊) ≤ 1000 ∧
    ∃ f, binStorage (exO 2) 1000 10 (exD 0) 1 0 (fun _ => 0) = some (12, f) := by
  have : ⌊(exO 2).perBin + 1 / 2⌋₊ = 2 := by
    simp only [exO]; norm_num
    exact (Nat.floor_eq_iff (by norm_num)).2 ⟨by norm_num, by norm_num⟩
  refine ⟨?_, ?_⟩
  · rw [this]; simp [exO]
  · refine ⟨generateN (2 * nDims (exO 2)) 12 1000, ?_⟩
    unfold binStorage
    rw [exO_toInit]; rfl

end LCP.Rlx
