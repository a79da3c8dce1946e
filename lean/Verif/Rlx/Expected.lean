import Verif.Rlx.Props

/-!
# C37: the number the relaxation aims at, written out independently of the model

`target` below is the number of aerosol particles the user asks for in one bin of log-radius at one level: distribution
density times bin width, times the volume of the part of the level inside the Lagrangian domain, times the density correction;
zero outside the prescribed heights.  `relax_target_partial` states the effect of a call of the relaxation with it.
-/
namespace LCP.Rlx
open LCP.Grid LCP.Diag

/-- width in log-radius of the bins of a distribution: the `bins` of the options are shared between the distributions in proportion to
their ranges (`tot`: sum of ranges), rounding down -/
noncomputable def width (o : Opts) (dd : Distro) (tot : ℝ) : ℝ :=
  (dd.lnHi - dd.lnLo) / (⌊o.bins * ((dd.lnHi - dd.lnLo) / tot)⌋₊ : ℝ)

/-- overlap of the height intervals `[k dz, (k+1) dz]` and `[z0, z1]` -/
noncomputable def overlap (b : Box) (k : ℕ) : ℝ := max 0 (min ((k + 1) * b.dz) b.z1 - max (k * b.dz) b.z0)

/-- levels to which a distribution applies: from the one containing `z0` up to, not including, the one containing `z1` -/
def LevelOf (b : Box) (dd : Distro) (k : ℕ) : Prop := ⌊dd.z0 / b.dz⌋ ≤ (k : ℤ) ∧ (k : ℤ) < ⌊dd.z1 / b.dz⌋

open Classical in
/-- number of particles asked for in bin `m` at level `k` -/
noncomputable def target (o : Opts) (dd : Distro) (tot : ℝ) (m k : ℕ) : ℝ :=
  let w := width o dd tot
  if LevelOf o.b dd k then
    dd.f (((dd.lnLo + m * w) + (dd.lnLo + (m + 1) * w)) / 2) * w *
      ((o.b.x1 - o.b.x0) * (o.b.y1 - o.b.y0) * overlap o.b k) * (if o.indep then 1 else o.rhod k / o.rhoStp)
  else 0

/-- particles of a population in bin `m` of the distribution at level `k`: kappa in its range, log of the dry radius in the bin -/
noncomputable def inBin (o : Opts) (dd : Distro) (tot : ℝ) (m k : ℕ) (pop : List Sd) : ℕ :=
  number (fun s => dd.kLo ≤ s.kpa ∧ s.kpa < dd.kHi ∧ dd.lnLo + m * width o dd tot ≤ Real.log s.rd3 / 3 ∧
    Real.log s.rd3 / 3 < dd.lnLo + (m + 1) * width o dd tot ∧ s.cell % o.d.nz = k) pop

theorem width_eq (o : Opts) (dd : Distro) (tot : ℝ) : width o dd tot = binSize o dd tot := by
  unfold width binSize nBins; rw [mul_div_assoc]

theorem target_eq (o : Opts) (dd : Distro) (tot : ℝ) (m k : ℕ) (hx : o.b.x0 ≤ o.b.x1) (hy : o.b.y0 ≤ o.b.y1) :
    target o dd tot m k = expected o dd tot m k := by
  unfold target expected
  dsimp only
  rw [width_eq]
  have hv : (o.b.x1 - o.b.x0) * (o.b.y1 - o.b.y0) * overlap o.b k = horDv o.b k := by
    unfold overlap horDv
    rw [mul_max_of_nonneg _ _ (mul_nonneg (sub_nonneg.2 hx) (sub_nonneg.2 hy)), mul_zero]
  rw [hv]
  by_cases h : LevelOf o.b dd k
  · have h' : ¬ ((k : ℤ) < ⌊dd.z0 / o.b.dz⌋ ∨ (k : ℤ) ≥ ⌊dd.z1 / o.b.dz⌋) := by
      unfold LevelOf at h; omega
    rw [if_pos h, if_neg h']
    have e : (dd.lnLo + m * binSize o dd tot + (dd.lnLo + (m + 1) * binSize o dd tot)) / 2 =
        dd.lnLo + (m + 1 / 2) * binSize o dd tot := by ring
    rw [e]
    split_ifs <;> ring
  · have h' : ((k : ℤ) < ⌊dd.z0 / o.b.dz⌋ ∨ (k : ℤ) ≥ ⌊dd.z1 / o.b.dz⌋) := by
      unfold LevelOf at h; omega
    rw [if_neg h, if_pos h']

theorem number_congr (P Q : Sd → Prop) (l : List Sd) (h : ∀ s ∈ l, P s ↔ Q s) : number P l = number Q l := by
  unfold number
  congr 1
  apply List.map_congr_left
  intro s hs
  by_cases hP : P s
  · have hQ := (h s hs).1 hP
    simp only [if_pos hP, if_pos hQ]
  · have hQ := fun q => hP ((h s hs).2 q)
    simp only [if_neg hP, if_neg hQ]

theorem inBin_eq (o : Opts) (dd : Distro) (tot : ℝ) (m k : ℕ) (pop : List Sd) (hpos : ∀ s ∈ pop, 0 < s.rd3) :
    inBin o dd tot m k pop = present o dd tot m k pop := by
  apply number_congr
  intro s hs
  unfold InBin edge
  rw [width_eq, ← Real.le_log_iff_exp_le (hpos s hs), ← Real.log_lt_iff_lt_exp (hpos s hs), le_div_iff₀ (by norm_num), div_lt_iff₀ (by norm_num)]
  push_cast
  rw [mul_comm _ (3 : ℝ), mul_comm _ (3 : ℝ)]

theorem bins_pos (o : Opts) (dd : Distro) (tot dt : ℝ) (M : ℕ) (pop l : List Sd) (h : Bins o dd tot dt pop M l) :
    ∀ s ∈ l, 0 < s.rd3 := by
  induction h with
  | zero => simp
  | succ _ _ _ ih =>
    intro s hs
    rcases List.mem_append.1 hs with h | h
    · exact ih s h
    · unfold createBin at h
      obtain ⟨q, _, rfl⟩ := List.mem_map.1 h
      exact Real.exp_pos _

theorem run_pos (o : Opts) (tot dt : ℝ) (pop : List Sd) (ds : List Distro) (l : List Sd) (h : Run o tot dt pop ds l) :
    ∀ s ∈ l, 0 < s.rd3 := by
  induction h with
  | nil => simp
  | @cons dd ds l l' h1 _ ih =>
    intro s hs
    rcases List.mem_append.1 hs with h | h
    · exact bins_pos _ _ _ _ _ _ _ h1 s h
    · exact ih s h

/-- **C37.** The effect of one call of the relaxation in terms of the user's distributions: super-droplets are only added; in bin `m` of a
distribution at level `k`, if more than the tolerated fraction of the target is missing, the number of particles
changes by the missing number times `min(dt/tau, 1)` (up to half a particle per super-droplet), otherwise — in particular at every level the
distribution does not apply to — not at all.

Missing from the full claim, as in `relax_partial`: fractional `rlx_sd_per_bin`, overlapping kappa ranges. -/
theorem relax_target_partial (o : Opts) (dt : ℝ) (ds : List Distro) (pop pop' : List Sd) (h : Relax o dt ds pop pop') (hok : KappaOk ds)
    (hln : ∀ dd ∈ ds, dd.lnLo < dd.lnHi) (N : ℕ) (hN : 0 < N) (hp : o.perBin = N) (hdt : 0 ≤ dt) (htau : 0 < o.tau)
    (htol : 0 ≤ o.tol) (hx : o.b.x0 ≤ o.b.x1) (hy : o.b.y0 ≤ o.b.y1) (hpos : ∀ s ∈ pop, 0 < s.rd3) (dd : Distro) (hd : dd ∈ ds) (m k : ℕ)
    (hm : m < ⌊o.bins * ((dd.lnHi - dd.lnLo) / (ds.map fun dd => dd.lnHi - dd.lnLo).sum)⌋₊) (hk : k < o.d.nz) :
    let tot := (ds.map fun dd => dd.lnHi - dd.lnLo).sum
    let want := target o dd tot m k
    let before : ℝ := inBin o dd tot m k pop
    let after : ℝ := inBin o dd tot m k pop'
    (∃ l, pop' = pop ++ l) ∧
    (want - before ≤ o.tol * want ∨ want ≤ 0 ∨ ¬ LevelOf o.b dd k → after = before) ∧
    (0 < want → o.tol * want < want - before → |after - (before + (want - before) * min (dt / o.tau) 1)| ≤ N / 2) := by
  intro tot want before after
  have hm' : m < nBins o dd tot := by unfold nBins; rw [mul_div_assoc]; exact hm
  obtain ⟨h1, h2, h3, h4, _⟩ := relax_partial o dt ds pop pop' h hok hln N hN hp hdt htau htol dd hd m k hm' hk
  have hpos' : ∀ s ∈ pop', 0 < s.rd3 := by
    obtain ⟨l, hl, rfl⟩ := h
    intro s hs
    rcases List.mem_append.1 hs with h | h
    · exact hpos s h
    · exact run_pos _ _ _ _ _ _ hl s h
  have ew : want = expected o dd tot m k := target_eq o dd tot m k hx hy
  have eb : before = present o dd tot m k pop := by simp only [before]; rw [inBin_eq _ _ _ _ _ _ hpos]
  have ea : after = present o dd tot m k pop' := by simp only [after]; rw [inBin_eq _ _ _ _ _ _ hpos']
  rw [ew, eb, ea]
  refine ⟨h1, ?_, h4⟩
  rintro (h | h | h)
  · exact h2 h
  · exact h3 h
  · refine h3 ?_
    rw [← ew]
    simp only [want, target, if_neg h, le_refl]

/-- levels: with 10 m levels and the range 25 m to 50 m, levels 2, 3, 4 are relaxed, 1 and 5 are not -/
example : LevelOf ⟨1, 1, 10, 0, 1, 0, 1, 0, 100⟩ ⟨1, fun _ => 1, 0, 2, 25, 50, 0, 1⟩ 2 ∧
    LevelOf ⟨1, 1, 10, 0, 1, 0, 1, 0, 100⟩ ⟨1, fun _ => 1, 0, 2, 25, 50, 0, 1⟩ 4 ∧
    ¬ LevelOf ⟨1, 1, 10, 0, 1, 0, 1, 0, 100⟩ ⟨1, fun _ => 1, 0, 2, 25, 50, 0, 1⟩ 1 ∧
    ¬ LevelOf ⟨1, 1, 10, 0, 1, 0, 1, 0, 100⟩ ⟨1, fun _ => 1, 0, 2, 25, 50, 0, 1⟩ 5 := by
  norm_num [LevelOf]

/-- the hypotheses are met by a case in which 100 particles are wanted and none present -/
example : Relax (exO 2) 1 [exD 0] [] (createBin (exO 2) (exD 0) 1 1 0 (fun _ => 0) exU) ∧ KappaOk [exD 0] ∧
    target (exO 2) (exD 0) 1 0 0 = 100 := by
  refine ⟨exRelax 2 0, ⟨by simp [exD], by simp⟩, ?_⟩
  rw [target_eq _ _ _ _ _ (by simp [exO]) (by simp [exO]), exO_expected]

end LCP.Rlx
