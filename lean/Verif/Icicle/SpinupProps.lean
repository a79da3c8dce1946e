import Verif.Icicle.Spinup
import Mathlib.Analysis.SpecialFunctions.Exp
import Mathlib.Tactic.Linarith
import Mathlib.Tactic.FieldSimp

/-!
# Rain formation is off during the spin-up and as requested afterwards (C109)
-/
namespace LCP.Icicle
variable {O : Type}

/-- general description of the driver in any time step -/
theorem during_eq (μ : Micro O) (N : ℤ) (r : Bool) (u : O) (t : ℕ) :
    during μ (ctor N r u) t =
      if μ.getRain u = false then ⟨0, false, u, none⟩
      else ⟨N, r, if N ≤ 0 then u else if (t : ℤ) < N then μ.setRain false u else μ.setRain true (μ.setRain false u),
        if r = true ∧ 0 ≤ N ∧ N ≤ t then some N.toNat else none⟩ := by
  induction t with
  | zero =>
    unfold during anteStep anteLoop ctor
    by_cases hg : μ.getRain u = false
    · simp [hg]
    · simp only [hg]
      rcases lt_trichotomy N 0 with h | h | h
      · have h1 : ¬ (N > 0) := by omega
        have h2 : ¬ (N = 0) := by omega
        have h3 : N ≤ 0 := h.le
        have h4 : ¬ (0 ≤ N) := by omega
        simp [h1, h2, h3, h4]
      · subst h
        cases r <;> simp
      · have h2 : ¬ (N = 0) := by omega
        have h3 : ¬ N ≤ 0 := by omega
        simp [h, h2, h3]
  | succ t ih =>
    rw [during, ih]
    by_cases hg : μ.getRain u = false
    · simp only [hg, if_true]
      unfold anteStep
      simp
    · simp only [hg]
      unfold anteStep
      by_cases he : N = (t : ℤ) + 1
      · subst he
        have h1 : ¬ ((t : ℤ) + 1 ≤ 0) := by omega
        have h2 : ¬ ((t : ℤ) + 1 = 0) := by omega
        have h3 : (t : ℤ) < t + 1 := by omega
        have h4 : ¬ ((t : ℤ) + 1 ≤ t) := by omega
        have h5 : (0 : ℤ) ≤ t + 1 := by omega
        have h6 : ((t : ℤ) + 1).toNat = t + 1 := by omega
        cases r <;> simp [h1, h2, h3, h5, h6]
      · by_cases h0 : N ≤ 0
        · have h1 : N ≤ 0 → (N ≤ (t : ℤ) ↔ N ≤ (t : ℤ) + 1) := by omega
          have h2 := h1 h0
          have h3 : ¬ N = ((t + 1 : ℕ) : ℤ) := by push_cast; exact he
          simp [h0, h2, h3, he]
        · have h1 : (N ≤ (t : ℤ) ↔ N ≤ (t : ℤ) + 1) := by omega
          have h2 : ((t : ℤ) < N ↔ (t : ℤ) + 1 < N) := by omega
          have h3 : ¬ N = ((t + 1 : ℕ) : ℤ) := by push_cast; exact he
          simp [h0, h1, h2, h3, he]

/-! ### Lagrangian scheme -/

/-- the driver of the Lagrangian scheme in time step `t`; `N` the requested spin-up, `r` the relaxation switch, `u` the
options the user asked for -/
noncomputable def lgrngnAt (N : ℤ) (r : Bool) (u : LOpts) (t : ℕ) : D LOpts :=
  during (lgrngn u.sw.coal u.sw.sedi) (ctor N r u) t

/-- **C109 (spin-up).** If the user asked for collisions and sedimentation, they are both off in the first `N` time steps, the
supersaturation is limited to 1 %, and everything else is as asked for -/
theorem spinup_no_rain (N : ℤ) (r : Bool) (u : LOpts) (hc : u.sw.coal = true) (hs : u.sw.sedi = true) (t : ℕ) (ht : (t : ℤ) < N) :
    (lgrngnAt N r u t).opts = ⟨{ u.sw with coal := false, sedi := false }, 1.01⟩ := by
  have h0 : ¬ N ≤ 0 := by omega
  have hg : ¬ ((lgrngn u.sw.coal u.sw.sedi).getRain u = false) := by simp [lgrngn, hc, hs]
  unfold lgrngnAt
  rw [during_eq, if_neg hg]
  simp [h0, ht, lgrngn]

/-- … and after the spin-up everything is exactly as asked for, except that the supersaturation limit is set to 44 -/
theorem after_spinup (N : ℤ) (r : Bool) (u : LOpts) (hc : u.sw.coal = true) (hs : u.sw.sedi = true) (t : ℕ) (h0 : 0 < N)
    (ht : N ≤ t) : (lgrngnAt N r u t).opts = ⟨u.sw, 44⟩ := by
  have h1 : ¬ N ≤ 0 := by omega
  have h2 : ¬ (t : ℤ) < N := by omega
  have hg : ¬ ((lgrngn u.sw.coal u.sw.sedi).getRain u = false) := by simp [lgrngn, hc, hs]
  unfold lgrngnAt
  rw [during_eq, if_neg hg]
  simp only [h1, h2, lgrngn, if_false, Bool.false_eq_true, if_true]

/-- without a spin-up, and whenever the user switched collisions or sedimentation off, the options are exactly the ones asked
for in every time step: the spin-up is then ignored -/
theorem no_spinup (N : ℤ) (r : Bool) (u : LOpts) (h : N ≤ 0 ∨ u.sw.coal = false ∨ u.sw.sedi = false) (t : ℕ) :
    (lgrngnAt N r u t).opts = u := by
  unfold lgrngnAt
  rw [during_eq]
  by_cases hg : (lgrngn u.sw.coal u.sw.sedi).getRain u = false
  · rw [if_pos hg]
  · rw [if_neg hg]
    rcases h with h | h | h
    · simp [h]
    · exact absurd (by simp [lgrngn, h]) hg
    · exact absurd (by simp [lgrngn, h]) hg

/-- a supersaturation limit chosen by the user does not survive the spin-up -/
theorem rhMax_lost : ¬ ∀ (N : ℤ) (r : Bool) (u : LOpts) (t : ℕ), N ≤ t → (lgrngnAt N r u t).opts = u := by
  intro h
  have h1 := h 1 false ⟨⟨true, true, false, true, true, false, false, false, false, false, false, false, false⟩, 2⟩ 1 (by norm_num)
  rw [after_spinup 1 false _ rfl rfl 1 (by norm_num) (by norm_num)] at h1
  have := congrArg LOpts.rhMax h1
  norm_num at this

/-- options accepted by the library stay accepted: the spin-up only switches processes off and on again -/
theorem spinup_opts_sub (N : ℤ) (r : Bool) (u : LOpts) (t : ℕ) :
    ∃ c s, (lgrngnAt N r u t).opts.sw = { u.sw with coal := c, sedi := s } ∧
      (c = true → u.sw.coal = true) ∧ (s = true → u.sw.sedi = true) := by
  by_cases h : N ≤ 0 ∨ u.sw.coal = false ∨ u.sw.sedi = false
  · rw [no_spinup N r u h]
    exact ⟨u.sw.coal, u.sw.sedi, rfl, id, id⟩
  · obtain ⟨h0, hc, hs⟩ : 0 < N ∧ u.sw.coal = true ∧ u.sw.sedi = true := by
      push Not at h
      simpa using h
    by_cases ht : (t : ℤ) < N
    · rw [spinup_no_rain N r u hc hs t ht]
      exact ⟨false, false, rfl, by simp, by simp⟩
    · rw [after_spinup N r u hc hs t h0 (by omega)]
      exact ⟨u.sw.coal, u.sw.sedi, rfl, id, id⟩

/-! ### relaxation -/

/-- **C109 (relaxation).** For any scheme: relaxation terms are only set in a time step if the user asked for relaxation and
rain, the spin-up is over, and the goals are the means saved at its end – unless the requested spin-up is negative -/
theorem relaxing_ok_partial (μ : Micro O) (hf : ∀ u, μ.getRain (μ.setRain false u) = false) (N : ℤ) (hN : 0 ≤ N) (r : Bool) (u : O)
    (t : ℕ) (h : relaxing μ (during μ (ctor N r u) t) = true) :
    r = true ∧ μ.getRain u = true ∧ N ≤ t ∧ (during μ (ctor N r u) t).goal = some N.toNat := by
  rw [during_eq] at h ⊢
  by_cases hg : μ.getRain u = false
  · rw [if_pos hg] at h
    simp [relaxing] at h
  · rw [if_neg hg] at h ⊢
    simp only [relaxing, Bool.and_eq_true] at h
    obtain ⟨hr, hgr⟩ := h
    have ht : N ≤ t := by
      by_contra hcon
      have h1 : ¬ N ≤ 0 := by omega
      have h2 : (t : ℤ) < N := by omega
      simp only [h1, h2, if_false, if_true] at hgr
      rw [hf u] at hgr
      exact absurd hgr (by simp)
    refine ⟨hr, by simpa using hg, ht, ?_⟩
    simp [hr, hN, ht]

/-- conversely it is in effect from the end of the spin-up on -/
theorem relaxing_after (μ : Micro O) (hg : ∀ u, μ.getRain u = true → μ.getRain (μ.setRain true (μ.setRain false u)) = true) (N : ℤ)
    (u : O) (hu : μ.getRain u = true) (t : ℕ) (ht : N ≤ t) : relaxing μ (during μ (ctor N true u) t) = true := by
  rw [during_eq, if_neg (by simp [hu])]
  simp only [relaxing, Bool.true_and]
  by_cases h1 : N ≤ 0
  · simp [h1, hu]
  · have h2 : ¬ (t : ℤ) < N := by omega
    simp only [h1, h2, if_false]
    exact hg u hu

/-- the hypotheses of the two theorems hold for all the schemes -/
theorem setRain_false :
    (∀ c s u, (lgrngn c s).getRain ((lgrngn c s).setRain false u) = false) ∧
    (∀ c s k u, (lgrngnChem c s k).getRain ((lgrngnChem c s k).setRain false u) = false) ∧
    (∀ u, blk1m.getRain (blk1m.setRain false u) = false) ∧ (∀ u, blk2m.getRain (blk2m.setRain false u) = false) := by
  refine ⟨fun c s u => ?_, fun c s k u => ?_, fun u => rfl, fun u => rfl⟩ <;> simp [lgrngn, lgrngnChem]

theorem setRain_true :
    (∀ u, (lgrngn true true).getRain ((lgrngn true true).setRain true ((lgrngn true true).setRain false u)) = true) ∧
    (∀ u, blk1m.getRain (blk1m.setRain true (blk1m.setRain false u)) = true) ∧
    (∀ u, blk2m.getRain (blk2m.setRain true (blk2m.setRain false u)) = true) := by
  refine ⟨fun u => ?_, fun u => rfl, fun u => rfl⟩
  simp [lgrngn]

/-- with a negative spin-up, relaxation is in effect although the goals have never been assigned -/
theorem relaxing_unset (μ : Micro O) (N : ℤ) (hN : N < 0) (u : O) (hu : μ.getRain u = true) (t : ℕ) :
    relaxing μ (during μ (ctor N true u) t) = true ∧ (during μ (ctor N true u) t).goal = none := by
  rw [during_eq, if_neg (by simp [hu])]
  have h1 : N ≤ 0 := hN.le
  have h2 : ¬ 0 ≤ N := by omega
  simp [relaxing, h1, h2, hu]

/-- a relaxation step of length `dt` not longer than the shortest relaxation time moves every value towards its goal without
overshooting it -/
theorem relax_contracts (tauRlx zRlx dz dt : ℝ) (hz : 0 < zRlx) (hdz : 0 < dz) (hdt : 0 < dt) (htau : dt ≤ tauRlx) (j : ℕ) (eq x : ℝ) :
    ∃ w, 0 ≤ w ∧ w < 1 ∧ x + dt * relaxRhs tauRlx zRlx dz j eq x - eq = w * (x - eq) := by
  have h0 : (0 : ℝ) ≤ j * dz / zRlx := by positivity
  have h1 : 1 ≤ Real.exp (j * dz / zRlx) := Real.one_le_exp h0
  have htau0 : 0 < tauRlx := lt_of_lt_of_le hdt htau
  have h2 : dt ≤ tau tauRlx zRlx dz j := by
    unfold tau
    nlinarith
  have h3 : 0 < tau tauRlx zRlx dz j := lt_of_lt_of_le hdt h2
  refine ⟨1 - dt / tau tauRlx zRlx dz j, ?_, ?_, ?_⟩
  · have : dt / tau tauRlx zRlx dz j ≤ 1 := (div_le_one h3).2 h2
    linarith
  · have : 0 < dt / tau tauRlx zRlx dz j := div_pos hdt h3
    linarith
  · unfold relaxRhs
    field_simp
    ring

/-! ### chemistry, bulk schemes -/

/-- **C109 (bulk schemes).** Autoconversion is off during the spin-up and, if the user asked for it, on afterwards; the other
options of the single-moment scheme are never changed -/
theorem blk1m_spinup (N : ℤ) (r : Bool) (u : Blk1m.Opts) (t : ℕ) :
    (during blk1m (ctor N r u) t).opts = { u with conv := u.conv && decide (N ≤ t) } := by
  rw [during_eq]
  by_cases hg : blk1m.getRain u = false
  · rw [if_pos hg]
    have : u.conv = false := hg
    cases u; simp_all
  · rw [if_neg hg]
    have hc : u.conv = true := by simpa [blk1m] using hg
    by_cases h1 : N ≤ 0
    · have h2 : N ≤ t := by omega
      cases u; simp_all
    · by_cases h2 : (t : ℤ) < N
      · have h3 : ¬ N ≤ t := by omega
        simp [h1, h2, h3, blk1m]
      · have h3 : N ≤ t := by omega
        simp [h1, h2, h3, blk1m, hc]

theorem blk2m_spinup (N : ℤ) (r : Bool) (u : Blk2m.Opts) (t : ℕ) :
    ∃ x, (during blk2m (ctor N r u) t).opts = { u with acnv := u.acnv && decide (N ≤ t), RH_max := x } ∧
      (u.acnv = true → (t : ℤ) < N → x = 1.01) ∧ (u.acnv = true → 0 < N → N ≤ t → x = 44) ∧
      (u.acnv = false ∨ N ≤ 0 → x = u.RH_max) := by
  rw [during_eq]
  by_cases hg : blk2m.getRain u = false
  · rw [if_pos hg]
    have : u.acnv = false := hg
    refine ⟨u.RH_max, ?_, by simp [this], by simp [this], by simp⟩
    cases u; simp_all
  · rw [if_neg hg]
    have hc : u.acnv = true := by simpa [blk2m] using hg
    by_cases h1 : N ≤ 0
    · have h2 : N ≤ t := by omega
      refine ⟨u.RH_max, ?_, by omega, by omega, by simp⟩
      cases u; simp_all
    · by_cases h2 : (t : ℤ) < N
      · have h3 : ¬ N ≤ t := by omega
        refine ⟨1.01, ?_, by simp, by omega, by simp [hc, h1]⟩
        simp [h1, h2, h3, blk2m]
      · have h3 : N ≤ t := by omega
        refine ⟨44, ?_, by omega, by simp, by simp [hc, h1]⟩
        simp [h1, h2, h3, blk2m, hc]

/-- with chemistry, everything the user switched off stays off – provided reactions were asked for or there is no spin-up -/
theorem chem_switches_partial (N : ℤ) (r k : Bool) (u : LOpts) (h : N ≤ 0 ∨ u.sw.chemRct = true ∨ k = false) (t : ℕ) :
    (during (lgrngnChem u.sw.coal u.sw.sedi k) (ctor N r u) t).opts.sw.chemRct = u.sw.chemRct := by
  rw [during_eq]
  split
  · rfl
  · by_cases h1 : N ≤ 0
    · simp [h1]
    · have h := h.resolve_left h1
      by_cases h2 : (t : ℤ) < N
      · simp [h1, h2, lgrngnChem, lgrngn]
      · rcases h with h | h <;> simp only [h1, h2, lgrngnChem, lgrngn, if_false] <;> cases k <;> simp_all

/-- the end of the spin-up switches aqueous reactions on although the user switched them off -/
theorem chem_forced_on (N : ℤ) (r : Bool) (u : LOpts) (hc : u.sw.coal = true) (hs : u.sw.sedi = true) (h0 : 0 < N) (t : ℕ) (ht : N ≤ t) :
    (during (lgrngnChem u.sw.coal u.sw.sedi true) (ctor N r u) t).opts.sw.chemRct = true := by
  rw [during_eq]
  have hg : ¬ ((lgrngnChem u.sw.coal u.sw.sedi true).getRain u = false) := by simp [lgrngnChem, lgrngn, hc, hs]
  have h1 : ¬ N ≤ 0 := by omega
  have h2 : ¬ (t : ℤ) < N := by omega
  rw [if_neg hg]
  simp [h1, h2, lgrngnChem]

/-- the hypotheses are met: a spin-up of 2400 steps of a run with collisions and sedimentation; before, at and after its end -/
example : let u : LOpts := ⟨⟨true, true, false, true, true, false, false, false, false, false, false, false, false⟩, 44⟩
    (lgrngnAt 2400 true u 2399).opts.sw.coal = false ∧ (lgrngnAt 2400 true u 2400).opts = u ∧ (lgrngnAt 2400 true u 3600).opts = u := by
  intro u
  refine ⟨?_, ?_, ?_⟩
  · rw [spinup_no_rain 2400 true u rfl rfl 2399 (by norm_num)]
  · rw [after_spinup 2400 true u rfl rfl 2400 (by norm_num) (by norm_num)]
  · rw [after_spinup 2400 true u rfl rfl 3600 (by norm_num) (by norm_num)]

end LCP.Icicle
