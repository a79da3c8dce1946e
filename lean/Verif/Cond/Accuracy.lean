import Verif.Cond.Growth

/-!
# What the implicit condensation step computes (C57)
-/
namespace LCP.Cond
open LCP.Common

/-- the root finder returns a value close to a root, also when the function vanishes at one end -/
theorem solve_near (N : Num) (hN : N.Ok) (f : ℝ → ℝ) (a b : ℝ) (hab : a ≤ b) (hs : f a * f b ≤ 0) (hf : ContinuousOn f (Set.Icc a b)) :
    ∃ x ∈ Set.Icc a b, f x = 0 ∧ |Toms.solve N.mach f N.eps N.nIter a b (f a) (f b) - x| ≤
      max (N.eps / 2 * |x|) ((b - a) / 2 / 2 ^ ((N.nIter - 2) / 4)) := by
  have hz : ∀ x : ℝ, 0 ≤ max (N.eps / 2 * |x|) ((b - a) / 2 / 2 ^ ((N.nIter - 2) / 4)) := fun x =>
    le_max_of_le_right (div_nonneg (div_nonneg (by linarith) (by norm_num)) (by positivity))
  rcases hs.lt_or_eq with h | h
  · exact Toms.solve_accuracy N.mach f N.eps a b N.nIter hN.eps0 hN.eps1 hN.tol hN.tol1 hN.iter hab h hf
  · by_cases ha : f a = 0
    · refine ⟨a, ⟨le_rfl, hab⟩, ha, ?_⟩
      rw [ha, (Toms.solve_endpoint N.mach f N.eps a b (f b) N.nIter).1, sub_self, abs_zero]
      exact hz a
    · have hb : f b = 0 := (mul_eq_zero.mp h).resolve_left ha
      refine ⟨b, ⟨hab, le_rfl⟩, hb, ?_⟩
      have : Toms.solve N.mach f N.eps N.nIter a b (f a) (f b) = b := by
        unfold Toms.solve Toms.final
        simp only
        rw [if_pos (Or.inr (Or.inr hb))]
        unfold Toms.result
        simp only
        rw [if_neg ha, if_pos hb]; ring
      rw [this, sub_self, abs_zero]
      exact hz b

/-- **C57 (accuracy).** For a growth law continuous above the dry radius and not shrinking dry particles, the step returns,
within the tolerance of the root finder, a solution `x` of the backward Euler equation `x = r + dt g(x)` lying between `r` and
`r + cond_mlt dt g(r)`; the only exception is a rate that grows more than `cond_mlt`-fold across that interval, for which the
explicit Euler value is returned. -/
theorem advanceG_accuracy (N : Num) (hN : N.Ok) (g : ℝ → ℝ) (rd3 dt r : ℝ) (hr : 0 < r) (hrd : cbrt rd3 ^ 2 ≤ r)
    (hg : ContinuousOn g (Set.Ici (cbrt rd3 ^ 2))) (hdry : 0 ≤ dt * g (cbrt rd3 ^ 2)) :
    (∃ x, x = r + dt * g x ∧ cbrt rd3 ^ 2 ≤ x ∧ min r (r + N.mlt * (dt * g r)) ≤ x ∧ x ≤ max r (r + N.mlt * (dt * g r)) ∧
      |advanceG N g rd3 dt r - x| ≤ max (N.eps / 2 * |x|) (N.mlt * |dt * g r| / 2 / 2 ^ ((N.nIter - 2) / 4))) ∨
    (advanceG N g rd3 dt r = r + dt * g r ∧ 1 < dt * g (r + N.mlt * (dt * g r)) / (N.mlt * (dt * g r))) := by
  have hm := hN.mlt
  have h0 : (0 : ℝ) ≤ N.eps / 2 := by have := hN.tol; have := hN.eps0; linarith
  unfold advanceG
  rw [if_neg (not_le.mpr hr), ← pow_two]
  simp only
  set d := dt * g r with hd
  set q := cbrt rd3 ^ 2 with hq
  have hfc : ∀ a b, q ≤ a → ContinuousOn (fun x => r + dt * g x - x) (Set.Icc a b) := by
    intro a b ha
    have : ContinuousOn g (Set.Icc a b) := hg.mono fun x hx => ha.trans hx.1
    exact ((continuousOn_const.add (continuousOn_const.mul this)).sub continuousOn_id)
  have hfr : (fun x => r + dt * g x - x) r = d := by simp only [hd]; ring
  rcases lt_trichotomy d 0 with h | h | h
  · have h1' : N.mlt * d < 0 := by nlinarith
    rw [if_neg h.ne, min_eq_right h1'.le, max_eq_left h1'.le, add_zero, if_neg (not_lt.mpr h.le), if_neg (not_lt.mpr h.le)]
    have hle : max q (r + N.mlt * d) ≤ r := max_le hrd (by linarith)
    have hne : max q (r + N.mlt * d) ≠ r := by
      intro hh
      rcases max_choice q (r + N.mlt * d) with hc | hc
      · rw [hc] at hh; rw [hh] at hdry; linarith
      · rw [hc] at hh; linarith
    rw [if_neg hne]
    set a := max q (r + N.mlt * d) with ha
    by_cases hs : (r + dt * g a - a) * d > 0
    · right
      rw [if_pos hs]
      have hfa : r + dt * g a - a < 0 := by
        by_contra hc
        nlinarith [not_lt.mp hc]
      have hae : a = r + N.mlt * d := by
        rcases max_choice q (r + N.mlt * d) with hc | hc
        · exfalso; rw [← ha] at hc; rw [hc] at hfa; linarith
        · exact hc
      have hqa : q ≤ a := le_max_left _ _
      rw [if_neg (by nlinarith : ¬ r + d < q)]
      refine ⟨rfl, ?_⟩
      rw [← hae, one_lt_div_of_neg h1']
      linarith
    · left
      rw [if_neg hs]
      have hs' : (fun x => r + dt * g x - x) a * (fun x => r + dt * g x - x) r ≤ 0 := by rw [hfr]; exact not_lt.mp hs
      obtain ⟨x, ⟨x1, x2⟩, x3, x4⟩ := solve_near N hN (fun x => r + dt * g x - x) a r hle hs' (hfc a r (le_max_left _ _))
      have x5 := (solve_mem N hN (fun x => r + dt * g x - x) a r hle hs').1
      simp only [show r + dt * g r - r = d by rw [hd]; ring] at x4 x5
      refine ⟨x, by linarith [x3], (le_max_left _ _).trans x1, ?_, x2.trans (le_max_left _ _), ?_⟩
      · rw [min_eq_right (by linarith)]; exact (le_max_right _ _).trans x1
      · rw [if_neg (not_lt.mpr ((le_max_left _ _).trans x5))]
        refine x4.trans (max_le_max le_rfl ?_)
        gcongr
        rw [abs_of_neg h]
        have := le_max_right q (r + N.mlt * d)
        linarith
  · left
    rw [if_pos h]
    refine ⟨r, by rw [← hd, h, add_zero], hrd, min_le_left _ _, le_max_left _ _, ?_⟩
    rw [sub_self, abs_zero]
    exact le_max_of_le_left (by positivity)
  · have h1' : 0 < N.mlt * d := by nlinarith
    rw [if_neg h.ne', min_eq_left h1'.le, max_eq_right h1'.le, add_zero, max_eq_right hrd, if_neg (by linarith : r ≠ r + N.mlt * d),
      if_pos h, if_pos h]
    set b := r + N.mlt * d with hb
    by_cases hs : d * (r + dt * g b - b) > 0
    · right
      rw [if_pos hs, if_neg (by linarith : ¬ r + d < q)]
      refine ⟨rfl, ?_⟩
      rw [one_lt_div h1']
      have : 0 < r + dt * g b - b := by
        by_contra hc
        nlinarith [not_lt.mp hc]
      linarith
    · left
      rw [if_neg hs]
      have hs' : (fun x => r + dt * g x - x) r * (fun x => r + dt * g x - x) b ≤ 0 := by rw [hfr]; exact not_lt.mp hs
      obtain ⟨x, ⟨x1, x2⟩, x3, x4⟩ := solve_near N hN (fun x => r + dt * g x - x) r b (by linarith) hs' (hfc r b hrd)
      have x5 := (solve_mem N hN (fun x => r + dt * g x - x) r b (by linarith) hs').1
      simp only [show r + dt * g r - r = d by rw [hd]; ring] at x4 x5
      refine ⟨x, by linarith [x3], hrd.trans x1, (min_le_left _ _).trans x1, x2.trans (le_max_right _ _), ?_⟩
      rw [if_neg (by linarith)]
      refine x4.trans (max_le_max le_rfl ?_)
      rw [abs_of_pos h, hb]
      ring_nf
      rfl

/-- **C57 (the droplet step).** With the double-precision settings and the actual growth law: the new squared radius is within a
relative error of 2⁻¹⁶ (or 2⁻²⁴ of the explicit change) of a backward Euler solution on the same side of equilibrium as the old
one, or, for rates more than doubling, the explicit Euler value. -/
theorem advance_accuracy (e : Env) (he : e.Ok) (hd : 0 < e.rd3) (hk : 0 < e.kpa) (dt r : ℝ) (hdt : 0 ≤ dt) (hr : cbrt e.rd3 ^ 2 ≤ r) :
    (∃ x, x = r + dt * drw2dt e x ∧ cbrt e.rd3 ^ 2 ≤ x ∧ (0 ≤ drw2dt e r → r ≤ x) ∧ (drw2dt e r ≤ 0 → x ≤ r) ∧
      |advance numDbl e dt r - x| ≤ max (x / 2 ^ 16) (dt * |drw2dt e r| / 2 ^ 24)) ∨
    (advance numDbl e dt r = r + dt * drw2dt e r ∧ 2 < drw2dt e (r + 2 * (dt * drw2dt e r)) / drw2dt e r) := by
  have hc := cbrt_pos e.rd3 hd
  have hr0 : 0 < r := lt_of_lt_of_le (by positivity) hr
  have e1 : Toms.tolEps Toms.dbl 16 = 2 ^ (-15 : ℤ) := by
    unfold Toms.tolEps Toms.dbl
    norm_num
  rcases advanceG_accuracy numDbl numDbl_ok (drw2dt e) e.rd3 dt r hr0 hr (drw2dt_cont e he hd hk)
    (mul_nonneg hdt (dry_grows e he hd).le) with ⟨x, h1, h2, h3, h4, h5⟩ | ⟨h1, h2⟩
  · left
    refine ⟨x, h1, h2, fun h => ?_, fun h => ?_, ?_⟩
    · rwa [min_eq_left] at h3
      have : 0 ≤ dt * drw2dt e r := mul_nonneg hdt h
      simp only [numDbl]; linarith
    · rwa [max_eq_left] at h4
      have : dt * drw2dt e r ≤ 0 := mul_nonpos_of_nonneg_of_nonpos hdt h
      simp only [numDbl]; linarith
    · have hx : 0 < x := lt_of_lt_of_le (by positivity) h2
      unfold advance
      refine h5.trans (le_of_eq ?_)
      simp only [numDbl, e1]
      rw [abs_of_pos hx, abs_mul, abs_of_nonneg hdt]
      norm_num
      congr 1
      ring
  · right
    refine ⟨h1, ?_⟩
    simp only [numDbl] at h2
    have hdt' : dt ≠ 0 := by
      rintro rfl
      norm_num at h2
    have hg : drw2dt e r ≠ 0 := by
      intro h
      rw [h] at h2
      norm_num at h2
    have : dt * drw2dt e (r + 2 * (dt * drw2dt e r)) / (2 * (dt * drw2dt e r)) = drw2dt e (r + 2 * (dt * drw2dt e r)) / drw2dt e r / 2 := by
      field_simp
    rw [this, lt_div_iff₀ (by norm_num)] at h2
    linarith

/-- the returned change is the difference between new and old value -/
theorem advanceD_eq (N : Num) (g : ℝ → ℝ) (rd3 dt r : ℝ) (hr : 0 ≤ r) : advanceD N g rd3 dt r = advanceG N g rd3 dt r - r := by
  unfold advanceD advanceG
  rcases hr.eq_or_lt with rfl | hr
  · simp
  rw [if_neg (not_le.mpr hr), if_neg (not_le.mpr hr)]
  simp only
  split_ifs
  all_goals ring

/-- **C57 (ice is not touched).** Neither variant changes what it is given for an ice particle (no liquid). -/
theorem advance_ice (N : Num) (g : ℝ → ℝ) (rd3 dt r : ℝ) (hr : r ≤ 0) : advanceG N g rd3 dt r = r := by
  unfold advanceG
  rw [if_pos hr]

/-- **C57 (any number of steps).** Over any sequence of condensation steps, in whatever conditions and with whatever growth
laws, a droplet never becomes smaller than its dry core. -/
theorem many_steps (N : Num) (hN : N.Ok) (rd3 : ℝ) (hd : 0 < rd3) (steps : List ((ℝ → ℝ) × ℝ)) (r : ℝ) (hr : cbrt rd3 ^ 2 ≤ r) :
    cbrt rd3 ^ 2 ≤ steps.foldl (fun r s => advanceG N s.1 rd3 s.2 r) r := by
  have hc := cbrt_pos rd3 hd
  induction steps generalizing r with
  | nil => exact hr
  | cons s t ih => exact ih _ (advanceG_bounds N hN s.1 rd3 s.2 r (lt_of_lt_of_le (by positivity) hr) hr).1

/-- **C57 (equilibrium).** A droplet in equilibrium with its surroundings stays exactly as it is. -/
theorem equilibrium (e : Env) (he : e.Ok) (dt r : ℝ) (hr : 0 < r)
    (h : koehler e.rd3 e.kpa e.T (Real.sqrt r) = min e.RH e.RHmax) : advance numDbl e dt r = r := by
  unfold advance advanceG
  rw [if_neg (not_le.mpr hr)]
  simp only
  rw [((drw2dt_sign e he r hr).2.2).mpr h, mul_zero, if_pos rfl]

/-- **C57 (direction of the step).** -/
theorem advance_direction_partial (e : Env) (he : e.Ok) (dt r : ℝ) (hdt : 0 < dt) (hr : 0 < r) (hrd : cbrt e.rd3 ^ 2 ≤ r) :
    (koehler e.rd3 e.kpa e.T (Real.sqrt r) ≤ min e.RH e.RHmax → r ≤ advance numDbl e dt r) ∧
    (min e.RH e.RHmax ≤ koehler e.rd3 e.kpa e.T (Real.sqrt r) → advance numDbl e dt r ≤ r) := by
  obtain ⟨s1, s2, s3⟩ := drw2dt_sign e he r hr
  obtain ⟨_, b0, b1, b2⟩ := advanceG_bounds numDbl numDbl_ok (drw2dt e) e.rd3 dt r hr hrd
  constructor
  · intro h
    rcases h.lt_or_eq with h | h
    · exact (b1 (mul_pos hdt (s1.mpr h))).1
    · exact (equilibrium e he dt r hr h).ge
  · intro h
    rcases h.lt_or_eq with h | h
    · exact (b2 (mul_neg_of_pos_of_neg hdt (s2.mpr h))).2
    · exact (equilibrium e he dt r hr h.symm).le

/-! ### Ice -/

/-- the denominator for ice -/
theorem mmi_den_pos (D K rho T RH : ℝ) (hD : 0 < D) (hK : 0 < K) (hr : 0 < rho) (h0 : 0 < T) (h1 : T ≤ 1000) (hRH : 0 < RH) :
    0 < 1 / D / rho + l_s T / K / RH / T * (l_s T / R_v / T - 1) := by
  obtain ⟨a, b⟩ := ls_gt T h0 h1
  positivity

theorem dr2dtIce_sign (e : Env) (he : e.Ok) (r2 : ℝ) (h : 0 < r2) :
    (0 < dr2dtIce e r2 ↔ 1 < min e.RH e.RHmax) ∧ (dr2dtIce e r2 < 0 ↔ min e.RH e.RHmax < 1) := by
  have hs : 0 < Real.sqrt r2 := Real.sqrt_pos.mpr h
  have hR := RHlim_pos e he
  have hden := mmi_den_pos (diffD e (Real.sqrt r2)) (condK e (Real.sqrt r2)) (e.rhod * e.rv) e.T (RHlim e) (diffD_pos e he _ hs)
    (condK_pos e he _ hs) (mul_pos he.rhod he.rv) he.T0 he.T1 hR
  set den := 1 / diffD e (Real.sqrt r2) / (e.rhod * e.rv) + l_s e.T / condK e (Real.sqrt r2) / RHlim e / e.T * (l_s e.T / R_v / e.T - 1)
  have hri : 0 < rho_i := by norm_num [rho_i]
  have e1 : dr2dtIce e r2 = (RHlim e - 1) * (2 / RHlim e / rho_i / den) := by
    unfold dr2dtIce rdrdt_i
    simp only
    rw [show (1 : ℝ) - 1 / RHlim e = (RHlim e - 1) / RHlim e by field_simp]
    ring
  have hc : 0 < 2 / RHlim e / rho_i / den := by positivity
  rw [e1, ← RHlim_eq]
  constructor
  · rw [mul_pos_iff_of_pos_right hc, sub_pos]
  · rw [← sub_neg (a := RHlim e)]
    constructor
    · intro hh; by_contra hn; exact absurd hh (not_lt.mpr (mul_nonneg (not_lt.mp hn) hc.le))
    · intro hh; exact mul_neg_of_neg_of_pos hh hc

/-- **C57 (ice).** Crystals keep both semi-axes at or above 1 nm, grow in air supersaturated with respect to ice and do not grow in
subsaturated air; liquid droplets are left alone. -/
theorem advanceIce_props (e : Env) (he : e.Ok) (dt : ℝ) (hdt : 0 < dt) (ac : ℝ × ℝ) :
    (ac.1 ≤ 0 ∨ ac.2 ≤ 0 → advanceIce e dt ac = ac) ∧
    (0 < ac.1 → 0 < ac.2 → 1e-9 ≤ (advanceIce e dt ac).1 ∧ 1e-9 ≤ (advanceIce e dt ac).2 ∧
      (1 < min e.RH e.RHmax → ac.1 < (advanceIce e dt ac).1 ∧ ac.2 < (advanceIce e dt ac).2) ∧
      (min e.RH e.RHmax ≤ 1 → (advanceIce e dt ac).1 ≤ max ac.1 1e-9 ∧ (advanceIce e dt ac).2 ≤ max ac.2 1e-9)) := by
  constructor
  · intro h; unfold advanceIce; rw [if_pos h]
  intro ha hc
  unfold advanceIce
  rw [if_neg (by rw [not_or]; exact ⟨not_le.mpr ha, not_le.mpr hc⟩)]
  have key : ∀ x : ℝ, 0 < x → (1 < min e.RH e.RHmax → x < x + dt * (dr2dtIce e (x * x) / (2 * x))) ∧
      (min e.RH e.RHmax ≤ 1 → x + dt * (dr2dtIce e (x * x) / (2 * x)) ≤ x) := by
    intro x hx
    obtain ⟨s1, s2⟩ := dr2dtIce_sign e he (x * x) (by positivity)
    constructor
    · intro h
      have := s1.mpr h
      have : 0 < dt * (dr2dtIce e (x * x) / (2 * x)) := by positivity
      linarith
    · intro h
      have h1 : dr2dtIce e (x * x) ≤ 0 := by
        by_contra hn
        exact absurd (s1.mp (not_le.mp hn)) (not_lt.mpr h)
      have : dt * (dr2dtIce e (x * x) / (2 * x)) ≤ 0 :=
        mul_nonpos_of_nonneg_of_nonpos hdt.le (div_nonpos_of_nonpos_of_nonneg h1 (by positivity))
      linarith
  refine ⟨le_max_right _ _, le_max_right _ _, fun h => ⟨?_, ?_⟩, fun h => ⟨?_, ?_⟩⟩
  · exact ((key _ ha).1 h).trans_le (le_max_left _ _)
  · exact ((key _ hc).1 h).trans_le (le_max_left _ _)
  · exact max_le_max ((key _ ha).2 h) le_rfl
  · exact max_le_max ((key _ hc).2 h) le_rfl

/-! ### The growth law itself -/

/-- **C57 (growth law).** `x = r dr/dt` given by the library is the one solution of the two quasi-stationary balances around a
drop: heat conducted away (`K` times the temperature excess `q`) equals latent heat released, and water gained equals vapour
diffusing in, the vapour density at the surface being that in equilibrium with the drop (`S`, `ρ_v/RH` being saturation) at the
excess temperature, linearised with Clausius-Clapeyron. -/
theorem maxwell_mason (D K rho T RH aw klv x q : ℝ) (hD : 0 < D) (hK : 0 < K) (hr : 0 < rho) (h0 : 0 < T) (h1 : T ≤ 1000) (hRH : 0 < RH) :
    (l_v T * (rho_w * x) = K * q ∧ rho_w * x = D * (rho - rho / RH * (aw * klv + (l_v T / (R_v * T) - 1) * (q / T)))) ↔
    (x = rdrdt D K rho T RH aw klv ∧ q = l_v T * rho_w * x / K) := by
  have hden := mm_den_pos D K rho T RH hD hK hr h0 h1 hRH
  have hw := rho_w_pos
  have hR := R_v_pos
  have e1 : ∀ x, x = rdrdt D K rho T RH aw klv ↔
      x * rho_w * (1 / D / rho + l_v T / K / RH / T * (l_v T / R_v / T - 1)) = 1 - aw * klv / RH := by
    intro x
    unfold rdrdt
    rw [eq_div_iff hden.ne', eq_div_iff hw.ne']
    constructor <;> intro h <;> linarith
  have e2 : D * (rho - rho / RH * (aw * klv + (l_v T / (R_v * T) - 1) * (l_v T * rho_w * x / K / T))) =
      D * rho * (1 - aw * klv / RH - x * rho_w * (l_v T / K / RH / T * (l_v T / R_v / T - 1))) := by
    field_simp
    ring
  constructor
  · rintro ⟨a, b⟩
    have hq : q = l_v T * rho_w * x / K := by rw [eq_div_iff hK.ne']; linarith
    refine ⟨(e1 x).mpr ?_, hq⟩
    rw [hq, e2] at b
    have : x * rho_w * (1 / D / rho) = rho_w * x / (D * rho) := by field_simp
    rw [mul_add, this, b]
    field_simp
    ring
  · rintro ⟨a, rfl⟩
    refine ⟨by field_simp, ?_⟩
    rw [e2]
    have := (e1 x).mp a
    have h3 : 1 - aw * klv / RH - x * rho_w * (l_v T / K / RH / T * (l_v T / R_v / T - 1)) = x * rho_w * (1 / D / rho) := by
      rw [← this]; ring
    rw [h3]
    field_simp

/-- the same for ice, whose equilibrium saturation ratio is 1 -/
theorem maxwell_mason_ice (D K rho T RH x q : ℝ) (hD : 0 < D) (hK : 0 < K) (hr : 0 < rho) (h0 : 0 < T) (h1 : T ≤ 1000) (hRH : 0 < RH) :
    (l_s T * (rho_i * x) = K * q ∧ rho_i * x = D * (rho - rho / RH * (1 + (l_s T / (R_v * T) - 1) * (q / T)))) ↔
    (x = rdrdt_i D K rho T RH ∧ q = l_s T * rho_i * x / K) := by
  have hden := mmi_den_pos D K rho T RH hD hK hr h0 h1 hRH
  have hw : 0 < rho_i := by norm_num [rho_i]
  have hR := R_v_pos
  have e1 : ∀ x, x = rdrdt_i D K rho T RH ↔
      x * rho_i * (1 / D / rho + l_s T / K / RH / T * (l_s T / R_v / T - 1)) = 1 - 1 / RH := by
    intro x
    unfold rdrdt_i
    rw [eq_div_iff hden.ne', eq_div_iff hw.ne']
    constructor <;> intro h <;> linarith
  have e2 : D * (rho - rho / RH * (1 + (l_s T / (R_v * T) - 1) * (l_s T * rho_i * x / K / T))) =
      D * rho * (1 - 1 / RH - x * rho_i * (l_s T / K / RH / T * (l_s T / R_v / T - 1))) := by
    field_simp
    ring
  constructor
  · rintro ⟨a, b⟩
    have hq : q = l_s T * rho_i * x / K := by rw [eq_div_iff hK.ne']; linarith
    refine ⟨(e1 x).mpr ?_, hq⟩
    rw [hq, e2] at b
    have : x * rho_i * (1 / D / rho) = rho_i * x / (D * rho) := by field_simp
    rw [mul_add, this, b]
    field_simp
    ring
  · rintro ⟨a, rfl⟩
    refine ⟨by field_simp, ?_⟩
    rw [e2]
    have := (e1 x).mp a
    have h3 : 1 - 1 / RH - x * rho_i * (l_s T / K / RH / T * (l_s T / R_v / T - 1)) = x * rho_i * (1 / D / rho) := by
      rw [← this]; ring
    rw [h3]
    field_simp

/-- `drw2dt` is twice `r dr/dt` of that law, with diffusivity and conductivity corrected for the molecular regime and for
ventilation, the equilibrium saturation ratio of the Koehler curve and the limited relative humidity -/
theorem drw2dt_law (e : Env) (rw : ℝ) (hr : 0 ≤ rw) : drw2dt e (rw ^ 2) =
    2 * rdrdt (D_0 * beta (e.lamD / rw) * (Nu (e.eta / (e.rhod * D_0)) (2 * rw * e.vt * e.rhod / e.eta) / 2))
      (K_0 * beta (e.lamK / rw) * (Nu (c_pd * e.eta / K_0) (2 * rw * e.vt * e.rhod / e.eta) / 2))
      (e.rhod * e.rv) e.T (min e.RH e.RHmax) (koehler e.rd3 e.kpa e.T rw) 1 := by
  unfold drw2dt diffD condK ScN PrN ReN
  simp only [Real.sqrt_sq hr, RHlim_eq]
  have h1 : e.vt * (2 * rw) * e.rhod / e.eta = 2 * rw * e.vt * e.rhod / e.eta := by ring
  have h2 : e.eta / e.rhod / D_0 = e.eta / (e.rhod * D_0) := by rw [div_div]
  rw [h1, h2]
  unfold rdrdt koehler a_w klvntrm
  rw [show rw * rw * rw = rw ^ 3 by ring, mul_one]

/-! ### The hypotheses are met -/

/-- air at 280 K with a relative humidity of 101 % -/
noncomputable def cloudAir : Env :=
  { rhod := 1, rv := 0.0078, T := 280, p := 80000, RH := 1.01, eta := 1.7e-5, rd3 := 1e-21, kpa := 0.6, vt := 0.01, lamD := 1e-7,
    lamK := 1e-7, RHmax := 44 }

theorem cloudAir_ok : cloudAir.Ok := by constructor <;> norm_num [cloudAir]

/-- a ten micrometre droplet there: not smaller than its dry core of 0.1 micrometre -/
example : cbrt cloudAir.rd3 ^ 2 ≤ (1e-10 : ℝ) ∧ 0 < cloudAir.rd3 ∧ 0 < cloudAir.kpa := by
  refine ⟨?_, by norm_num [cloudAir], by norm_num [cloudAir]⟩
  have : cbrt cloudAir.rd3 = 1e-7 := by
    rw [show cloudAir.rd3 = (1e-7 : ℝ) ^ 3 by norm_num [cloudAir]]
    exact cube_cbrt _ (by norm_num)
  rw [this]; norm_num

/-- and a dry particle there really grows during the step -/
example : 0 < drw2dt cloudAir (cbrt cloudAir.rd3 ^ 2) := dry_grows _ cloudAir_ok (by norm_num [cloudAir])

end LCP.Cond
