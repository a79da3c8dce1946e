import Verif.Blk1m.PosProps
import Verif.Blk2m.Vterm

/-!
# Laws behind the rates of the single-moment scheme (C125)

Thresholds, directions of response and the size spectra assumed behind the formulae.
-/
namespace LCP.Blk1m
open LCP.Common MeasureTheory Set

/-- **C125 (conversion).** Cloud water turns to rain exactly above the threshold, at a rate proportional to the excess: the
relaxation of the excess has the time scale `1 / k`. -/
theorem autoconversion_law (rc thr k : ℝ) (hk : 0 < k) :
    (autoconversion rc thr k = 0 ↔ rc ≤ thr) ∧ (thr ≤ rc → autoconversion rc thr k = k * (rc - thr)) ∧
    ∀ rc' ≥ rc, autoconversion rc thr k ≤ autoconversion rc' thr k := by
  unfold autoconversion
  refine ⟨⟨fun h => ?_, fun h => by rw [max_eq_left (by linarith), mul_zero]⟩, fun h => by rw [max_eq_right (by linarith)], ?_⟩
  · by_contra hc
    push Not at hc
    rw [max_eq_right (by linarith)] at h
    have := mul_pos hk (show 0 < rc - thr by linarith)
    linarith
  · intro rc' h
    exact mul_le_mul_of_nonneg_left (max_le_max le_rfl (by linarith)) hk.le

/-- **C125 (collection).** Collection needs both cloud water and rain, is proportional to cloud water, and rain increased
by a factor `x⁸` collects `x⁷` times as fast: the exponent is seven eighths, the coefficient 2.2. -/
theorem collection_law (rc rr : ℝ) (hc : 0 ≤ rc) (hr : 0 ≤ rr) :
    (collection rc rr = 0 ↔ rc = 0 ∨ rr = 0) ∧ collection 1 1 = 2.2 ∧ (∀ a, collection (a * rc) rr = a * collection rc rr) ∧
    (∀ x, 0 ≤ x → collection rc (x ^ 8 * rr) = x ^ 7 * collection rc rr) ∧
    ∀ rr' ≥ rr, collection rc rr ≤ collection rc rr' := by
  unfold collection
  refine ⟨?_, by norm_num, fun a => by ring, fun x hx => ?_, fun rr' h => ?_⟩
  · rcases hr.eq_or_lt with h | h
    · rw [← h, Real.zero_rpow (by norm_num)]; simp
    · have := Real.rpow_pos_of_pos h 0.875
      constructor
      · intro h0
        rcases mul_eq_zero.1 h0 with h1 | h1
        · left; linarith
        · exact absurd h1 this.ne'
      · rintro (h0 | h0)
        · rw [h0]; ring
        · exact absurd h0 h.ne'
  · rw [Real.mul_rpow (by positivity) hr, ← Real.rpow_natCast, ← Real.rpow_mul hx,
      show ((8:ℕ):ℝ) * 0.875 = ((7:ℕ):ℝ) by norm_num, Real.rpow_natCast]
    ring
  · exact mul_le_mul_of_nonneg_left (Real.rpow_le_rpow hr h (by norm_num)) (by positivity)

/-- **C125 (rain evaporation).** In subsaturated air rain evaporates, in supersaturated air the rate is negative, at saturation
or without rain it is zero; drier air and more rain evaporate faster. -/
theorem evaporation_law (rv rvs rr rhod p : ℝ) (hs : 0 < rvs) (hr : 0 < rr) (hd : 0 < rhod) (hp : 0 < p) :
    (0 < evaporation rv rvs rr rhod p ↔ rv < rvs) ∧ (evaporation rv rvs rr rhod p = 0 ↔ rv = rvs) ∧
    evaporation rv rvs 0 rhod p = 0 ∧
    (∀ rv' ≤ rv, evaporation rv rvs rr rhod p ≤ evaporation rv' rvs rr rhod p) ∧
    (∀ rr' ≥ rr, rv ≤ rvs → evaporation rv rvs rr rhod p ≤ evaporation rv rvs rr' rhod p) ∧
    (∀ p' ≥ p, rv ≤ rvs → evaporation rv rvs rr rhod p ≤ evaporation rv rvs rr rhod p') := by
  have base : ∀ x, 0 ≤ x → 0 ≤ (1e-3 * rhod * x) := fun x hx => by positivity
  obtain ⟨K, hK⟩ : ∃ K : ℝ → ℝ → ℝ, K = fun x q => 1 / rhod * (1.6 + 124.9 * (1e-3 * rhod * x) ^ (0.2046 : ℝ)) *
    (1e-3 * rhod * x) ^ (0.525 : ℝ) / (5.4e2 + 2.55e5 * (1 / q / rvs)) := ⟨_, rfl⟩
  have e : ∀ v x q, evaporation v rvs x rhod q = (1 - v / rvs) * K x q := by
    intro v x q; rw [hK]; unfold evaporation; ring
  have hKpos : 0 < K rr p := by
    rw [hK]
    have := Real.rpow_pos_of_pos (show 0 < 1e-3 * rhod * rr by positivity) 0.525
    have := Real.rpow_nonneg (show 0 ≤ 1e-3 * rhod * rr by positivity) 0.2046
    positivity
  have sub : ∀ v, 0 < 1 - v / rvs ↔ v < rvs := fun v => by rw [sub_pos, div_lt_one hs]
  refine ⟨?_, ?_, ?_, ?_, ?_, ?_⟩
  · rw [e, mul_pos_iff_of_pos_right hKpos, sub]
  · rw [e, mul_eq_zero, or_iff_left hKpos.ne', sub_eq_zero, eq_comm, div_eq_one_iff_eq hs.ne']
  · unfold evaporation
    rw [mul_zero, Real.zero_rpow (by norm_num : (0.525:ℝ) ≠ 0)]; ring
  · intro v h
    rw [e, e]
    refine mul_le_mul_of_nonneg_right ?_ hKpos.le
    have := div_le_div_of_nonneg_right h hs.le
    linarith
  · intro x h hv
    rw [e, e]
    refine mul_le_mul_of_nonneg_left ?_ (by rw [sub_nonneg, div_le_one hs]; exact hv)
    rw [hK]
    have hx : 1e-3 * rhod * rr ≤ 1e-3 * rhod * x := mul_le_mul_of_nonneg_left h (by positivity)
    have h1 := Real.rpow_le_rpow (base rr hr.le) hx (by norm_num : (0:ℝ) ≤ 0.525)
    have h2 := Real.rpow_le_rpow (base rr hr.le) hx (by norm_num : (0:ℝ) ≤ 0.2046)
    have n1 := Real.rpow_nonneg (base rr hr.le) 0.525
    have n2 := Real.rpow_nonneg (base rr hr.le) 0.2046
    refine div_le_div_of_nonneg_right ?_ (by positivity)
    refine mul_le_mul ?_ h1 n1 (by have := n2.trans h2; positivity)
    refine mul_le_mul_of_nonneg_left ?_ (by positivity)
    linarith
  · intro q h hv
    rw [e, e]
    refine mul_le_mul_of_nonneg_left ?_ (by rw [sub_nonneg, div_le_one hs]; exact hv)
    rw [hK]
    have n1 := Real.rpow_nonneg (base rr hr.le) 0.525
    have n2 := Real.rpow_nonneg (base rr hr.le) 0.2046
    have hq : 0 < q := hp.trans_le h
    refine div_le_div_of_nonneg_left (by positivity) (by positivity) ?_
    have : 1 / q / rvs ≤ 1 / p / rvs := div_le_div_of_nonneg_right (one_div_le_one_div_of_le hp h) hs.le
    linarith

/-- **C125 (rain fall speed).** Rain falls faster the more of it there is, and `√(ρ₀/ρ)` times as fast as the same rain content
per volume near the surface. -/
theorem vTerm_law (rr rhod rhod0 : ℝ) (hr : 0 < rr) (hd : 0 < rhod) (h0 : 0 < rhod0) :
    0 < vTerm rr rhod rhod0 ∧ vTerm 0 rhod rhod0 = 0 ∧ (∀ rr' ≥ rr, vTerm rr rhod rhod0 ≤ vTerm rr' rhod rhod0) ∧
    vTerm rr rhod rhod0 = Real.sqrt (rhod0 / rhod) * vTerm (rhod * rr / rhod0) rhod0 rhod0 ∧
    vTerm 1e3 1 1 = 36.34 := by
  have s1 : 0 < Real.sqrt (rhod0 / rhod) := by positivity
  have p1 := Real.rpow_pos_of_pos (show 0 < rhod * rr * 1e-3 by positivity) 0.1346
  unfold vTerm
  refine ⟨by positivity, ?_, fun rr' h => ?_, ?_, ?_⟩
  · rw [mul_zero, zero_mul, Real.zero_rpow (by norm_num)]; ring
  · refine mul_le_mul_of_nonneg_left (mul_le_mul_of_nonneg_right ?_ s1.le) (by norm_num)
    refine Real.rpow_le_rpow (by positivity) ?_ (by norm_num)
    exact mul_le_mul_of_nonneg_right (mul_le_mul_of_nonneg_left h hd.le) (by norm_num)
  · rw [div_self h0.ne', Real.sqrt_one, mul_one, show rhod0 * (rhod * rr / rhod0) = rhod * rr by field_simp]; ring
  · norm_num

theorem fourth_root (x : ℝ) (hx : 0 ≤ x) : (x ^ (0.25 : ℝ)) ^ 4 = x := by
  rw [← Real.rpow_natCast, ← Real.rpow_mul hx]; norm_num

/-- **C125 (spectra).** The slope of the rain spectrum is that of an exponential spectrum with intercept 10⁷ m⁻⁴ holding all of
the rain water of a cubic metre; that of ice B, with intercept 4·10⁶ m⁻⁴ and a particle density of 400 kg/m³, all of its ice B (up
to the machine epsilon in the code); the mass used for ice B is that of a sphere of the mean diameter. -/
theorem spectra (rr rib rhod epsm : ℝ) (hr : 0 < rr) (hb : 0 ≤ rib) (hd : 0 < rhod) (he : 0 < epsm) :
    (∫ D in Ioi (0:ℝ), (4 / 3 * Real.pi * (D / 2) ^ 3 * rho_w) * (1e7 * Real.exp (-lambdaRain rr rhod * D))) = rhod * rr ∧
    (∫ D in Ioi (0:ℝ), (4 / 3 * Real.pi * (D / 2) ^ 3 * 400) * (4e6 * Real.exp (-lambdaB epsm rib rhod * D))) = rhod * rib + epsm ∧
    (let Dm := (∫ D in Ioi (0:ℝ), D * Real.exp (-lambdaB epsm rib rhod * D)) / ∫ D in Ioi (0:ℝ), Real.exp (-lambdaB epsm rib rhod * D)
     massB epsm rib rhod = max 1e-18 (4 / 3 * Real.pi * (Dm / 2) ^ 3 * 400)) := by
  have hpi := Real.pi_pos
  have hw : 0 < rho_w := by norm_num [rho_w]
  have hx : 0 < Real.pi * rho_w * 1e7 / (rhod * rr) := by positivity
  have hbe : 0 < rhod * rib + epsm := by positivity
  have hy : 0 < Real.pi * 400 * 4e6 / (rhod * rib + epsm) := by positivity
  have hl : 0 < lambdaRain rr rhod := Real.rpow_pos_of_pos hx _
  have hlb : 0 < lambdaB epsm rib rhod := Real.rpow_pos_of_pos hy _
  have e4 : lambdaRain rr rhod ^ 4 = Real.pi * rho_w * 1e7 / (rhod * rr) := fourth_root _ hx.le
  have b4 : lambdaB epsm rib rhod ^ 4 = Real.pi * 400 * 4e6 / (rhod * rib + epsm) := fourth_root _ hy.le
  have m1 : (∫ D in Ioi (0:ℝ), D * Real.exp (-lambdaB epsm rib rhod * D)) = 1 / lambdaB epsm rib rhod ^ 2 := by
    have := Real.integral_rpow_mul_exp_neg_mul_Ioi (a := 2) (r := lambdaB epsm rib rhod) (by norm_num) hlb
    rw [show (2:ℝ) - 1 = 1 by norm_num] at this
    simp only [Real.rpow_one] at this
    have g2 : Real.Gamma 2 = 1 := by rw [show (2:ℝ) = 1 + 1 by norm_num, Real.Gamma_add_one one_ne_zero, Real.Gamma_one, one_mul]
    rw [g2, mul_one] at this
    simp only [neg_mul]
    rw [this]; norm_cast; rw [div_pow, one_pow]
  refine ⟨?_, ?_, ?_⟩
  · have : ∀ D ∈ Ioi (0:ℝ), (4 / 3 * Real.pi * (D / 2) ^ 3 * rho_w) * (1e7 * Real.exp (-lambdaRain rr rhod * D)) =
        (Real.pi / 6 * rho_w * 1e7) * (D ^ 3 * Real.exp (-lambdaRain rr rhod * D)) := by intro D _; ring
    rw [setIntegral_congr_fun measurableSet_Ioi this, integral_const_mul, Blk2m.moment3 _ hl, e4]
    field_simp
  · have : ∀ D ∈ Ioi (0:ℝ), (4 / 3 * Real.pi * (D / 2) ^ 3 * 400) * (4e6 * Real.exp (-lambdaB epsm rib rhod * D)) =
        (Real.pi / 6 * 400 * 4e6) * (D ^ 3 * Real.exp (-lambdaB epsm rib rhod * D)) := by intro D _; ring
    rw [setIntegral_congr_fun measurableSet_Ioi this, integral_const_mul, Blk2m.moment3 _ hlb, b4]
    field_simp
  · simp only
    rw [m1, Blk2m.moment0 _ hlb]
    unfold massB
    congr 1
    field_simp
    ring

/-- **C125 (phase).** Freezing, riming and deposition happen only at or below 273.16 K, homogeneous nucleation only below
233.16 K, melting only above 273.16 K; and nothing forms on or melts from a species that is absent. -/
theorem phase_thresholds (epsm oob ria rib rc rr rv rvs rvsi T rhod dt : ℝ) (hrib : 0 ≤ rib) (hria : 0 ≤ ria) (hdt : 0 < dt) :
    (233.16 ≤ T → homA1 rv rvs rvsi T = 0 ∧ homA2 rc T = 0) ∧
    (273.16 < T → hetA ria rc T rhod = 0 ∧ hetB1 rr ria T rhod = 0 ∧ hetB2 rr ria T rhod = 0 ∧
      rimA epsm oob ria rc rv rvs rvsi T rhod = 0 ∧ rimB1 epsm oob rib rc rr rv rvs rvsi T rhod = 0 ∧
      rimB2 epsm oob rib rc rr rv rvs rvsi T rhod = 0 ∧ depA epsm oob ria rv rvs rvsi T rhod = 0 ∧
      depB epsm oob rib rv rvs rvsi T rhod = 0) ∧
    (T ≤ 273.16 → meltA ria T rhod dt = 0 ∧ meltB epsm rib T rhod dt = 0) ∧
    (rv ≤ rvsi → rvsi ≤ rvs → homA1 rv rvs rvsi T = 0) ∧
    (hetA ria 0 T rhod = 0 ∧ hetB1 0 ria T rhod = 0 ∧ hetB1 rr 0 T rhod = 0 ∧ hetB2 0 ria T rhod = 0 ∧ hetB2 rr 0 T rhod = 0 ∧
      meltA 0 T rhod dt = 0 ∧ meltB epsm 0 T rhod dt = 0 ∧ depA epsm oob 0 rv rvs rvsi T rhod = 0 ∧
      depB epsm oob 0 rv rvs rvsi T rhod = 0 ∧ rimA epsm oob 0 rc rv rvs rvsi T rhod = 0 ∧
      rimA epsm oob ria 0 rv rvs rvsi T rhod = 0 ∧ rimB1 epsm oob 0 rc rr rv rvs rvsi T rhod = 0 ∧
      rimB2 epsm oob 0 rc rr rv rvs rvsi T rhod = 0) := by
  refine ⟨fun h => ?_, fun h => ?_, fun h => ?_, fun h1 h2 => ?_, ?_⟩
  · constructor
    · unfold homA1; simp only; rw [if_neg (not_lt.2 h)]
    · unfold homA2; rw [if_neg (not_lt.2 h)]
  · have r1 : ∀ x, rimB epsm oob rib x rv rvs rvsi T rhod = 0 := fun x => by unfold rimB; rw [if_pos (Or.inr h)]
    refine ⟨?_, ?_, ?_, ?_, ?_, ?_, ?_, ?_⟩
    · unfold hetA; rw [if_pos (Or.inr h)]
    · unfold hetB1; rw [if_pos (Or.inr (Or.inr h))]
    · unfold hetB2; rw [if_pos (Or.inr (Or.inr h))]
    · unfold rimA; rw [if_pos (Or.inr (Or.inr h))]
    · unfold rimB1; rw [r1, mul_zero]
    · unfold rimB2; rw [r1, mul_zero]
    · unfold depA; rw [if_pos (Or.inr h)]
    · unfold depB; rw [if_pos (Or.inr h)]
  · have m0 : max 0 (T - 273.16) = 0 := max_eq_left (by linarith)
    constructor
    · unfold meltA
      split_ifs
      · rfl
      · simp only; rw [m0, mul_zero, zero_mul, zero_div, min_eq_right (by positivity)]
    · unfold meltB
      split_ifs
      · rfl
      · simp only; rw [m0, mul_zero, zero_mul, zero_div, min_eq_right (by positivity)]
  · unfold homA1
    simp only
    split_ifs with a b
    · have : rv ≤ (0.1 + 0.9 * (T - 213.16) / 20) * rvs + (1 - (0.1 + 0.9 * (T - 213.16) / 20)) * rvsi := by
        have : 0 ≤ (0.1 + 0.9 * (T - 213.16) / 20) * (rvs - rvsi) := mul_nonneg (by
          have : 0 ≤ T - 213.16 := by linarith
          positivity) (by linarith)
        nlinarith
      rw [max_eq_left (by linarith), mul_zero]
    · rw [max_eq_left (by nlinarith), mul_zero]
    · rfl
  · refine ⟨?_, ?_, ?_, ?_, ?_, ?_, ?_, ?_, ?_, ?_, ?_, ?_, ?_⟩ <;>
      simp [hetA, hetB1, hetB2, meltA, meltB, depA, depB, rimA, rimB1, rimB2, rimB]

/-- **C125 (ice fall speeds).** Ice A falls at 0.1 to 1.3 m/s (for ice contents up to ten grams per cubic metre) scaled by the
inverse square root of air density; ice B falls the faster the more of it there is. -/
theorem ice_speeds (ria rib rhod epsm : ℝ) (hd : 0 < rhod) (ha : rhod * ria ≤ 1e-2) (hb : 0 ≤ rib) (he : 0 < epsm) :
    0.1 / Real.sqrt rhod ≤ velA ria rhod ∧ velA ria rhod ≤ 1.3 / Real.sqrt rhod ∧ 0 < velB epsm rib rhod ∧
    ∀ rib' ≥ rib, velB epsm rib rhod ≤ velB epsm rib' rhod := by
  have hs : 0 < Real.sqrt rhod := by positivity
  have e1 : (1 / rhod) ^ (0.5 : ℝ) = 1 / Real.sqrt rhod := by
    rw [show (0.5:ℝ) = 1 / 2 by norm_num, ← Real.sqrt_eq_rpow, Real.sqrt_div zero_le_one, Real.sqrt_one]
  have w1 : (1e-9 : ℝ) ≤ IWC ria rhod := le_max_left _ _
  have w2 : IWC ria rhod ≤ 1e-2 := max_le (by norm_num) ha
  have s1 : (1e-9 : ℝ) ≤ IWCS ria rhod := le_max_left _ _
  have l1 : (1e-9 : ℝ) ≤ IWCL ria rhod := le_max_left _ _
  have l2 : IWCL ria rhod ≤ 1e-2 := max_le (by norm_num) (by norm_num at s1 w2 ⊢; linarith)
  have d0 : 0 ≤ delta ria rhod ∧ delta ria rhod ≤ 1 := by
    unfold delta
    have p1 : 0 < IWCS ria rhod := lt_of_lt_of_le (by norm_num) s1
    have p2 : 0 < IWCL ria rhod := lt_of_lt_of_le (by norm_num) l1
    exact ⟨by positivity, (div_le_one (by positivity)).2 (by linarith)⟩
  have g1 : -6 ≤ Real.logb 10 (1e3 * IWCL ria rhod) := by
    rw [Real.le_logb_iff_rpow_le (by norm_num) (by positivity)]
    rw [show (-6:ℝ) = ((-6:ℤ):ℝ) by norm_num, Real.rpow_intCast]
    norm_num at l1 ⊢; linarith
  have g2 : Real.logb 10 (1e3 * IWCL ria rhod) ≤ 1 := by
    rw [Real.logb_le_iff_le_rpow (by norm_num) (by have : 0 < IWCL ria rhod := lt_of_lt_of_le (by norm_num) l1
                                                   positivity)]
    norm_num at l2 ⊢; linarith
  have b0 : 0 < rhod * rib + epsm := by positivity
  have hpi := Real.pi_pos
  refine ⟨?_, ?_, ?_, fun x hx => ?_⟩
  · unfold velA
    rw [e1, mul_one_div]
    refine div_le_div_of_nonneg_right ?_ hs.le
    nlinarith [d0.1, d0.2]
  · unfold velA
    rw [e1, mul_one_div]
    refine div_le_div_of_nonneg_right ?_ hs.le
    nlinarith [d0.1, d0.2]
  · have : 0 < lambdaB epsm rib rhod := Real.rpow_pos_of_pos (by positivity) _
    unfold velB; positivity
  · unfold velB
    have hl : 0 < lambdaB epsm x rhod := Real.rpow_pos_of_pos (by have := hb.trans hx; positivity) _
    have hle : lambdaB epsm x rhod ≤ lambdaB epsm rib rhod := by
      unfold lambdaB
      refine Real.rpow_le_rpow (by have := hb.trans hx; positivity) ?_ (by norm_num)
      refine div_le_div_of_nonneg_left (by positivity) b0 ?_
      have := mul_le_mul_of_nonneg_left hx hd.le
      linarith
    have := Real.rpow_le_rpow_of_nonpos hl hle (by norm_num : (-0.37:ℝ) ≤ 0)
    have hp := Real.rpow_nonneg hd.le (-0.5)
    exact mul_le_mul_of_nonneg_right (mul_le_mul_of_nonneg_left this (by norm_num)) hp

/-- non-vacuity: a rainy, icy cell -/
example : vTerm 1e-3 1 1.2 = Real.sqrt (1.2 / 1) * vTerm (1 * 1e-3 / 1.2) 1.2 1.2 ∧ 0 < evaporation 5e-3 1e-2 1e-3 1 1e5 ∧
    velA 1e-3 1 ≤ 1.3 / Real.sqrt 1 :=
  ⟨(vTerm_law 1e-3 1 1.2 (by norm_num) (by norm_num) (by norm_num)).2.2.2.1,
   (evaporation_law 5e-3 1e-2 1e-3 1 1e5 (by norm_num) (by norm_num) (by norm_num) (by norm_num)).1.2 (by norm_num),
   (ice_speeds 1e-3 0 1 1e-16 (by norm_num) (by norm_num) le_rfl (by norm_num)).2.1⟩

end LCP.Blk1m
