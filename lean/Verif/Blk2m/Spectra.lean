import Verif.Blk2m.Vterm
import Mathlib.Analysis.SpecialFunctions.Gaussian.GaussianIntegral

/-!
# Drop-size spectra of the double-moment scheme (C123)

The scheme carries number and mass of cloud droplets and raindrops; the spectra assumed behind the formulae (gamma for cloud,
exponential for rain) must have exactly these two moments, the radii handed to other formulae must be the mean radii of the
spectra, and the relaxation times of condensation must be integrals over the spectra.
-/
namespace LCP.Blk2m
open LCP.Common MeasureTheory Set Filter Topology

/-- N0_c (common_formulae.hpp:77-92); the template is never instantiated in the library -/
noncomputable def N0_c (nc rc rhod : ℝ) : ℝ :=
  nc * lambda_c nc rc rhod ^ (miu_c (nc * rhod) + 1) / Real.Gamma (miu_c (nc * rhod) + 1)

/-- number of cloud droplets per kilogram of dry air and metre of diameter (specification: gamma spectrum) -/
noncomputable def cloudSpec (nc rc rhod D : ℝ) : ℝ :=
  N0_c nc rc rhod * D ^ miu_c (nc * rhod) * Real.exp (-lambda_c nc rc rhod * D)

/-- number of raindrops per kilogram of dry air and metre of diameter (specification: exponential spectrum) -/
noncomputable def rainSpec (nr rr D : ℝ) : ℝ := N0_r nr rr * Real.exp (-lambda_r nr rr * D)

/-- mass of a spherical drop of diameter `D` (specification) -/
noncomputable def dropMass (D : ℝ) : ℝ := 4 / 3 * Real.pi * (D / 2) ^ 3 * rho_w

theorem dropMass_eq (D : ℝ) : dropMass D = c_md * D ^ 3 := by unfold dropMass c_md; ring

theorem cube_root (x : ℝ) (hx : 0 ≤ x) : (x ^ (1 / d_md)) ^ 3 = x := by
  unfold d_md
  rw [← Real.rpow_natCast, ← Real.rpow_mul hx]; norm_num

/-- moments of a gamma spectrum -/
theorem gamma_moment (l m k : ℝ) (hl : 0 < l) (hm : -1 < m) (hk : 0 ≤ k) :
    IntegrableOn (fun D : ℝ => D ^ k * (D ^ m * Real.exp (-l * D))) (Ioi 0) ∧
    ∫ D in Ioi (0:ℝ), D ^ k * (D ^ m * Real.exp (-l * D)) = Real.Gamma (m + k + 1) / l ^ (m + k + 1) := by
  have e : ∀ D ∈ Ioi (0:ℝ), D ^ k * (D ^ m * Real.exp (-l * D)) = D ^ ((m + k + 1) - 1) * Real.exp (-(l * D)) := by
    intro D hD
    have hD : (0:ℝ) < D := hD
    rw [show (m + k + 1) - 1 = k + m by ring, Real.rpow_add hD, neg_mul]; ring
  constructor
  · have h := integrableOn_rpow_mul_exp_neg_mul_rpow (p := 1) (s := k + m) (b := l) (by linarith) one_pos hl
    refine h.congr_fun (fun D hD => ?_) measurableSet_Ioi
    have hD' : (0:ℝ) < D := hD
    simp only [Real.rpow_one]
    rw [Real.rpow_add hD']; ring
  · rw [setIntegral_congr_fun measurableSet_Ioi e, Real.integral_rpow_mul_exp_neg_mul_Ioi (by linarith) hl,
      Real.div_rpow zero_le_one hl.le, Real.one_rpow]
    ring

theorem miu_gt (n : ℝ) (h : 0 ≤ n) : -1 < miu_c n := by have := miu_pos n h; linarith

/-- all moments of the cloud spectrum -/
theorem cloud_moment (nc rc rhod k : ℝ) (hn : 0 < nc) (hc : 0 < rc) (hr : 0 ≤ rhod) (hk : 0 ≤ k) :
    ∫ D in Ioi (0:ℝ), D ^ k * cloudSpec nc rc rhod D =
      nc * (Real.Gamma (miu_c (nc * rhod) + k + 1) / Real.Gamma (miu_c (nc * rhod) + 1)) / lambda_c nc rc rhod ^ k := by
  have hl := lambda_c_pos nc rc rhod hn hc hr
  have hm := miu_gt (nc * rhod) (by positivity)
  have hg := Real.Gamma_pos_of_pos (show 0 < miu_c (nc * rhod) + 1 by linarith)
  have e : ∀ D ∈ Ioi (0:ℝ), D ^ k * cloudSpec nc rc rhod D =
      N0_c nc rc rhod * (D ^ k * (D ^ miu_c (nc * rhod) * Real.exp (-lambda_c nc rc rhod * D))) := by
    intro D _; unfold cloudSpec; ring
  rw [setIntegral_congr_fun measurableSet_Ioi e, integral_const_mul, (gamma_moment _ _ k hl hm hk).2]
  unfold N0_c
  rw [show miu_c (nc * rhod) + k + 1 = (miu_c (nc * rhod) + 1) + k by ring, Real.rpow_add hl (miu_c (nc * rhod) + 1) k]
  have := Real.rpow_pos_of_pos hl (miu_c (nc * rhod) + 1)
  have := Real.rpow_pos_of_pos hl k
  field_simp

/-- **C123.** For all positive contents the gamma spectrum of cloud droplets has the cell's number concentration and the cell's
cloud water, and the radius used by the scheme is its mean radius. -/
theorem cloud_spectrum (nc rc rhod : ℝ) (hn : 0 < nc) (hc : 0 < rc) (hr : 0 ≤ rhod) :
    (∫ D in Ioi (0:ℝ), cloudSpec nc rc rhod D) = nc ∧
    (∫ D in Ioi (0:ℝ), dropMass D * cloudSpec nc rc rhod D) = rc ∧
    r_drop_c rc nc rhod = (∫ D in Ioi (0:ℝ), D / 2 * cloudSpec nc rc rhod D) / ∫ D in Ioi (0:ℝ), cloudSpec nc rc rhod D := by
  have hl := lambda_c_pos nc rc rhod hn hc hr
  have hm := miu_gt (nc * rhod) (by positivity)
  have hg := Real.Gamma_pos_of_pos (show 0 < miu_c (nc * rhod) + 1 by linarith)
  have hg4 := Real.Gamma_pos_of_pos (show 0 < miu_c (nc * rhod) + 3 + 1 by linarith)
  have hcm := c_md_pos
  have m0 : (∫ D in Ioi (0:ℝ), cloudSpec nc rc rhod D) = nc := by
    have := cloud_moment nc rc rhod 0 hn hc hr le_rfl
    simp only [Real.rpow_zero, one_mul, add_zero, div_one] at this
    rw [this, div_self hg.ne', mul_one]
  refine ⟨m0, ?_, ?_⟩
  · have := cloud_moment nc rc rhod 3 hn hc hr (by norm_num)
    have e : ∀ D ∈ Ioi (0:ℝ), dropMass D * cloudSpec nc rc rhod D = c_md * (D ^ (3:ℝ) * cloudSpec nc rc rhod D) := by
      intro D _; rw [dropMass_eq, show D ^ (3:ℝ) = D ^ 3 by norm_cast]; ring
    rw [setIntegral_congr_fun measurableSet_Ioi e, integral_const_mul, this,
      show lambda_c nc rc rhod ^ (3:ℝ) = lambda_c nc rc rhod ^ 3 by norm_cast]
    have h3 : lambda_c nc rc rhod ^ 3 = c_md * nc * Real.Gamma (miu_c (nc * rhod) + 3 + 1) / (rc * Real.Gamma (miu_c (nc * rhod) + 1)) := by
      unfold lambda_c
      rw [cube_root _ (by unfold d_md; positivity)]; rfl
    rw [h3]
    field_simp
  · have := cloud_moment nc rc rhod 1 hn hc hr (by norm_num)
    have e : ∀ D ∈ Ioi (0:ℝ), D / 2 * cloudSpec nc rc rhod D = 1 / 2 * (D ^ (1:ℝ) * cloudSpec nc rc rhod D) := by
      intro D _; rw [Real.rpow_one]; ring
    rw [m0, setIntegral_congr_fun measurableSet_Ioi e, integral_const_mul, this, Real.rpow_one,
      show miu_c (nc * rhod) + 1 + 1 = (miu_c (nc * rhod) + 1) + 1 by ring, Real.Gamma_add_one (by linarith)]
    unfold r_drop_c
    rw [if_pos ⟨hc, hn⟩]
    field_simp

/-- moments of the rain spectrum -/
theorem rain_moment (nr rr k : ℝ) (hn : 0 < nr) (hc : 0 < rr) (hk : 0 ≤ k) :
    IntegrableOn (fun D => D ^ k * rainSpec nr rr D) (Ioi 0) ∧
    ∫ D in Ioi (0:ℝ), D ^ k * rainSpec nr rr D = nr * Real.Gamma (k + 1) / lambda_r nr rr ^ k := by
  have hl := lambda_r_pos nr rr hn hc
  have g := gamma_moment (lambda_r nr rr) 0 k hl (by norm_num) hk
  have e : ∀ D ∈ Ioi (0:ℝ), N0_r nr rr * (D ^ k * (D ^ (0:ℝ) * Real.exp (-lambda_r nr rr * D))) = D ^ k * rainSpec nr rr D := by
    intro D _; unfold rainSpec; rw [Real.rpow_zero]; ring
  have gi : IntegrableOn (fun D : ℝ => N0_r nr rr * (D ^ k * (D ^ (0:ℝ) * Real.exp (-lambda_r nr rr * D)))) (Ioi 0) :=
    g.1.const_mul (N0_r nr rr)
  refine ⟨gi.congr_fun e measurableSet_Ioi, ?_⟩
  rw [← setIntegral_congr_fun measurableSet_Ioi e, integral_const_mul, g.2]
  unfold N0_r
  rw [zero_add, Real.rpow_add hl, Real.rpow_one]
  have := Real.rpow_pos_of_pos hl k
  field_simp

/-- **C123.** The same for rain and its exponential spectrum. -/
theorem rain_spectrum (nr rr : ℝ) (hn : 0 < nr) (hc : 0 < rr) :
    (∫ D in Ioi (0:ℝ), rainSpec nr rr D) = nr ∧
    (∫ D in Ioi (0:ℝ), dropMass D * rainSpec nr rr D) = rr ∧
    r_drop_r rr nr = (∫ D in Ioi (0:ℝ), D / 2 * rainSpec nr rr D) / ∫ D in Ioi (0:ℝ), rainSpec nr rr D := by
  have hl := lambda_r_pos nr rr hn hc
  have hcm := c_md_pos
  have m0 : (∫ D in Ioi (0:ℝ), rainSpec nr rr D) = nr := by
    have := (rain_moment nr rr 0 hn hc le_rfl).2
    simp only [Real.rpow_zero, one_mul, zero_add, div_one, Real.Gamma_one, mul_one] at this
    exact this
  refine ⟨m0, ?_, ?_⟩
  · have := (rain_moment nr rr 3 hn hc (by norm_num)).2
    have e : ∀ D ∈ Ioi (0:ℝ), dropMass D * rainSpec nr rr D = c_md * (D ^ (3:ℝ) * rainSpec nr rr D) := by
      intro D _; rw [dropMass_eq, show D ^ (3:ℝ) = D ^ 3 by norm_cast]; ring
    have hg4 := Real.Gamma_pos_of_pos (show (0:ℝ) < 3 + 1 by norm_num)
    rw [setIntegral_congr_fun measurableSet_Ioi e, integral_const_mul, this,
      show lambda_r nr rr ^ (3:ℝ) = lambda_r nr rr ^ 3 by norm_cast]
    have h3 : lambda_r nr rr ^ 3 = c_md * nr * Real.Gamma (3 + 1) / rr := by
      unfold lambda_r
      rw [cube_root _ (by unfold d_md; positivity)]; rfl
    rw [h3]
    field_simp
  · have := (rain_moment nr rr 1 hn hc (by norm_num)).2
    have e : ∀ D ∈ Ioi (0:ℝ), D / 2 * rainSpec nr rr D = 1 / 2 * (D ^ (1:ℝ) * rainSpec nr rr D) := by
      intro D _; rw [Real.rpow_one]; ring
    rw [m0, setIntegral_congr_fun measurableSet_Ioi e, integral_const_mul, this, Real.rpow_one, Real.Gamma_add_one one_ne_zero,
      Real.Gamma_one]
    unfold r_drop_r
    rw [if_pos ⟨hc, hn⟩]
    field_simp

/-- **C123.** The relaxation time of condensation on cloud droplets is that of diffusion to all spheres of the spectrum:
its inverse is the integral of `2 π D_0 D` (four pi times the radius times the diffusivity) over the droplets of a cubic metre. -/
theorem tau_cloud (nc rc rhod : ℝ) (hn : 0 < nc) (hc : 0 < rc) (hr : 0 < rhod) :
    1 / tau_relax_c (r_drop_c rc nc rhod) (rhod * nc) =
      ∫ D in Ioi (0:ℝ), 4 * Real.pi * D_0 * (D / 2) * (rhod * cloudSpec nc rc rhod D) := by
  obtain ⟨h0, -, h2⟩ := cloud_spectrum nc rc rhod hn hc hr.le
  have e : ∀ D ∈ Ioi (0:ℝ), 4 * Real.pi * D_0 * (D / 2) * (rhod * cloudSpec nc rc rhod D) =
      4 * Real.pi * D_0 * rhod * (D / 2 * cloudSpec nc rc rhod D) := by intro D _; ring
  rw [setIntegral_congr_fun measurableSet_Ioi e, integral_const_mul]
  unfold tau_relax_c
  rw [h2, h0, one_div_one_div]
  field_simp

/-- ventilation-weighted diffusion to the raindrops of a cubic metre for a fall speed law `v` (specification; Morrison et al.
2005 eq. 4: diffusion to a sphere times `0.78 + 0.308 Sc^(1/3) Re^(1/2)`, `Re = ρ v D / η`) -/
noncomputable def rainDiff (v : ℝ → ℝ) (T rhod rr nr : ℝ) : ℝ :=
  ∫ D in Ioi (0:ℝ), 2 * Real.pi * D_0 * D *
    (0.78 + 0.308 * (visc T / rhod / D_0) ^ (1 / 3 : ℝ) * Real.sqrt (rhod * v D * D / visc T)) * (rhod * rainSpec nr rr D)

theorem beta_nonneg (r : ℝ) : 0 ≤ beta_fall r := by unfold beta_fall; split_ifs <;> norm_num
theorem alpha_nonneg (r : ℝ) : 0 ≤ alpha_fall r := by unfold alpha_fall; split_ifs <;> norm_num
theorem visc_pos (T : ℝ) (hT : 0 < T) : 0 < visc T := by
  unfold visc T_tri
  positivity

/-- the diffusion integral for a power law of fall speed -/
theorem rainDiff_power (a b T rhod rr nr : ℝ) (ha : 0 ≤ a) (hb : 0 ≤ b) (hT : 0 < T) (hr : 0 < rhod) (hn : 0 < nr) (hc : 0 < rr) :
    rainDiff (fun D => a * D ^ b) T rhod rr nr =
      2 * Real.pi * D_0 * (rhod * N0_r nr rr) * (0.78 / lambda_r nr rr ^ (2 : ℝ)
      + 0.308 * Real.sqrt (a * rhod / visc T) * Sc (visc T) rhod D_0 ^ (1 / 3 : ℝ)
        * Real.Gamma ((b + 5) / 2) * lambda_r nr rr ^ (-(b + 5) / 2)) := by
  have hl := lambda_r_pos nr rr hn hc
  have hv := visc_pos T hT
  have m1 := rain_moment nr rr 1 hn hc (by norm_num)
  have m2 := rain_moment nr rr ((b + 3) / 2) hn hc (by linarith)
  have e : ∀ D ∈ Ioi (0:ℝ), 2 * Real.pi * D_0 * D *
    (0.78 + 0.308 * (visc T / rhod / D_0) ^ (1 / 3 : ℝ) * Real.sqrt (rhod * (a * D ^ b) * D / visc T)) * (rhod * rainSpec nr rr D)
      = 2 * Real.pi * D_0 * rhod * 0.78 * (D ^ (1:ℝ) * rainSpec nr rr D) +
        2 * Real.pi * D_0 * rhod * (0.308 * (visc T / rhod / D_0) ^ (1 / 3 : ℝ) * Real.sqrt (a * rhod / visc T)) *
          (D ^ ((b + 3) / 2) * rainSpec nr rr D) := by
    intro D hD
    have hD : (0:ℝ) < D := hD
    have s : Real.sqrt (rhod * (a * D ^ b) * D / visc T) = Real.sqrt (a * rhod / visc T) * D ^ ((b + 1) / 2) := by
      rw [show rhod * (a * D ^ b) * D / visc T = (a * rhod / visc T) * (D ^ b * D ^ (1:ℝ)) by rw [Real.rpow_one]; ring,
        ← Real.rpow_add hD, Real.sqrt_mul (by positivity), Real.sqrt_eq_rpow (D ^ (b + 1)), ← Real.rpow_mul hD.le]
      congr 2; ring
    rw [s, show (b + 3) / 2 = 1 + (b + 1) / 2 by ring, Real.rpow_add hD, Real.rpow_one]
    ring
  unfold rainDiff
  rw [setIntegral_congr_fun measurableSet_Ioi e, integral_add (m1.1.const_mul _) (m2.1.const_mul _), integral_const_mul,
    integral_const_mul, m1.2, m2.2]
  have g2 : Real.Gamma (1 + 1) = 1 := by rw [Real.Gamma_add_one one_ne_zero, Real.Gamma_one, one_mul]
  rw [g2, show (b + 3) / 2 + 1 = (b + 5) / 2 by ring, show -(b + 5) / 2 = -((b + 3) / 2) - 1 by ring,
    Real.rpow_sub hl, Real.rpow_neg hl.le, show (2:ℝ) = 1 + 1 by norm_num, Real.rpow_add hl, Real.rpow_one]
  unfold N0_r Sc
  have := Real.rpow_pos_of_pos hl ((b + 3) / (1 + 1))
  field_simp

/-- **C123** (partial: the fall speed in it is not the drop fall speed, see `rain_ventilation_scale`). The inverse of the
relaxation time of rain is the ventilated diffusion to all drops of the spectrum, for the fall-speed law `a D^b` with the
coefficients the code computes from the mean drop. -/
theorem tau_rain_partial (T rhod rr nr : ℝ) (hT : 0 < T) (hr : 0 < rhod) (hn : 0 < nr) (hc : 0 < rr) :
    1 / tau_relax_r T rhod rr nr = rainDiff (fun D => a_fall rr nr * D ^ b_fall rr nr) T rhod rr nr := by
  have ha : 0 ≤ a_fall rr nr := by
    unfold a_fall
    have := alpha_nonneg (r_drop_r rr nr); have := c_md_pos
    positivity
  have hb : 0 ≤ b_fall rr nr := by unfold b_fall d_md; have := beta_nonneg (r_drop_r rr nr); positivity
  rw [rainDiff_power _ _ T rhod rr nr ha hb hT hr hn hc]
  unfold tau_relax_r
  have g2 : Real.Gamma 2 = 1 := by rw [show (2:ℝ) = 1 + 1 by norm_num, Real.Gamma_add_one one_ne_zero, Real.Gamma_one, one_mul]
  rw [one_div_one_div, g2, mul_one]

/-- **C123.** What is wrong with the coefficients: at the mean drop, the fall speed entering the ventilation is the drop fall
speed used for sedimentation (`vlaw`, metres per second) times `10^(2 - 18 β)`, `β` the exponent of the drop's size class
(the coefficient is for diameters in micrometres and speeds in centimetres per second, but is used with metres). -/
theorem rain_ventilation_scale (rr nr : ℝ) (hn : 0 < nr) (hc : 0 < rr) :
    let D := 2 * r_drop_r rr nr
    a_fall rr nr * D ^ b_fall rr nr = (10:ℝ) ^ (2 - 18 * beta_fall (D / 2)) * vlaw D := by
  intro D
  have hl := lambda_r_pos nr rr hn hc
  have hD : 0 < D := by
    show 0 < 2 * r_drop_r rr nr
    unfold r_drop_r; rw [if_pos ⟨hc, hn⟩]; positivity
  have hcm := c_md_pos
  have e : D / 2 = r_drop_r rr nr := by show 2 * r_drop_r rr nr / 2 = _; ring
  unfold a_fall b_fall vlaw d_md
  rw [e, powB_eq D _ hD.le]
  simp only []
  have t : (1e-6 : ℝ) ^ (3 * beta_fall (r_drop_r rr nr)) = (10:ℝ) ^ (-(18 * beta_fall (r_drop_r rr nr))) := by
    rw [show (1e-6 : ℝ) = (10:ℝ) ^ (-6 : ℝ) by rw [Real.rpow_neg (by norm_num)]; norm_num, ← Real.rpow_mul (by norm_num)]
    congr 1; ring
  rw [t, sub_eq_add_neg, Real.rpow_add (by norm_num : (0:ℝ) < 10)]
  have : (10:ℝ) ^ (2:ℝ) = 100 := by norm_num
  rw [this]
  ring

/-- **C123, refuted part.** One gram per kilogram of rain in drops of half a millimetre mean diameter: the fall speed entering
the ventilation of the mean drop is ten thousand times smaller than the drop's fall speed. -/
theorem rain_ventilation_wrong : ∃ rr nr : ℝ, 0 < rr ∧ 0 < nr ∧ 2 * r_drop_r rr nr = 5e-4 ∧
    a_fall rr nr * (5e-4 : ℝ) ^ b_fall rr nr = 1e-4 * vlaw 5e-4 ∧ 0 < vlaw 5e-4 := by
  have hcm := c_md_pos
  have g4 : Real.Gamma (3 + 1) = 6 := by
    rw [show (3:ℝ) + 1 = ((3:ℕ):ℝ) + 1 by norm_num, Real.Gamma_nat_eq_factorial]; norm_num [Nat.factorial]
  have hn : 0 < 1e-3 / (c_md * 6 * 5e-4 ^ 3) := by positivity
  have hl : lambda_r (1e-3 / (c_md * 6 * 5e-4 ^ 3)) 1e-3 = 2000 := by
    unfold lambda_r
    have : c_md * (1e-3 / (c_md * 6 * 5e-4 ^ 3)) * Real.Gamma (d_md + 1) / 1e-3 = (2000:ℝ) ^ (3:ℝ) := by
      unfold d_md; rw [g4]; field_simp; norm_num
    rw [this, ← Real.rpow_mul (by norm_num)]; unfold d_md; norm_num
  have hD : 2 * r_drop_r 1e-3 (1e-3 / (c_md * 6 * 5e-4 ^ 3)) = 5e-4 := by
    unfold r_drop_r; rw [if_pos ⟨by norm_num, hn⟩, hl]; norm_num
  refine ⟨1e-3, _, by norm_num, hn, hD, ?_, ?_⟩
  · have := rain_ventilation_scale 1e-3 _ hn (by norm_num)
    simp only [hD] at this
    rw [this]
    have hb : beta_fall (5e-4 / 2) = 1 / 3 := by unfold beta_fall d1 d2; norm_num
    rw [hb, show (2:ℝ) - 18 * (1 / 3) = -4 by norm_num, Real.rpow_neg (by norm_num)]
    norm_num
  · rw [vlaw_2 5e-4 (by unfold d1; norm_num) (by unfold d2; norm_num)]
    positivity

/-- non-vacuity: the spectra of a cloud with 50 droplets per cubic centimetre and 1 g/kg, and of rain -/
example : (∫ D in Ioi (0:ℝ), dropMass D * cloudSpec 5e7 1e-3 1 D) = 1e-3 ∧ (∫ D in Ioi (0:ℝ), rainSpec 1e4 1e-3 D) = 1e4 :=
  ⟨(cloud_spectrum 5e7 1e-3 1 (by norm_num) (by norm_num) (by norm_num)).2.1, (rain_spectrum 1e4 1e-3 (by norm_num) (by norm_num)).1⟩

end LCP.Blk2m
