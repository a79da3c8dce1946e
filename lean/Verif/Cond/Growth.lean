import Verif.Cond.DropletProps
import Verif.Common.Koehler
import Mathlib.Analysis.SpecialFunctions.Pow.Continuity
import Mathlib.Topology.Order.IntermediateValue

/-!
# The growth law of a droplet (C57): sign, monotonicity, accuracy of the implicit step
-/
namespace LCP.Cond
open LCP.Common

/-- ambient conditions for which the statements below are made: positive temperature up to 1000 K, positive densities and humidity -/
structure Env.Ok (e : Env) : Prop where
  rhod : 0 < e.rhod
  rv : 0 < e.rv
  T0 : 0 < e.T
  T1 : e.T ≤ 1000
  RH : 0 < e.RH
  eta : 0 < e.eta
  vt : 0 ≤ e.vt
  lamD : 0 ≤ e.lamD
  lamK : 0 ≤ e.lamK
  RHmax : 0 < e.RHmax

/-- the molecular correction is in (0, 1] and decreases with the Knudsen number -/
theorem beta_range (Kn : ℝ) (h : 0 ≤ Kn) : 0 < beta Kn ∧ beta Kn ≤ 1 := by
  unfold beta
  have hp : 0 < 1 + 1.71 * Kn + 1.33 * Kn * Kn := by positivity
  refine ⟨by positivity, ?_⟩
  rw [div_le_one hp]
  nlinarith [mul_nonneg h h]

theorem beta_anti (x y : ℝ) (h : 0 ≤ x) (hxy : x ≤ y) : beta y ≤ beta x := by
  unfold beta
  have hy : 0 ≤ y := h.trans hxy
  have hp : 0 < 1 + 1.71 * x + 1.33 * x * x := by positivity
  have hq : 0 < 1 + 1.71 * y + 1.33 * y * y := by positivity
  rw [div_le_div_iff₀ hq hp]
  have h1 : 0 ≤ y - x := by linarith
  have h2 : 0 ≤ x * y := mul_nonneg h hy
  nlinarith [mul_nonneg h1 h, mul_nonneg h1 hy, mul_nonneg h1 h2, mul_nonneg h h, mul_nonneg hy hy]

/-- large droplets feel no molecular correction -/
theorem beta_zero : beta 0 = 1 := by norm_num [beta]

theorem Nu_nonneg (Pr x : ℝ) (hP : 0 ≤ Pr) (h : 0 ≤ x) : Nu Pr x = 1 + (1 + x * Pr) ^ (1 / 3 : ℝ) * max 1 (x ^ (0.077 : ℝ)) := by
  unfold Nu cbrtS cbrt
  have : 0 ≤ x * Pr := mul_nonneg h hP
  rw [if_neg (by linarith), if_neg (by linarith)]

/-- the ventilation coefficient is 2 at rest and grows with the Reynolds number -/
theorem Nu_rest (Pr : ℝ) : Nu Pr 0 = 2 := by
  unfold Nu cbrtS cbrt
  rw [zero_mul, add_zero, if_neg (by norm_num), if_neg (by norm_num), Real.one_rpow, Real.zero_rpow (by norm_num), max_eq_left zero_le_one]
  norm_num

theorem Nu_mono (Pr x y : ℝ) (hP : 0 ≤ Pr) (h : 0 ≤ x) (hxy : x ≤ y) : Nu Pr x ≤ Nu Pr y := by
  rw [Nu_nonneg Pr x hP h, Nu_nonneg Pr y hP (h.trans hxy)]
  have h1 : x * Pr ≤ y * Pr := mul_le_mul_of_nonneg_right hxy hP
  have h0 : 0 ≤ x * Pr := mul_nonneg h hP
  have a : (1 + x * Pr) ^ (1 / 3 : ℝ) ≤ (1 + y * Pr) ^ (1 / 3 : ℝ) := Real.rpow_le_rpow (by linarith) (by linarith) (by norm_num)
  have b : max 1 (x ^ (0.077 : ℝ)) ≤ max 1 (y ^ (0.077 : ℝ)) := max_le_max le_rfl (Real.rpow_le_rpow h hxy (by norm_num))
  have c : 0 ≤ max 1 (x ^ (0.077 : ℝ)) := zero_le_one.trans (le_max_left _ _)
  have d : (0 : ℝ) ≤ (1 + y * Pr) ^ (1 / 3 : ℝ) := Real.rpow_nonneg (by linarith) _
  have := mul_le_mul a b c d
  linarith

theorem Nu_ge (Pr x : ℝ) (hP : 0 ≤ Pr) (h : 0 ≤ x) : 2 ≤ Nu Pr x := by
  rw [← Nu_rest Pr]; exact Nu_mono Pr 0 x hP le_rfl h

theorem D_0_pos : 0 < D_0 := by norm_num [D_0]
theorem K_0_pos : 0 < K_0 := by norm_num [K_0]

theorem ReN_nonneg (e : Env) (he : e.Ok) (rw : ℝ) (h : 0 ≤ rw) : 0 ≤ ReN e rw := by
  unfold ReN; have := he.vt; have := he.rhod; have := he.eta; positivity

theorem ScN_nonneg (e : Env) (he : e.Ok) : 0 ≤ ScN e := by
  unfold ScN; have := he.rhod; have := he.eta; have := D_0_pos; positivity

theorem PrN_nonneg (e : Env) (he : e.Ok) : 0 ≤ PrN e := by
  unfold PrN; have := c_pd_pos; have := he.eta; have := K_0_pos; positivity

theorem diffD_pos (e : Env) (he : e.Ok) (rw : ℝ) (h : 0 < rw) : 0 < diffD e rw := by
  unfold diffD
  have h1 := (beta_range (e.lamD / rw) (div_nonneg he.lamD h.le)).1
  have h2 := Nu_ge (ScN e) (ReN e rw) (ScN_nonneg e he) (ReN_nonneg e he rw h.le)
  have := D_0_pos
  have : 0 < Nu (ScN e) (ReN e rw) / 2 := by linarith
  positivity

theorem condK_pos (e : Env) (he : e.Ok) (rw : ℝ) (h : 0 < rw) : 0 < condK e rw := by
  unfold condK
  have h1 := (beta_range (e.lamK / rw) (div_nonneg he.lamK h.le)).1
  have h2 := Nu_ge (PrN e) (ReN e rw) (PrN_nonneg e he) (ReN_nonneg e he rw h.le)
  have := K_0_pos
  have : 0 < Nu (PrN e) (ReN e rw) / 2 := by linarith
  positivity

theorem RHlim_eq (e : Env) : RHlim e = min e.RH e.RHmax := by
  unfold RHlim
  split_ifs with h
  · rw [min_eq_right h.le]
  · rw [min_eq_left (not_lt.mp h)]

theorem RHlim_pos (e : Env) (he : e.Ok) : 0 < RHlim e := by
  rw [RHlim_eq]; exact lt_min he.RH he.RHmax

/-- the latent heat exceeds `R_v T` up to 1000 K -/
theorem lv_gt (T : ℝ) (h0 : 0 < T) (h1 : T ≤ 1000) : 0 < l_v T ∧ 0 < l_v T / R_v / T - 1 := by
  have hl : R_v * T < l_v T := by
    unfold l_v l_tri c_pv c_pw T_tri R_v kaBoNA M_v M_H M_OH
    norm_num
    linarith
  have hR := R_v_pos
  refine ⟨by nlinarith, ?_⟩
  rw [sub_pos, div_div, lt_div_iff₀ (by positivity)]
  linarith

theorem ls_gt (T : ℝ) (h0 : 0 < T) (h1 : T ≤ 1000) : 0 < l_s T ∧ 0 < l_s T / R_v / T - 1 := by
  have hl : R_v * T < l_s T := by
    unfold l_s ls_tri c_pv c_pi T_tri R_v kaBoNA M_v M_H M_OH
    norm_num
    linarith
  have hR := R_v_pos
  refine ⟨by nlinarith, ?_⟩
  rw [sub_pos, div_div, lt_div_iff₀ (by positivity)]
  linarith

/-- the denominator of the Maxwell-Mason formula -/
theorem mm_den_pos (D K rho T RH : ℝ) (hD : 0 < D) (hK : 0 < K) (hr : 0 < rho) (h0 : 0 < T) (h1 : T ≤ 1000) (hRH : 0 < RH) :
    0 < 1 / D / rho + l_v T / K / RH / T * (l_v T / R_v / T - 1) := by
  obtain ⟨a, b⟩ := lv_gt T h0 h1
  positivity

/-- **C57 (direction).** A droplet grows, shrinks or keeps its size according to whether the relative humidity (limited to
`RH_max`) is above, below or at the equilibrium saturation ratio over the droplet given by the kappa-Koehler curve. -/
theorem drw2dt_sign (e : Env) (he : e.Ok) (rw2 : ℝ) (h : 0 < rw2) :
    (0 < drw2dt e rw2 ↔ koehler e.rd3 e.kpa e.T (Real.sqrt rw2) < min e.RH e.RHmax) ∧
    (drw2dt e rw2 < 0 ↔ min e.RH e.RHmax < koehler e.rd3 e.kpa e.T (Real.sqrt rw2)) ∧
    (drw2dt e rw2 = 0 ↔ koehler e.rd3 e.kpa e.T (Real.sqrt rw2) = min e.RH e.RHmax) := by
  have hs : 0 < Real.sqrt rw2 := Real.sqrt_pos.mpr h
  have hR := RHlim_pos e he
  have hden := mm_den_pos (diffD e (Real.sqrt rw2)) (condK e (Real.sqrt rw2)) (e.rhod * e.rv) e.T (RHlim e) (diffD_pos e he _ hs)
    (condK_pos e he _ hs) (mul_pos he.rhod he.rv) he.T0 he.T1 hR
  set den := 1 / diffD e (Real.sqrt rw2) / (e.rhod * e.rv) + l_v e.T / condK e (Real.sqrt rw2) / RHlim e / e.T * (l_v e.T / R_v / e.T - 1)
  have hk : a_w (Real.sqrt rw2 * Real.sqrt rw2 * Real.sqrt rw2) e.rd3 e.kpa * klvntrm (Real.sqrt rw2) e.T =
      koehler e.rd3 e.kpa e.T (Real.sqrt rw2) := by
    unfold koehler a_w klvntrm
    rw [show Real.sqrt rw2 * Real.sqrt rw2 * Real.sqrt rw2 = Real.sqrt rw2 ^ 3 by ring]
  have e1 : drw2dt e rw2 = (RHlim e - koehler e.rd3 e.kpa e.T (Real.sqrt rw2)) * (2 / RHlim e / rho_w / den) := by
    unfold drw2dt rdrdt
    simp only
    rw [hk, show (1 : ℝ) - koehler e.rd3 e.kpa e.T (Real.sqrt rw2) / RHlim e = (RHlim e - koehler e.rd3 e.kpa e.T (Real.sqrt rw2)) / RHlim e by
      field_simp]
    ring
  have hc : 0 < 2 / RHlim e / rho_w / den := by have := rho_w_pos; positivity
  rw [e1, ← RHlim_eq]
  refine ⟨?_, ?_, ?_⟩
  · rw [mul_pos_iff_of_pos_right hc, sub_pos]
  · rw [mul_neg_iff]
    constructor
    · rintro (⟨_, h⟩ | ⟨h, _⟩)
      · exact absurd h (not_lt.mpr hc.le)
      · linarith
    · intro h; exact Or.inr ⟨by linarith, hc⟩
  · rw [mul_eq_zero, or_iff_left hc.ne', sub_eq_zero, eq_comm]

/-- size of the growth rate for given coefficients: larger diffusivity and conductivity, faster growth or evaporation -/
theorem rdrdt_mono (D D' K K' rho T RH aw klv : ℝ) (hD : 0 < D) (hK : 0 < K) (hD' : D ≤ D') (hK' : K ≤ K') (hr : 0 < rho) (h0 : 0 < T)
    (h1 : T ≤ 1000) (hRH : 0 < RH) : |rdrdt D K rho T RH aw klv| ≤ |rdrdt D' K' rho T RH aw klv| := by
  have d1 := mm_den_pos D K rho T RH hD hK hr h0 h1 hRH
  have d2 := mm_den_pos D' K' rho T RH (hD.trans_le hD') (hK.trans_le hK') hr h0 h1 hRH
  unfold rdrdt
  rw [abs_div, abs_div _ (1 / D' / rho + _), abs_of_pos d1, abs_of_pos d2]
  refine div_le_div_of_nonneg_left (abs_nonneg _) d2 ?_
  obtain ⟨a, b⟩ := lv_gt T h0 h1
  have i1 : 1 / D' / rho ≤ 1 / D / rho := by gcongr
  have i2 : l_v T / K' / RH / T * (l_v T / R_v / T - 1) ≤ l_v T / K / RH / T * (l_v T / R_v / T - 1) := by gcongr
  linarith

/-- **C57 (ventilation).** Falling faster makes a droplet grow or evaporate faster, never changes the direction. -/
theorem drw2dt_vent (e : Env) (he : e.Ok) (v rw2 : ℝ) (hv : e.vt ≤ v) (h : 0 < rw2) :
    |drw2dt e rw2| ≤ |drw2dt { e with vt := v } rw2| ∧ (0 < drw2dt e rw2 ↔ 0 < drw2dt { e with vt := v } rw2) := by
  have he' : Env.Ok { e with vt := v } := ⟨he.rhod, he.rv, he.T0, he.T1, he.RH, he.eta, he.vt.trans hv, he.lamD, he.lamK, he.RHmax⟩
  refine ⟨?_, by rw [(drw2dt_sign e he rw2 h).1, (drw2dt_sign _ he' rw2 h).1]⟩
  have hs : 0 < Real.sqrt rw2 := Real.sqrt_pos.mpr h
  have hre : ReN e (Real.sqrt rw2) ≤ ReN { e with vt := v } (Real.sqrt rw2) := by
    unfold ReN
    simp only
    have := he.rhod; have := he.eta
    gcongr
  have hD : diffD e (Real.sqrt rw2) ≤ diffD { e with vt := v } (Real.sqrt rw2) := by
    unfold diffD
    have h1 := (beta_range (e.lamD / Real.sqrt rw2) (div_nonneg he.lamD hs.le)).1
    have h2 := Nu_mono (ScN e) _ _ (ScN_nonneg e he) (ReN_nonneg e he _ hs.le) hre
    have h3 := D_0_pos
    have h4 : ScN { e with vt := v } = ScN e := rfl
    rw [h4]
    simp only
    gcongr
  have hK : condK e (Real.sqrt rw2) ≤ condK { e with vt := v } (Real.sqrt rw2) := by
    unfold condK
    have h1 := (beta_range (e.lamK / Real.sqrt rw2) (div_nonneg he.lamK hs.le)).1
    have h2 := Nu_mono (PrN e) _ _ (PrN_nonneg e he) (ReN_nonneg e he _ hs.le) hre
    have h3 := K_0_pos
    have h4 : PrN { e with vt := v } = PrN e := rfl
    rw [h4]
    simp only
    gcongr
  have hl : RHlim { e with vt := v } = RHlim e := rfl
  unfold drw2dt
  simp only [abs_mul, hl]
  refine mul_le_mul_of_nonneg_left ?_ (abs_nonneg _)
  exact rdrdt_mono _ _ _ _ _ _ _ _ _ (diffD_pos e he _ hs) (condK_pos e he _ hs) hD hK (mul_pos he.rhod he.rv) he.T0 he.T1
    (RHlim_pos e he)

/-- **C57 (dry particles).** A particle without water takes up water in any humid air. -/
theorem dry_grows (e : Env) (he : e.Ok) (hd : 0 < e.rd3) : 0 < drw2dt e (cbrt e.rd3 ^ 2) := by
  have hc := cbrt_pos e.rd3 hd
  rw [(drw2dt_sign e he _ (by positivity)).1, Real.sqrt_sq hc.le]
  unfold koehler
  rw [cbrt_cube _ hd.le, sub_self, zero_div, zero_mul]
  exact lt_min he.RH he.RHmax

theorem beta_cont (x : ℝ) (h : 0 ≤ x) : ContinuousAt beta x := by
  unfold beta
  have : (1 + 1.71 * x + 1.33 * x * x) ≠ 0 := by positivity
  fun_prop (disch := assumption)

theorem Nu_cont (Pr x : ℝ) (hP : 0 ≤ Pr) (h : 0 ≤ x) : ContinuousAt (Nu Pr) x := by
  have h0 : 0 < 1 + x * Pr := by positivity
  have hev : Nu Pr =ᶠ[nhds x] fun y => 1 + (1 + y * Pr) ^ (1 / 3 : ℝ) * max 1 ((max y 0) ^ (0.077 : ℝ)) := by
    have hc : ContinuousAt (fun y : ℝ => 1 + y * Pr) x := by fun_prop
    filter_upwards [hc.eventually (lt_mem_nhds h0)] with y hy
    unfold Nu cbrtS cbrt
    rw [if_neg (not_lt.2 hy.le)]
    split_ifs with hy'
    · rw [max_eq_right hy'.le, Real.zero_rpow (by norm_num), max_eq_left zero_le_one]
    · rw [max_eq_left (not_lt.1 hy')]
  refine ContinuousAt.congr ?_ hev.symm
  refine continuousAt_const.add (ContinuousAt.mul ?_ ?_)
  · refine ContinuousAt.rpow_const (by fun_prop) (Or.inl h0.ne')
  · exact continuousAt_const.max (ContinuousAt.rpow_const (by fun_prop) (Or.inr (by norm_num)))

/-- the growth rate depends continuously on the size -/
theorem drw2dt_cont (e : Env) (he : e.Ok) (hd : 0 < e.rd3) (hk : 0 < e.kpa) :
    ContinuousOn (drw2dt e) (Set.Ici (cbrt e.rd3 ^ 2)) := by
  intro x hx
  refine ContinuousAt.continuousWithinAt ?_
  have hc := cbrt_pos e.rd3 hd
  have hx0 : 0 < x := lt_of_lt_of_le (by positivity) (Set.mem_Ici.mp hx)
  have hs : 0 < Real.sqrt x := Real.sqrt_pos.mpr hx0
  have hcs : cbrt e.rd3 ≤ Real.sqrt x := by
    rw [← Real.sqrt_sq hc.le]; exact Real.sqrt_le_sqrt hx
  have hx3 : e.rd3 ≤ Real.sqrt x * Real.sqrt x * Real.sqrt x := by
    rw [← cbrt_cube e.rd3 hd.le]
    calc cbrt e.rd3 ^ 3 ≤ Real.sqrt x ^ 3 := pow_le_pow_left₀ hc.le hcs 3
      _ = _ := by ring
  have cs : ContinuousAt Real.sqrt x := Real.continuous_sqrt.continuousAt
  have cRe : ContinuousAt (fun y => ReN e (Real.sqrt y)) x := by
    unfold ReN; fun_prop
  have cD : ContinuousAt (fun y => diffD e (Real.sqrt y)) x := by
    unfold diffD
    refine (continuousAt_const.mul ?_).mul (ContinuousAt.div_const ?_ _)
    · exact ContinuousAt.comp (f := fun y => e.lamD / Real.sqrt y) (beta_cont _ (div_nonneg he.lamD hs.le))
        (continuousAt_const.div cs hs.ne')
    · exact ContinuousAt.comp (f := fun y => ReN e (Real.sqrt y)) (Nu_cont _ _ (ScN_nonneg e he) (ReN_nonneg e he _ hs.le)) cRe
  have cK : ContinuousAt (fun y => condK e (Real.sqrt y)) x := by
    unfold condK
    refine (continuousAt_const.mul ?_).mul (ContinuousAt.div_const ?_ _)
    · exact ContinuousAt.comp (f := fun y => e.lamK / Real.sqrt y) (beta_cont _ (div_nonneg he.lamK hs.le))
        (continuousAt_const.div cs hs.ne')
    · exact ContinuousAt.comp (f := fun y => ReN e (Real.sqrt y)) (Nu_cont _ _ (PrN_nonneg e he) (ReN_nonneg e he _ hs.le)) cRe
  have caw : ContinuousAt (fun y => a_w (Real.sqrt y * Real.sqrt y * Real.sqrt y) e.rd3 e.kpa) x := by
    unfold a_w
    refine ContinuousAt.div (by fun_prop) (by fun_prop) ?_
    have : 0 < e.rd3 * e.kpa := mul_pos hd hk
    nlinarith
  have ckl : ContinuousAt (fun y => klvntrm (Real.sqrt y) e.T) x := by
    unfold klvntrm
    exact Real.continuous_exp.continuousAt.comp (f := fun y => kelvinA e.T / Real.sqrt y) (continuousAt_const.div cs hs.ne')
  have hR := RHlim_pos e he
  have hden := mm_den_pos (diffD e (Real.sqrt x)) (condK e (Real.sqrt x)) (e.rhod * e.rv) e.T (RHlim e) (diffD_pos e he _ hs)
    (condK_pos e he _ hs) (mul_pos he.rhod he.rv) he.T0 he.T1 hR
  unfold drw2dt rdrdt
  simp only
  refine continuousAt_const.mul (ContinuousAt.div ?_ ?_ hden.ne')
  · exact ((continuousAt_const.sub ((caw.mul ckl).div_const _)).div_const _)
  · refine ContinuousAt.add ?_ (ContinuousAt.mul ?_ continuousAt_const)
    · exact (continuousAt_const.div cD (diffD_pos e he _ hs).ne').div_const _
    · exact ((continuousAt_const.div cK (condK_pos e he _ hs).ne').div_const _).div_const _

end LCP.Cond
