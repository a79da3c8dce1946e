import Verif.Blk1m.RhsProps

/-!
# Non-negativity of the species under the single-moment tendencies (C41)
-/
namespace LCP.Blk1m
open LCP.Common

theorem autoconv_range (rc thr k : ℝ) (hrc : 0 ≤ rc) (ht : 0 ≤ thr) (hk : 0 ≤ k) :
    0 ≤ autoconversion rc thr k ∧ autoconversion rc thr k ≤ k * rc := by
  unfold autoconversion
  have h1 : 0 ≤ max 0 (rc - thr) := le_max_left _ _
  have h2 : max 0 (rc - thr) ≤ rc := max_le hrc (by linarith)
  exact ⟨by positivity, mul_le_mul_of_nonneg_left h2 hk⟩

/-- rate of the conversion cloud water → rain -/
theorem warm_rate (o : Opts) (c : Cell) (d : Dots) (hrc : 0 ≤ c.rc) (hrr : 0 ≤ c.rr) (ht : 0 ≤ o.r_c0) (hk : 0 ≤ o.k_acnv) :
    ∃ x, 0 ≤ x ∧ x ≤ c.rc * (o.k_acnv + 2.2 * c.rr ^ (0.875 : ℝ)) ∧ (rhsWarm o c d).rc = d.rc - x ∧
      (rhsWarm o c d).rr = d.rr + x := by
  obtain ⟨a1, a2⟩ := autoconv_range c.rc o.r_c0 o.k_acnv hrc ht hk
  have hp : 0 ≤ c.rr ^ (0.875 : ℝ) := Real.rpow_nonneg hrr _
  have b1 : 0 ≤ collection c.rc c.rr := by unfold collection; positivity
  refine ⟨_, ?_, ?_, rfl, rfl⟩
  · split_ifs <;> linarith
  · have hm : 0 ≤ c.rc * (2.2 * c.rr ^ (0.875 : ℝ)) := by positivity
    have hm2 : 0 ≤ c.rc * o.k_acnv := by positivity
    have e : collection c.rc c.rr = c.rc * (2.2 * c.rr ^ (0.875 : ℝ)) := by unfold collection; ring
    rw [mul_add, e]
    split_ifs <;> nlinarith

/-- **C41 (warm rain, partial).** Cloud and rain water stay non-negative if `dt (k_acnv + 2.2 rr^0.875) ≤ 1`; rain always. -/
theorem warm_nonneg_partial (o : Opts) (c : Cell) (d : Dots) (dt : ℝ) (hdt : 0 ≤ dt) (hrc : 0 ≤ c.rc) (hrr : 0 ≤ c.rr)
    (ht : 0 ≤ o.r_c0) (hk : 0 ≤ o.k_acnv) :
    0 ≤ c.rr + dt * ((rhsWarm o c d).rr - d.rr) ∧
    (dt * (o.k_acnv + 2.2 * c.rr ^ (0.875 : ℝ)) ≤ 1 → 0 ≤ c.rc + dt * ((rhsWarm o c d).rc - d.rc)) := by
  obtain ⟨x, h1, h2, h3, h4⟩ := warm_rate o c d hrc hrr ht hk
  rw [h3, h4]
  constructor
  · have : 0 ≤ dt * x := by positivity
    linarith
  · intro h
    have : dt * x ≤ dt * (c.rc * (o.k_acnv + 2.2 * c.rr ^ (0.875 : ℝ))) := mul_le_mul_of_nonneg_left h2 hdt
    have : c.rc * (dt * (o.k_acnv + 2.2 * c.rr ^ (0.875 : ℝ))) ≤ c.rc * 1 := mul_le_mul_of_nonneg_left h hrc
    nlinarith

/-- the condition holds e.g. for dt = 1 s and rr = 1 g/kg -/
example : (1 : ℝ) * (0.001 + 2.2 * (0.001 : ℝ) ^ (0.875 : ℝ)) ≤ 1 := by
  have : (0.001 : ℝ) ^ (0.875 : ℝ) ≤ (0.001 : ℝ) ^ (0.5 : ℝ) := Real.rpow_le_rpow_of_exponent_ge (by norm_num) (by norm_num) (by norm_num)
  have h2 : (0.001 : ℝ) ^ (0.5 : ℝ) ≤ 0.1 := by
    rw [show (0.5 : ℝ) = 1 / 2 by norm_num, ← Real.sqrt_eq_rpow, Real.sqrt_le_left (by norm_num)]
    norm_num
  have h3 := this.trans h2
  linarith

/-- a cell with rain and cloud water -/
noncomputable def rainyCell : Cell := ⟨1, 1e5, 290, 0.01, 1e-3, 1e-2, 0, 0⟩

/-- **C41, negation (warm rain).** With default options and dt = 100 s the tendencies remove more cloud water than there is. -/
theorem warm_negative : rainyCell.rc + 100 * ((rhsWarm {} rainyCell ⟨0, 0, 0, 0, 0, 0⟩).rc - 0) < 0 := by
  unfold rhsWarm rainyCell autoconversion collection
  simp only [if_true]
  have h : (0.01 : ℝ) ≤ (1e-2 : ℝ) ^ (0.875 : ℝ) := by
    calc (0.01 : ℝ) = (1e-2 : ℝ) ^ (1 : ℝ) := by rw [Real.rpow_one]
      _ ≤ (1e-2 : ℝ) ^ (0.875 : ℝ) := Real.rpow_le_rpow_of_exponent_ge (by norm_num) (by norm_num) (by norm_num)
  have h1 : (0:ℝ) ≤ max 0 (1e-3 - 5e-4) := le_max_left _ _
  norm_num at *
  linarith

theorem evaporation_nonneg (rv rvs rr rhod p : ℝ) (h1 : rv ≤ rvs) (h2 : 0 < rvs) (h3 : 0 ≤ rr) (h4 : 0 < rhod) (h5 : 0 < p) :
    0 ≤ evaporation rv rvs rr rhod p := by
  unfold evaporation
  have : 0 ≤ 1 - rv / rvs := by rw [sub_nonneg, div_le_one h2]; exact h1
  have h6 : (0:ℝ) ≤ 1e-3 * rhod * rr := by positivity
  have : 0 ≤ (1e-3 * rhod * rr) ^ (0.525 : ℝ) := Real.rpow_nonneg h6 _
  have : 0 ≤ (1e-3 * rhod * rr) ^ (0.2046 : ℝ) := Real.rpow_nonneg h6 _
  positivity

/-- **C41 (rain evaporation, partial).** Rain never becomes negative; vapour does not in subsaturated air. -/
theorem revap_nonneg_partial (o : Opts) (dt : ℝ) (c : Cell) (d d' : Dots) (T p : ℝ) (hT : Tp o c.rhod c.p c.th c.rv = some (T, p))
    (hp : p_vs T < p) (hrho : 0 < c.rhod) (hdt : 0 < dt) (hrc : 0 ≤ c.rc) (hrr : 0 ≤ c.rr) (hrv : 0 ≤ c.rv)
    (ht : 0 ≤ o.r_c0) (hk : 0 ≤ o.k_acnv) (h : rhsRevap o dt c d = some d') :
    0 ≤ c.rr + dt * (d'.rr - d.rr) ∧ (c.rv ≤ r_vs T p → 0 ≤ c.rv + dt * (d'.rv - d.rv)) := by
  obtain ⟨x, h1, h2, h3, h4⟩ := warm_rate o c d hrc hrr ht hk
  unfold rhsRevap at h
  simp only [hT, Option.some.injEq] at h
  subst h
  simp only
  rw [h4]
  have hv : (rhsWarm o c d).rv = d.rv := rfl
  constructor
  · have hm : dt * min (c.rr / dt) (evaporation c.rv (r_vs T p) c.rr c.rhod p * dt) ≤ c.rr := by
      have := mul_le_mul_of_nonneg_left (min_le_left (c.rr / dt) (evaporation c.rv (r_vs T p) c.rr c.rhod p * dt)) hdt.le
      rwa [mul_div_cancel₀ _ hdt.ne'] at this
    have : 0 ≤ dt * x := by positivity
    linarith
  · intro hs
    have he := evaporation_nonneg c.rv (r_vs T p) c.rr c.rhod p hs (r_vs_pos T p hp) hrr hrho ((p_vs_pos T).trans hp)
    have : 0 ≤ min (c.rr / dt) (evaporation c.rv (r_vs T p) c.rr c.rhod p * dt) := le_min (by positivity) (by positivity)
    rw [hv]
    have : 0 ≤ dt * (min (c.rr / dt) (evaporation c.rv (r_vs T p) c.rr c.rhod p * dt)) := by positivity
    linarith

/-- **C41 (ice, partial).** With the RK4 saturation adjustment and air not subsaturated over ice, rain and both ice species
stay non-negative for every time step; vapour does too if there is no ice B. -/
theorem ice_nonneg_partial (epsm oob : ℝ) (o : Opts) (dt : ℝ) (c : Cell) (d d' : Dots) (T p : ℝ)
    (hT : Tp o c.rhod c.p c.th c.rv = some (T, p)) (hadj : o.adj_nwtrph = false)
    (hrho : 0 < c.rhod) (hdt : 0 < dt) (he : 0 < epsm) (hrv : 0 ≤ c.rv) (hrc : 0 ≤ c.rc) (hrr : 0 ≤ c.rr) (hria : 0 ≤ c.ria)
    (hrib : 0 ≤ c.rib) (ht : 0 ≤ o.r_c0) (hk : 0 ≤ o.k_acnv) (hi : r_vsi T p ≤ r_vs T p) (hs : r_vsi T p ≤ c.rv)
    (h : rhsIce epsm oob o dt c d = some d') :
    0 ≤ c.rr + dt * (d'.rr - d.rr) ∧ 0 ≤ c.ria + dt * (d'.ria - d.ria) ∧ 0 ≤ c.rib + dt * (d'.rib - d.rib) ∧
    (c.rib = 0 → 0 ≤ c.rv + dt * (d'.rv - d.rv)) := by
  obtain ⟨x, w1, w2, w3, w4⟩ := warm_rate o c d hrc hrr ht hk
  obtain ⟨r1, r2, r3, r4, r5, r6, r7, r8, r9, r10, r11, -⟩ :=
    rates_nonneg epsm oob c.ria c.rib c.rc c.rr c.rv (r_vs T p) (r_vsi T p) T c.rhod dt hrc hrr hria hrib hrho hdt he
  obtain ⟨r11, r12⟩ := r11 hi hs
  unfold rhsIce at h
  simp only [hadj, Bool.false_eq_true, if_false, hT, Option.some.injEq] at h
  subst h
  have lim : ∀ a y : ℝ, 0 ≤ a → 0 ≤ y → 0 ≤ min (a / dt) y ∧ dt * min (a / dt) y ≤ a := by
    intro a y ha hy
    refine ⟨le_min (by positivity) hy, ?_⟩
    have := mul_le_mul_of_nonneg_left (min_le_left (a / dt) y) hdt.le
    rwa [mul_div_cancel₀ _ hdt.ne'] at this
  have z : ∀ (b : Bool) (y : ℝ), 0 ≤ y → 0 ≤ (if b = true then y else 0) := by
    intro b y hy; split_ifs <;> first | exact hy | exact le_refl _
  -- the eight transfers
  have t1 := lim c.rv _ hrv (add_nonneg (z o.homA1 _ r1) (z o.depA _ r11))
  have t2 := lim c.rv _ hrv (z o.depB _ r12)
  have t3 := lim c.rc _ hrc (add_nonneg (add_nonneg (z o.hetA _ r3) (z o.homA2 _ r2)) (z o.rimA _ r8))
  have t4 := lim c.rc _ hrc (z o.rimB _ r9)
  have t5 := lim c.rr _ hrr (add_nonneg (z o.hetB _ r4) (z o.rimB _ r10))
  have t6 := lim c.ria _ hria (z o.hetB _ r5)
  have t7 := lim c.ria _ hria (z o.melA _ r6)
  have t8 := lim c.rib _ hrib (z o.melB _ r7)
  have excl : (if o.hetB = true then hetB2 c.rr c.ria T c.rhod else 0) = 0 ∨ (if o.melA = true then meltA c.ria T c.rhod dt else 0) = 0 := by
    rcases lt_trichotomy T 273.16 with hlt | heq | hgt
    · right
      unfold meltA
      rw [if_pos (Or.inr hlt), ite_self]
    · right
      have : meltA c.ria T c.rhod dt = 0 := by
        unfold meltA
        split_ifs
        · rfl
        · simp only
          rw [heq, sub_self, max_self]
          simp only [mul_zero, zero_mul, zero_div]
          exact min_eq_right (by positivity)
      rw [this, ite_self]
    · left
      unfold hetB2
      rw [if_pos (Or.inr (Or.inr hgt)), ite_self]
  have w5 : (rhsWarm o c d).ria = d.ria := rfl
  have w6 : (rhsWarm o c d).rib = d.rib := rfl
  have w7 : (rhsWarm o c d).rv = d.rv := rfl
  refine ⟨?_, ?_, ?_, ?_⟩
  · simp only
    rw [w4]
    have := mul_nonneg hdt.le t7.1
    have := mul_nonneg hdt.le t8.1
    have := mul_nonneg hdt.le w1
    linarith [t5.2]
  · simp only
    rw [w5]
    have := mul_nonneg hdt.le t3.1
    have := mul_nonneg hdt.le t1.1
    have hz : min (c.ria / dt) 0 = 0 := min_eq_right (by positivity)
    have both : dt * min (c.ria / dt) (if o.hetB = true then hetB2 c.rr c.ria T c.rhod else 0) +
        dt * min (c.ria / dt) (if o.melA = true then meltA c.ria T c.rhod dt else 0) ≤ c.ria := by
      rcases excl with h0 | h0
      · rw [h0, hz, mul_zero, zero_add]; exact t7.2
      · rw [h0, hz, mul_zero, add_zero]; exact t6.2
    linarith
  · simp only
    rw [w6]
    have := mul_nonneg hdt.le t2.1
    have := mul_nonneg hdt.le t4.1
    have := mul_nonneg hdt.le t5.1
    have := mul_nonneg hdt.le t6.1
    linarith [t8.2]
  · intro h0
    simp only
    rw [w7]
    have : depB epsm oob c.rib c.rv (r_vs T p) (r_vsi T p) T c.rhod = 0 := by unfold depB; rw [if_pos (Or.inl h0)]
    rw [this, ite_self, min_eq_right (by positivity : (0:ℝ) ≤ c.rv / dt)]
    linarith [t1.2]

/-- a very cold cell with cloud water and no ice -/
noncomputable def coldCell : Cell := ⟨1, 1e5, 230, 0, 1e-3, 0, 0, 0⟩

/-- **C41, negation (ice).** Each transfer is limited by its own source, but not their sum: at -43 C, with dt = 2 s and the RK4
variant, homogeneous freezing takes all cloud water and autoconversion takes some more. -/
theorem ice_negative_cloud (epsm oob : ℝ) (d' : Dots)
    (h : rhsIce epsm oob { adj_nwtrph := false, th_dry := false, const_p := true } 2 coldCell ⟨0, 0, 0, 0, 0, 0⟩ = some d') :
    coldCell.rc + 2 * (d'.rc - 0) < 0 := by
  have hex : exner 1e5 = 1 := by
    unfold exner p_1000
    rw [show (1e5 : ℝ) / 100000 = 1 by norm_num, Real.one_rpow]
  unfold rhsIce Tp at h
  simp only [coldCell, Bool.false_eq_true, if_false, Bool.not_true, Bool.not_false, Bool.false_and, Bool.and_self, if_true, hex,
    mul_one, Option.some.injEq] at h
  subst h
  simp only [coldCell, rhsWarm, if_true]
  have h1 : homA2 1e-3 230 = (1 - Real.exp (-1)) * 1e-3 := by
    unfold homA2; rw [if_pos (by norm_num)]
  have h2 : 0 ≤ hetA 0 1e-3 230 1 := by
    unfold hetA
    split_ifs
    · exact le_refl _
    · exact mul_nonneg omexp_nonneg.1 (le_min (by norm_num) (le_max_left _ _))
  have h3 : rimA epsm oob 0 1e-3 0 (r_vs 230 1e5) (r_vsi 230 1e5) 230 1 = 0 := by unfold rimA; rw [if_pos (Or.inl rfl)]
  have h4 : rimB1 epsm oob 0 1e-3 0 0 (r_vs 230 1e5) (r_vsi 230 1e5) 230 1 = 0 := by
    unfold rimB1 rimB; rw [if_pos (Or.inl rfl), mul_zero]
  have he : Real.exp (-1) ≤ 1 / 2 := by
    rw [Real.exp_neg, inv_le_comm₀ (Real.exp_pos _) (by norm_num)]
    have := Real.add_one_le_exp (1 : ℝ)
    norm_num at this ⊢; linarith
  have hmin : min ((1e-3 : ℝ) / 2) (hetA 0 1e-3 230 1 + homA2 1e-3 230 + rimA epsm oob 0 1e-3 0 (r_vs 230 1e5) (r_vsi 230 1e5) 230 1) = 1e-3 / 2 := by
    apply min_eq_left
    rw [h1, h3]
    have : (1 - Real.exp (-1)) * 1e-3 ≥ 1 / 2 * 1e-3 := mul_le_mul_of_nonneg_right (by linarith) (by norm_num)
    linarith
  rw [hmin, h4]
  have h5 : autoconversion 1e-3 5e-4 0.001 = 5e-7 := by
    unfold autoconversion
    rw [max_eq_right (by norm_num)]; norm_num
  have h6 : collection 1e-3 0 = 0 := by
    unfold collection
    rw [Real.zero_rpow (by norm_num), mul_zero]
  rw [h5, h6, min_eq_right (by norm_num)]
  norm_num

theorem p_vs_le_tri (T : ℝ) (h0 : 0 < T) (h1 : T ≤ T_tri) : p_vs T ≤ p_tri := by
  unfold p_vs
  have hR := R_v_pos
  have hT := T_tri_pos
  refine mul_le_of_le_one_right p_tri_pos.le (Real.exp_le_one_iff.2 ?_)
  have hl : 1 - T_tri / T ≤ Real.log (T / T_tri) := by
    have := Real.one_sub_inv_le_log_of_pos (show 0 < T / T_tri by positivity)
    rwa [inv_div] at this
  have hk : 0 < (c_pw - c_pv) / R_v := by
    apply div_pos _ hR; norm_num [c_pw, c_pv]
  have h3 := mul_le_mul_of_nonneg_left hl hk.le
  have h4 : (l_tri + (c_pw - c_pv) * T_tri) / R_v * (1 / T_tri - 1 / T) - (c_pw - c_pv) / R_v * (1 - T_tri / T) =
      l_tri / R_v * (1 / T_tri - 1 / T) := by field_simp; ring
  have h5 : 1 / T_tri - 1 / T ≤ 0 := by
    rw [sub_nonpos]; exact one_div_le_one_div_of_le h0 h1
  have h6 : l_tri / R_v * (1 / T_tri - 1 / T) ≤ 0 :=
    mul_nonpos_of_nonneg_of_nonpos (div_nonneg (by norm_num [l_tri]) hR.le) h5
  linarith

/-- dry air at -10 C with some ice B -/
noncomputable def dryIceCell : Cell := ⟨1, 1e5, 263.16, 0, 0, 0, 0, 1e-5⟩

/-- **C41, negation (sublimation).** Negative deposition is not limited by the ice present: for a long enough time step ice B
becomes negative. -/
theorem sublimation_negative (epsm oob : ℝ) (hes : 0 < epsm) : ∃ dt0, ∀ dt > dt0, ∃ d',
    rhsIce epsm oob { adj_nwtrph := false, th_dry := false, const_p := true } dt dryIceCell ⟨0, 0, 0, 0, 0, 0⟩ = some d' ∧
    dryIceCell.rib + dt * (d'.rib - 0) < 0 := by
  have hex : exner 1e5 = 1 := by
    unfold exner p_1000
    rw [show (1e5 : ℝ) / 100000 = 1 by norm_num, Real.one_rpow]
  have hTt : T_tri = 273.16 := rfl
  have hpv : p_vs 263.16 < 1e5 := by
    refine lt_of_le_of_lt (p_vs_le_tri 263.16 (by norm_num) (by rw [hTt]; norm_num)) (by norm_num [p_tri])
  have hlt := r_vsi_lt_r_vs 263.16 1e5 (by norm_num) (by rw [hTt]; norm_num) hpv
  have hsi : 0 < r_vsi 263.16 1e5 := by
    have h1 := p_vsi_lt_p_vs 263.16 (by norm_num) (by rw [hTt]; norm_num)
    unfold r_vsi
    apply div_pos eps_pos
    rw [sub_pos, lt_div_iff₀ (p_vsi_pos _)]
    linarith
  have htt : ttcoe 263.16 = -10 := by unfold ttcoe; norm_num
  have hi : index1 263.16 = 10 := by unfold index1; rw [htt]; norm_num
  have hal : 0 < coeffAlpha oob 263.16 := by
    unfold coeffAlpha interpTab
    simp only [hi, htt]
    norm_num [alphaList]
  have hm := massB_pos epsm 1e-5 1
  have hneg : depB epsm oob 1e-5 0 (r_vs 263.16 1e5) (r_vsi 263.16 1e5) 263.16 1 < 0 := by
    unfold depB
    rw [if_neg (by norm_num)]
    apply mul_neg_of_pos_of_neg (by positivity)
    unfold dmAE
    have h5 : 0 < (massB epsm 1e-5 1 * 1e3) ^ coeffBeta oob 263.16 := Real.rpow_pos_of_pos (by positivity) _
    have h6 : 1e-3 * (0 - r_vsi 263.16 1e5) / (r_vs 263.16 1e5 - r_vsi 263.16 1e5 + epsm) < 0 :=
      div_neg_of_neg_of_pos (by norm_num; linarith) (by linarith)
    exact mul_neg_of_neg_of_pos (mul_neg_of_neg_of_pos h6 hal) h5
  generalize hk : depB epsm oob 1e-5 0 (r_vs 263.16 1e5) (r_vsi 263.16 1e5) 263.16 1 = k at hneg
  refine ⟨max 1 (1e-5 / (-k)), ?_⟩
  intro dt hdt
  have hd1 : 1 < dt := lt_of_le_of_lt (le_max_left _ _) hdt
  have hd2 : 1e-5 / (-k) < dt := lt_of_le_of_lt (le_max_right _ _) hdt
  have hd0 : 0 < dt := by linarith
  refine ⟨_, by unfold rhsIce Tp; simp only [dryIceCell, Bool.false_eq_true, if_false, Bool.not_true, Bool.not_false, Bool.false_and, Bool.and_self, if_true, hex, mul_one]; rfl, ?_⟩
  simp only [dryIceCell, rhsWarm, if_true, hk]
  have e1 : hetB1 0 0 263.16 1 = 0 := by unfold hetB1; rw [if_pos (Or.inl rfl)]
  have e2 : hetB2 0 0 263.16 1 = 0 := by unfold hetB2; rw [if_pos (Or.inl rfl)]
  have e3 : meltB epsm 1e-5 263.16 1 dt = 0 := by unfold meltB; rw [if_pos (Or.inr (by norm_num))]
  rw [e1, e2, e3]
  simp only [zero_div, min_self, zero_add, add_zero, sub_zero]
  rw [min_eq_right (by positivity : (0:ℝ) ≤ 1e-5 / dt), min_eq_right hneg.le]
  have hb1 : min (0:ℝ) (rimB2 epsm oob 1e-5 0 0 0 (r_vs 263.16 1e5) (r_vsi 263.16 1e5) 263.16 1) ≤ 0 := min_le_left _ _
  have hb2 : min (0:ℝ) (rimB1 epsm oob 1e-5 0 0 0 (r_vs 263.16 1e5) (r_vsi 263.16 1e5) 263.16 1) ≤ 0 := min_le_left _ _
  have h7 : 1e-5 < dt * (-k) := by rwa [div_lt_iff₀ (by linarith)] at hd2
  nlinarith

end LCP.Blk1m
