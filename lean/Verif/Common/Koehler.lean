import Verif.Common.Props
import Mathlib.Analysis.Calculus.Deriv.MeanValue
import Mathlib.Analysis.Calculus.Deriv.Pow
import Mathlib.Topology.Order.IntermediateValue
import Mathlib.Analysis.SpecialFunctions.Pow.Continuity

/-!
# The kappa-Koehler curve: equilibrium and critical wet radii

What the root searches of `rw3_eq` and `rw3_cr` look for, and that the brackets given to them enclose it.
-/
namespace LCP.Common

/-! ### Specification: the Koehler curve as a function of wet radius -/

/-- saturation ratio over a solution drop: water activity times the Kelvin term, `S(x) = (x³-d)/(x³-d(1-κ)) exp(A/x)` with
`d` the dry radius cubed -/
noncomputable def koehler (d kappa T x : ℝ) : ℝ := (x ^ 3 - d) / (x ^ 3 - d * (1 - kappa)) * Real.exp (kelvinA T / x)

theorem kelvinA_pos (T : ℝ) (h0 : 0 < T) (h1 : T < 791) : 0 < kelvinA T := by
  have h2 := R_v_pos; have h3 := rho_w_pos
  have : 0 < sg_surf T := by unfold sg_surf; norm_num; linarith
  unfold kelvinA; positivity

theorem cbrt_cube (x : ℝ) (h : 0 ≤ x) : cbrt x ^ 3 = x := by
  unfold cbrt
  rw [← Real.rpow_natCast, ← Real.rpow_mul h]; norm_num

theorem cube_cbrt (x : ℝ) (h : 0 ≤ x) : cbrt (x ^ 3) = x := by
  unfold cbrt
  rw [← Real.rpow_natCast, ← Real.rpow_mul h]; norm_num

theorem cbrt_pos (x : ℝ) (h : 0 < x) : 0 < cbrt x := Real.rpow_pos_of_pos h _

theorem cbrt_lt (x y : ℝ) (h : 0 ≤ x) (hxy : x < y) : cbrt x < cbrt y :=
  Real.rpow_lt_rpow h hxy (by norm_num)

theorem cube_lt (a b : ℝ) (ha : 0 ≤ a) (h : a < b) : a ^ 3 < b ^ 3 := pow_lt_pow_left₀ h ha (by norm_num)

/-- the function whose root `rw3_eq` seeks is `RH` minus the Koehler curve -/
theorem eq_minfun_eq (RH d kappa T v : ℝ) (hv : 0 ≤ v) : rw3_eq_minfun RH d kappa T v = RH - koehler d kappa T (cbrt v) := by
  unfold rw3_eq_minfun koehler a_w klvntrm
  rw [cbrt_cube v hv]

/-- **C48 (equilibrium radius).** For kappa > 0, 0 < RH < 1 and T < 791 K the interval given to the root search by `rw3_eq`,
from the dry volume to the equilibrium volume without the Kelvin effect, is non-empty, the function has opposite
signs at its ends, and every zero lies strictly inside. -/
theorem rw3_eq_bracket (d kappa RH T : ℝ) (hd : 0 < d) (hk : 0 < kappa) (hR0 : 0 < RH) (hR1 : RH < 1) (hT0 : 0 < T) (hT1 : T < 791) :
    d < rw3_eq_nokelvin d kappa RH ∧ 0 < rw3_eq_minfun RH d kappa T d ∧ rw3_eq_minfun RH d kappa T (rw3_eq_nokelvin d kappa RH) < 0 ∧
    ∀ v, d ≤ v → rw3_eq_minfun RH d kappa T v = 0 → d < v ∧ v < rw3_eq_nokelvin d kappa RH := by
  have hA := kelvinA_pos T hT0 hT1
  have h1 : 0 < 1 - RH := by linarith
  have hlt : d < rw3_eq_nokelvin d kappa RH := by
    unfold rw3_eq_nokelvin
    rw [lt_div_iff₀ h1]
    nlinarith [mul_pos (mul_pos hd hR0) hk]
  have hz : rw3_eq_minfun RH d kappa T d = RH := by simp [rw3_eq_minfun, a_w]
  -- above the no-Kelvin volume the activity is at least RH
  have haw : ∀ v, rw3_eq_nokelvin d kappa RH ≤ v → RH ≤ a_w v d kappa := by
    intro v hv
    have hdv : d < v := lt_of_lt_of_le hlt hv
    have hden : 0 < v - d * (1 - kappa) := by nlinarith [mul_pos hd hk]
    unfold a_w
    rw [le_div_iff₀ hden]
    unfold rw3_eq_nokelvin at hv
    rw [div_le_iff₀ h1] at hv
    nlinarith
  have hneg : ∀ v, rw3_eq_nokelvin d kappa RH ≤ v → rw3_eq_minfun RH d kappa T v < 0 := by
    intro v hv
    have hv0 : 0 < v := lt_of_lt_of_le (hd.trans hlt) hv
    have h2 := haw v hv
    have h3 : 1 < klvntrm (cbrt v) T := by
      unfold klvntrm
      exact Real.one_lt_exp_iff.2 (div_pos hA (cbrt_pos v hv0))
    unfold rw3_eq_minfun
    nlinarith
  refine ⟨hlt, by rw [hz]; exact hR0, hneg _ le_rfl, ?_⟩
  intro v hv h0
  constructor
  · rcases hv.eq_or_lt with rfl | h
    · rw [hz] at h0; linarith
    · exact h
  · by_contra hge
    have := hneg v (not_lt.1 hge)
    linarith

/-- the function of `rw3_eq` is continuous on the bracket, hence a zero exists -/
theorem rw3_eq_exists (d kappa RH T : ℝ) (hd : 0 < d) (hk : 0 < kappa) (hR0 : 0 < RH) (hR1 : RH < 1) (hT0 : 0 < T) (hT1 : T < 791) :
    ∃ v, d < v ∧ v < rw3_eq_nokelvin d kappa RH ∧ rw3_eq_minfun RH d kappa T v = 0 := by
  obtain ⟨h1, h2, h3, h4⟩ := rw3_eq_bracket d kappa RH T hd hk hR0 hR1 hT0 hT1
  have hc : ContinuousOn (rw3_eq_minfun RH d kappa T) (Set.Icc d (rw3_eq_nokelvin d kappa RH)) := by
    unfold rw3_eq_minfun a_w klvntrm cbrt
    apply ContinuousOn.sub continuousOn_const
    apply ContinuousOn.mul
    · apply ContinuousOn.div (by fun_prop) (by fun_prop)
      intro x hx
      have := hx.1
      have : 0 < x - d * (1 - kappa) := by nlinarith [mul_pos hd hk]
      exact this.ne'
    · apply ContinuousOn.rexp
      apply ContinuousOn.div continuousOn_const
      · apply ContinuousOn.rpow_const continuousOn_id
        intro x hx
        right; norm_num
      · intro x hx
        exact (Real.rpow_pos_of_pos (lt_of_lt_of_le hd hx.1) _).ne'
  obtain ⟨v, hv, h0⟩ := intermediate_value_Icc' h1.le hc ⟨h3.le, h2.le⟩
  obtain ⟨h5, h6⟩ := h4 v hv.1 h0
  exact ⟨v, h5, h6, h0⟩

/-! ### Critical radius -/

/-- numerator of the derivative of the Koehler curve -/
noncomputable def crF (A d kappa x : ℝ) : ℝ := 3 * kappa * d * x ^ 4 - A * ((x ^ 3 - d) * (x ^ 3 - d * (1 - kappa)))

/-- the function whose root `rw3_cr` seeks is that numerator -/
theorem cr_minfun_eq (d kappa T v : ℝ) (hv : 0 ≤ v) : rw3_cr_minfun d kappa T v = crF (kelvinA T) d kappa (cbrt v) := by
  unfold rw3_cr_minfun crF
  have h3 := cbrt_cube v hv
  have h4 : cbrt v ^ 4 = v * cbrt v := by rw [pow_succ, h3]
  rw [h3, h4]; ring

theorem den_pos (d kappa x : ℝ) (hd : 0 < d) (hk : 0 < kappa) (hx : d < x ^ 3) : 0 < x ^ 3 - d * (1 - kappa) := by
  nlinarith [mul_pos hd hk]

/-- derivative of the Koehler curve -/
theorem koehler_deriv (d kappa T x : ℝ) (hd : 0 < d) (hk : 0 < kappa) (hx0 : 0 < x) (hx : d < x ^ 3) :
    HasDerivAt (koehler d kappa T)
      (Real.exp (kelvinA T / x) / (x ^ 2 * (x ^ 3 - d * (1 - kappa)) ^ 2) * crF (kelvinA T) d kappa x) x := by
  have hden := (den_pos d kappa x hd hk hx).ne'
  have hn : HasDerivAt (fun x : ℝ => x ^ 3 - d) (3 * x ^ 2) x := by
    simpa using (hasDerivAt_pow 3 x).sub_const d
  have hq : HasDerivAt (fun x : ℝ => x ^ 3 - d * (1 - kappa)) (3 * x ^ 2) x := by
    simpa using (hasDerivAt_pow 3 x).sub_const (d * (1 - kappa))
  have hi : HasDerivAt (fun x : ℝ => kelvinA T / x) (kelvinA T * -(x ^ 2)⁻¹) x := by
    simpa [div_eq_mul_inv] using (hasDerivAt_inv hx0.ne').const_mul (kelvinA T)
  have h := (hn.div hq hden).mul hi.exp
  refine h.congr_deriv ?_
  simp only [Pi.div_apply]
  unfold crF
  field_simp
  ring

/-- unimodality: once the numerator is non-positive, it is negative for every larger radius.  Needs kappa ≤ 30 -/
theorem crF_neg_after (A d kappa x y : ℝ) (hA : 0 < A) (hd : 0 < d) (hk : 0 < kappa) (hk2 : kappa ≤ 30) (hx0 : 0 < x) (hx : d < x ^ 3)
    (hxy : x < y) (hF : crF A d kappa x ≤ 0) : crF A d kappa y < 0 := by
  -- psi(x) = (x³-d)(x³-d(1-κ))/x⁴ is strictly increasing
  set psi : ℝ → ℝ := fun t => (t ^ 3 - d) * (t ^ 3 - d * (1 - kappa)) / t ^ 4 with hpsi
  have hder : ∀ t, 0 < t → HasDerivAt psi ((2 * (t ^ 3) ^ 2 - (kappa - 2) * d * t ^ 3 + 4 * (kappa - 1) * d ^ 2) / t ^ 5) t := by
    intro t ht
    have h1 : HasDerivAt (fun t : ℝ => t ^ 3 - d) (3 * t ^ 2) t := by simpa using (hasDerivAt_pow 3 t).sub_const d
    have h2 : HasDerivAt (fun t : ℝ => t ^ 3 - d * (1 - kappa)) (3 * t ^ 2) t := by
      simpa using (hasDerivAt_pow 3 t).sub_const (d * (1 - kappa))
    have h3 : HasDerivAt (fun t : ℝ => t ^ 4) (4 * t ^ 3) t := by simpa using hasDerivAt_pow 4 t
    have h := (h1.mul h2).div h3 (by positivity)
    refine h.congr_deriv ?_
    simp only [Pi.mul_apply]
    field_simp
    ring
  have hpos : ∀ t, x < t → 0 < (2 * (t ^ 3) ^ 2 - (kappa - 2) * d * t ^ 3 + 4 * (kappa - 1) * d ^ 2) / t ^ 5 := by
    intro t ht
    have ht0 : 0 < t := hx0.trans ht
    apply div_pos _ (by positivity)
    have htd : d < t ^ 3 := hx.trans (cube_lt x t hx0.le ht)
    generalize t ^ 3 = w at htd
    -- with w = d(1+s), s>0
    obtain ⟨s, rfl⟩ : ∃ s, w = d * (1 + s) := ⟨w / d - 1, by field_simp; ring⟩
    have hs : 0 < s := by nlinarith
    have hpoly : 0 < 2 * (1 + s) ^ 2 - (kappa - 2) * (1 + s) + 4 * (kappa - 1) := by
      rcases le_total kappa 6 with h | h
      · nlinarith [mul_pos hs hs, mul_pos hs hk]
      · nlinarith [sq_nonneg (4 * s - (kappa - 6))]
    have : 2 * (d * (1 + s)) ^ 2 - (kappa - 2) * d * (d * (1 + s)) + 4 * (kappa - 1) * d ^ 2 =
        d ^ 2 * (2 * (1 + s) ^ 2 - (kappa - 2) * (1 + s) + 4 * (kappa - 1)) := by ring
    rw [this]; positivity
  have hmono : StrictMonoOn psi (Set.Ici x) := by
    apply strictMonoOn_of_deriv_pos (convex_Ici x)
    · intro t ht
      exact (hder t (lt_of_lt_of_le hx0 ht)).continuousAt.continuousWithinAt
    · intro t ht
      rw [interior_Ici] at ht
      rw [(hder t (hx0.trans ht)).deriv]
      exact hpos t ht
  have hlt := hmono (Set.self_mem_Ici) (Set.mem_Ici.2 hxy.le) hxy
  have hy0 : 0 < y := hx0.trans hxy
  have ex : (x ^ 3 - d) * (x ^ 3 - d * (1 - kappa)) = psi x * x ^ 4 := by simp only [hpsi]; field_simp
  have ey : (y ^ 3 - d) * (y ^ 3 - d * (1 - kappa)) = psi y * y ^ 4 := by simp only [hpsi]; field_simp
  unfold crF at hF ⊢
  rw [ex] at hF
  rw [ey]
  have hx4 : 0 < x ^ 4 := by positivity
  have hy4 : 0 < y ^ 4 := by positivity
  have h1 : 3 * kappa * d ≤ A * psi x := by
    by_contra hc
    push Not at hc
    nlinarith [mul_lt_mul_of_pos_right hc hx4]
  have h2 : 3 * kappa * d < A * psi y := by nlinarith [mul_lt_mul_of_pos_left hlt hA]
  nlinarith [mul_lt_mul_of_pos_right h2 hy4]

/-- continuity of the Koehler curve -/
theorem koehler_cont (d kappa T x : ℝ) (hd : 0 < d) (hk : 0 < kappa) (hx0 : 0 < x) (hx : d ≤ x ^ 3) :
    ContinuousAt (koehler d kappa T) x := by
  unfold koehler
  have hden : x ^ 3 - d * (1 - kappa) ≠ 0 := by nlinarith [mul_pos hd hk]
  apply ContinuousAt.mul
  · exact ContinuousAt.div (by fun_prop) (by fun_prop) hden
  · exact (ContinuousAt.div continuousAt_const continuousAt_id hx0.ne').rexp

/-- **C48 (critical radius).** A zero of the function of `rw3_cr` above the dry volume is the unique one, and it is where the
Koehler curve has its maximum: the curve increases strictly from the dry radius up to it and decreases strictly beyond. -/
theorem rw3_cr_is_max (d kappa T v : ℝ) (hd : 0 < d) (hk : 0 < kappa) (hk2 : kappa ≤ 30) (hT0 : 0 < T) (hT1 : T < 791) (hv : d < v)
    (h0 : rw3_cr_minfun d kappa T v = 0) :
    StrictMonoOn (koehler d kappa T) (Set.Icc (cbrt d) (cbrt v)) ∧ StrictAntiOn (koehler d kappa T) (Set.Ici (cbrt v)) ∧
    (∀ w, d < w → w ≠ v → koehler d kappa T (cbrt w) < koehler d kappa T (cbrt v)) ∧
    (∀ w, d < w → rw3_cr_minfun d kappa T w = 0 → w = v) := by
  have hA := kelvinA_pos T hT0 hT1
  have hv0 : 0 < v := hd.trans hv
  rw [cr_minfun_eq d kappa T v hv0.le] at h0
  have hcd : 0 < cbrt d := cbrt_pos d hd
  have hcv : 0 < cbrt v := cbrt_pos v hv0
  have hdv3 : d < cbrt v ^ 3 := by rw [cbrt_cube v hv0.le]; exact hv
  have hgt : ∀ x, cbrt d < x → d < x ^ 3 := fun x hx => by
    have := cube_lt _ _ hcd.le hx
    rwa [cbrt_cube d hd.le] at this
  have hge : ∀ x, cbrt d ≤ x → d ≤ x ^ 3 := fun x hx => by
    rcases hx.eq_or_lt with rfl | h
    · rw [cbrt_cube d hd.le]
    · exact (hgt x h).le
  have hposB : ∀ x, cbrt d < x → x < cbrt v → 0 < crF (kelvinA T) d kappa x := by
    intro x h1 h2
    by_contra hc
    have := crF_neg_after _ d kappa x (cbrt v) hA hd hk hk2 (hcd.trans h1) (hgt x h1) h2 (not_lt.1 hc)
    linarith
  have hnegA : ∀ x, cbrt v < x → crF (kelvinA T) d kappa x < 0 := fun x hx =>
    crF_neg_after _ d kappa (cbrt v) x hA hd hk hk2 hcv hdv3 hx h0.le
  have hdvc : cbrt d < cbrt v := cbrt_lt d v hd.le hv
  have hfac : ∀ x, 0 < x → d < x ^ 3 → 0 < Real.exp (kelvinA T / x) / (x ^ 2 * (x ^ 3 - d * (1 - kappa)) ^ 2) := by
    intro x hx hx3
    have := den_pos d kappa x hd hk hx3
    positivity
  have hmono : StrictMonoOn (koehler d kappa T) (Set.Icc (cbrt d) (cbrt v)) := by
    apply strictMonoOn_of_deriv_pos (convex_Icc _ _)
    · intro x hx
      exact (koehler_cont d kappa T x hd hk (lt_of_lt_of_le hcd hx.1) (hge x hx.1)).continuousWithinAt
    · intro x hx
      rw [interior_Icc] at hx
      rw [(koehler_deriv d kappa T x hd hk (hcd.trans hx.1) (hgt x hx.1)).deriv]
      exact mul_pos (hfac x (hcd.trans hx.1) (hgt x hx.1)) (hposB x hx.1 hx.2)
  have hanti : StrictAntiOn (koehler d kappa T) (Set.Ici (cbrt v)) := by
    apply strictAntiOn_of_deriv_neg (convex_Ici _)
    · intro x hx
      have : cbrt d ≤ x := hdvc.le.trans hx
      exact (koehler_cont d kappa T x hd hk (lt_of_lt_of_le hcd this) (hge x this)).continuousWithinAt
    · intro x hx
      rw [interior_Ici] at hx
      have h1 : cbrt d < x := hdvc.trans hx
      rw [(koehler_deriv d kappa T x hd hk (hcd.trans h1) (hgt x h1)).deriv]
      exact mul_neg_of_pos_of_neg (hfac x (hcd.trans h1) (hgt x h1)) (hnegA x hx)
  refine ⟨hmono, hanti, ?_, ?_⟩
  · intro w hw hne
    rcases lt_or_gt_of_ne hne with h | h
    · have h1 := cbrt_lt w v (hd.trans hw).le h
      exact hmono ⟨(cbrt_lt d w hd.le hw).le, h1.le⟩ ⟨hdvc.le, le_rfl⟩ h1
    · have h1 := cbrt_lt v w hv0.le h
      exact hanti Set.self_mem_Ici h1.le h1
  · intro w hw hw0
    rw [cr_minfun_eq d kappa T w (hd.trans hw).le] at hw0
    by_contra hne
    rcases lt_or_gt_of_ne hne with h | h
    · have := hposB (cbrt w) (cbrt_lt d w hd.le hw) (cbrt_lt w v (hd.trans hw).le h)
      linarith
    · have := hnegA (cbrt w) (cbrt_lt v w hv0.le h)
      linarith

/-- **C48.** The equilibrium volume found by `rw3_eq` is unique: for RH < 1 the Koehler curve takes the value RH only once -/
theorem rw3_eq_unique (d kappa RH T : ℝ) (hd : 0 < d) (hk : 0 < kappa) (hk2 : kappa ≤ 30) (hR0 : 0 < RH) (hR1 : RH < 1) (hT0 : 0 < T)
    (hT1 : T < 791) (v w : ℝ) (hv : d ≤ v) (hw : d ≤ w) (h1 : rw3_eq_minfun RH d kappa T v = 0) (h2 : rw3_eq_minfun RH d kappa T w = 0) :
    v = w := by
  have hA := kelvinA_pos T hT0 hT1
  obtain ⟨b1, b2, b3, b4⟩ := rw3_eq_bracket d kappa RH T hd hk hR0 hR1 hT0 hT1
  by_contra hne
  wlog hlt : v < w generalizing v w
  · exact this w v hw hv h2 h1 (Ne.symm hne) (lt_of_le_of_ne (not_lt.1 hlt) (Ne.symm hne))
  have hvd := (b4 v hv h1).1
  have hwd := (b4 w hw h2).1
  have hwn := (b4 w hw h2).2
  have hv0 : 0 < v := hd.trans hvd
  have hw0 : 0 < w := hd.trans hwd
  rw [eq_minfun_eq RH d kappa T v hv0.le] at h1
  rw [eq_minfun_eq RH d kappa T w hw0.le] at h2
  have hN : 0 < rw3_eq_nokelvin d kappa RH := hd.trans b1
  rw [eq_minfun_eq RH d kappa T _ hN.le] at b3
  -- numerator negative at w, otherwise the curve is increasing on [v,w]
  have hcd := cbrt_pos d hd
  have hgt : ∀ x, cbrt d < x → d < x ^ 3 := fun x hx => by
    have := cube_lt _ _ hcd.le hx
    rwa [cbrt_cube d hd.le] at this
  have hdvc := cbrt_lt d v hd.le hvd
  have hvwc := cbrt_lt v w hv0.le hlt
  have hwnc := cbrt_lt w _ hw0.le hwn
  have hfac : ∀ x, 0 < x → d < x ^ 3 → 0 < Real.exp (kelvinA T / x) / (x ^ 2 * (x ^ 3 - d * (1 - kappa)) ^ 2) := by
    intro x hx hx3
    have := den_pos d kappa x hd hk hx3
    positivity
  by_cases hF : crF (kelvinA T) d kappa (cbrt w) ≤ 0
  · -- decreasing beyond w: contradiction with the value at the no-Kelvin volume
    have hanti : StrictAntiOn (koehler d kappa T) (Set.Ici (cbrt w)) := by
      apply strictAntiOn_of_deriv_neg (convex_Ici _)
      · intro x hx
        have h3 : cbrt d < x := lt_of_lt_of_le (hdvc.trans hvwc) hx
        exact (koehler_cont d kappa T x hd hk (hcd.trans h3) (hgt x h3).le).continuousWithinAt
      · intro x hx
        rw [interior_Ici] at hx
        have h3 : cbrt d < x := (hdvc.trans hvwc).trans hx
        rw [(koehler_deriv d kappa T x hd hk (hcd.trans h3) (hgt x h3)).deriv]
        exact mul_neg_of_pos_of_neg (hfac x (hcd.trans h3) (hgt x h3))
          (crF_neg_after _ d kappa (cbrt w) x hA hd hk hk2 (cbrt_pos w hw0) (hgt _ (hdvc.trans hvwc)) hx hF)
    have := hanti Set.self_mem_Ici hwnc.le hwnc
    linarith
  · have hmono : StrictMonoOn (koehler d kappa T) (Set.Icc (cbrt v) (cbrt w)) := by
      apply strictMonoOn_of_deriv_pos (convex_Icc _ _)
      · intro x hx
        have h3 : cbrt d < x := lt_of_lt_of_le hdvc hx.1
        exact (koehler_cont d kappa T x hd hk (hcd.trans h3) (hgt x h3).le).continuousWithinAt
      · intro x hx
        rw [interior_Icc] at hx
        have h3 : cbrt d < x := hdvc.trans hx.1
        rw [(koehler_deriv d kappa T x hd hk (hcd.trans h3) (hgt x h3)).deriv]
        refine mul_pos (hfac x (hcd.trans h3) (hgt x h3)) ?_
        by_contra hc
        exact hF (crF_neg_after _ d kappa x (cbrt w) hA hd hk hk2 (hcd.trans h3) (hgt x h3) hx.2 (not_lt.1 hc)).le
    have := hmono ⟨le_rfl, hvwc.le⟩ ⟨hvwc.le, le_rfl⟩ hvwc
    linarith

/-- **C48 (bracket of the critical radius).** The interval `[d, 1e8 d]` given to the root search encloses the critical volume
exactly when the dry radius is small enough: `3 κ 1e8 cbrt(1e8 d) < A (1e8 - 1)(1e8 + κ - 1)`. -/
theorem rw3_cr_bracket (d kappa T : ℝ) (hd : 0 < d) (hk : 0 < kappa) :
    0 < rw3_cr_minfun d kappa T d ∧
    (rw3_cr_minfun d kappa T (1e8 * d) < 0 ↔ 3 * kappa * 1e8 * cbrt (1e8 * d) < kelvinA T * (1e8 - 1) * (1e8 + kappa - 1)) := by
  constructor
  · unfold rw3_cr_minfun
    have := cbrt_pos d hd
    have h : kelvinA T * (d - d) * ((kappa - 1) * d + d) + 3 * kappa * d * d * cbrt d = 3 * kappa * d * d * cbrt d := by ring
    rw [h]; positivity
  · unfold rw3_cr_minfun
    have e : kelvinA T * (d - 1e8 * d) * ((kappa - 1) * d + 1e8 * d) + 3 * kappa * d * (1e8 * d) * cbrt (1e8 * d) =
        d ^ 2 * (3 * kappa * 1e8 * cbrt (1e8 * d) - kelvinA T * (1e8 - 1) * (1e8 + kappa - 1)) := by ring
    rw [e]
    have : 0 < d ^ 2 := by positivity
    constructor
    · intro h
      by_contra hc
      push Not at hc
      have := mul_nonneg this.le (sub_nonneg.2 hc)
      linarith
    · intro h
      exact mul_neg_of_pos_of_neg this (by linarith)

/-- under that condition the critical volume exists inside the interval -/
theorem rw3_cr_exists (d kappa T : ℝ) (hd : 0 < d) (hk : 0 < kappa)
    (hb : 3 * kappa * 1e8 * cbrt (1e8 * d) < kelvinA T * (1e8 - 1) * (1e8 + kappa - 1)) :
    ∃ v, d < v ∧ v < 1e8 * d ∧ rw3_cr_minfun d kappa T v = 0 := by
  obtain ⟨h1, h2⟩ := rw3_cr_bracket d kappa T hd hk
  have h3 := h2.2 hb
  have hle : d ≤ 1e8 * d := by norm_num; linarith
  have hc : ContinuousOn (rw3_cr_minfun d kappa T) (Set.Icc d (1e8 * d)) := by
    unfold rw3_cr_minfun cbrt
    apply ContinuousOn.add (by fun_prop)
    apply ContinuousOn.mul (by fun_prop)
    apply ContinuousOn.rpow_const continuousOn_id
    intro x hx
    right; norm_num
  obtain ⟨v, hv, h0⟩ := intermediate_value_Icc' hle hc ⟨h3.le, h1.le⟩
  refine ⟨v, lt_of_le_of_ne hv.1 ?_, lt_of_le_of_ne hv.2 ?_, h0⟩
  · rintro rfl; linarith
  · rintro rfl; linarith

/-- for a dry radius of 1 mm (kappa 1, 280 K) the interval does not enclose it: the function is positive at both ends -/
theorem rw3_cr_bracket_fails : ¬ rw3_cr_minfun 1e-9 1 280 (1e8 * 1e-9) < 0 := by
  rw [(rw3_cr_bracket 1e-9 1 280 (by norm_num) (by norm_num)).2]
  have h3 : 1 / 10 < cbrt (1e8 * 1e-9) := by
    have : cbrt ((1 / 10) ^ 3) < cbrt (1e8 * 1e-9) := cbrt_lt _ _ (by norm_num) (by norm_num)
    rwa [cube_cbrt _ (by norm_num)] at this
  have h2 : kelvinA 280 * (1e8 - 1) * (1e8 + 1 - 1) ≤ 2e7 := by
    norm_num [kelvinA, sg_surf, R_v, kaBoNA, M_v, M_H, M_OH, rho_w]
  norm_num at h2 h3 ⊢; linarith

/-- e.g. a dry radius of 0.1 micrometre, kappa = 1, at 280 K: the bracket is valid -/
example : 3 * 1 * 1e8 * cbrt (1e8 * 1e-21) < kelvinA 280 * (1e8 - 1) * (1e8 + 1 - 1) := by
  have h1 : cbrt (1e8 * 1e-21) < 1 := by
    have : cbrt (1e8 * 1e-21) < cbrt (1 ^ 3) := cbrt_lt _ _ (by norm_num) (by norm_num)
    rwa [cube_cbrt 1 (by norm_num)] at this
  have h2 : kelvinA 280 * (1e8 - 1) * (1e8 + 1 - 1) ≥ 1e6 := by
    norm_num [kelvinA, sg_surf, R_v, kaBoNA, M_v, M_H, M_OH, rho_w]
  have h3 : cbrt (1e8 * 1e-21) < 1e-3 := by
    have : cbrt (1e8 * 1e-21) < cbrt ((1e-3) ^ 3) := cbrt_lt _ _ (by norm_num) (by norm_num)
    rwa [cube_cbrt _ (by norm_num)] at this
  norm_num at h2 h3 ⊢; linarith

end LCP.Common
