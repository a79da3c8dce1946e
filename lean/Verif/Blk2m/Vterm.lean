import Verif.Blk2m.CellProps
import Verif.Blk2m.ColProps
import Mathlib.MeasureTheory.Integral.IntervalIntegral.FundThmCalculus
import Mathlib.MeasureTheory.Integral.IntegralEqImproper
import Mathlib.Analysis.SpecialFunctions.ExpDeriv
import Mathlib.Analysis.SpecialFunctions.Sqrt
import Mathlib.Analysis.SpecialFunctions.PolynomialExp
import Mathlib.Analysis.Calculus.Deriv.Pow
import Mathlib.Analysis.Calculus.Deriv.Inv
import Mathlib.Analysis.Real.Pi.Bounds

/-!
# Fall speeds of the double-moment scheme (C53)

The closed-form expressions in `v_term_m` and `v_term_n` are the mass- and number-weighted means of a piecewise power law over
an exponential size distribution.
-/
namespace LCP.Blk2m
open LCP.Common MeasureTheory Set Filter Topology

/-! ### antiderivatives -/

theorem erf_hasDerivAt (x : ℝ) : HasDerivAt erf (2 / Real.sqrt Real.pi * Real.exp (-x ^ 2)) x := by
  unfold erf
  have hc : Continuous fun t : ℝ => Real.exp (-t ^ 2) := by fun_prop
  exact (intervalIntegral.integral_hasDerivAt_right (hc.intervalIntegrable _ _) (hc.stronglyMeasurableAtFilter _ _)
    hc.continuousAt).const_mul _

theorem exp_lin (l D : ℝ) : HasDerivAt (fun x : ℝ => Real.exp (-l * x)) (Real.exp (-l * D) * (-l)) D := by
  have h : HasDerivAt (fun x : ℝ => -l * x) (-l) D := by simpa using (hasDerivAt_id D).const_mul (-l)
  exact h.exp

theorem lin (l D : ℝ) : HasDerivAt (fun x : ℝ => l * x) l D := by simpa using (hasDerivAt_id D).const_mul l

theorem mint_1_deriv (l D : ℝ) (hl : l ≠ 0) : HasDerivAt (mint_1 l) (D ^ 5 * Real.exp (-l * D)) D := by
  unfold mint_1
  have h := ((exp_lin l D).const_mul (-l ^ (-6 : ℤ))).mul
    (((((((lin l D).pow 5).add (((lin l D).pow 4).const_mul 5)).add (((lin l D).pow 3).const_mul 20)).add
      (((lin l D).pow 2).const_mul 60)).add ((lin l D).const_mul 120)).add_const 120)
  refine h.congr_deriv ?_
  simp only [zpow_neg]
  norm_cast
  field_simp
  simp
  ring

theorem mint_2_deriv (l D : ℝ) (hl : l ≠ 0) : HasDerivAt (mint_2 l) (D ^ 4 * Real.exp (-l * D)) D := by
  unfold mint_2
  have h := ((exp_lin l D).const_mul (-l ^ (-5 : ℤ))).mul
    ((((((lin l D).pow 4).add (((lin l D).pow 3).const_mul 4)).add
      (((lin l D).pow 2).const_mul 12)).add ((lin l D).const_mul 24)).add_const 24)
  refine h.congr_deriv ?_
  simp only [zpow_neg]
  norm_cast
  field_simp
  simp
  ring

theorem mint_4_deriv (l D : ℝ) (hl : l ≠ 0) : HasDerivAt (mint_4 l) (D ^ 3 * Real.exp (-l * D)) D := by
  unfold mint_4
  have h := ((exp_lin l D).const_mul (-l ^ (-4 : ℤ))).mul
    (((((lin l D).pow 3).add (((lin l D).pow 2).const_mul 3)).add ((lin l D).const_mul 6)).add_const 6)
  refine h.congr_deriv ?_
  simp only [zpow_neg]
  norm_cast
  field_simp
  simp
  ring

theorem nint_1_deriv (l D : ℝ) (hl : l ≠ 0) : HasDerivAt (nint_1 l) (D ^ 2 * Real.exp (-l * D)) D := by
  unfold nint_1
  have h := ((exp_lin l D).const_mul (l ^ (-3 : ℤ))).mul
    (((lin l D).neg.mul ((lin l D).add_const 2)).sub_const 2)
  refine h.congr_deriv ?_
  simp only [zpow_neg]
  norm_cast
  field_simp
  simp
  ring

theorem nint_2_deriv (l D : ℝ) (hl : l ≠ 0) : HasDerivAt (nint_2 l) (D * Real.exp (-l * D)) D := by
  unfold nint_2
  have h := ((exp_lin l D).const_mul (-l ^ (-2 : ℤ))).mul ((lin l D).add_const 1)
  refine h.congr_deriv ?_
  simp only [zpow_neg]
  norm_cast
  field_simp
  ring

theorem nint_4_deriv (l D : ℝ) (hl : l ≠ 0) : HasDerivAt (nint_4 l) (Real.exp (-l * D)) D := by
  unfold nint_4
  have h := (exp_lin l D).const_mul (-l ^ (-1 : ℤ))
  refine h.congr_deriv ?_
  simp only [zpow_neg]
  norm_cast
  field_simp

theorem sqrt_lin (l D : ℝ) (hl : 0 < l) (hD : 0 < D) :
    HasDerivAt (fun x : ℝ => Real.sqrt (l * x)) (l / (2 * Real.sqrt (l * D))) D := (lin l D).sqrt (by positivity)

/-- antiderivative in the variable `t = sqrt (l D)` -/
theorem mint_3_aux (t : ℝ) : HasDerivAt (fun t : ℝ => 105 * Real.sqrt Real.pi * erf t
    - 2 * t * Real.exp (-t ^ 2) * (8 * t ^ 6 + 28 * t ^ 4 + 70 * t ^ 2 + 105)) (32 * t ^ 8 * Real.exp (-t ^ 2)) t := by
  have hp : Real.sqrt Real.pi ≠ 0 := (Real.sqrt_pos.2 Real.pi_pos).ne'
  have h2 : HasDerivAt (fun x : ℝ => -x ^ 2) (-(2 * t)) t := by
    have := (hasDerivAt_pow 2 t).neg
    refine (this.congr_deriv ?_)
    norm_num
  have h := ((erf_hasDerivAt t).const_mul (105 * Real.sqrt Real.pi)).sub
    ((((hasDerivAt_id t).const_mul 2).mul h2.exp).mul
      ((((((hasDerivAt_id t).pow 6).const_mul 8).add (((hasDerivAt_id t).pow 4).const_mul 28)).add
        (((hasDerivAt_id t).pow 2).const_mul 70)).add_const 105))
  refine h.congr_deriv ?_
  simp
  field_simp
  ring

theorem nint_3_aux (t : ℝ) : HasDerivAt (fun t : ℝ => Real.sqrt Real.pi * erf t / 2 - t * Real.exp (-t ^ 2))
    (2 * t ^ 2 * Real.exp (-t ^ 2)) t := by
  have hp : Real.sqrt Real.pi ≠ 0 := (Real.sqrt_pos.2 Real.pi_pos).ne'
  have h2 : HasDerivAt (fun x : ℝ => -x ^ 2) (-(2 * t)) t := by
    have := (hasDerivAt_pow 2 t).neg
    refine (this.congr_deriv ?_)
    norm_num
  have h := (((erf_hasDerivAt t).const_mul (Real.sqrt Real.pi)).div_const 2).sub ((hasDerivAt_id t).mul h2.exp)
  refine h.congr_deriv ?_
  simp
  field_simp
  ring

theorem half_pow (l : ℝ) (hl : 0 < l) : l ^ (9 / 2 : ℝ) = Real.sqrt l ^ 9 ∧ l ^ (3 / 2 : ℝ) = Real.sqrt l ^ 3 := by
  rw [Real.sqrt_eq_rpow, ← Real.rpow_natCast, ← Real.rpow_natCast, ← Real.rpow_mul hl.le, ← Real.rpow_mul hl.le]
  constructor <;> norm_num

theorem mint_3_deriv (l D : ℝ) (hl : 0 < l) (hD : 0 < D) :
    HasDerivAt (mint_3 l) (Real.sqrt D ^ 7 * Real.exp (-l * D)) D := by
  have h := ((mint_3_aux (Real.sqrt (l * D))).comp D (sqrt_lin l D hl hD)).const_mul (1 / 16 / l ^ (9 / 2 : ℝ))
  have e : mint_3 l =ᶠ[𝓝 D] fun x => 1 / 16 / l ^ (9 / 2 : ℝ) * ((fun t : ℝ => 105 * Real.sqrt Real.pi * erf t
      - 2 * t * Real.exp (-t ^ 2) * (8 * t ^ 6 + 28 * t ^ 4 + 70 * t ^ 2 + 105)) ∘ fun x : ℝ => Real.sqrt (l * x)) x := by
    filter_upwards [lt_mem_nhds hD] with x hx
    have h2 : Real.sqrt (l * x) ^ 2 = l * x := Real.sq_sqrt (by positivity)
    have h4 : Real.sqrt (l * x) ^ 4 = (l * x) ^ 2 := by rw [show (4:ℕ) = 2 * 2 from rfl, pow_mul, h2]
    have h6 : Real.sqrt (l * x) ^ 6 = (l * x) ^ 3 := by rw [show (6:ℕ) = 2 * 3 from rfl, pow_mul, h2]
    simp only [mint_3, Function.comp_apply, h2, h4, h6]
    ring_nf
  refine (h.congr_of_eventuallyEq e).congr_deriv ?_
  rw [(half_pow l hl).1, Real.sqrt_mul hl.le]
  have hs : 0 < Real.sqrt l := Real.sqrt_pos.2 hl
  have hq : 0 < Real.sqrt D := Real.sqrt_pos.2 hD
  have e1 : l = Real.sqrt l ^ 2 := (Real.sq_sqrt hl.le).symm
  have e2 : -(Real.sqrt l * Real.sqrt D) ^ 2 = -l * D := by rw [mul_pow, Real.sq_sqrt hl.le, Real.sq_sqrt hD.le]; ring
  rw [e2]
  generalize Real.exp (-l * D) = E
  have : ∀ s q E : ℝ, 0 < s → 0 < q →
      1 / 16 / s ^ 9 * (32 * (s * q) ^ 8 * E * (s ^ 2 / (2 * (s * q)))) = q ^ 7 * E := by
    intro s q E hs hq
    field_simp
    ring
  rw [← this _ _ E hs hq, ← e1]

theorem nint_3_deriv (l D : ℝ) (hl : 0 < l) (hD : 0 < D) :
    HasDerivAt (nint_3 l) (Real.sqrt D * Real.exp (-l * D)) D := by
  have h := ((nint_3_aux (Real.sqrt (l * D))).comp D (sqrt_lin l D hl hD)).const_mul (1 / l ^ (3 / 2 : ℝ))
  have hs : 0 < Real.sqrt l := Real.sqrt_pos.2 hl
  have e1 : l = Real.sqrt l ^ 2 := (Real.sq_sqrt hl.le).symm
  have e : nint_3 l =ᶠ[𝓝 D] fun x => 1 / l ^ (3 / 2 : ℝ) * ((fun t : ℝ => Real.sqrt Real.pi * erf t / 2 - t * Real.exp (-t ^ 2))
      ∘ fun x : ℝ => Real.sqrt (l * x)) x := by
    filter_upwards [lt_mem_nhds hD] with x hx
    have h2 : -Real.sqrt (l * x) ^ 2 = -l * x := by rw [Real.sq_sqrt (by positivity)]; ring
    simp only [nint_3, Function.comp_apply, h2]
    rw [(half_pow l hl).2, Real.sqrt_mul hl.le]
    generalize erf _ = A
    generalize Real.exp _ = E
    have : ∀ s : ℝ, 0 < s → √Real.pi * A / 2 / s ^ 3 - √x * E / s ^ 2 = 1 / s ^ 3 * (√Real.pi * A / 2 - s * √x * E) := by
      intro s hs
      field_simp
    rw [← this _ hs, ← e1]
  refine (h.congr_of_eventuallyEq e).congr_deriv ?_
  rw [(half_pow l hl).2, Real.sqrt_mul hl.le]
  have hq : 0 < Real.sqrt D := Real.sqrt_pos.2 hD
  have e2 : -(Real.sqrt l * Real.sqrt D) ^ 2 = -l * D := by rw [mul_pow, Real.sq_sqrt hl.le, Real.sq_sqrt hD.le]; ring
  rw [e2]
  generalize Real.exp (-l * D) = E
  have : ∀ s q E : ℝ, 0 < s → 0 < q →
      1 / s ^ 3 * (2 * (s * q) ^ 2 * E * (s ^ 2 / (2 * (s * q)))) = q * E := by
    intro s q E hs hq
    field_simp
  rw [← this _ _ E hs hq, ← e1]

/-! ### the specification: a piecewise power law and its means over an exponential spectrum -/

/-- fall speed of a drop of diameter `D` in air of standard density: coefficient and exponent depend on the size class,
the argument of the power is the drop mass in grams (spec, built from the code's two tables) -/
noncomputable def vlaw (D : ℝ) : ℝ := alpha_fall (D / 2) * (c_md * 1000 * D ^ 3) ^ beta_fall (D / 2) * 1e-2

theorem d_pos : 0 < d1 ∧ d1 < d2 ∧ d2 < d3 := by unfold d1 d2 d3; norm_num

theorem powB_eq (D b : ℝ) (hD : 0 ≤ D) : (c_md * 1000 * D ^ 3) ^ b = (c_md * 1000) ^ b * D ^ (3 * b) := by
  have := c_md_pos
  rw [Real.mul_rpow (by positivity) (by positivity), ← Real.rpow_natCast, ← Real.rpow_mul hD]
  norm_num

theorem vlaw_1 (D : ℝ) (h0 : 0 < D) (h1 : D < d1) : vlaw D = 4.5795 * 1e5 * (c_md * 1000) ^ (2 / 3 : ℝ) * 1e-2 * D ^ 2 := by
  have e : 2 * (D / 2) = D := by ring
  unfold vlaw alpha_fall beta_fall
  rw [e, if_neg h0.ne', if_pos h1, if_pos h1, powB_eq D _ h0.le]
  have : D ^ (3 * (2 / 3) : ℝ) = D ^ 2 := by rw [← Real.rpow_natCast]; norm_num
  rw [this]; ring

theorem vlaw_2 (D : ℝ) (h0 : d1 ≤ D) (h1 : D < d2) : vlaw D = 4.962 * 1e3 * (c_md * 1000) ^ (1 / 3 : ℝ) * 1e-2 * D := by
  have e : 2 * (D / 2) = D := by ring
  have hp : 0 < D := lt_of_lt_of_le d_pos.1 h0
  unfold vlaw alpha_fall beta_fall
  rw [e, if_neg hp.ne', if_neg h0.not_gt, if_pos h1, if_neg h0.not_gt, if_pos h1, powB_eq D _ hp.le]
  have : D ^ (3 * (1 / 3) : ℝ) = D := by norm_num
  rw [this]; ring

theorem vlaw_3 (D : ℝ) (h0 : d2 ≤ D) (h1 : D < d3) :
    vlaw D = 1.732 * 1e3 * (c_md * 1000) ^ (1 / 6 : ℝ) * 1e-2 * Real.sqrt D := by
  have e : 2 * (D / 2) = D := by ring
  have h0' : d1 ≤ D := d_pos.2.1.le.trans h0
  have hp : 0 < D := lt_of_lt_of_le d_pos.1 h0'
  unfold vlaw alpha_fall beta_fall
  rw [e, if_neg hp.ne', if_neg h0'.not_gt, if_neg h0.not_gt, if_pos h1, if_neg h0'.not_gt, if_neg h0.not_gt, if_pos h1,
    powB_eq D _ hp.le]
  have : D ^ (3 * (1 / 6) : ℝ) = Real.sqrt D := by rw [Real.sqrt_eq_rpow]; norm_num
  rw [this]; ring

theorem vlaw_4 (D : ℝ) (h0 : d3 ≤ D) : vlaw D = 9.17 * 1e2 * 1e-2 := by
  have e : 2 * (D / 2) = D := by ring
  have h0'' : d2 ≤ D := d_pos.2.2.le.trans h0
  have h0' : d1 ≤ D := d_pos.2.1.le.trans h0''
  have hp : 0 < D := lt_of_lt_of_le d_pos.1 h0'
  unfold vlaw alpha_fall beta_fall
  rw [e, if_neg hp.ne', if_neg h0'.not_gt, if_neg h0''.not_gt, if_neg h0.not_gt, if_neg h0'.not_gt, if_neg h0''.not_gt,
    if_neg h0.not_gt, Real.rpow_zero]
  norm_num

/-- integral over one size class -/
theorem piece (a b c : ℝ) (F f w : ℝ → ℝ) (hab : a ≤ b) (hF : ∀ x ∈ Icc a b, HasDerivAt F (f x) x) (hf : ContinuousOn f (Icc a b))
    (hw : ∀ x ∈ Ioo a b, w x = c * f x) :
    IntegrableOn w (Ioc a b) ∧ ∫ x in Ioc a b, w x = c * (F b - F a) := by
  have hi : IntegrableOn (fun x => c * f x) (Ioo a b) :=
    ((hf.integrableOn_Icc).mono_set Ioo_subset_Icc_self).const_mul c
  have hi' : IntegrableOn w (Ioo a b) := hi.congr_fun (fun x hx => (hw x hx).symm) measurableSet_Ioo
  refine ⟨(integrableOn_Ioc_iff_integrableOn_Ioo).2 hi', ?_⟩
  rw [integral_Ioc_eq_integral_Ioo, setIntegral_congr_fun measurableSet_Ioo hw, integral_const_mul,
    ← integral_Ioc_eq_integral_Ioo, ← intervalIntegral.integral_of_le hab]
  rw [intervalIntegral.integral_eq_sub_of_hasDerivAt]
  · rw [uIcc_of_le hab]; exact hF
  · apply ContinuousOn.intervalIntegrable
    rw [uIcc_of_le hab]; exact hf

theorem mint_4_tendsto (l : ℝ) (hl : 0 < l) : Tendsto (mint_4 l) atTop (𝓝 0) := by
  have hlin : Tendsto (fun D : ℝ => l * D) atTop atTop := tendsto_id.const_mul_atTop hl
  have k : ∀ n : ℕ, Tendsto (fun D : ℝ => (l * D) ^ n * Real.exp (-(l * D))) atTop (𝓝 0) := fun n =>
    (Real.tendsto_pow_mul_exp_neg_atTop_nhds_zero n).comp hlin
  have h := (((((k 3).add ((k 2).const_mul 3)).add ((k 1).const_mul 6)).add ((k 0).const_mul 6)).const_mul (-l ^ (-4 : ℤ)))
  simp only [mul_zero, add_zero] at h
  refine h.congr fun D => ?_
  unfold mint_4
  rw [neg_mul l D]
  ring

theorem nint_4_tendsto (l : ℝ) (hl : 0 < l) : Tendsto (nint_4 l) atTop (𝓝 0) := by
  have hlin : Tendsto (fun D : ℝ => l * D) atTop atTop := tendsto_id.const_mul_atTop hl
  have k : Tendsto (fun D : ℝ => (l * D) ^ 0 * Real.exp (-(l * D))) atTop (𝓝 0) :=
    (Real.tendsto_pow_mul_exp_neg_atTop_nhds_zero 0).comp hlin
  have h := k.const_mul (-l ^ (-1 : ℤ))
  simp only [mul_zero] at h
  refine h.congr fun D => ?_
  unfold nint_4
  rw [neg_mul l D]
  ring

/-- integral over the open-ended size class -/
theorem tail (a c : ℝ) (F f w : ℝ → ℝ) (hF : ∀ x ∈ Ici a, HasDerivAt F (f x) x) (hf : ∀ x ∈ Ioi a, 0 ≤ f x)
    (ht : Tendsto F atTop (𝓝 0)) (hw : ∀ x ∈ Ioi a, w x = c * f x) :
    IntegrableOn w (Ioi a) ∧ ∫ x in Ioi a, w x = c * (0 - F a) := by
  have hi := integrableOn_Ioi_deriv_of_nonneg' hF hf ht
  have hi2 : IntegrableOn (fun x => c * f x) (Ioi a) := hi.const_mul c
  refine ⟨hi2.congr_fun (fun x hx => (hw x hx).symm) measurableSet_Ioi, ?_⟩
  rw [setIntegral_congr_fun measurableSet_Ioi hw, integral_const_mul, integral_Ioi_of_hasDerivAt_of_nonneg' hF hf ht]

theorem glue (a b : ℝ) (w : ℝ → ℝ) (I J : ℝ) (hab : a ≤ b) (h1 : IntegrableOn w (Ioc a b) ∧ ∫ x in Ioc a b, w x = I)
    (h2 : IntegrableOn w (Ioi b) ∧ ∫ x in Ioi b, w x = J) : IntegrableOn w (Ioi a) ∧ ∫ x in Ioi a, w x = I + J := by
  rw [← Ioc_union_Ioi_eq_Ioi hab]
  refine ⟨h1.1.union h2.1, ?_⟩
  rw [setIntegral_union (Ioc_disjoint_Ioi le_rfl) measurableSet_Ioi h1.1 h2.1, h1.2, h2.2]

/-- third moment of the spectrum -/
theorem moment3 (l : ℝ) (hl : 0 < l) : ∫ D in Ioi (0:ℝ), D ^ 3 * Real.exp (-l * D) = 6 / l ^ 4 := by
  have := (tail 0 1 (mint_4 l) (fun D => D ^ 3 * Real.exp (-l * D)) (fun D => D ^ 3 * Real.exp (-l * D))
    (fun x _ => mint_4_deriv l x hl.ne') (fun x hx => by have : (0:ℝ) < x := hx; positivity) (mint_4_tendsto l hl)
    (fun x _ => by ring)).2
  rw [this]
  unfold mint_4
  simp [zpow_neg]
  norm_cast
  field_simp

/-- zeroth moment of the spectrum -/
theorem moment0 (l : ℝ) (hl : 0 < l) : ∫ D in Ioi (0:ℝ), Real.exp (-l * D) = 1 / l := by
  have := (tail 0 1 (nint_4 l) (fun D => Real.exp (-l * D)) (fun D => Real.exp (-l * D))
    (fun x _ => nint_4_deriv l x hl.ne') (fun x hx => by positivity) (nint_4_tendsto l hl)
    (fun x _ => by ring)).2
  rw [this]
  unfold nint_4
  simp

theorem mass_integral (l : ℝ) (hl : 0 < l) :
    IntegrableOn (fun D => vlaw D * (D ^ 3 * Real.exp (-l * D))) (Ioi 0) ∧
    ∫ D in Ioi (0:ℝ), vlaw D * (D ^ 3 * Real.exp (-l * D)) =
      4.5795 * 1e5 * (c_md * 1000) ^ (2 / 3 : ℝ) * 1e-2 * (mint_1 l d1 - mint_1 l 0) +
      (4.962 * 1e3 * (c_md * 1000) ^ (1 / 3 : ℝ) * 1e-2 * (mint_2 l d2 - mint_2 l d1) +
      (1.732 * 1e3 * (c_md * 1000) ^ (1 / 6 : ℝ) * 1e-2 * (mint_3 l d3 - mint_3 l d2) +
      9.17 * 1e2 * 1e-2 * (0 - mint_4 l d3))) := by
  obtain ⟨p1, p2, p3⟩ := d_pos
  have p2' : 0 < d2 := p1.trans p2
  refine glue 0 d1 _ _ _ p1.le ?_ (glue d1 d2 _ _ _ p2.le ?_ (glue d2 d3 _ _ _ p3.le ?_ ?_))
  · refine piece 0 d1 _ (mint_1 l) (fun D => D ^ 5 * Real.exp (-l * D)) _ p1.le (fun x _ => mint_1_deriv l x hl.ne')
      (by fun_prop) (fun x hx => ?_)
    rw [vlaw_1 x hx.1 hx.2]; ring
  · refine piece d1 d2 _ (mint_2 l) (fun D => D ^ 4 * Real.exp (-l * D)) _ p2.le (fun x _ => mint_2_deriv l x hl.ne')
      (by fun_prop) (fun x hx => ?_)
    rw [vlaw_2 x hx.1.le hx.2]; ring
  · refine piece d2 d3 _ (mint_3 l) (fun D => Real.sqrt D ^ 7 * Real.exp (-l * D)) _ p3.le
      (fun x hx => mint_3_deriv l x hl (p2'.trans_le hx.1)) (by fun_prop) (fun x hx => ?_)
    rw [vlaw_3 x hx.1.le hx.2]
    have hx0 : 0 ≤ x := (p2'.trans hx.1).le
    have : x ^ 3 = Real.sqrt x ^ 6 := by rw [show (6:ℕ) = 2 * 3 from rfl, pow_mul, Real.sq_sqrt hx0]
    rw [this]; ring
  · refine tail d3 _ (mint_4 l) (fun D => D ^ 3 * Real.exp (-l * D)) _ (fun x _ => mint_4_deriv l x hl.ne') (fun x hx => ?_)
      (mint_4_tendsto l hl) (fun x hx => ?_)
    · have : (0:ℝ) < x := (p2'.trans p3).trans hx
      positivity
    · rw [vlaw_4 x (le_of_lt hx)]

theorem number_integral (l : ℝ) (hl : 0 < l) :
    IntegrableOn (fun D => vlaw D * Real.exp (-l * D)) (Ioi 0) ∧
    ∫ D in Ioi (0:ℝ), vlaw D * Real.exp (-l * D) =
      4.5795 * 1e5 * (c_md * 1000) ^ (2 / 3 : ℝ) * 1e-2 * (nint_1 l d1 - nint_1 l 0) +
      (4.962 * 1e3 * (c_md * 1000) ^ (1 / 3 : ℝ) * 1e-2 * (nint_2 l d2 - nint_2 l d1) +
      (1.732 * 1e3 * (c_md * 1000) ^ (1 / 6 : ℝ) * 1e-2 * (nint_3 l d3 - nint_3 l d2) +
      9.17 * 1e2 * 1e-2 * (0 - nint_4 l d3))) := by
  obtain ⟨p1, p2, p3⟩ := d_pos
  have p2' : 0 < d2 := p1.trans p2
  refine glue 0 d1 _ _ _ p1.le ?_ (glue d1 d2 _ _ _ p2.le ?_ (glue d2 d3 _ _ _ p3.le ?_ ?_))
  · refine piece 0 d1 _ (nint_1 l) (fun D => D ^ 2 * Real.exp (-l * D)) _ p1.le (fun x _ => nint_1_deriv l x hl.ne')
      (by fun_prop) (fun x hx => ?_)
    rw [vlaw_1 x hx.1 hx.2]; ring
  · refine piece d1 d2 _ (nint_2 l) (fun D => D * Real.exp (-l * D)) _ p2.le (fun x _ => nint_2_deriv l x hl.ne')
      (by fun_prop) (fun x hx => ?_)
    rw [vlaw_2 x hx.1.le hx.2]; ring
  · refine piece d2 d3 _ (nint_3 l) (fun D => Real.sqrt D * Real.exp (-l * D)) _ p3.le
      (fun x hx => nint_3_deriv l x hl (p2'.trans_le hx.1)) (by fun_prop) (fun x hx => ?_)
    rw [vlaw_3 x hx.1.le hx.2]
    ring
  · refine tail d3 _ (nint_4 l) (fun D => Real.exp (-l * D)) _ (fun x _ => nint_4_deriv l x hl.ne') (fun x hx => ?_)
      (nint_4_tendsto l hl) (fun x hx => ?_)
    · positivity
    · rw [vlaw_4 x (le_of_lt hx)]

theorem coefs : alpha_fall (d1 / 4) = 4.5795 * 1e5 ∧ powB (d1 / 4) = (c_md * 1000) ^ (2 / 3 : ℝ) ∧
    alpha_fall ((d1 + d2) / 4) = 4.962 * 1e3 ∧ powB ((d1 + d2) / 4) = (c_md * 1000) ^ (1 / 3 : ℝ) ∧
    alpha_fall ((d2 + d3) / 4) = 1.732 * 1e3 ∧ powB ((d2 + d3) / 4) = (c_md * 1000) ^ (1 / 6 : ℝ) ∧
    alpha_fall d3 = 9.17 * 1e2 := by
  unfold powB alpha_fall beta_fall d1 d2 d3
  norm_num

/-- **C53.** Above the thresholds the mass-weighted fall speed is the mean of the drop fall speed over the exponential spectrum
with weight proportional to drop mass, times the ratio of standard to actual air density. -/
theorem v_term_m_mean (epsm rhod rr nr : ℝ) (h1 : rr_eps epsm ≤ rr) (h2 : nr_eps epsm ≤ nr) (hr : 0 < rr) (hn : 0 < nr) :
    v_term_m epsm rhod rr nr = rho_stp / rhod *
      ((∫ D in Ioi (0:ℝ), vlaw D * (D ^ 3 * Real.exp (-lambda_r nr rr * D))) /
        ∫ D in Ioi (0:ℝ), D ^ 3 * Real.exp (-lambda_r nr rr * D)) := by
  have hl := lambda_r_pos nr rr hn hr
  unfold v_term_m
  rw [if_neg (by push Not; exact ⟨h1, h2⟩), (mass_integral _ hl).2, moment3 _ hl]
  obtain ⟨a, b, c, d, e, f, g⟩ := coefs
  simp only [a, b, c, d, e, f, g]
  have : lambda_r nr rr ^ (4 : ℝ) = lambda_r nr rr ^ 4 := by rw [← Real.rpow_natCast]; norm_num
  rw [this]
  field_simp
  ring

/-- **C53.** The same for the number-weighted fall speed. -/
theorem v_term_n_mean (epsm rhod rr nr : ℝ) (h1 : rr_eps epsm ≤ rr) (h2 : nr_eps epsm ≤ nr) (hr : 0 < rr) (hn : 0 < nr) :
    v_term_n epsm rhod rr nr = rho_stp / rhod *
      ((∫ D in Ioi (0:ℝ), vlaw D * Real.exp (-lambda_r nr rr * D)) /
        ∫ D in Ioi (0:ℝ), Real.exp (-lambda_r nr rr * D)) := by
  have hl := lambda_r_pos nr rr hn hr
  unfold v_term_n
  rw [if_neg (by push Not; exact ⟨h1, h2⟩), (number_integral _ hl).2, moment0 _ hl]
  obtain ⟨a, b, c, d, e, f, g⟩ := coefs
  simp only [a, b, c, d, e, f, g]
  field_simp
  ring

/-- **C53.** The spectrum used for the means has the rain's own mass per drop: its mean drop mass (`c_md` times the third moment
over the zeroth one) is the rain mixing ratio divided by the rain drop number. -/
theorem spectrum_mass (rr nr : ℝ) (hr : 0 < rr) (hn : 0 < nr) :
    c_md * ((∫ D in Ioi (0:ℝ), D ^ 3 * Real.exp (-lambda_r nr rr * D)) /
      ∫ D in Ioi (0:ℝ), Real.exp (-lambda_r nr rr * D)) = rr / nr := by
  have hl := lambda_r_pos nr rr hn hr
  have hc := c_md_pos
  rw [moment3 _ hl, moment0 _ hl]
  have h3 : lambda_r nr rr ^ 3 = c_md * nr * 6 / rr := by
    unfold lambda_r
    have : Real.Gamma (d_md + 1) = 6 := by
      have := Real.Gamma_nat_eq_factorial 3
      unfold d_md
      norm_num [Nat.factorial] at this ⊢
    rw [this, ← Real.rpow_natCast, ← Real.rpow_mul (by positivity)]
    unfold d_md
    norm_num
  have : c_md * (6 / lambda_r nr rr ^ 4 / (1 / lambda_r nr rr)) = c_md * 6 / lambda_r nr rr ^ 3 := by field_simp
  rw [this, h3]
  field_simp

/-! ### bounds -/
theorem root_le (x y : ℝ) (n : ℕ) (hn : n ≠ 0) (hx : 0 ≤ x) (hy : 0 ≤ y) (h : x ≤ y ^ n) : x ^ (1 / n : ℝ) ≤ y := by
  have := Real.rpow_le_rpow hx h (by positivity : (0:ℝ) ≤ 1 / n)
  rwa [← Real.rpow_natCast, ← Real.rpow_mul hy, mul_one_div_cancel (by exact_mod_cast hn), Real.rpow_one] at this

theorem c_md_1000 : c_md * 1000 ≤ 523600 := by
  unfold c_md rho_w
  have := Real.pi_lt_d6
  norm_num at this ⊢
  linarith

/-- fall speeds of single drops lie between 0 and 10 m/s -/
theorem vlaw_range (D : ℝ) (hD : 0 ≤ D) : 0 ≤ vlaw D ∧ vlaw D ≤ 10 := by
  have hc := c_md_pos
  have hc' := c_md_1000
  constructor
  · unfold vlaw
    have : 0 ≤ alpha_fall (D / 2) := by unfold alpha_fall; split_ifs <;> norm_num
    positivity
  · rcases hD.eq_or_lt with rfl | h0
    · unfold vlaw alpha_fall; simp
    rcases lt_or_ge D d1 with h1 | h1
    · rw [vlaw_1 D h0 h1]
      have k : (c_md * 1000) ^ (1 / (3:ℕ) : ℝ) ≤ 81 := root_le _ _ 3 (by norm_num) (by positivity) (by norm_num) (by linarith)
      have k2 : (c_md * 1000) ^ (2 / 3 : ℝ) = ((c_md * 1000) ^ (1 / (3:ℕ) : ℝ)) ^ 2 := by
        rw [← Real.rpow_natCast, ← Real.rpow_mul (by positivity)]; norm_num
      have hD2 : D ≤ 1.4e-4 := by unfold d1 at h1; linarith
      have a1 : D ^ 2 ≤ 1.4e-4 ^ 2 := pow_le_pow_left₀ h0.le hD2 2
      have a2 : ((c_md * 1000) ^ (1 / (3:ℕ) : ℝ)) ^ 2 ≤ 81 ^ 2 := pow_le_pow_left₀ (by positivity) k 2
      rw [k2]
      have := mul_le_mul a2 a1 (by positivity) (by positivity)
      have e : 4.5795 * 1e5 * ((c_md * 1000) ^ (1 / (3:ℕ) : ℝ)) ^ 2 * 1e-2 * D ^ 2 =
        4.5795 * 1e5 * 1e-2 * (((c_md * 1000) ^ (1 / (3:ℕ) : ℝ)) ^ 2 * D ^ 2) := by ring
      rw [e]
      refine (mul_le_mul_of_nonneg_left this (by norm_num)).trans (by norm_num)
    rcases lt_or_ge D d2 with h2 | h2
    · rw [vlaw_2 D h1 h2]
      have k : (c_md * 1000) ^ (1 / (3:ℕ) : ℝ) ≤ 81 := root_le _ _ 3 (by norm_num) (by positivity) (by norm_num) (by linarith)
      have k2 : (c_md * 1000) ^ (1 / 3 : ℝ) = (c_md * 1000) ^ (1 / (3:ℕ) : ℝ) := by norm_num
      have hD2 : D ≤ 1.6e-3 := by unfold d2 at h2; linarith
      rw [k2]
      have := mul_le_mul k hD2 h0.le (by norm_num)
      have e : 4.962 * 1e3 * (c_md * 1000) ^ (1 / (3:ℕ) : ℝ) * 1e-2 * D =
        4.962 * 1e3 * 1e-2 * ((c_md * 1000) ^ (1 / (3:ℕ) : ℝ) * D) := by ring
      rw [e]
      refine (mul_le_mul_of_nonneg_left this (by norm_num)).trans (by norm_num)
    rcases lt_or_ge D d3 with h3 | h3
    · rw [vlaw_3 D h2 h3]
      have k : (c_md * 1000) ^ (1 / (6:ℕ) : ℝ) ≤ 9.1 := root_le _ _ 6 (by norm_num) (by positivity) (by norm_num) (hc'.trans (by norm_num))
      have k2 : (c_md * 1000) ^ (1 / 6 : ℝ) = (c_md * 1000) ^ (1 / (6:ℕ) : ℝ) := by norm_num
      have hD2 : Real.sqrt D ≤ 0.06 := by
        rw [show (0.06:ℝ) = Real.sqrt (0.06 ^ 2) by rw [Real.sqrt_sq (by norm_num)]]
        apply Real.sqrt_le_sqrt
        unfold d3 at h3; linarith
      rw [k2]
      have := mul_le_mul k hD2 (by positivity) (by norm_num)
      have e : 1.732 * 1e3 * (c_md * 1000) ^ (1 / (6:ℕ) : ℝ) * 1e-2 * Real.sqrt D =
        1.732 * 1e3 * 1e-2 * ((c_md * 1000) ^ (1 / (6:ℕ) : ℝ) * Real.sqrt D) := by ring
      rw [e]
      refine (mul_le_mul_of_nonneg_left this (by norm_num)).trans (by norm_num)
    · rw [vlaw_4 D h3]; norm_num

/-- a mean lies within the bounds of the averaged function -/
theorem mean_range (w : ℝ → ℝ) (m : ℝ) (hm : 0 < m) (hw : ∀ D ∈ Ioi (0:ℝ), 0 ≤ w D) (hI : ∫ D in Ioi (0:ℝ), w D = m)
    (hv : IntegrableOn (fun D => vlaw D * w D) (Ioi 0)) :
    0 ≤ (∫ D in Ioi (0:ℝ), vlaw D * w D) / m ∧ (∫ D in Ioi (0:ℝ), vlaw D * w D) / m ≤ 10 := by
  have hwi : IntegrableOn w (Ioi 0) := by
    by_contra h
    rw [integral_undef h] at hI
    linarith
  constructor
  · apply div_nonneg _ hm.le
    exact setIntegral_nonneg measurableSet_Ioi fun D hD => mul_nonneg (vlaw_range D (le_of_lt hD)).1 (hw D hD)
  · rw [div_le_iff₀ hm, ← hI, ← integral_const_mul]
    exact setIntegral_mono_on hv (hwi.const_mul 10) measurableSet_Ioi fun D hD =>
      mul_le_mul_of_nonneg_right (vlaw_range D (le_of_lt hD)).2 (hw D hD)

/-- **C53** the density the laws refer to is that of the standard atmosphere at sea level, 1.225 kg/m3 -/
theorem reference_density : |rho_stp - 1.225| < 5e-4 := by
  unfold rho_stp R_d
  norm_num [kaBoNA, M_d, abs_lt]

theorem rho_stp_pos : 0 < rho_stp := by unfold rho_stp; have := R_d_pos; positivity

/-- **C53.** For all rain contents the fall speeds lie between zero and ten metres per second scaled by the ratio of standard to
actual air density, and they vanish below the thresholds. -/
theorem v_term_range (epsm rhod rr nr : ℝ) (he : 0 < epsm) (hrho : 0 < rhod) :
    0 ≤ v_term_m epsm rhod rr nr ∧ v_term_m epsm rhod rr nr ≤ 10 * (rho_stp / rhod) ∧
    0 ≤ v_term_n epsm rhod rr nr ∧ v_term_n epsm rhod rr nr ≤ 10 * (rho_stp / rhod) := by
  have hs : 0 < rho_stp / rhod := div_pos rho_stp_pos hrho
  by_cases h : rr < rr_eps epsm ∨ nr < nr_eps epsm
  · simp only [v_term_m, v_term_n, if_pos h]
    refine ⟨le_rfl, by positivity, le_rfl, by positivity⟩
  · push Not at h
    have hr : 0 < rr := lt_of_lt_of_le (by unfold rr_eps; positivity) h.1
    have hn : 0 < nr := lt_of_lt_of_le (by unfold nr_eps; positivity) h.2
    have hl := lambda_r_pos nr rr hn hr
    rw [v_term_m_mean epsm rhod rr nr h.1 h.2 hr hn, v_term_n_mean epsm rhod rr nr h.1 h.2 hr hn]
    have a := mean_range _ _ (by positivity) (fun D hD => by have : (0:ℝ) < D := hD; positivity) (moment3 _ hl) (mass_integral _ hl).1
    have b := mean_range _ _ (by positivity) (fun D hD => by positivity) (moment0 _ hl) (number_integral _ hl).1
    rw [moment3 _ hl, moment0 _ hl]
    refine ⟨mul_nonneg hs.le a.1, ?_, mul_nonneg hs.le b.1, ?_⟩
    · rw [mul_comm 10]; exact mul_le_mul_of_nonneg_left a.2 hs.le
    · rw [mul_comm 10]; exact mul_le_mul_of_nonneg_left b.2 hs.le

/-- rain of 1 g/kg in 1000 drops per kilogram meets the hypotheses -/
example : rr_eps 1e-7 ≤ 1e-3 ∧ nr_eps 1e-7 ≤ 1000 ∧ (0:ℝ) < 1e-3 ∧ (0:ℝ) < 1000 := by
  unfold rr_eps nr_eps; norm_num

/-- **C39, C52.** Sedimentation keeps rain mass and number non-negative on every level whatever the time step, provided that the
other processes do; the surface flux never points upwards. (The fall speeds need no assumption.) -/
theorem column_nonneg_all (epsm dt dz : ℝ) (he : 0 < epsm) (hdt : 0 < dt) (hz : 0 < dz) (o : Opts) (col : List Lev)
    (dots : List (ℝ × ℝ)) (flux : ℝ)
    (hl : ∀ l ∈ col, 0 < l.rhod ∧ 0 ≤ l.rr ∧ 0 ≤ l.nr ∧ 0 ≤ l.rr + dt * l.dotR ∧ 0 ≤ l.nr + dt * l.dotN)
    (h : column epsm o dt dz col = some (dots, flux)) :
    List.Forall₂ (fun l d => 0 ≤ l.rr + dt * d.1 ∧ 0 ≤ l.nr + dt * d.2) col dots ∧ flux ≤ 0 := by
  refine column_nonneg epsm dt dz hdt hz o col dots flux (fun l h => ?_) h
  obtain ⟨a, b, c, d, e⟩ := hl l h
  have v := v_term_range epsm l.rhod l.rr l.nr he a
  exact ⟨a, b, c, d, e, v.1, v.2.2.1⟩

example : ∀ l ∈ [(⟨1, 1e-3, 1000, 0, 0⟩ : Lev), ⟨1.1, 2e-3, 3000, -1e-4, -50⟩],
    0 < l.rhod ∧ 0 ≤ l.rr ∧ 0 ≤ l.nr ∧ 0 ≤ l.rr + 10 * l.dotR ∧ 0 ≤ l.nr + 10 * l.dotN := by
  intro l hl
  simp at hl
  rcases hl with rfl | rfl <;> norm_num

end LCP.Blk2m
