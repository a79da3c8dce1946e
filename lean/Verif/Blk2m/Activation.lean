import Verif.Blk2m.Spectra
import Verif.Common.Profiles
import Verif.Common.Koehler

/-!
# Activation in the double-moment scheme (C124)

The number of activated droplets is, independently of the error function in the code, the number of aerosol particles of the
log-normal modes that have no equilibrium size at the supersaturation of the air, limited to `RH_max - 1`.
-/
namespace LCP.Blk2m
open LCP.Common MeasureTheory Set Filter Topology

/-- the particle of dry radius `rd` and solubility `b` cannot be held in equilibrium by the Köhler curve
`s(r) = A / r - b rd³ / r³` at supersaturations above `s` (specification) -/
def NoBarrier (A b rd s : ℝ) : Prop := ∀ r > 0, A / r - b * rd ^ 3 / r ^ 3 ≤ s

/-- particles of one mode per kilogram of dry air that activate at supersaturation `s` (specification; `x` is the logarithm of
the dry radius, concentrations are given at standard temperature and pressure) -/
noncomputable def activated (A s : ℝ) (m : Mode) : ℝ :=
  (∫ x in {x : ℝ | NoBarrier A m.chem_b (Real.exp x) s}, lognormal_n_e m.mean_rd m.sdev_rd m.N_stp x) / rho_stp

/-- the maximum of the Köhler curve -/
theorem noBarrier_iff (A b rd s : ℝ) (hA : 0 < A) (hb : 0 < b) (hr : 0 < rd) :
    NoBarrier A b rd s ↔ Real.sqrt (4 * A ^ 3 / 27 / (b * rd ^ 3)) ≤ s := by
  have hB : 0 < b * rd ^ 3 := by positivity
  unfold NoBarrier
  generalize b * rd ^ 3 = B at *
  obtain ⟨t, ht⟩ : ∃ t, t = Real.sqrt (A / (3 * B)) := ⟨_, rfl⟩
  have ht0 : 0 < t := by rw [ht]; positivity
  have ht2 : t ^ 2 = A / (3 * B) := by rw [ht, Real.sq_sqrt (by positivity)]
  have hA' : A = 3 * B * t ^ 2 := by rw [ht2]; field_simp
  have hs : Real.sqrt (4 * A ^ 3 / 27 / B) = 2 * B * t ^ 3 := by
    rw [Real.sqrt_eq_iff_mul_self_eq (by positivity) (by positivity), hA']; field_simp; ring
  rw [hs]
  constructor
  · intro h
    have := h (1 / t) (by positivity)
    rw [hA'] at this
    have e : 3 * B * t ^ 2 / (1 / t) - B / (1 / t) ^ 3 = 2 * B * t ^ 3 := by field_simp; ring
    linarith
  · intro h r hr
    refine le_trans ?_ h
    obtain ⟨q, hq, rfl⟩ : ∃ q : ℝ, 0 < q ∧ r = 1 / q := ⟨1 / r, by positivity, by field_simp⟩
    have e : A / (1 / q) - B / (1 / q) ^ 3 = 3 * B * t ^ 2 * q - B * q ^ 3 := by rw [hA']; field_simp
    rw [e]
    have : 0 ≤ B * ((q - t) ^ 2 * (q + 2 * t)) := by positivity
    nlinarith

/-- in terms of the logarithm of dry radius -/
theorem noBarrier_log (A b x s : ℝ) (hA : 0 < A) (hb : 0 < b) (hs : 0 < s) :
    NoBarrier A b (Real.exp x) s ↔ Real.log (Real.sqrt (4 * A ^ 3 / 27 / b) / s) / 1.5 ≤ x := by
  rw [noBarrier_iff A b _ s hA hb (Real.exp_pos x)]
  have e : Real.sqrt (4 * A ^ 3 / 27 / (b * Real.exp x ^ 3)) = Real.sqrt (4 * A ^ 3 / 27 / b) * Real.exp (-(1.5 * x)) := by
    rw [Real.sqrt_eq_iff_mul_self_eq (by positivity) (by positivity)]
    have h1 : Real.sqrt (4 * A ^ 3 / 27 / b) * Real.sqrt (4 * A ^ 3 / 27 / b) = 4 * A ^ 3 / 27 / b :=
      Real.mul_self_sqrt (by positivity)
    have h2 : Real.exp (-(1.5 * x)) * Real.exp (-(1.5 * x)) = 1 / Real.exp x ^ 3 := by
      rw [← Real.exp_add, ← Real.exp_nat_mul, one_div, ← Real.exp_neg]; congr 1; push_cast; ring
    have : Real.sqrt (4 * A ^ 3 / 27 / b) * Real.exp (-(1.5 * x)) * (Real.sqrt (4 * A ^ 3 / 27 / b) * Real.exp (-(1.5 * x)))
        = (4 * A ^ 3 / 27 / b) * (1 / Real.exp x ^ 3) := by rw [mul_mul_mul_comm, h1, h2]
    rw [this]; field_simp
  have hq : 0 < Real.sqrt (4 * A ^ 3 / 27 / b) := by positivity
  generalize Real.sqrt (4 * A ^ 3 / 27 / b) = q at *
  rw [e, div_le_iff₀ (by norm_num : (0:ℝ) < 1.5)]
  rw [Real.log_le_iff_le_exp (by positivity), div_le_iff₀ hs, Real.exp_neg, ← div_eq_mul_inv, div_le_iff₀ (Real.exp_pos _),
    mul_comm x, mul_comm s]

theorem erf_tendsto : Tendsto erf atTop (𝓝 1) := by
  have hi : IntegrableOn (fun t : ℝ => Real.exp (-t ^ 2)) (Ioi 0) := by
    have := (integrable_exp_neg_mul_sq (b := 1) one_pos).integrableOn (s := Ioi (0:ℝ))
    simpa using this
  have h := intervalIntegral_tendsto_integral_Ioi 0 hi tendsto_id
  have g : ∫ t in Ioi (0:ℝ), Real.exp (-t ^ 2) = Real.sqrt Real.pi / 2 := by
    have := integral_gaussian_Ioi 1
    simpa using this
  rw [g] at h
  have h2 := h.const_mul (2 / Real.sqrt Real.pi)
  have hp : Real.sqrt Real.pi ≠ 0 := (Real.sqrt_pos.2 Real.pi_pos).ne'
  rw [show 2 / Real.sqrt Real.pi * (Real.sqrt Real.pi / 2) = 1 by field_simp] at h2
  exact h2

/-- tail of a log-normal distribution -/
theorem lognormal_tail (m s n a : ℝ) (hs : 1 < s) (hn : 0 ≤ n) :
    IntegrableOn (lognormal_n_e m s n) (Ioi a) ∧
    ∫ x in Ioi a, lognormal_n_e m s n x = n / 2 * (1 - erf ((a - Real.log m) / (Real.sqrt 2 * Real.log s))) := by
  have hL : 0 < Real.log s := Real.log_pos hs
  have hp : 0 < Real.sqrt Real.pi := Real.sqrt_pos.2 Real.pi_pos
  have h2 : 0 < Real.sqrt 2 := by positivity
  have hd : ∀ x ∈ Ici a, HasDerivAt (fun x => n / 2 * erf ((x - Real.log m) / (Real.sqrt 2 * Real.log s)))
      (lognormal_n_e m s n x) x := by
    intro x _
    have h1 : HasDerivAt (fun x : ℝ => (x - Real.log m) / (Real.sqrt 2 * Real.log s)) (1 / (Real.sqrt 2 * Real.log s)) x :=
      ((hasDerivAt_id x).sub_const _).div_const _
    have h := ((erf_hasDerivAt _).comp x h1).const_mul (n / 2)
    refine h.congr_deriv ?_
    unfold lognormal_n_e
    have e : -((x - Real.log m) / (Real.sqrt 2 * Real.log s)) ^ 2 = -(x - Real.log m) ^ 2 / 2 / Real.log s ^ 2 := by
      rw [div_pow, mul_pow, Real.sq_sqrt (by norm_num)]; field_simp
    rw [e, Real.sqrt_mul (by norm_num)]
    field_simp
  have hpos : ∀ x ∈ Ioi a, 0 ≤ lognormal_n_e m s n x := by
    intro x _; unfold lognormal_n_e; positivity
  have ht : Tendsto (fun x => n / 2 * erf ((x - Real.log m) / (Real.sqrt 2 * Real.log s))) atTop (𝓝 (n / 2 * 1)) := by
    refine (erf_tendsto.comp ?_).const_mul _
    have : Tendsto (fun x : ℝ => x - Real.log m) atTop atTop := tendsto_atTop_add_const_right _ _ tendsto_id
    exact this.atTop_div_const (by positivity)
  refine ⟨integrableOn_Ioi_deriv_of_nonneg' hd hpos ht, ?_⟩
  rw [integral_Ioi_of_hasDerivAt_of_nonneg' hd hpos ht]; ring

/-- **C124.** For all conditions and modes: the number of activated droplets of one mode is the number of its particles without
a barrier at the supersaturation `rv / r_vs - 1` of the air, limited to `RH_max - 1`. -/
theorem n_c_p_counts (p T rv RH_max : ℝ) (m : Mode) (hT0 : 0 < T) (hT1 : T < 791) (hm : 0 < m.mean_rd) (hs : 1 < m.sdev_rd)
    (hN : 0 ≤ m.N_stp) (hb : 0 < m.chem_b) (hsup : 0 < rv / r_vs T p - 1) (hR : 1 < RH_max) :
    n_c_p p T rv m.mean_rd m.sdev_rd m.N_stp m.chem_b RH_max = activated (kelvinA T) (min (rv / r_vs T p - 1) (RH_max - 1)) m := by
  have hA := kelvinA_pos T hT0 hT1
  have hmin : 0 < min (rv / r_vs T p - 1) (RH_max - 1) := lt_min hsup (by linarith)
  have hL : 0 < Real.log m.sdev_rd := Real.log_pos hs
  unfold n_c_p activated u sup s_0
  generalize min (rv / r_vs T p - 1) (RH_max - 1) = S at *
  have hset : {x : ℝ | NoBarrier (kelvinA T) m.chem_b (Real.exp x) S} =
      Ici (Real.log (Real.sqrt (4 * kelvinA T ^ 3 / 27 / m.chem_b) / S) / 1.5) := by
    ext x; exact noBarrier_log _ _ _ _ hA hb hmin
  rw [hset, integral_Ici_eq_integral_Ioi, (lognormal_tail m.mean_rd m.sdev_rd m.N_stp _ hs hN).2]
  have hq : 0 < Real.sqrt (4 * kelvinA T ^ 3 / 27 / m.chem_b) := by positivity
  generalize Real.sqrt (4 * kelvinA T ^ 3 / 27 / m.chem_b) = q at *
  have e : Real.log (m.mean_rd ^ (-(1 + 0.5) : ℝ) * q / S) / Real.sqrt 2 / Real.log (m.sdev_rd ^ (1 + 0.5 : ℝ)) =
      (Real.log (q / S) / 1.5 - Real.log m.mean_rd) / (Real.sqrt 2 * Real.log m.sdev_rd) := by
    rw [mul_div_assoc, Real.log_mul (by positivity) (by positivity), Real.log_rpow hm, Real.log_rpow (by linarith)]
    have : 0 < Real.sqrt 2 := by positivity
    field_simp
    ring
  rw [e]; ring

/-- **C124.** More supersaturated air activates at least as many particles of a mode, never more than there are. -/
theorem activated_mono (A s s' : ℝ) (m : Mode) (hA : 0 < A) (hm : 0 < m.mean_rd) (hsd : 1 < m.sdev_rd)
    (hN : 0 ≤ m.N_stp) (hss : s ≤ s') :
    0 ≤ activated A s m ∧ activated A s m ≤ activated A s' m ∧ activated A s' m ≤ m.N_stp / rho_stp := by
  have hp : ∀ x, 0 ≤ lognormal_n_e m.mean_rd m.sdev_rd m.N_stp x := by
    intro x; unfold lognormal_n_e; have := Real.log_pos hsd; positivity
  have hi : Integrable (lognormal_n_e m.mean_rd m.sdev_rd m.N_stp) := by
    by_cases h0 : m.N_stp = 0
    · have : lognormal_n_e m.mean_rd m.sdev_rd m.N_stp = fun _ => 0 := by funext x; unfold lognormal_n_e; rw [h0]; simp
      rw [this]; exact integrable_zero _ _ _
    · by_contra hc
      have := lognormal_number m.mean_rd m.sdev_rd m.N_stp hm hsd
      rw [integral_undef hc] at this
      exact h0 this.symm
  have hr := rho_stp_pos
  have sub : {x : ℝ | NoBarrier A m.chem_b (Real.exp x) s} ⊆ {x : ℝ | NoBarrier A m.chem_b (Real.exp x) s'} :=
    fun x hx r hr => (hx r hr).trans hss
  unfold activated
  refine ⟨div_nonneg (integral_nonneg hp) hr.le, ?_, ?_⟩
  · exact div_le_div_of_nonneg_right
      (setIntegral_mono_set hi.integrableOn (Eventually.of_forall fun x => hp x) (Eventually.of_forall sub)) hr.le
  · refine div_le_div_of_nonneg_right ?_ hr.le
    refine le_of_le_of_eq ?_ (lognormal_number m.mean_rd m.sdev_rd m.N_stp hm hsd)
    exact setIntegral_le_integral hi (Eventually.of_forall fun x => hp x)

/-- **C124.** For all cells and lists of modes: after a step with activation alone, the droplet number is the larger one of what
it was and the number of particles without a barrier; nothing is activated in air that is not supersaturated; and each new
droplet brings the water of a one-micrometre sphere. -/
theorem activation_step (o : Opts) (dt T p : ℝ) (c : Cell) (hdt : 0 < dt) (hT0 : 0 < T) (hT1 : T < 791) (hR : 1 < o.RH_max)
    (hvs : 0 < r_vs T p) (hm : ∀ m ∈ o.modes, 0 < m.mean_rd ∧ 1 < m.sdev_rd ∧ 0 ≤ m.N_stp ∧ 0 < m.chem_b) (ha : o.acti = true) :
    c.nc + dt * actRate o dt T p c =
      (if r_vs T p < c.rv then
        max c.nc ((o.modes.map fun m => activated (kelvinA T) (min (c.rv / r_vs T p - 1) (o.RH_max - 1)) m).sum)
      else c.nc) ∧
    ccnmass = dropMass (2 * 1e-6) := by
  refine ⟨?_, by unfold ccnmass dropMass; norm_num⟩
  unfold actRate
  by_cases h : r_vs T p < c.rv
  · rw [if_pos ⟨ha, h⟩, if_pos h]
    have e : (o.modes.map fun m => n_c_p p T c.rv m.mean_rd m.sdev_rd m.N_stp m.chem_b o.RH_max) =
        o.modes.map fun m => activated (kelvinA T) (min (c.rv / r_vs T p - 1) (o.RH_max - 1)) m := by
      refine List.map_congr_left fun m hmm => ?_
      obtain ⟨h1, h2, h3, h4⟩ := hm m hmm
      refine n_c_p_counts p T c.rv o.RH_max m hT0 hT1 h1 h2 h3 h4 ?_ hR
      rw [sub_pos, lt_div_iff₀ hvs]; linarith
    rw [e]
    generalize (o.modes.map fun m => activated (kelvinA T) (min (c.rv / r_vs T p - 1) (o.RH_max - 1)) m).sum = n
    unfold activation_rate
    rcases le_total n c.nc with hn | hn
    · rw [max_eq_left (div_nonpos_of_nonpos_of_nonneg (by linarith) hdt.le), max_eq_left hn]; ring
    · rw [max_eq_right (div_nonneg (by linarith) hdt.le), max_eq_right hn]; field_simp; ring
  · rw [if_neg (fun hh => h hh.2), if_neg h]; ring

/-- non-vacuity: a clean and a polluted mode, air of one per cent supersaturation at 283 K -/
example : ∃ (o : Opts) (T p : ℝ) (c : Cell), 0 < r_vs T p ∧ r_vs T p < c.rv ∧ o.modes.length = 2 ∧ 1 < o.RH_max ∧
    0 < T ∧ T < 791 ∧ ∀ m ∈ o.modes, 0 < m.mean_rd ∧ 1 < m.sdev_rd ∧ 0 ≤ m.N_stp ∧ 0 < m.chem_b := by
  refine ⟨{ modes := [⟨2e-8, 1.4, 6e7, 0.55⟩, ⟨7.5e-8, 1.6, 4e7, 0.55⟩] }, T_tri, 1e5,
    ⟨1, 300, r_vs T_tri 1e5 * 1.01, 0, 0, 0, 0, 1e5⟩, ?_⟩
  have h1 : p_vs T_tri = p_tri := by unfold p_vs; simp [T_tri]
  have hv : 0 < r_vs T_tri 1e5 := r_vs_pos _ _ (by rw [h1]; unfold p_tri; norm_num)
  refine ⟨hv, by show _ < r_vs T_tri 1e5 * 1.01; linarith, rfl, by norm_num, by unfold T_tri; norm_num, by unfold T_tri; norm_num, ?_⟩
  intro m hm
  simp only [List.mem_cons, List.not_mem_nil, or_false] at hm
  rcases hm with rfl | rfl <;> norm_num

end LCP.Blk2m
