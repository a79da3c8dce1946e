import Verif.Ice.Model
import Verif.Common.Props
import Mathlib.MeasureTheory.Measure.Lebesgue.Basic
import Mathlib.Analysis.SpecialFunctions.Log.Basic
import Mathlib.Analysis.Real.Pi.Bounds

/-!
# C63: freezing temperatures and freezing probabilities as probability laws
-/
namespace LCP.Ice
open LCP.Common

/-- the published law (Shima et al. 2020, eq. 1): probability that a particle with insoluble surface `A` has its freezing
temperature at or above `T`, with the surface density of active sites `exp(8.934 - 0.517 (T - 273.15))` per square metre -/
noncomputable def activeBy (A T : ℝ) : ℝ := 1 - Real.exp (-A * Real.exp (8.934 - 0.517 * (T - 273.15)))

/-- **C63 (freezing temperature).** The freezing temperature drawn for random number `r` is at or above `T` exactly if `r` is at most
the published probability. -/
theorem Tfreeze_ge_iff (rd2insol r T : ℝ) (hA : 1e-20 < 4 * Real.pi * rd2insol) (h0 : 0 < r) (h1 : r < 1) :
    T ≤ TfreezeCDFinv rd2insol r ↔ r ≤ activeBy (4 * Real.pi * rd2insol) T := by
  unfold TfreezeCDFinv activeBy
  simp only [if_pos hA]
  set A := 4 * Real.pi * rd2insol
  have hA0 : 0 < A := lt_trans (by norm_num) hA
  have hl : 0 < -Real.log (1 - r) := by
    have := Real.log_neg (x := 1 - r) (by linarith) (by linarith)
    linarith
  have hq : 0 < -Real.log (1 - r) / A := div_pos hl hA0
  have e1 : T ≤ 273.15 + (8.934 - Real.log (-Real.log (1 - r) / A)) / 0.517 ↔ Real.log (-Real.log (1 - r) / A) ≤ 8.934 - 0.517 * (T - 273.15) := by
    constructor
    · intro h
      have : 0.517 * (T - 273.15) ≤ 8.934 - Real.log (-Real.log (1 - r) / A) := by
        have h2 : T - 273.15 ≤ (8.934 - Real.log (-Real.log (1 - r) / A)) / 0.517 := by linarith
        rw [le_div_iff₀ (by norm_num)] at h2
        linarith
      linarith
    · intro h
      have h2 : T - 273.15 ≤ (8.934 - Real.log (-Real.log (1 - r) / A)) / 0.517 := by
        rw [le_div_iff₀ (by norm_num)]; linarith
      linarith
  rw [e1, Real.log_le_iff_le_exp hq, div_le_iff₀ hA0]
  set E := Real.exp (8.934 - 0.517 * (T - 273.15))
  rw [le_sub_iff_add_le, ← le_sub_iff_add_le', ← Real.le_log_iff_exp_le (by linarith)]
  constructor <;> intro h <;> linarith

/-- particles without an inclusion (or with a surface up to 1e-20 m²) freeze at 235.15 K, whatever the random number -/
theorem Tfreeze_none (rd2insol r : ℝ) (h : 4 * Real.pi * rd2insol ≤ 1e-20) : TfreezeCDFinv rd2insol r = 235.15 := by
  unfold TfreezeCDFinv; simp only [if_neg (not_lt.2 h)]

theorem activeBy_mem (A T : ℝ) (hA : 0 < A) : 0 < activeBy A T ∧ activeBy A T < 1 := by
  unfold activeBy
  have h1 := Real.exp_pos (8.934 - 0.517 * (T - 273.15))
  have h2 : Real.exp (-A * Real.exp (8.934 - 0.517 * (T - 273.15))) < 1 := Real.exp_lt_one_iff.2 (by nlinarith)
  have h3 := Real.exp_pos (-A * Real.exp (8.934 - 0.517 * (T - 273.15)))
  constructor <;> linarith

/-- **C63 (freezing temperature, measure).** For a uniform random number the probability of a freezing temperature at or above `T` is
the published one. -/
theorem Tfreeze_law (rd2insol T : ℝ) (hA : 1e-20 < 4 * Real.pi * rd2insol) :
    MeasureTheory.volume {r | r ∈ Set.Ioo (0 : ℝ) 1 ∧ T ≤ TfreezeCDFinv rd2insol r} = ENNReal.ofReal (activeBy (4 * Real.pi * rd2insol) T) := by
  have hm := activeBy_mem (4 * Real.pi * rd2insol) T (lt_trans (by norm_num) hA)
  have : {r | r ∈ Set.Ioo (0 : ℝ) 1 ∧ T ≤ TfreezeCDFinv rd2insol r} = Set.Ioc 0 (activeBy (4 * Real.pi * rd2insol) T) := by
    ext r
    constructor
    · rintro ⟨⟨h0, h1⟩, h⟩
      exact ⟨h0, (Tfreeze_ge_iff _ _ _ hA h0 h1).1 h⟩
    · rintro ⟨h0, h⟩
      have h1 : r < 1 := lt_of_le_of_lt h hm.2
      exact ⟨⟨h0, h1⟩, (Tfreeze_ge_iff _ _ _ hA h0 h1).2 h⟩
  rw [this, Real.volume_Ioc, sub_zero]

/-- colder air: more particles freeze; larger inclusions: more particles freeze -/
theorem activeBy_mono (A A' T T' : ℝ) (hA : 0 < A) (h : A ≤ A') (hT : T' ≤ T) : activeBy A T ≤ activeBy A' T' := by
  unfold activeBy
  have h1 : Real.exp (8.934 - 0.517 * (T - 273.15)) ≤ Real.exp (8.934 - 0.517 * (T' - 273.15)) := Real.exp_le_exp.2 (by linarith)
  have h2 := Real.exp_pos (8.934 - 0.517 * (T - 273.15))
  have : Real.exp (-A' * Real.exp (8.934 - 0.517 * (T' - 273.15))) ≤ Real.exp (-A * Real.exp (8.934 - 0.517 * (T - 273.15))) :=
    Real.exp_le_exp.2 (by nlinarith)
  linarith

/-! ### time-dependent freezing -/

/-- surface or volume on which nucleation takes place -/
noncomputable def site (rd2insol rw2 : ℝ) : ℝ := if 0 < rd2insol then 4 * Real.pi * Real.sqrt rd2insol ^ 2 else 4 / 3 * Real.pi * Real.sqrt rw2 ^ 3

/-- nucleation rate per surface of inclusion (Arabas et al. 2025) or per volume of water (Koop & Murray 2016) -/
noncomputable def rate (rd2insol T : ℝ) : ℝ :=
  if 0 < rd2insol then 10000 * (10 : ℝ) ^ (22.62 * (1 - p_vsi T / p_vs T) - 1.35)
  else 1000000 * (10 : ℝ) ^ (-(3020.684 + (T - 273.15) * (425.921 + (T - 273.15) * (25.9779 + (T - 273.15) * (0.868451 +
    (T - 273.15) * (0.0166203 + (T - 273.15) * (0.000171736 + (T - 273.15) * 7.46953e-7)))))))

theorem rate_eq (rd2insol T : ℝ) : rate rd2insol T = if 0 < rd2insol then Jhet T else Jhom T := by
  unfold rate Jhet Jhom
  simp only []
  split_ifs
  · rw [mul_comm]; congr 2 <;> ring
  · rw [mul_comm]; congr 2 <;> ring

theorem Jhet_pos (T : ℝ) : 0 < Jhet T := mul_pos (Real.rpow_pos_of_pos (by norm_num) _) (by norm_num)
theorem Jhom_pos (T : ℝ) : 0 < Jhom T := mul_pos (Real.rpow_pos_of_pos (by norm_num) _) (by norm_num)

theorem rate_pos (x T : ℝ) : 0 < rate x T := by rw [rate_eq]; split_ifs; exacts [Jhet_pos T, Jhom_pos T]

theorem site_pos (rd2insol rw2 : ℝ) (h : 0 < rw2) : 0 < site rd2insol rw2 := by
  have := Real.pi_pos
  unfold site; split_ifs with h1
  · have := Real.sqrt_pos.2 h1; positivity
  · have := Real.sqrt_pos.2 h; positivity

/-- **C63 (freezing probability).** The probability is that of a Poisson process: one minus the exponential of minus rate times
surface (volume) times the time step. -/
theorem pFreeze_eq (rd2insol rw2 T dt : ℝ) (h : 0 ≤ rw2) : pFreeze rd2insol rw2 T dt = 1 - Real.exp (-(rate rd2insol T * site rd2insol rw2 * dt)) := by
  rw [rate_eq]
  unfold pFreeze site
  split_ifs with h1
  · rw [Real.sq_sqrt h1.le]; simp only []; congr 2; ring
  · have : rw2 ^ (3 / 2 : ℝ) = Real.sqrt rw2 ^ 3 := by
      rw [Real.sqrt_eq_rpow, ← Real.rpow_natCast, ← Real.rpow_mul h]; norm_num
    rw [this]; simp only []; congr 2; ring

/-- **C63 (a probability).** -/
theorem pFreeze_mem (rd2insol rw2 T dt : ℝ) (h : 0 < rw2) (hdt : 0 < dt) : 0 < pFreeze rd2insol rw2 T dt ∧ pFreeze rd2insol rw2 T dt < 1 := by
  rw [pFreeze_eq _ _ _ _ h.le]
  have hx : 0 < rate rd2insol T * site rd2insol rw2 * dt := mul_pos (mul_pos (rate_pos _ _) (site_pos _ _ h)) hdt
  have h2 : Real.exp (-(rate rd2insol T * site rd2insol rw2 * dt)) < 1 := Real.exp_lt_one_iff.2 (by linarith)
  have := Real.exp_pos (-(rate rd2insol T * site rd2insol rw2 * dt))
  constructor <;> linarith

/-- **C63 (time steps).** Surviving two steps has the probability of surviving one step of their total length: the chance of
freezing does not depend on how time is divided. -/
theorem pFreeze_split (rd2insol rw2 T dt dt' : ℝ) :
    (1 - pFreeze rd2insol rw2 T dt) * (1 - pFreeze rd2insol rw2 T dt') = 1 - pFreeze rd2insol rw2 T (dt + dt') := by
  unfold pFreeze
  split_ifs <;> · simp only [sub_sub_cancel]; rw [← Real.exp_add]; congr 1; ring

/-- any number of steps -/
theorem pFreeze_split_list (rd2insol rw2 T : ℝ) (l : List ℝ) :
    (l.map fun dt => 1 - pFreeze rd2insol rw2 T dt).prod = 1 - pFreeze rd2insol rw2 T l.sum := by
  induction l with
  | nil => unfold pFreeze; split_ifs <;> simp
  | cons a t ih => rw [List.map_cons, List.prod_cons, ih, pFreeze_split, List.sum_cons]

/-- longer steps and larger inclusions (larger droplets) are more likely to freeze -/
theorem pFreeze_mono_dt (rd2insol rw2 T dt dt' : ℝ) (h : 0 < rw2) (hd : dt ≤ dt') : pFreeze rd2insol rw2 T dt ≤ pFreeze rd2insol rw2 T dt' := by
  rw [pFreeze_eq _ _ _ _ h.le, pFreeze_eq _ _ _ _ h.le]
  have hx : 0 < rate rd2insol T * site rd2insol rw2 := mul_pos (rate_pos _ _) (site_pos _ _ h)
  have := Real.exp_le_exp.2 (show -(rate rd2insol T * site rd2insol rw2 * dt') ≤ -(rate rd2insol T * site rd2insol rw2 * dt) by nlinarith)
  linarith

theorem pFreeze_mono_insol (x y rw2 T dt : ℝ) (hx : 0 < x) (hxy : x ≤ y) (hdt : 0 ≤ dt) : pFreeze x rw2 T dt ≤ pFreeze y rw2 T dt := by
  unfold pFreeze
  rw [if_pos hx, if_pos (lt_of_lt_of_le hx hxy)]
  simp only []
  have hJ := Jhet_pos T
  have hpi := Real.pi_pos
  have h1 : Jhet T * Real.pi * dt * x ≤ Jhet T * Real.pi * dt * y := mul_le_mul_of_nonneg_left hxy (by positivity)
  have := Real.exp_le_exp.2 (show -Jhet T * (4 * Real.pi * y) * dt ≤ -Jhet T * (4 * Real.pi * x) * dt by nlinarith)
  linarith

/-- **C63 (measure).** A uniform random number triggers freezing with that probability. -/
theorem pFreeze_law (rd2insol rw2 T dt : ℝ) (h : 0 < rw2) (hdt : 0 < dt) :
    MeasureTheory.volume {u | u ∈ Set.Ico (0 : ℝ) 1 ∧ u < pFreeze rd2insol rw2 T dt} = ENNReal.ofReal (pFreeze rd2insol rw2 T dt) := by
  have hm := pFreeze_mem rd2insol rw2 T dt h hdt
  have : {u | u ∈ Set.Ico (0 : ℝ) 1 ∧ u < pFreeze rd2insol rw2 T dt} = Set.Ico 0 (pFreeze rd2insol rw2 T dt) := by
    ext u
    constructor
    · rintro ⟨⟨h0, _⟩, h⟩; exact ⟨h0, h⟩
    · rintro ⟨h0, h⟩; exact ⟨⟨h0, lt_trans h hm.2⟩, h⟩
  rw [this, Real.volume_Ico, sub_zero]

/-- the heterogeneous rate rises in colder air (down to 115 K, where the saturation pressures of the library behave) as the
difference of saturation over water and ice does: it exceeds its value at the triple point -/
theorem Jhet_cold (T : ℝ) (h1 : 115 ≤ T) (h2 : T < T_tri) : Jhet T_tri < Jhet T := by
  have h := p_vsi_lt_p_vs T h1 h2
  have hp := p_vs_pos T
  have ht := triple_point
  unfold Jhet
  simp only []
  refine mul_lt_mul_of_pos_right (Real.rpow_lt_rpow_of_exponent_lt (by norm_num) ?_) (by norm_num)
  have e1 : p_vsi T_tri / p_vs T_tri = 1 := by rw [ht.1, ht.2]; exact div_self p_tri_pos.ne'
  have e2 : p_vsi T / p_vs T < 1 := (div_lt_one hp).2 h
  rw [e1]; linarith

/-! ### initialisation -/

/-- **C63 (initialisation, partial).** For the first distribution (no super-droplets yet) every new particle gets the temperature
drawn with its own random number. -/
theorem initTfreeze_first_partial (nNew : ℕ) (rnd tmp insol Tf : ℕ → ℝ) (i : ℕ) (h : i < nNew) :
    initTfreeze 0 nNew rnd tmp insol Tf i = TfreezeCDFinv (insol i) (rnd i) := by
  unfold initTfreeze
  simp [h]

/-- older particles keep their freezing temperatures -/
theorem initTfreeze_old (nOld nNew : ℕ) (rnd tmp insol Tf : ℕ → ℝ) (i : ℕ) (h : i < nOld) : initTfreeze nOld nNew rnd tmp insol Tf i = Tf i := by
  unfold initTfreeze
  simp only []
  rw [if_neg (by omega)]

/-- **C63 (finding).** Super-droplets added when at least as many exist already get freezing temperatures that do not depend on the
random numbers drawn for them: the random numbers are written to the beginning of the temporary array, but read from behind it. -/
theorem initTfreeze_stale (nOld nNew : ℕ) (h : nNew ≤ nOld) (rnd rnd' tmp insol Tf : ℕ → ℝ) (i : ℕ) :
    initTfreeze nOld nNew rnd tmp insol Tf i = initTfreeze nOld nNew rnd' tmp insol Tf i := by
  unfold initTfreeze
  simp only []
  split_ifs with h1 h2
  · omega
  · rfl
  · rfl

/-- in particular with equal leftovers in the array all of them get the same temperature, for any random numbers -/
theorem initTfreeze_equal (nOld nNew : ℕ) (h : nNew ≤ nOld) (rnd tmp insol Tf : ℕ → ℝ) (x a : ℝ) (ht : ∀ k, tmp k = x) (ha : ∀ k, insol k = a)
    (i : ℕ) (h1 : nOld ≤ i) (h2 : i < nOld + nNew) : initTfreeze nOld nNew rnd tmp insol Tf i = TfreezeCDFinv a x := by
  unfold initTfreeze
  simp only []
  rw [if_pos ⟨h1, h2⟩, if_neg (by omega), ht, ha]

/-! ### Non-vacuity -/

/-- an inclusion of 100 nm has a surface above the threshold -/
example : (1e-20 : ℝ) < 4 * Real.pi * 1e-14 := by have := Real.pi_gt_three; nlinarith

example : initTfreeze 5 3 (fun k => 0.1 * k) (fun _ => 0.5) (fun _ => 1e-14) (fun _ => 0) 6 = TfreezeCDFinv 1e-14 0.5 :=
  initTfreeze_equal 5 3 (by norm_num) _ _ _ _ _ _ (fun _ => rfl) (fun _ => rfl) 6 (by norm_num) (by norm_num)

end LCP.Ice
