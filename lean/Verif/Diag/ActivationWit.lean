import Verif.Diag.ActivationProps
import Mathlib.Analysis.Complex.ExponentialBounds

/-!
# C83: concrete cases, and histories in which the activation diagnostics use outdated air
-/
namespace LCP.Activ
open LCP.Common

theorem cbrt_eq {x y : ℝ} (hy : 0 ≤ y) (h : y ^ 3 = x) : cbrt x = y := by
  unfold cbrt
  rw [← h, ← Real.rpow_natCast, ← Real.rpow_mul hy]
  norm_num

/-- bounds on the Kelvin term -/
theorem kelvinA_240 : 1.44e-9 < kelvinA 240 ∧ kelvinA 240 < 1.45e-9 := by
  unfold kelvinA sg_surf R_v kaBoNA M_v M_H M_OH rho_w
  constructor <;> norm_num
theorem kelvinA_320 : 9.2e-10 < kelvinA 320 ∧ kelvinA 320 < 9.3e-10 := by
  unfold kelvinA sg_surf R_v kaBoNA M_v M_H M_OH rho_w
  constructor <;> norm_num

/-- a 20 nm (dry radius) particle of kappa 0.6 -/
theorem ok_of {T : ℝ} (h0 : 0 < T) (h1 : T < 791) (hA : 9e-10 < kelvinA T) : Ok 8e-24 0.6 T where
  hd := by norm_num
  hk := by norm_num
  hk2 := by norm_num
  hT0 := h0
  hT1 := h1
  hb := by
    unfold Bracket
    have : cbrt (1e8 * 8e-24) ≤ 1e-5 := by
      rw [show (1e8 * 8e-24 : ℝ) = 8e-16 by norm_num]
      unfold cbrt
      calc (8e-16 : ℝ) ^ (1 / 3 : ℝ) ≤ (1e-15 : ℝ) ^ (1 / 3 : ℝ) := Real.rpow_le_rpow (by norm_num) (by norm_num) (by norm_num)
        _ = 1e-5 := cbrt_eq (by norm_num) (by norm_num)
    nlinarith [this, hA]

/-- the critical volume lies above `y^3` if the slope of the curve is positive there -/
theorem above {d kappa T v y : ℝ} (h : Ok d kappa T) (hv : IsCritical d kappa T v) (hy0 : 0 < y)
    (hs : 0 < crF (kelvinA T) d kappa y) : y ^ 3 < v := by
  obtain ⟨w, hw1, hw2, hw0⟩ := rw3_cr_exists d kappa T h.hd h.hk h.hb
  have hwc : IsCritical d kappa T w := by
    refine ⟨hw1, fun u hu hne => ?_⟩
    have := (rw3_cr_is_max d kappa T w h.hd h.hk h.hk2 h.hT0 h.hT1 hw1 hw0).2.2.1 u hu hne
    rwa [koehler_cbrt _ _ _ _ (by linarith [h.hd]), koehler_cbrt _ _ _ _ (by linarith [h.hd])] at this
  obtain rfl := critical_unique hv hwc
  by_contra hle
  push Not at hle
  have hw00 : 0 < w := h.hd.trans hw1
  rw [cr_minfun_eq d kappa T w hw00.le] at hw0
  have hc3 := cbrt_cube w hw00.le
  rcases hle.eq_or_lt with e | hlt
  · rw [cbrt_eq hy0.le e.symm] at hw0
    linarith
  · have : cbrt w < y := by
      by_contra hh
      push Not at hh
      have := pow_le_pow_left₀ hy0.le hh 3
      rw [hc3] at this
      linarith
    have := crF_neg_after _ d kappa (cbrt w) y (kelvinA_pos T h.hT0 h.hT1) h.hd h.hk h.hk2 (cbrt_pos w hw00) (by rw [hc3]; exact hw1) this hw0.le
    linarith

/-- and below if it is negative -/
theorem below {d kappa T v y : ℝ} (h : Ok d kappa T) (hv : IsCritical d kappa T v) (hy0 : 0 < y) (hy : d < y ^ 3)
    (hs : crF (kelvinA T) d kappa y < 0) : v < y ^ 3 := by
  obtain ⟨w, hw1, hw2, hw0⟩ := rw3_cr_exists d kappa T h.hd h.hk h.hb
  have hwc : IsCritical d kappa T w := by
    refine ⟨hw1, fun u hu hne => ?_⟩
    have := (rw3_cr_is_max d kappa T w h.hd h.hk h.hk2 h.hT0 h.hT1 hw1 hw0).2.2.1 u hu hne
    rwa [koehler_cbrt _ _ _ _ (by linarith [h.hd]), koehler_cbrt _ _ _ _ (by linarith [h.hd])] at this
  obtain rfl := critical_unique hv hwc
  by_contra hle
  push Not at hle
  have hw00 : 0 < w := h.hd.trans hw1
  rw [cr_minfun_eq d kappa T w hw00.le] at hw0
  have hc3 := cbrt_cube w hw00.le
  rcases hle.eq_or_lt with e | hlt
  · rw [cbrt_eq hy0.le e] at hw0
    linarith
  · have : y < cbrt w := by
      by_contra hh
      push Not at hh
      have := pow_le_pow_left₀ (cbrt_pos w hw00).le hh 3
      rw [hc3] at this
      linarith
    have := crF_neg_after _ d kappa y (cbrt w) (kelvinA_pos T h.hT0 h.hT1) h.hd h.hk h.hk2 hy0 hy this hs.le
    linarith

theorem ok240 : Ok 8e-24 0.6 240 := ok_of (by norm_num) (by norm_num) (by linarith [kelvinA_240.1, show (9e-10:ℝ) < 1.44e-9 by norm_num])
theorem ok320 : Ok 8e-24 0.6 320 := ok_of (by norm_num) (by norm_num) (by linarith [kelvinA_320.1, show (9e-10:ℝ) < 9.2e-10 by norm_num])

theorem rc2_lt_iff (d kappa T rw2 : ℝ) (hr : 0 ≤ Toms.rw3_cr d kappa T) :
    rc2 d kappa T < rw2 ↔ Toms.rw3_cr d kappa T < √rw2 ^ 3 := by
  unfold rc2
  set w := Toms.rw3_cr d kappa T
  have e1 : w ^ (2 / 3 : ℝ) = (w ^ (1 / 3 : ℝ)) ^ 2 := by
    rw [← Real.rpow_natCast, ← Real.rpow_mul hr]; norm_num
  have e2 : (w ^ (1 / 3 : ℝ)) ^ 3 = w := by
    rw [← Real.rpow_natCast, ← Real.rpow_mul hr]; norm_num
  have hp : 0 ≤ w ^ (1 / 3 : ℝ) := Real.rpow_nonneg hr _
  rw [e1, ← Real.lt_sqrt hp]
  constructor
  · intro h
    calc w = (w ^ (1 / 3 : ℝ)) ^ 3 := e2.symm
      _ < √rw2 ^ 3 := pow_lt_pow_left₀ h hp (by norm_num)
  · intro h
    rw [← e2] at h
    exact (pow_lt_pow_iff_left₀ hp (Real.sqrt_nonneg _) (by norm_num)).1 h

theorem sqrt_121 : √(1.21e-14 : ℝ) = 1.1e-7 := by
  rw [show (1.21e-14 : ℝ) = 1.1e-7 ^ 2 by norm_num, Real.sqrt_sq (by norm_num)]

/-- at 240 K a drop of 0.11 micrometre grown on that particle is activated -/
theorem active_240 : rc2 8e-24 0.6 240 < 1.21e-14 := by
  obtain ⟨v, hv, hacc⟩ := critical_exists ok240
  have hb := below (y := 1.05e-7) ok240 hv (by norm_num) (by norm_num) (by
    unfold crF
    have := kelvinA_240.1
    norm_num at this ⊢
    linarith)
  rw [rc2_lt_iff _ _ _ _ (ok240.hd.le.trans (rw3_cr_ge _ _ _ ok240.hd ok240.hk ok240.hb)), sqrt_121]
  have h1 := (abs_le.1 hacc).2
  have h2 : max (2 ^ (-16 : ℤ) * v) (((1e8 : ℝ) * 8e-24 - 8e-24) / 2 ^ 25) ≤ 1e-22 := by
    apply max_le
    · norm_num at hb ⊢; linarith
    · norm_num
  have h3 := h1.trans h2
  norm_num at hb h3 ⊢
  linarith

/-- at 320 K it is not -/
theorem inactive_320 : 1.21e-14 < rc2 8e-24 0.6 320 := by
  obtain ⟨v, hv, hacc⟩ := critical_exists ok320
  have hb := above (y := 1.2e-7) ok320 hv (by norm_num) (by
    unfold crF
    have := kelvinA_320.2
    norm_num at this ⊢
    linarith)
  by_contra hle
  push Not at hle
  rw [rc2_le_iff _ _ _ _ (by norm_num) (ok320.hd.le.trans (rw3_cr_ge _ _ _ ok320.hd ok320.hk ok320.hb)), sqrt_121] at hle
  have h1 := (abs_le.1 hacc).1
  rcases le_total (2 ^ (-16 : ℤ) * v) (((1e8 : ℝ) * 8e-24 - 8e-24) / 2 ^ 25) with h | h
  · rw [max_eq_right h] at h1
    norm_num at hb h1 hle
    linarith
  · rw [max_eq_left h] at h1
    norm_num at hb h1 hle
    linarith

/-- anelastic set-up: standard potential temperature, pressure profile given -/
def exOpts : TprOpts := { th_dry := false, const_p := true }

/-- one super-droplet of multiplicity 1 in a single cell with the potential temperature `th` at 1000 hPa -/
noncomputable def exObj (th : ℝ) : Obj where
  d := { N := 1, n := fun _ => 1, ijk := fun _ => 0, sid := [0], nf := none, nCell := 1, nDims := 0, dv := fun _ => 1,
         rhod := fun _ => 1, countN := 0, countIjk := fun _ => 0, countMom := fun _ => 0 }
  rd3 := fun _ => 8e-24
  kpa := fun _ => 0.6
  rw2 := fun _ => 1.21e-14
  inc := fun _ => 0
  th := fun _ => th
  rv := fun _ => 0.01
  rhod := fun _ => 1
  p := fun _ => p_1000
  T := fun _ => th
  RH := fun _ => RHof .pv_cc p_1000 0.01 th

theorem exner_1000 : exner p_1000 = 1 := by
  unfold exner
  rw [div_self (by unfold p_1000; norm_num), Real.one_rpow]

theorem exObj_current (th : ℝ) : Current exOpts (exObj th) := by
  intro c
  refine ⟨?_, ?_, rfl⟩
  · have := exner_1000
    unfold exner at this
    simp [exOpts, exObj, this]
  · intro h; exact absurd h (by decide)

theorem tpr_T (s : Obj) (hp : s.p = fun _ => p_1000) (c : ℕ) : (hskpngTpr exOpts s).T c = s.th c := by
  simp only [hskpngTpr, TofCell, exOpts, hp, exner_1000, mul_one, Bool.false_eq_true, if_false]

/-- **C83 (finding).** The activation diagnostics do not see the air passed to `sync_in`: after `sync_in` with air of 240 K replacing
air of 320 K, `diag_rw_ge_rc` does not select a drop which is activated in the new air; it does if `diag_temperature` (or any
of the other two) is called in between. -/
theorem activation_stale :
    Current exOpts (exObj 320) ∧
    (∃ t nf, diagRwGeRc (syncIn (some (fun _ => 240)) none none (exObj 320)) = some t ∧ t.d.nf = some nf ∧ nf 0 = 0) ∧
    (∃ t nf, diagRwGeRc (diagTemperature exOpts (syncIn (some (fun _ => 240)) none none (exObj 320))) = some t ∧ t.d.nf = some nf ∧
      nf 0 = 1) := by
  refine ⟨exObj_current _, ⟨_, _, rfl, rfl, ?_⟩, ⟨_, _, rfl, rfl, ?_⟩⟩
  · show Diag.compFilter _ _ (rc2 8e-24 0.6 320) = 0
    unfold Diag.compFilter
    rw [if_neg]
    exact not_le.2 inactive_320
  · show Diag.compFilter _ _ (rc2 8e-24 0.6 ((hskpngTpr exOpts (syncIn (some (fun _ => 240)) none none (exObj 320))).T 0)) = 1
    rw [tpr_T _ rfl]
    unfold Diag.compFilter
    rw [if_pos]
    · simp [diagTemperature, hskpngTpr, syncIn, exObj, Diag.diagField]
    · exact active_240.le

/-- **C83 (finding).** Reading the temperature changes the simulation: the in-cloud time which `step_cond` then records differs
according to whether `diag_temperature` was called between `sync_in` and `step_cond`. -/
theorem diagnostic_changes_incloud :
    (updateIncloud 1 (syncIn (some (fun _ => 240)) none none (exObj 320))).inc 0 = 0 ∧
    (updateIncloud 1 (diagTemperature exOpts (syncIn (some (fun _ => 240)) none none (exObj 320)))).inc 0 = 1 := by
  constructor
  · show (if rc2 8e-24 0.6 320 < 1.21e-14 then (0 : ℝ) + 1 else 0) = 0
    rw [if_neg (not_lt.2 inactive_320.le)]
  · show (if rc2 8e-24 0.6 ((hskpngTpr exOpts (syncIn (some (fun _ => 240)) none none (exObj 320))).T 0) < 1.21e-14 then (0 : ℝ) + 1
      else 0) = 1
    rw [tpr_T _ rfl, if_pos]
    · norm_num
    · exact active_240

/-- the hypotheses of `rw_ge_rc` and `RH_ge_Sc` are met by this drop, and there is a critical volume -/
example : ∃ t v, diagRwGeRc (exObj 320) = some t ∧ 0 ≤ (exObj 320).rw2 0 ∧
    Ok ((exObj 320).rd3 0) ((exObj 320).kpa 0) ((exObj 320).T ((exObj 320).d.ijk 0)) ∧
    IsCritical ((exObj 320).rd3 0) ((exObj 320).kpa 0) ((exObj 320).T ((exObj 320).d.ijk 0)) v ∧
    √((exObj 320).rw2 0) ^ 3 < v - max (2 ^ (-16 : ℤ) * v) ((1e8 * (exObj 320).rd3 0 - (exObj 320).rd3 0) / 2 ^ 25) := by
  obtain ⟨v, hv, hacc⟩ := critical_exists ok320
  have hb := above (y := 1.2e-7) ok320 hv (by norm_num) (by
    unfold crF
    have := kelvinA_320.2
    norm_num at this ⊢
    linarith)
  refine ⟨_, v, rfl, by simp only [exObj]; norm_num, ok320, hv, ?_⟩
  simp only [exObj]
  rw [sqrt_121]
  rcases le_total (2 ^ (-16 : ℤ) * v) (((1e8 : ℝ) * 8e-24 - 8e-24) / 2 ^ 25) with h | h
  · rw [max_eq_right h]
    norm_num at hb ⊢
    linarith
  · rw [max_eq_left h]
    norm_num at hb ⊢
    linarith

/-- a history: two active steps (0.5 s, 1 s), an inactive one, an active one of 2 s, then collection of droplets which have been
active all along; numbers 0 and 1 -/
example : let evs : List Ev := [.cond 0.5 (fun _ => True), .cond 1 (fun _ => True), .cond 1 (fun i => i = 1), .cond 2 (fun _ => True),
      .coal (fun i => if i = 0 then some 1 else none), .renumber (fun i => if i = 0 then none else some 0)]
    run evs 0 = 0 ∧ run evs 1 = 4.5 := by
  simp only [run, List.foldl_cons, List.foldl_nil, apply]
  norm_num

/-- a sequence of calls to which `air_current_partial` applies -/
example : ∃ t, Calls exOpts ([.syncIn (some (fun _ => 240)) none none, .stepCond] ++ .stepAsync :: [.diagOther]) (exObj 320) t :=
  ⟨_, _, rfl, exObj 250, trivial, _, ⟨rfl, rfl, rfl, rfl, rfl, rfl⟩, _, ⟨rfl, rfl, rfl, rfl, rfl, rfl⟩, rfl⟩

end LCP.Activ
