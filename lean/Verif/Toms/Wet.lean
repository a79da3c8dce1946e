import Verif.Toms.Props
import Verif.Common.Koehler

/-!
# The equilibrium and critical radii as computed (C48, C49)

Combination of the root finder with the Koehler functions: include/libcloudph++/common/kappa_koehler.hpp.
-/
namespace LCP.Toms
open LCP.Common

open Classical in
/-- kappa_koehler::rw3_eq in double precision (kappa_koehler.hpp:125-145) -/
noncomputable def rw3_eq (rd3 kappa RH T : ℝ) : ℝ :=
  if kappa = 0 then rd3 else solveDbl (rw3_eq_minfun RH rd3 kappa T) rd3 (rw3_eq_nokelvin rd3 kappa RH)

/-- kappa_koehler::rw3_cr (kappa_koehler.hpp:150-168; always in double precision) -/
noncomputable def rw3_cr (rd3 kappa T : ℝ) : ℝ := solveDbl (rw3_cr_minfun rd3 kappa T) (1e0 * rd3) (1e8 * rd3)

/-- kappa_koehler::S_cr (kappa_koehler.hpp:171-192) -/
noncomputable def S_cr (rd3 kappa T : ℝ) : ℝ := a_w (rw3_cr rd3 kappa T) rd3 kappa * klvntrm (cbrt (rw3_cr rd3 kappa T)) T

theorem rw3_eq_cont (d kappa RH T hi : ℝ) (hd : 0 < d) (hk : 0 < kappa) :
    ContinuousOn (rw3_eq_minfun RH d kappa T) (Set.Icc d hi) := by
  unfold rw3_eq_minfun a_w klvntrm cbrt
  apply ContinuousOn.sub continuousOn_const
  apply ContinuousOn.mul
  · apply ContinuousOn.div (by fun_prop) (by fun_prop)
    intro x hx
    have := hx.1
    have : 0 < x - d * (1 - kappa) := by nlinarith [mul_pos hd hk]
    exact this.ne'
  · apply ContinuousOn.rexp
    apply ContinuousOn.div continuousOn_const
    · apply ContinuousOn.rpow_const continuousOn_id
      intro x hx
      right; norm_num
    · intro x hx
      exact (Real.rpow_pos_of_pos (lt_of_lt_of_le hd hx.1) _).ne'

/-- **C48/C49.** The wet volume returned by `rw3_eq` approximates the unique solution `v` of the Koehler equation
`a_w(v) exp(A/r(v)) = RH` above the dry volume, with the stated accuracy. -/
theorem rw3_eq_accuracy (d kappa RH T : ℝ) (hd : 0 < d) (hk : 0 < kappa) (hk2 : kappa ≤ 30) (hR0 : 0 < RH) (hR1 : RH < 1)
    (hT0 : 0 < T) (hT1 : T < 791) :
    ∃! v, d ≤ v ∧ a_w v d kappa * Real.exp (kelvinA T / v ^ (1 / 3 : ℝ)) = RH ∧
      |rw3_eq d kappa RH T - v| ≤ max (2 ^ (-16 : ℤ) * v) ((rw3_eq_nokelvin d kappa RH - d) / 2 ^ 25) := by
  obtain ⟨h1, h2, h3, h4⟩ := rw3_eq_bracket d kappa RH T hd hk hR0 hR1 hT0 hT1
  have hs : rw3_eq_minfun RH d kappa T d * rw3_eq_minfun RH d kappa T (rw3_eq_nokelvin d kappa RH) < 0 :=
    mul_neg_of_pos_of_neg h2 h3
  obtain ⟨v, hv, hz, hacc⟩ := solveDbl_accuracy _ d (rw3_eq_nokelvin d kappa RH) h1.le hs (rw3_eq_cont d kappa RH T _ hd hk)
  have hv0 : 0 < v := lt_of_lt_of_le hd hv.1
  refine ⟨v, ⟨hv.1, ?_, ?_⟩, ?_⟩
  · have := hz
    unfold rw3_eq_minfun klvntrm cbrt at this
    linarith
  · unfold rw3_eq
    rw [if_neg hk.ne']
    rwa [abs_of_pos hv0] at hacc
  · rintro w ⟨w1, w2, -⟩
    refine rw3_eq_unique d kappa RH T hd hk hk2 hR0 hR1 hT0 hT1 w v w1 hv.1 ?_ hz
    unfold rw3_eq_minfun klvntrm cbrt
    linarith

/-- the wet volume is never below the dry volume nor above the no-Kelvin value -/
theorem rw3_eq_range (d kappa RH T : ℝ) (hd : 0 < d) (hk : 0 ≤ kappa) (hR0 : 0 < RH) (hR1 : RH < 1)
    (hT0 : 0 < T) (hT1 : T < 791) : d ≤ rw3_eq d kappa RH T ∧ rw3_eq d kappa RH T ≤ rw3_eq_nokelvin d kappa RH := by
  rcases hk.eq_or_lt with rfl | hk
  · unfold rw3_eq rw3_eq_nokelvin
    rw [if_pos rfl]
    refine ⟨le_refl _, ?_⟩
    rw [le_div_iff₀ (by linarith)]
    apply le_of_eq; ring
  · obtain ⟨h1, h2, h3, h4⟩ := rw3_eq_bracket d kappa RH T hd hk hR0 hR1 hT0 hT1
    have hs : rw3_eq_minfun RH d kappa T d * rw3_eq_minfun RH d kappa T (rw3_eq_nokelvin d kappa RH) < 0 :=
      mul_neg_of_pos_of_neg h2 h3
    obtain ⟨-, -, a, b, q1, q2, q3, q4, -⟩ := solve_bracket dbl (rw3_eq_minfun RH d kappa T) (tolEps dbl 16) d (rw3_eq_nokelvin d kappa RH) 100
      (by norm_num [dbl]) (by norm_num [dbl]) (le_max_right _ _) (by norm_num) h1.le hs
    unfold rw3_eq
    rw [if_neg hk.ne']
    unfold solveDbl
    constructor <;> linarith

/-- **C48/C49.** Where its bracket is valid, `rw3_cr` approximates the volume at which the Koehler curve is largest. -/
theorem rw3_cr_accuracy (d kappa T : ℝ) (hd : 0 < d) (hk : 0 < kappa) (hk2 : kappa ≤ 30) (hT0 : 0 < T) (hT1 : T < 791)
    (hb : 3 * kappa * 1e8 * cbrt (1e8 * d) < kelvinA T * (1e8 - 1) * (1e8 + kappa - 1)) :
    ∃ v, d < v ∧ (∀ w, d < w → w ≠ v → koehler d kappa T (cbrt w) < koehler d kappa T (cbrt v)) ∧
      |rw3_cr d kappa T - v| ≤ max (2 ^ (-16 : ℤ) * v) ((1e8 * d - d) / 2 ^ 25) := by
  obtain ⟨h1, h2⟩ := rw3_cr_bracket d kappa T hd hk
  have h3 := h2.2 hb
  have hle : d ≤ 1e8 * d := by norm_num; linarith
  have hc : ContinuousOn (rw3_cr_minfun d kappa T) (Set.Icc d (1e8 * d)) := by
    unfold rw3_cr_minfun cbrt
    apply ContinuousOn.add (by fun_prop)
    apply ContinuousOn.mul (by fun_prop)
    apply ContinuousOn.rpow_const continuousOn_id
    intro x hx
    right; norm_num
  obtain ⟨v, hv, hz, hacc⟩ := solveDbl_accuracy _ d (1e8 * d) hle (mul_neg_of_pos_of_neg h1 h3) hc
  have hdv : d < v := by
    refine lt_of_le_of_ne hv.1 ?_
    rintro rfl; linarith
  refine ⟨v, hdv, (rw3_cr_is_max d kappa T v hd hk hk2 hT0 hT1 hdv hz).2.2.1, ?_⟩
  unfold rw3_cr
  rw [abs_of_pos (hd.trans hdv)] at hacc
  rw [show (1e0 : ℝ) * d = d by norm_num]
  exact hacc

/-- a 20 nm (radius) ammonium-sulphate-like particle at 90 % humidity and 280 K meets the hypotheses -/
example : ∃! v, (8e-24 : ℝ) ≤ v ∧ a_w v 8e-24 0.6 * Real.exp (kelvinA 280 / v ^ (1 / 3 : ℝ)) = 0.9 ∧
      |rw3_eq 8e-24 0.6 0.9 280 - v| ≤ max (2 ^ (-16 : ℤ) * v) ((rw3_eq_nokelvin 8e-24 0.6 0.9 - 8e-24) / 2 ^ 25) :=
  rw3_eq_accuracy 8e-24 0.6 0.9 280 (by norm_num) (by norm_num) (by norm_num) (by norm_num) (by norm_num) (by norm_num) (by norm_num)

end LCP.Toms
