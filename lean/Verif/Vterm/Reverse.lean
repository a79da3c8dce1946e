import Verif.Vterm.Step
import Verif.Cond.Strict

/-!
# C57, C75: the velocity left by a collision reverses condensation

Velocities are not computed anew between the last coalescence sub-step and the condensation of the next time step
(particles_step.ipp: sync_in, step_cond), which uses them for ventilation (cond_common.ipp:143-151).
-/
namespace LCP.Vterm
noncomputable section
open LCP.Common LCP.Cond

/-- surroundings of a droplet whose stored velocity is the marker of a collision -/
structure Marked (e : Cond.Env) : Prop where
  vt : e.vt = -1
  ok : Env.Ok { e with vt := 0 }

theorem Nu_neg (Pr x : ℝ) (h : x < 0) (hx : 2 < -x * Pr) : Nu Pr x < 0 := by
  unfold Nu cbrtS
  have h1 : 1 + x * Pr < -1 := by linarith
  rw [if_pos (by linarith), if_pos h, mul_one]
  have : 1 < cbrt (-(1 + x * Pr)) := by
    unfold cbrt
    exact Real.one_lt_rpow (by linarith) (by norm_num)
  linarith

/-- the denominator of the growth formula changes its sign with the diffusivities -/
theorem den_neg (D K rho T RH : ℝ) (hD : D < 0) (hK : K < 0) (hr : 0 < rho) (h0 : 0 < T) (h1 : T ≤ 1000) (hRH : 0 < RH) :
    1 / D / rho + l_v T / K / RH / T * (l_v T / R_v / T - 1) < 0 := by
  have := mm_den_pos (-D) (-K) rho T RH (by linarith) (by linarith) hr h0 h1 hRH
  rw [show 1 / -D / rho + l_v T / -K / RH / T * (l_v T / R_v / T - 1) = -(1 / D / rho + l_v T / K / RH / T * (l_v T / R_v / T - 1)) by
    rw [div_neg, div_neg]; ring] at this
  linarith

/-- **C57, C75: refuted part.** A droplet that collected another one in the last sub-step and for which (diameter) * (air density) / (viscosity), times the
smaller one of the Schmidt and Prandtl numbers, exceeds 2 (radius above about 25 µm) has a growth rate of the opposite sign. -/
theorem reversed_rate (e : Cond.Env) (he : Marked e) (rw2 : ℝ) (h : 0 < rw2)
    (hS : 2 < 2 * √rw2 * e.rhod / e.eta * (e.eta / (e.rhod * D_0))) (hP : 2 < 2 * √rw2 * e.rhod / e.eta * (c_pd * e.eta / K_0)) :
    (0 < drw2dt e rw2 ↔ min e.RH e.RHmax < koehler e.rd3 e.kpa e.T (√rw2)) ∧
    (drw2dt e rw2 < 0 ↔ koehler e.rd3 e.kpa e.T (√rw2) < min e.RH e.RHmax) := by
  have hs : 0 < √rw2 := Real.sqrt_pos.mpr h
  have hR : 0 < RHlim e := by rw [RHlim_eq]; exact lt_min he.ok.RH he.ok.RHmax
  have hrho : 0 < e.rhod := he.ok.rhod
  have heta : 0 < e.eta := he.ok.eta
  have hre : ReN e √rw2 = -(2 * √rw2 * e.rhod / e.eta) := by unfold ReN; rw [he.vt]; ring
  have hneg : ReN e √rw2 < 0 := by rw [hre]; have : 0 < 2 * √rw2 * e.rhod / e.eta := by positivity
                                   linarith
  have hD : diffD e √rw2 < 0 := by
    unfold diffD
    have n := Nu_neg (ScN e) (ReN e √rw2) hneg (by rw [hre, neg_neg]; unfold ScN; rw [div_div]; exact hS)
    have b := (beta_range (e.lamD / √rw2) (div_nonneg he.ok.lamD hs.le)).1
    have : 0 < D_0 * beta (e.lamD / √rw2) := mul_pos (by norm_num [D_0]) b
    exact mul_neg_of_pos_of_neg this (by linarith)
  have hK : condK e √rw2 < 0 := by
    unfold condK
    have n := Nu_neg (PrN e) (ReN e √rw2) hneg (by rw [hre, neg_neg]; exact hP)
    have b := (beta_range (e.lamK / √rw2) (div_nonneg he.ok.lamK hs.le)).1
    have : 0 < K_0 * beta (e.lamK / √rw2) := mul_pos (by norm_num [K_0]) b
    exact mul_neg_of_pos_of_neg this (by linarith)
  have hden := den_neg (diffD e √rw2) (condK e √rw2) (e.rhod * e.rv) e.T (RHlim e) hD hK (mul_pos hrho he.ok.rv) he.ok.T0 he.ok.T1 hR
  set den := 1 / diffD e √rw2 / (e.rhod * e.rv) + l_v e.T / condK e √rw2 / RHlim e / e.T * (l_v e.T / R_v / e.T - 1)
  have hk : a_w (√rw2 * √rw2 * √rw2) e.rd3 e.kpa * klvntrm (√rw2) e.T = koehler e.rd3 e.kpa e.T (√rw2) := by
    unfold koehler a_w klvntrm
    rw [show √rw2 * √rw2 * √rw2 = √rw2 ^ 3 by ring]
  have e1 : drw2dt e rw2 = (koehler e.rd3 e.kpa e.T (√rw2) - RHlim e) * (2 / RHlim e / rho_w / -den) := by
    unfold drw2dt rdrdt
    simp only
    rw [hk, show (1 : ℝ) - koehler e.rd3 e.kpa e.T (√rw2) / RHlim e = (RHlim e - koehler e.rd3 e.kpa e.T (√rw2)) / RHlim e by
      field_simp, div_neg]
    ring
  have hc : 0 < 2 / RHlim e / rho_w / -den := by
    have h1 := rho_w_pos
    have h2 : 0 < -den := by linarith
    positivity
  rw [e1, ← RHlim_eq]
  constructor
  · rw [mul_pos_iff_of_pos_right hc, sub_pos]
  · rw [mul_neg_iff]
    constructor
    · rintro (⟨_, h⟩ | ⟨h, _⟩)
      · exact absurd h (not_lt.mpr hc.le)
      · linarith
    · intro h; exact Or.inr ⟨by linarith, hc⟩

/-- in the condensation step such a droplet shrinks in supersaturated air -/
theorem reversed_growth (e : Cond.Env) (he : Marked e) (dt rw2 : ℝ) (hdt : 0 < dt) (h : 0 < rw2) (hrd : cbrt e.rd3 ^ 2 < rw2)
    (hS : 2 < 2 * √rw2 * e.rhod / e.eta * (e.eta / (e.rhod * D_0))) (hP : 2 < 2 * √rw2 * e.rhod / e.eta * (c_pd * e.eta / K_0))
    (hsat : koehler e.rd3 e.kpa e.T (√rw2) < min e.RH e.RHmax) : advance numDbl e dt rw2 < rw2 := by
  have := (reversed_rate e he rw2 h hS hP).2.2 hsat
  exact (advanceG_strict numDbl numDbl_ok (drw2dt e) e.rd3 dt rw2 h hrd.le).2 (mul_neg_of_pos_of_neg hdt this) hrd

/-! ### a concrete droplet: radius 30 µm, relative humidity 101 % -/

/-- the droplet -/
def exMarked : Cond.Env := ⟨1, 0.01, 288, 1e5, 1.01, 1.8e-5, 1e-24, 0.5, -1, 1e-7, 1e-7, 44⟩

theorem exMarked_ok : Marked exMarked := ⟨rfl, by constructor <;> norm_num [exMarked]⟩

theorem exMarked_shrinks (dt : ℝ) (hdt : 0 < dt) : advance numDbl exMarked dt (30e-6 ^ 2) < 30e-6 ^ 2 ∧
    (30e-6 : ℝ) ^ 2 < advance numDbl { exMarked with vt := 0.1 } dt (30e-6 ^ 2) := by
  have hq : √((30e-6 : ℝ) ^ 2) = 30e-6 := Real.sqrt_sq (by norm_num)
  have hrd : cbrt exMarked.rd3 ^ 2 < (30e-6 : ℝ) ^ 2 := by
    have : cbrt exMarked.rd3 = 1e-8 := by
      unfold cbrt
      rw [show exMarked.rd3 = (1e-8 : ℝ) ^ (3 : ℝ) by norm_num [exMarked], ← Real.rpow_mul (by norm_num)]; norm_num
    rw [this]; norm_num
  have hsat : koehler exMarked.rd3 exMarked.kpa exMarked.T (√((30e-6 : ℝ) ^ 2)) < min exMarked.RH exMarked.RHmax := by
    rw [hq]
    have hA0 : 0 < kelvinA exMarked.T / 30e-6 := div_pos (kelvinA_pos _ (by norm_num [exMarked]) (by norm_num [exMarked])) (by norm_num)
    have hA : kelvinA exMarked.T / 30e-6 < 1 / 200 := by
      norm_num [exMarked, kelvinA, sg_surf, R_v, kaBoNA, M_v, M_H, M_OH, rho_w]
    have hE : Real.exp (kelvinA exMarked.T / 30e-6) < 1.01 := by
      have h1 := Real.exp_le_exp.2 hA.le
      have h2 := Real.add_one_le_exp (-(1 / 200 : ℝ))
      rw [Real.exp_neg] at h2
      have h3 : Real.exp (1 / 200 : ℝ) ≤ 200 / 199 := by
        have hp := Real.exp_pos (1 / 200 : ℝ)
        rw [le_inv_comm₀ (by norm_num) hp] at h2
        norm_num at h2 ⊢; exact h2
      have : (200 / 199 : ℝ) < 1.01 := by norm_num
      linarith
    have hf : ((30e-6 : ℝ) ^ 3 - exMarked.rd3) / ((30e-6 : ℝ) ^ 3 - exMarked.rd3 * (1 - exMarked.kpa)) ≤ 1 := by norm_num [exMarked]
    have hm : min exMarked.RH exMarked.RHmax = 1.01 := by norm_num [exMarked]
    unfold koehler
    rw [hm]
    exact lt_of_le_of_lt (mul_le_of_le_one_left (Real.exp_pos _).le hf) hE
  refine ⟨reversed_growth _ exMarked_ok dt _ hdt (by norm_num) hrd ?_ ?_ hsat, (advance_grows_partial { exMarked with vt := 0.1 } ?_ dt _ hdt (by norm_num) hrd.le).1 hsat⟩
  · rw [hq]; norm_num [exMarked, D_0]
  · rw [hq]; norm_num [exMarked, K_0, c_pd]
  · constructor <;> norm_num [exMarked]

end
end LCP.Vterm
