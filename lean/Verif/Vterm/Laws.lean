import Verif.Vterm.Model
import Mathlib.Analysis.SpecialFunctions.Pow.Real
import Mathlib.Analysis.Complex.ExponentialBounds
import Mathlib.Analysis.Real.Pi.Bounds
import Mathlib.Tactic.Linarith
import Mathlib.Tactic.FieldSimp
import Mathlib.Tactic.Positivity

/-!
# C74: laws of terminal velocity
-/
namespace LCP.Vterm
noncomputable section
open LCP.Common

/-! ### specification -/

/-- Reynolds number of a sphere of radius `r` falling at speed `v` -/
def reynolds (r v rhoa eta : ℝ) : ℝ := 2 * r * v * rhoa / eta

/-- Davies (Best) number for a sphere of diameter `d` and density difference `drho` -/
def davies (d drho rhoa eta : ℝ) : ℝ := 4 * rhoa * drho * g * d ^ 3 / (3 * eta ^ 2)

/-- mean free path of air molecules -/
def meanFreePath (T p eta : ℝ) : ℝ := 6.62e-8 * (eta / 1.818e-5) * (101325 / p) * √(T / 293.15)

/-- modified Bond number and physical property number of large drops -/
def bond (d drho sigma : ℝ) : ℝ := 4 * drho * g * d ^ 2 / (3 * sigma)
/-- see `bond` -/
def physProp (sigma drho rhoa eta : ℝ) : ℝ := sigma ^ 3 * rhoa ^ 2 / (eta ^ 4 * drho * g)

/-- air in which droplets fall: positive, lighter than water; below 700 K the surface tension is positive -/
structure Air.Ok (c : Air) : Prop where
  T0 : 0 < c.T
  T1 : c.T < 700
  p : 0 < c.p
  rhod : 0 < c.rhod
  light : c.rhod < 1000
  eta : 0 < c.eta

theorem polyEval_cons (c : List ℝ) (x : ℝ) : polyEval c x = c.foldr (fun a y => a + x * y) 0 := by
  unfold polyEval
  rw [← List.sum_eq_foldl]
  induction c with
  | nil => rfl
  | cons a t ih =>
    rw [List.length_cons, List.range_succ_eq_map, List.map_cons, List.sum_cons, List.map_map, List.foldr_cons, ← ih, List.getD_cons_zero, pow_zero, mul_one,
      ← List.sum_map_mul_left]
    congr 2
    apply List.map_congr_left
    intro i _
    simp only [Function.comp, Nat.succ_eq_add_one, List.getD_cons_succ]
    ring

theorem rho_w_eq : rho_w = 1000 := by unfold rho_w; norm_num

/-! ### Beard (1976) -/

/-- **C74 (Stokes).** Droplets up to 9.5 micrometers fall at Stokes' velocity with the slip correction. -/
theorem beard76_stokes (r T p rhoa eta : ℝ) (hr : 0 < r) (h : r ≤ 9.5e-6) (he : 0 < eta) :
    beard76 r T p rhoa eta = 2 / 9 * ((1000 - rhoa) * g * r ^ 2 / eta) * (1 + 1.255 * meanFreePath T p eta / r) := by
  unfold beard76 slip meanFreePath rho_w p_stp
  rw [if_pos h]
  field_simp
  norm_num
  ring

/-- **C74 (intermediate).** From 9.5 to 503.5 micrometers the Reynolds number is Beard's polynomial of the Davies number, with the slip correction. -/
theorem beard76_mid (r T p rhoa eta : ℝ) (h0 : 9.5e-6 < r) (h1 : r ≤ 5.035e-4) (hrho : 0 < rhoa) (he : 0 < eta) :
    reynolds r (beard76 r T p rhoa eta) rhoa eta = (1 + 1.255 * meanFreePath T p eta / r) *
      (let x := Real.log (davies (2 * r) (1000 - rhoa) rhoa eta)
       Real.exp (-3.18657 + 0.992696 * x - 0.00153193 * x ^ 2 - 0.000987059 * x ^ 3 - 0.000578878 * x ^ 4 + 0.0000855176 * x ^ 5 - 0.00000327815 * x ^ 6)) := by
  have hr : 0 < r := lt_trans (by norm_num) h0
  unfold beard76 reynolds
  rw [if_neg (not_le.2 h0), if_pos h1]
  have e1 : 32 / 3 * r * r * r * rhoa * (rho_w - rhoa) * g / eta / eta = davies (2 * r) (1000 - rhoa) rhoa eta := by
    unfold davies rho_w; field_simp; norm_num; ring
  have e2 : slip r T p eta = 1 + 1.255 * meanFreePath T p eta / r := by unfold slip meanFreePath p_stp; ring
  simp only [e1, e2, polyEval_cons, b76m, List.foldr_cons, List.foldr_nil]
  have e3 : ∀ A B : ℝ, 2 * r * (eta * (A * B) / rhoa / 2 / r) * rhoa / eta = A * B := by intro A B; field_simp
  rw [e3]
  congr 2
  ring

/-- **C74 (large drops).** Above 503.5 micrometers the Reynolds number follows from the Bond and physical property numbers. -/
theorem beard76_large (r T p rhoa eta : ℝ) (h1 : 5.035e-4 < r) (hrho : 0 < rhoa) (he : 0 < eta) :
    reynolds r (beard76 r T p rhoa eta) rhoa eta =
      (let np := physProp (0.07275 * (1 - 0.002 * (T - 291))) (1000 - rhoa) rhoa eta ^ (1 / 6 : ℝ)
       let x := Real.log (bond (2 * r) (1000 - rhoa) (0.07275 * (1 - 0.002 * (T - 291))) * np)
       np * Real.exp (-5.00015 + 5.23778 * x - 2.04914 * x ^ 2 + 0.475294 * x ^ 3 - 0.0542819 * x ^ 4 + 0.00238449 * x ^ 5)) := by
  have hr : 0 < r := lt_trans (by norm_num) h1
  unfold beard76 reynolds
  rw [if_neg (by intro h; linarith [lt_of_lt_of_le h1 h, show (9.5e-6 : ℝ) < 5.035e-4 by norm_num]), if_neg (not_le.2 h1)]
  have e1 : 16 / 3 * r * r * (rho_w - rhoa) * g / sg_surf T = bond (2 * r) (1000 - rhoa) (0.07275 * (1 - 0.002 * (T - 291))) := by
    unfold bond sg_surf
    rw [rho_w_eq, show ∀ A B : ℝ, A / (3 * B) = A / 3 / B from fun A B => (div_div A 3 B).symm]
    congr 1; ring
  have e2 : sg_surf T * sg_surf T * sg_surf T * rhoa * rhoa / eta / eta / eta / eta / g / (rho_w - rhoa) = physProp (0.07275 * (1 - 0.002 * (T - 291))) (1000 - rhoa) rhoa eta := by
    unfold physProp rho_w sg_surf
    rw [show (1e3 : ℝ) = 1000 by norm_num]
    simp only [div_div]
    congr 1 <;> ring
  simp only [e1, e2, polyEval_cons, b76l, List.foldr_cons, List.foldr_nil]
  have e3 : ∀ A B : ℝ, 2 * r * (eta * (A * B) / rhoa / 2 / r) * rhoa / eta = A * B := by intro A B; field_simp
  rw [e3]
  congr 2
  ring

/-! ### signs -/

theorem slip_pos (r T p eta : ℝ) (hr : 0 < r) (hp : 0 < p) (he : 0 < eta) : 0 < slip r T p eta := by
  unfold slip p_stp
  have := Real.sqrt_nonneg (T / 293.15)
  positivity

theorem beard76_pos (c : Air) (hc : c.Ok) (r : ℝ) (hr : 0 < r) : 0 < beard76 r c.T c.p c.rhod c.eta := by
  obtain ⟨hT, hT1, hp, hrho, hl, he⟩ := hc
  have hd : 0 < rho_w - c.rhod := by rw [rho_w_eq]; linarith
  have hs := slip_pos r c.T c.p c.eta hr hp he
  have hg : 0 < g := by unfold g; norm_num
  have hsg : 0 < sg_surf c.T := by unfold sg_surf; nlinarith
  unfold beard76
  split_ifs <;> positivity

theorem sqrt_gt_one (X : ℝ) (hX : 0 < X) : 1 < √(1 + 0.0902 * √X) := by
  rw [Real.lt_sqrt (by norm_num)]
  have := Real.sqrt_pos.2 hX
  nlinarith

theorem khvKsi_pos (r : ℝ) (hr : 0 < r) : 0 < khvKsi r := by
  unfold khvKsi
  have h1 := Real.exp_pos (-r / 2.35e-3)
  have h2 : Real.exp (-r / 2.35e-3) ≤ 1 := by
    rw [Real.exp_le_one_iff]; apply div_nonpos_of_nonpos_of_nonneg <;> linarith
  have h3 : 0 ≤ 1 - Real.exp (-r / 2.35e-3) := by linarith
  positivity

theorem bestX_pos (c : Air) (hc : c.Ok) (r : ℝ) (hr : 0 < r) : 0 < bestX r c.rhod c.eta := by
  obtain ⟨hT, hT1, hp, hrho, hl, he⟩ := hc
  have hd : 0 < rho_w - c.rhod := by rw [rho_w_eq]; linarith
  have hg : 0 < g := by unfold g; norm_num
  unfold bestX; positivity

theorem khvA_pos (X : ℝ) (hX : 0 < X) : 0 < khvA X := by
  have h := sqrt_gt_one X hX
  have : 0 < √(1 + 0.0902 * √X) - 1 := by linarith
  unfold khvA; positivity

/-! ### Khvorostyanov and Curry (2002) -/

/-- a power law in cgs units written in SI units -/
theorem cgs (a nu K d b : ℝ) (hnu : 0 < nu) (hK : 0 < K) (hd : 0 < d) :
    a * (nu * 1e4) ^ (1 - 2 * b) * (K * 1e2) ^ b * (1e2 * d) ^ (3 * b - 1) / 1e2 = a * (nu / d) * (K * d ^ 3 / nu ^ 2) ^ b := by
  have h4 : (0 : ℝ) < 1e4 := by norm_num
  have h2 : (0 : ℝ) < 1e2 := by norm_num
  rw [Real.mul_rpow hnu.le h4.le, Real.mul_rpow hK.le h2.le, Real.mul_rpow h2.le hd.le, Real.div_rpow (by positivity) (by positivity), Real.mul_rpow hK.le (by positivity),
    ← Real.rpow_natCast d 3, ← Real.rpow_mul hd.le, ← Real.rpow_natCast nu 2, ← Real.rpow_mul hnu.le]
  have e4 : (1e4 : ℝ) ^ (1 - 2 * b) = (1e2 : ℝ) ^ (2 - 4 * b) := by
    rw [show (1e4 : ℝ) = (1e2 : ℝ) ^ (2 : ℕ) by norm_num, ← Real.rpow_natCast (1e2 : ℝ) 2, ← Real.rpow_mul h2.le]; congr 1; push_cast; ring
  rw [e4]
  have e5 : (1e2 : ℝ) ^ (2 - 4 * b) * (1e2 : ℝ) ^ b * (1e2 : ℝ) ^ (3 * b - 1) = 1e2 := by
    rw [← Real.rpow_add h2, ← Real.rpow_add h2, show 2 - 4 * b + b + (3 * b - 1) = 1 by ring, Real.rpow_one]
  have e6 : d ^ (3 * b - 1) = d ^ ((3 : ℕ) * b) / d := by rw [Real.rpow_sub hd, Real.rpow_one]; norm_num
  have e7 : nu ^ (1 - 2 * b) = nu / nu ^ ((2 : ℕ) * b) := by rw [Real.rpow_sub hnu, Real.rpow_one]; norm_num
  rw [e6, e7]
  have hq : 0 < nu ^ ((2 : ℕ) * b) := Real.rpow_pos_of_pos hnu _
  calc a * (nu / nu ^ ((2 : ℕ) * b) * (1e2 : ℝ) ^ (2 - 4 * b)) * (K ^ b * (1e2 : ℝ) ^ b) * ((1e2 : ℝ) ^ (3 * b - 1) * (d ^ ((3 : ℕ) * b) / d)) / 1e2
      = a * (nu / nu ^ ((2 : ℕ) * b)) * K ^ b * (d ^ ((3 : ℕ) * b) / d) * ((1e2 : ℝ) ^ (2 - 4 * b) * (1e2 : ℝ) ^ b * (1e2 : ℝ) ^ (3 * b - 1)) / 1e2 := by ring
    _ = _ := by rw [e5]; field_simp

/-- **C74 (Khvorostyanov and Curry, spheres).** The Reynolds number is Abraham's function of the Best number `X`, up to the factor `(rho_w / (rho_w - rho_a))^b`
(the buoyancy is left out of the power law but not of `X`). -/
theorem khvorostyanov_law (c : Air) (hc : c.Ok) (r : ℝ) (hr : 0 < r) :
    let X := davies (2 * r) (1000 - c.rhod) c.rhod c.eta
    reynolds r (khvorostyanov r c.rhod c.eta true) c.rhod c.eta = 9.06 ^ 2 / 4 * (√(1 + 0.0902 * √X) - 1) ^ 2 * (1000 / (1000 - c.rhod)) ^ khvB X := by
  intro X
  have hX := bestX_pos c hc r hr
  have hXe : bestX r c.rhod c.eta = X := by
    show _ = davies (2 * r) (1000 - c.rhod) c.rhod c.eta
    unfold bestX davies
    have := hc.rhod; have := hc.eta
    rw [rho_w_eq]; field_simp; ring
  rw [hXe] at hX
  obtain ⟨hT, hT1, hp, hrho, hl, he⟩ := hc
  have hg : 0 < g := by unfold g; norm_num
  unfold khvorostyanov reynolds
  simp only [hXe, if_true, rho_w_eq]
  have := cgs (khvA X) (c.eta / c.rhod) (4 / 3 * 1000 / c.rhod * g) (2 * r) (khvB X) (by positivity) (by positivity) (by positivity)
  rw [show (2 * 1e2 * r : ℝ) = 1e2 * (2 * r) by ring, this]
  have e1 : 4 / 3 * 1000 / c.rhod * g * (2 * r) ^ 3 / (c.eta / c.rhod) ^ 2 = 1000 / (1000 - c.rhod) * X := by
    show _ = _ * davies (2 * r) (1000 - c.rhod) c.rhod c.eta
    unfold davies
    have : 1000 - c.rhod ≠ 0 := by linarith
    field_simp
  rw [e1, Real.mul_rpow (by apply div_nonneg <;> linarith) hX.le]
  unfold khvA
  have hXp := Real.rpow_pos_of_pos hX (khvB X)
  field_simp

theorem khvorostyanov_pos (c : Air) (hc : c.Ok) (r : ℝ) (hr : 0 < r) (s : Bool) : 0 < khvorostyanov r c.rhod c.eta s := by
  have hX := bestX_pos c hc r hr
  have hA := khvA_pos _ hX
  have hk := khvKsi_pos r hr
  have hg : 0 < g := by unfold g; norm_num
  have := hc.rhod; have := hc.eta; have := Real.pi_pos
  have hw : 0 < rho_w := by rw [rho_w_eq]; norm_num
  unfold khvorostyanov
  cases s
  · simp only [Bool.false_eq_true, if_false]; positivity
  · simp only [if_true]; positivity

/-! ### Beard (1977) -/

theorem beard77v0_pos (r : ℝ) : 0 < beard77v0 r := by unfold beard77v0; positivity

/-- velocity at the reference conditions: Beard's polynomials of the logarithm of the diameter in centimeters -/
theorem beard77v0_law (r : ℝ) : Real.log (100 * beard77v0 r) = (let x := Real.log (100 * (2 * r))
    if r ≤ 20e-6 then 10.5035 + 1.08750 * x - 0.133245 * x ^ 2 - 0.00659969 * x ^ 3
    else 6.5639 - 1.0391 * x - 1.4001 * x ^ 2 - 0.82736 * x ^ 3 - 0.34277 * x ^ 4 - 0.083072 * x ^ 5 - 0.010583 * x ^ 6 - 0.00054208 * x ^ 7) := by
  unfold beard77v0
  rw [mul_div_cancel₀ _ (by norm_num), Real.log_exp, show 2 * 100 * r = 100 * (2 * r) by ring]
  simp only [polyEval_cons]
  split_ifs <;> simp only [mS, mL, List.foldr_cons, List.foldr_nil] <;> ring

/-- **C74 (reference air).** At the reference pressure, density and viscosity the correction is one. -/
theorem beard77fact_ref (r : ℝ) (hr : 0 < r) : beard77fact r 101325 rho_stp 1.818e-5 = 1 := by
  have hrho : rho_stp ≠ 0 := by
    unfold rho_stp p_stp R_d kaBoNA M_d; norm_num
  unfold beard77fact p_stp
  simp only []
  split_ifs
  · rw [show (101325 / 101325 * rho_stp / rho_stp : ℝ) = 1 by rw [div_self (by norm_num), one_mul, div_self hrho], Real.sqrt_one,
      show (1.818e-5 / 1.818e-5 : ℝ) = 1 by norm_num, mul_one, mul_one, one_mul, div_self]
    positivity
  · rw [div_self hrho, Real.sqrt_one]; norm_num

/-- **C74 (correction for altitude).** Small droplets: ratio of viscosities with slip; larger ones: interpolation, linear in the logarithm of the diameter, between
`1 + 1.104 (eta0/eta - 1)` at 40 micrometers and `1 + 1.058 (sqrt(rho0/rho) - 1)` at 6 millimeters (`exp (5.01 - 5.52)` cm). -/
theorem beard77fact_large (r p rhoa eta : ℝ) (h : 20e-6 < r) : ∃ s : ℝ, s = (Real.log (100 * (2 * r)) + 5.52) / 5.01 ∧
    beard77fact r p rhoa eta = (1 - s) * (1 + 1.104 * (1.818e-5 / eta - 1)) + s * (1 + 1.058 * (√(rho_stp / rhoa) - 1)) := by
  refine ⟨_, rfl, ?_⟩
  unfold beard77fact
  rw [if_neg (not_le.2 h), show 2 * 100 * r = 100 * (2 * r) by ring]
  ring

/-- the correction is positive for droplets up to 3 mm in air with viscosity within a factor of 2 and density between 1/100 and 4 times the reference values -/
theorem beard77fact_pos (r p rhoa eta : ℝ) (hr : 0 < r) (hr' : r ≤ 3e-3) (he1 : 0.909e-5 ≤ eta) (he2 : eta ≤ 3.636e-5) (hrho1 : rho_stp / 100 ≤ rhoa)
    (hrho2 : rhoa ≤ 4 * rho_stp) : 0 < beard77fact r p rhoa eta := by
  have hst : 0 < rho_stp := by unfold rho_stp p_stp R_d kaBoNA M_d; norm_num
  have he : 0 < eta := lt_of_lt_of_le (by norm_num) he1
  have hrho : 0 < rhoa := lt_of_lt_of_le (by positivity) hrho1
  by_cases h : r ≤ 20e-6
  · unfold beard77fact
    rw [if_pos h]
    have := Real.sqrt_nonneg (p_stp / p * rho_stp / rhoa)
    positivity
  · push Not at h
    obtain ⟨s, hs, e⟩ := beard77fact_large r p rhoa eta h
    rw [e]
    have hlog1 : -5.53 ≤ Real.log (100 * (2 * r)) := by
      rw [Real.le_log_iff_exp_le (by positivity)]
      have h1 : Real.exp (-5.53) ≤ 4e-3 := by
        rw [Real.exp_neg, inv_le_comm₀ (Real.exp_pos _) (by norm_num)]
        have h2 : (2.7182818283 : ℝ) ^ (5 : ℕ) ≤ Real.exp 5 := by
          rw [show (5 : ℝ) = (5 : ℕ) * 1 by norm_num, Real.exp_nat_mul]
          gcongr
          exact Real.exp_one_gt_d9.le
        have h3 : (1.69 : ℝ) ≤ Real.exp 0.53 := by
          have := Real.sum_le_exp_of_nonneg (show (0 : ℝ) ≤ 0.53 by norm_num) 5
          refine le_trans ?_ this
          simp only [Finset.sum_range_succ, Finset.sum_range_zero, Nat.factorial]
          norm_num
        calc (4e-3 : ℝ)⁻¹ ≤ (2.7182818283 : ℝ) ^ (5 : ℕ) * 1.69 := by norm_num
          _ ≤ Real.exp 5 * Real.exp 0.53 := by gcongr
          _ = Real.exp 5.53 := by rw [← Real.exp_add]; norm_num
      calc Real.exp (-5.53) ≤ 4e-3 := h1
        _ ≤ 100 * (2 * r) := by norm_num at h ⊢; linarith
    have hlog2 : Real.log (100 * (2 * r)) ≤ -0.51 + 0.02 := by
      rw [Real.log_le_iff_le_exp (by positivity)]
      have h2 : (0.6 : ℝ) ≤ Real.exp (-0.51 + 0.02) := by
        rw [show (-0.51 + 0.02 : ℝ) = -(0.49) by norm_num, Real.exp_neg, le_inv_comm₀ (by norm_num) (Real.exp_pos _)]
        have h3 : Real.exp 0.49 ≤ Real.exp 0.5 := Real.exp_le_exp.2 (by norm_num)
        have h4 : Real.exp 0.5 ^ 2 ≤ 1.66 ^ 2 := by
          rw [← Real.exp_nat_mul]; norm_num
          have := Real.exp_one_lt_d9
          linarith
        have h5 : Real.exp 0.5 ≤ 1.66 := abs_le_of_sq_le_sq' h4 (by norm_num) |>.2
        refine (h3.trans h5).trans ?_
        norm_num
      norm_num at hr' h2 ⊢; linarith
    have hs0 : -0.002 ≤ s := by rw [hs, le_div_iff₀ (by norm_num)]; linarith
    have hs1 : s ≤ 1.01 := by rw [hs, div_le_iff₀ (by norm_num)]; linarith
    have hA : (0.4 : ℝ) ≤ 1 + 1.104 * (1.818e-5 / eta - 1) := by
      have : (0.5 : ℝ) ≤ 1.818e-5 / eta := by rw [le_div_iff₀ he]; linarith
      linarith
    have hA' : 1 + 1.104 * (1.818e-5 / eta - 1) ≤ 2.2 := by
      have : 1.818e-5 / eta ≤ (2 : ℝ) := by rw [div_le_iff₀ he]; linarith
      linarith
    have hB : (0.4 : ℝ) ≤ 1 + 1.058 * (√(rho_stp / rhoa) - 1) := by
      have : (0.5 : ℝ) ≤ √(rho_stp / rhoa) := by
        apply Real.le_sqrt_of_sq_le
        rw [le_div_iff₀ hrho]; linarith
      linarith
    have hB' : 1 + 1.058 * (√(rho_stp / rhoa) - 1) ≤ 11 := by
      have : √(rho_stp / rhoa) ≤ 10 := by
        rw [Real.sqrt_le_left (by norm_num), div_le_iff₀ hrho]; linarith
      linarith
    generalize 1 + 1.104 * (1.818e-5 / eta - 1) = A at hA hA'
    generalize 1 + 1.058 * (√(rho_stp / rhoa) - 1) = B at hB hB'
    rcases le_or_gt s 0 with h1 | h1
    · nlinarith
    · rcases le_or_gt s 1 with h2 | h2
      · nlinarith
      · nlinarith

/-! ### cached velocities -/

theorem lnMin_lt : lnMin < lnMax := Real.log_lt_log (by norm_num) (by norm_num)

theorem dlnr_pos : 0 < dlnr := by unfold dlnr; have := lnMin_lt; norm_num; linarith

/-- the width of a bin: radii within one bin differ by less than 0.09 % -/
theorem dlnr_lt : dlnr < 9e-4 := by
  unfold dlnr lnMax lnMin
  rw [← Real.log_div (by norm_num) (by norm_num), div_lt_iff₀ (by norm_num), Real.log_lt_iff_lt_exp (by norm_num)]
  have h2 : (2.7182818283 : ℝ) ^ (9 : ℕ) ≤ Real.exp 9 := by
    rw [show (9 : ℝ) = (9 : ℕ) * 1 by norm_num, Real.exp_nat_mul]
    gcongr
    exact Real.exp_one_gt_d9.le
  have h3 : (9e-4 * (nBin : ℕ) : ℝ) = 9 := by norm_num
  rw [h3]
  refine lt_of_lt_of_le ?_ h2
  norm_num

/-- **C74 (cache, bounds).** For every wet radius the bin of the cached velocities exists. -/
theorem vt0Bin_lt (rw2 : ℝ) : vt0Bin rw2 < nBin := by
  unfold vt0Bin
  simp only []
  split_ifs with h1 h2
  · norm_num
  · norm_num
  · push Not at h1 h2
    rw [Nat.floor_lt (div_nonneg (by linarith) dlnr_pos.le), div_lt_iff₀ dlnr_pos]
    unfold dlnr
    rw [mul_div_cancel₀ _ (by norm_num)]
    linarith

/-- **C74 (cache, accuracy).** `beard77fast` is `beard77` with the velocity at the reference conditions taken at a radius which differs, for radii from 0.5 um to 3 mm, by less than 0.045 %;
smaller and larger droplets are given that velocity for the end of the range. -/
theorem fast_law (c : Air) (rw2 : ℝ) (h : 0 < rw2) : ∃ r', 0 < r' ∧ vtLiquid .beard77fast c rw2 = some (beard77fact √rw2 c.p c.rhod c.eta * beard77v0 r') ∧
    (5e-7 ≤ √rw2 → √rw2 ≤ 3e-3 → |Real.log r' - Real.log √rw2| < 4.5e-4) ∧
    (√rw2 < 5e-7 → |Real.log r' - Real.log 5e-7| < 4.5e-4) ∧ (3e-3 < √rw2 → |Real.log r' - Real.log 3e-3| < 4.5e-4) := by
  have hs := Real.sqrt_pos.2 h
  have hl : 0.5 * Real.log rw2 = Real.log √rw2 := by rw [Real.log_sqrt h.le]; ring
  have hd := dlnr_pos
  have hd' := dlnr_lt
  refine ⟨binMid (vt0Bin rw2), Real.exp_pos _, ?_, ?_, ?_, ?_⟩
  · have hlt := vt0Bin_lt rw2
    unfold vtLiquid vt0
    simp only []
    rw [List.getElem?_map, List.getElem?_range hlt]
    rfl
  all_goals unfold binMid; rw [Real.log_exp]
  · intro h1 h2
    have a1 : lnMin ≤ Real.log √rw2 := Real.log_le_log (by norm_num) h1
    have a2 : Real.log √rw2 ≤ lnMax := Real.log_le_log hs h2
    unfold vt0Bin
    simp only [hl]
    split_ifs with h3 h4
    · rw [abs_lt, le_antisymm h3 a1]; push_cast; constructor <;> linarith
    · rw [abs_lt, le_antisymm a2 h4]
      have : lnMax = lnMin + nBin * dlnr := by unfold dlnr; rw [mul_div_cancel₀ _ (by norm_num)]; ring
      rw [this]; push_cast; constructor <;> linarith
    · push Not at h3 h4
      have hx : 0 ≤ (Real.log √rw2 - lnMin) / dlnr := div_nonneg (by linarith) hd.le
      have f1 := Nat.floor_le hx
      have f2 := Nat.lt_floor_add_one ((Real.log √rw2 - lnMin) / dlnr)
      rw [le_div_iff₀ hd] at f1
      rw [div_lt_iff₀ hd] at f2
      rw [abs_lt]
      constructor <;> nlinarith
  · intro h1
    have a1 : Real.log √rw2 ≤ lnMin := Real.log_le_log hs h1.le
    unfold vt0Bin
    simp only [hl, if_pos a1]
    rw [abs_lt]
    change -4.5e-4 < lnMin + _ - lnMin ∧ lnMin + _ - lnMin < 4.5e-4
    push_cast; constructor <;> linarith
  · intro h1
    have a1 : lnMax ≤ Real.log √rw2 := Real.log_le_log (by norm_num) h1.le
    have a2 : ¬ Real.log √rw2 ≤ lnMin := by have := lnMin_lt; linarith
    unfold vt0Bin
    simp only [hl, if_neg a2, ge_iff_le, if_pos a1]
    have : lnMax = lnMin + nBin * dlnr := by unfold dlnr; rw [mul_div_cancel₀ _ (by norm_num)]; ring
    rw [abs_lt]
    change -4.5e-4 < lnMin + _ - lnMax ∧ lnMin + _ - lnMax < 4.5e-4
    rw [this]; push_cast; constructor <;> linarith

/-! ### all formulae -/

/-- usual air for the Beard (1977) correction, see `beard77fact_pos` -/
structure Air.Usual (c : Air) : Prop extends Air.Ok c where
  eta1 : 0.909e-5 ≤ c.eta
  eta2 : c.eta ≤ 3.636e-5
  rhod1 : rho_stp / 100 ≤ c.rhod
  rhod2 : c.rhod ≤ 4 * rho_stp

/-- **C74 (sign).** Every formula gives every droplet up to 3 mm a positive velocity (without reading outside of the cache); ice particles too. -/
theorem vtLiquid_pos (eq : Eq) (c : Air) (hc : c.Usual) (rw2 : ℝ) (h0 : 0 < rw2) (h1 : √rw2 ≤ 3e-3) : ∃ v, vtLiquid eq c rw2 = some v ∧ 0 < v := by
  have hs := Real.sqrt_pos.2 h0
  have hf := beard77fact_pos √rw2 c.p c.rhod c.eta hs h1 hc.eta1 hc.eta2 hc.rhod1 hc.rhod2
  cases eq with
  | beard76 => exact ⟨_, rfl, beard76_pos c hc.toOk _ hs⟩
  | beard77 => exact ⟨_, rfl, mul_pos hf (beard77v0_pos _)⟩
  | beard77fast =>
    obtain ⟨r', -, h, -⟩ := fast_law c rw2 h0
    exact ⟨_, h, mul_pos hf (beard77v0_pos _)⟩
  | khvorostyanov_spherical => exact ⟨_, rfl, khvorostyanov_pos c hc.toOk _ hs true⟩
  | khvorostyanov_nonspherical => exact ⟨_, rfl, khvorostyanov_pos c hc.toOk _ hs false⟩

theorem vtIce_pos (c : Air) (hc : c.Ok) (a : ℝ) (ha : 0 < a) : 0 < vtIce c a ∧ vtIce c a = 0.91 * beard76 a c.T c.p c.rhod c.eta := by
  have := beard76_pos c hc a ha
  unfold vtIce rho_i
  rw [rho_w_eq]
  constructor
  · positivity
  · norm_num; ring

/-! ### the hypotheses can be met -/

/-- air near the surface -/
def exAir : Air := ⟨288, 1e5, 1.2, 1.8e-5⟩

theorem exAir_usual : exAir.Usual where
  T0 := by norm_num [exAir]
  T1 := by norm_num [exAir]
  p := by norm_num [exAir]
  rhod := by norm_num [exAir]
  light := by norm_num [exAir]
  eta := by norm_num [exAir]
  eta1 := by norm_num [exAir]
  eta2 := by norm_num [exAir]
  rhod1 := by norm_num [exAir, rho_stp, p_stp, R_d, kaBoNA, M_d]
  rhod2 := by norm_num [exAir, rho_stp, p_stp, R_d, kaBoNA, M_d]

example : ∃ v, vtLiquid .beard77fast exAir (20e-6 ^ 2) = some v ∧ 0 < v :=
  vtLiquid_pos _ _ exAir_usual _ (by norm_num) (by rw [Real.sqrt_sq (by norm_num)]; norm_num)

end
end LCP.Vterm
