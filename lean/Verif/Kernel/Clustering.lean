import Verif.Kernel.Turb
import Mathlib.Tactic.NormNum
import Mathlib.Analysis.Complex.ExponentialBounds

/-!
# C72, C73: which tables are used; the turbulent kernel written out
-/
namespace LCP.Kernel
noncomputable section
open Real

/-- **C72 (tables).** The efficiencies used are those of the table named by the kernel, the turbulent kernels use the named table with the user's Reynolds number in front. -/
theorem init_tables (tab : Table → List ℝ) (tc : Bool) (Re : ℝ) :
    initKernel tab tc [] .hall = some (.geometricWithEfficiencies (tab .hall) 1100) ∧
    initKernel tab tc [] .hall_davis_no_waals = some (.geometricWithEfficiencies (tab .hall_davis_no_waals) 1100) ∧
    initKernel tab tc [] .vohl_davis_no_waals = some (.geometricWithEfficiencies (tab .vohl_davis_no_waals) 1100) ∧
    initKernel tab tc [] .hall_pinsky_stratocumulus = some (.geometricWithEfficiencies (tab .hall_pinsky_stratocumulus) 1100) ∧
    initKernel tab tc [] .hall_pinsky_1000mb_grav = some (.geometricWithEfficiencies (tab .hall_pinsky_1000mb_grav) 1100) ∧
    initKernel tab tc [] .hall_pinsky_cumulonimbus = some (.geometricWithEfficiencies (tab .hall_pinsky_cumulonimbus) 1100) ∧
    initKernel tab true [Re] .onishi_hall = some (.onishi (Re :: tab .hall) 1100) ∧
    initKernel tab true [Re] .onishi_hall_davis_no_waals = some (.onishi (Re :: tab .hall_davis_no_waals) 1100) := by
  simp [initKernel]

/-- specification: excess of the radial distribution function of droplets of Stokes number `St` in turbulence of Taylor-microscale Reynolds number `Re`
(Onishi, Matsuda and Takahashi 2015): growth with the square of the Stokes number below the critical number `(0.38 / 110 Re)^(1/4)`, decrease with it above, and a third
contribution for very inertial droplets, blended by hyperbolic tangents of the logarithms -/
def clustering (Re St : ℝ) : ℝ :=
  let crit := (0.38 / 110 * Re) ^ (1 / 4 : ℝ)
  let blendA := (1 - tanh (logb 10 (St / crit) / (0.06 * Re ^ (3 / 10 : ℝ)))) / 2
  let blendB := (1 + tanh (logb 10 (St / ((0.38 / 0.16) ^ (2 / 3 : ℝ) * Re ^ (1 / 3 : ℝ))) / 0.4)) / 2
  let alpha := max (logb 2 (0.26 * √Re)) 1e-20
  (if St ≤ crit then 110 * St ^ 2 * blendA ^ alpha else 0.38 * Re / St ^ 2 * (1 - blendA) ^ alpha) + 0.16 * √(Re / St) * blendB

/-- specification: variance of the radial relative velocity due to accelerations by large eddies, for velocity fluctuations `u`, inertia parameters `th1`, `th2` and ratio of scales `ga`
(Kruis and Kusters 1997), before the correction factor -/
def accelerative (u ga th1 th2 : ℝ) : ℝ :=
  u ^ 2 * (ga / (ga - 1)) * (th1 + th2 - 4 * (th1 * th2) / (th1 + th2) * √((1 + th1 + th2) / ((1 + th1) * (1 + th2)))) *
    (1 / ((1 + th1) * (1 + th2)) - 1 / ((1 + ga * th1) * (1 + ga * th2)))

theorem wrA2_spec (u ga th1 th2 : ℝ) : wrA2 u ga th1 th2 = accelerative u ga th1 th2 := by
  unfold wrA2 accelerative
  rw [div_div, div_div, div_div]
  ring

theorem cbrt_rpow (x : ℝ) : Common.cbrt x = x ^ (1 / 3 : ℝ) := rfl

theorem gMono_spec (Re St StO : ℝ) (hR : 0 < Re) (hS : 0 < St)
    (h : St ≤ (0.38 / 110 * Re) ^ (1 / 4 : ℝ) ↔ StO ≤ (0.38 / 110 * Re) ^ (1 / 4 : ℝ)) : gMono Re St StO = clustering Re St := by
  have hq : (0.25 : ℝ) = 1 / 4 := by norm_num
  have h3 : (0.30 : ℝ) = 3 / 10 := by norm_num
  have hc : 0 < (0.38 / 110 * Re) ^ (1 / 4 : ℝ) := by positivity
  have hl : ∀ x : ℝ, log10 x / log10 2 = logb 2 x := by
    intro x
    unfold log10 logb
    have : log 10 ≠ 0 := by have := log_pos (show (1 : ℝ) < 10 by norm_num); linarith
    have : log 2 ≠ 0 := by have := log_pos (show (1 : ℝ) < 2 by norm_num); linarith
    field_simp
  have hb : Common.cbrt (0.38 / 0.16) * Common.cbrt (0.38 / 0.16) * Common.cbrt Re = (0.38 / 0.16) ^ (2 / 3 : ℝ) * Re ^ (1 / 3 : ℝ) := by
    rw [cbrt_rpow, cbrt_rpow, ← rpow_add (by norm_num)]
    norm_num
  have hd : ∀ y : ℝ, 0 < y → log10 St - log10 y = logb 10 (St / y) := by
    intro y hy
    unfold log10
    rw [logb_div hS.ne' hy.ne']
  unfold gMono clustering
  simp only [hq, h3, hl, hb]
  rw [hd _ hc, hd _ (by positivity)]
  by_cases hS1 : St ≤ (0.38 / 110 * Re) ^ (1 / 4 : ℝ)
  · rw [if_pos (h.1 hS1), if_pos (h.1 hS1), if_pos hS1]; norm_num; ring_nf
  · rw [if_neg (fun g => hS1 (h.2 g)), if_neg (fun g => hS1 (h.2 g)), if_neg hS1]; norm_num; ring_nf

/-- **C73 (written out, partial: both droplets on the same side of the critical Stokes number; with the Kolmogorov length used by the code as `leta`).** The part of the kernel due to turbulence is
`2 pi R^2 w g` with the mean radial relative velocity `w` (shear and acceleration) and the radial distribution function `g` of droplets of two sizes. -/
theorem nograv_law_partial (leta r1 r2 Re eps nu q : ℝ) (hr1 : 0 < r1) (hr2 : 0 < r2) (hRe : 0 < Re) (heta : 0 < leta) (hnu : 0 < nu) (hq : 0 < q) :
    let tau1 := q * (2 * r1) ^ 2 / (18 * nu)
    let tau2 := q * (2 * r2) ^ 2 / (18 * nu)
    let tauk := leta ^ 2 / nu
    let crit := (0.38 / 110 * Re) ^ (1 / 4 : ℝ)
    let u := √(Re / √(15 / nu / eps))
    let x := max (tau2 / tau1) (tau1 / tau2)
    let th1 := 2.5 * tau1 / (Re * tauk / √15)
    let th2 := 2.5 * tau2 / (Re * tauk / √15)
    (tau1 / tauk ≤ crit ↔ tau2 / tauk ≤ crit) →
    nogravWith leta r1 r2 Re eps nu q = 2 * π * (r1 + r2) ^ 2 *
      √(2 / π * ((1 + 0.6 * rexp (-(x - 1) ^ (3 / 2 : ℝ))) * accelerative u (x * (0.183 * u ^ 2 / (nu / leta) ^ 2)) th1 th2 / 3 + (r1 + r2) ^ 2 / (15 * tauk ^ 2))) *
      (1 + (2.6 * rexp (-x) + 0.205 * rexp (-0.0206 * x) * ((1 + tanh (x - 3)) / 2)) * √(clustering Re (tau1 / tauk) * clustering Re (tau2 / tauk))) := by
  intro tau1 tau2 tauk crit u x th1 th2 hsame
  have ht1 : q * 4 * r1 * r1 / 18 / nu = tau1 := by simp only [tau1]; field_simp; ring
  have ht2 : q * 4 * r2 * r2 / 18 / nu = tau2 := by simp only [tau2]; field_simp; ring
  have htk : leta * leta / nu = tauk := by simp only [tauk]; ring
  have p1 : 0 < tau1 := by simp only [tau1]; positivity
  have p2 : 0 < tau2 := by simp only [tau2]; positivity
  have pk : 0 < tauk := by simp only [tauk]; positivity
  have hx : max (2.5 * tau2 / (Re * tauk / √15) / (2.5 * tau1 / (Re * tauk / √15))) (2.5 * tau1 / (Re * tauk / √15) / (2.5 * tau2 / (Re * tauk / √15))) = x := by
    have h15 : (0 : ℝ) < √15 := by positivity
    simp only [x]
    congr 1 <;> field_simp
  have hc : 0 ≤ clustering Re (tau1 / tauk) := by
    rw [← gMono_spec Re _ (tau2 / tauk) hRe (by positivity) hsame]; exact gMono_nonneg _ _ _ hRe (by positivity)
  have hgam : u * u = u ^ 2 := (sq u).symm
  have hs : nu * nu * (r1 + r2) * (r1 + r2) / (leta * leta * leta * leta) / 15 = (r1 + r2) ^ 2 / (15 * tauk ^ 2) := by
    simp only [tauk]; field_simp
  have hgm : 0.183 * u * u / (nu * nu / leta / leta) = 0.183 * u ^ 2 / (nu / leta) ^ 2 := by field_simp
  have h15 : (1.5 : ℝ) = 3 / 2 := by norm_num
  unfold nogravWith
  simp only [ht1, ht2, htk]
  rw [hx, hs, gMono_spec Re _ _ hRe (by positivity) hsame, gMono_spec Re _ _ hRe (by positivity) hsame.symm, add_sub_cancel_right, add_sub_cancel_right, Real.sqrt_mul hc]
  show _ * (r1 + r2) * (r1 + r2) * √(2 / π * ((1 + 0.6 * rexp (-(x - 1) ^ (1.5 : ℝ))) * wrA2 u (x * (0.183 * u * u / (nu * nu / leta / leta))) th1 th2 / 3 + _)) *
    (1 + (2.6 * rexp (-x) + 0.205 * rexp (-0.0206 * x) * 0.5 * (1 + tanh (x - 3))) * _ * _) = _
  rw [hgm, h15, wrA2_spec]
  ring


/-- the hypotheses of `nograv_law_partial` and `clustering_depends_on_partner` can be met: two equal droplets; partners on either side of the critical number -/
example : ∃ r1 r2 leta Re nu q : ℝ, 0 < r1 ∧ 0 < r2 ∧ 0 < leta ∧ 0 < Re ∧ 0 < nu ∧ 0 < q ∧
    (q * (2 * r1) ^ 2 / (18 * nu) / (leta ^ 2 / nu) ≤ (0.38 / 110 * Re) ^ (1 / 4 : ℝ) ↔ q * (2 * r2) ^ 2 / (18 * nu) / (leta ^ 2 / nu) ≤ (0.38 / 110 * Re) ^ (1 / 4 : ℝ)) :=
  ⟨1e-5, 1e-5, 1e-3, 100, 1.5e-5, 800, by norm_num, by norm_num, by norm_num, by norm_num, by norm_num, by norm_num, Iff.rfl⟩

/-- the logarithms of the two blending factors differ by twice the argument -/
theorem log_blend (t : ℝ) : log ((1 - tanh t) / 2) - log (1 - (1 - tanh t) / 2) = -2 * t := by
  have hc := cosh_pos t
  have h1 : (1 - tanh t) / 2 = exp (-t) / (2 * cosh t) := by
    rw [tanh_eq_sinh_div_cosh, ← cosh_sub_sinh]; field_simp
  have h2 : 1 - (1 - tanh t) / 2 = exp t / (2 * cosh t) := by
    rw [tanh_eq_sinh_div_cosh, ← cosh_add_sinh]; field_simp; ring
  rw [h2, h1, log_div (exp_ne_zero _) (by positivity), log_div (exp_ne_zero _) (by positivity), log_exp, log_exp]
  ring

theorem blend_pos (t : ℝ) : 0 < (1 - tanh t) / 2 ∧ 0 < 1 - (1 - tanh t) / 2 := by
  have h1 := tanh_lt_one t; have h2 := neg_one_lt_tanh t
  constructor <;> linarith

/-- **C73 (disagreement: clustering of a droplet decided by its partner).** In kernel_onishi_nograv.hpp the choice between the two regimes of the Stokes number is made with the number of the
other droplet of the pair.  In turbulence of Reynolds number 100, the clustering attributed to any droplet (not exactly at the critical Stokes number) depends on what it is paired with. -/
theorem clustering_depends_on_partner (St : ℝ) (hS : 0 < St) (hne : St ≠ (0.38 / 110 * 100) ^ (1 / 4 : ℝ)) (a b : ℝ)
    (ha : a ≤ (0.38 / 110 * 100) ^ (1 / 4 : ℝ)) (hb : (0.38 / 110 * 100) ^ (1 / 4 : ℝ) < b) : gMono 100 St a ≠ gMono 100 St b := by
  intro h
  set crit : ℝ := (0.38 / 110 * 100) ^ (1 / 4 : ℝ) with hcrit
  have hcp : 0 < crit := by positivity
  have hq : (0.25 : ℝ) = 1 / 4 := by norm_num
  have h3 : (0.30 : ℝ) = 3 / 10 := by norm_num
  unfold gMono at h
  simp only [hq, h3] at h
  rw [← hcrit, if_pos ha, if_pos ha, if_neg (not_le.2 hb), if_neg (not_le.2 hb)] at h
  set t := (log10 St - log10 crit) / (0.06 * (100 : ℝ) ^ (3 / 10 : ℝ)) with ht
  obtain ⟨hz1, hz2⟩ := blend_pos t
  have hlb := log_blend t
  have e5 : (0.5 : ℝ) * (1 - tanh t) = (1 - tanh t) / 2 := by ring
  rw [e5] at h
  set al := max (log10 (0.26 * √100) / log10 2) 1e-20 with hal
  have hs100 : √(100 : ℝ) = 10 := by rw [show (100 : ℝ) = 10 ^ 2 by norm_num]; exact sqrt_sq (by norm_num)
  have hl2 : 0 < log 2 := log_pos (by norm_num)
  have hl10 : 0 < log 10 := log_pos (by norm_num)
  have hal1 : 1.3 < al := by
    refine lt_of_lt_of_le ?_ (le_max_left _ _)
    rw [hs100]
    unfold log10 logb
    rw [div_div_div_cancel_right₀ hl10.ne', lt_div_iff₀ hl2]
    have : log ((2 : ℝ) ^ 13) < log ((0.26 * 10) ^ 10) := log_lt_log (by norm_num) (by norm_num)
    rw [log_pow, log_pow] at this
    push_cast at this
    linarith
  have hA : 110 * (St * St) * ((1 - tanh t) / 2) ^ al = 0.38 * 100 / (St * St) * (1 - (1 - tanh t) / 2) ^ al := by linarith
  have hL := congrArg log hA
  have hr1 := rpow_pos_of_pos hz1 al
  have hr2 := rpow_pos_of_pos hz2 al
  rw [log_mul (x := 110 * (St * St)) (by positivity) hr1.ne', log_mul (x := 0.38 * 100 / (St * St)) (by positivity) hr2.ne', log_rpow hz1, log_rpow hz2,
    log_mul (x := 110) (y := St * St) (by norm_num) (by positivity), log_div (x := 0.38 * 100) (y := St * St) (by norm_num) (by positivity),
    log_mul (x := St) (y := St) hS.ne' hS.ne'] at hL
  have hcl : 4 * log crit = log (0.38 * 100) - log 110 := by
    rw [hcrit, log_rpow (by norm_num), ← log_div (by norm_num) (by norm_num)]
    rw [show (0.38 / 110 * 100 : ℝ) = 0.38 * 100 / 110 by norm_num]; ring
  have hp0 : (0 : ℝ) < 100 ^ (3 / 10 : ℝ) := by positivity
  have hp4 : (100 : ℝ) ^ (3 / 10 : ℝ) < 4 := by
    have h5 : ((100 : ℝ) ^ (3 / 10 : ℝ)) ^ 5 = 1000 := by
      rw [← rpow_natCast, ← rpow_mul (by norm_num)]
      norm_num
    by_contra hge
    push Not at hge
    have : (4 : ℝ) ^ 5 ≤ ((100 : ℝ) ^ (3 / 10 : ℝ)) ^ 5 := by gcongr
    rw [h5] at this
    norm_num at this
  have ht2 : t * (0.06 * (100 : ℝ) ^ (3 / 10 : ℝ)) * log 10 = log St - log crit := by
    rw [ht]; unfold log10 logb; field_simp
  have hne' : log St - log crit ≠ 0 := by
    intro h0
    exact hne (log_injOn_pos hS hcp (by linarith))
  have hfin : 4 * (log St - log crit) = 2 * t * al := by linear_combination hL + al * (-hlb) - hcl
  have ht0 : t ≠ 0 := by
    intro h0
    rw [h0] at ht2
    exact hne' (by linarith)
  have h2 : 2 * t * (2 * (0.06 * (100 : ℝ) ^ (3 / 10 : ℝ)) * log 10 - al) = 0 := by linear_combination hfin + 4 * ht2
  have h23 : log 10 < 2.4 := by
    have h10 : log ((10 : ℝ) ^ 3) < log ((2 : ℝ) ^ 10) := log_lt_log (by norm_num) (by norm_num)
    rw [log_pow, log_pow] at h10
    have := log_two_lt_d9
    push_cast at h10
    linarith
  rcases mul_eq_zero.1 h2 with h2 | h2
  · exact ht0 (by linarith)
  · nlinarith

end
end LCP.Kernel
