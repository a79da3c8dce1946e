import Verif.Blk1m.AdjProps
import Verif.Blk1m.RhsProps

/-!
# Single-moment scheme: what each process and each switch does (C38, C40, C41)
-/
namespace LCP.Blk1m
open LCP.Common

/-! ### Newton-Raphson: direction, bound, and where it can stop -/

theorem nwtIter_drc (o : Opts) (c : Cell) (L0 : ℝ) (s : Nwt) :
    (nwtIter o c L0 s).drc - s.drc = (s.rvTmp - r_vs s.TTmp s.p) /
      (1 + l_v s.TTmp * L0 / (c_pd * R_v) / (s.TTmp * s.TTmp) / (1 - p_vs s.TTmp / s.p) * r_vs s.TTmp s.p) := by
  unfold nwtIter
  simp only
  ring

/-- **C38 (one iteration).** With a single Newton-Raphson iteration, a supersaturated cell condenses and a subsaturated cell
evaporates, and by no more than the saturation excess (resp. deficit); latent heats and saturation are taken to be
non-negative, which holds for temperatures where the formulae make sense. -/
theorem nwt_one (o : Opts) (c c' : Cell) (hc : o.cond = true) (hi : o.nwtrph_iters = 1) (T p : ℝ)
    (hT : Tp o c.rhod c.p c.th c.rv = some (T, p)) (hp : p_vs T < p) (hp0 : 0 < p) (hrs : 0 ≤ r_vs T p)
    (hrv : 0 ≤ c.rv) (hrc : 0 ≤ c.rc) (h : nwtCell o c = some c') :
    (r_vs T p ≤ c.rv → r_vs T p ≤ c'.rv ∧ c'.rv ≤ c.rv) ∧ (c.rv ≤ r_vs T p → c.rv ≤ c'.rv ∧ c'.rv ≤ r_vs T p) ∧
    (r_vs T p < c.rv → c'.rv < c.rv) ∧ (c.rv < r_vs T p → 0 < c.rc → c.rv < c'.rv) := by
  unfold nwtCell at h
  simp only [hc, Bool.not_true, Bool.false_eq_true, if_false, hT, hi, Int.toNat_one, Function.iterate_one, Option.some.injEq] at h
  subst h
  have e := nwtIter_drc o c (l_v T) ⟨0, c.rv, c.th, T, p⟩
  simp only [sub_zero] at e
  rw [e]
  set q := 1 + l_v T * l_v T / (c_pd * R_v) / (T * T) / (1 - p_vs T / p) * r_vs T p with hq
  have hq1 : 1 ≤ q := by
    rw [hq]
    have h1 : 0 ≤ 1 - p_vs T / p := by rw [sub_nonneg, div_le_one hp0]; exact hp.le
    have h2 : 0 ≤ c_pd * R_v := mul_nonneg c_pd_pos.le R_v_pos.le
    have : 0 ≤ l_v T * l_v T / (c_pd * R_v) / (T * T) / (1 - p_vs T / p) * r_vs T p :=
      mul_nonneg (div_nonneg (div_nonneg (div_nonneg (mul_self_nonneg _) h2) (mul_self_nonneg _)) h1) hrs
    linarith
  have hq0 : 0 < q := by linarith
  simp only
  generalize r_vs T p = rs at *
  refine ⟨fun hs => ?_, fun hs => ?_, fun hs => ?_, fun hs h0 => ?_⟩
  · have h1 : 0 ≤ (c.rv - rs) / q := div_nonneg (by linarith) hq0.le
    have h2 : (c.rv - rs) / q ≤ c.rv - rs := div_le_self (by linarith) hq1
    rw [max_eq_right (by linarith), min_eq_right (by linarith)]
    constructor <;> linarith
  · have h1 : (c.rv - rs) / q ≤ 0 := div_nonpos_of_nonpos_of_nonneg (by linarith) hq0.le
    have h2 : c.rv - rs ≤ (c.rv - rs) / q := by rw [le_div_iff₀ hq0]; nlinarith
    have h3 : max (-c.rc) ((c.rv - rs) / q) ≤ 0 := max_le (by linarith) h1
    have h4 : (c.rv - rs) / q ≤ max (-c.rc) ((c.rv - rs) / q) := le_max_right _ _
    rw [min_eq_right (by linarith)]
    constructor <;> linarith
  · have h1 : 0 < (c.rv - rs) / q := div_pos (by linarith) hq0
    have h2 : (c.rv - rs) / q ≤ c.rv - rs := div_le_self (by linarith) hq1
    rw [max_eq_right (by linarith), min_eq_right (by linarith)]
    linarith
  · have h1 : (c.rv - rs) / q < 0 := div_neg_of_neg_of_pos (by linarith) hq0
    have h3 : max (-c.rc) ((c.rv - rs) / q) < 0 := max_lt (by linarith) h1
    rw [min_eq_right (by linarith)]
    linarith

/-- a cell at the triple-point temperature and 1000 hPa with 1% of vapour satisfies the hypotheses of `nwt_one` and condenses -/
example : ∃ c', nwtCell { nwtrph_iters := 1, th_dry := false, const_p := true } ⟨1, 1e5, T_tri, 0.01, 0, 0, 0, 0⟩ = some c' ∧
    c'.rv < 0.01 ∧ 0.003 ≤ c'.rv := by
  set o : Opts := { nwtrph_iters := 1, th_dry := false, const_p := true } with ho
  set c : Cell := ⟨1, 1e5, T_tri, 0.01, 0, 0, 0, 0⟩ with hc
  have hex : exner 1e5 = 1 := by
    unfold exner p_1000
    rw [show (1e5 : ℝ) / 100000 = 1 by norm_num, Real.one_rpow]
  have hT : Tp o c.rhod c.p c.th c.rv = some (T_tri, 1e5) := by simp [Tp, ho, hc, hex]
  have hpv : p_vs T_tri = p_tri := by
    unfold p_vs
    simp [T_tri]
  have hr : 0.003 ≤ r_vs T_tri 1e5 ∧ r_vs T_tri 1e5 < 0.01 := by
    unfold r_vs
    rw [hpv]
    norm_num [p_tri, eps, M_d, M_v, M_H, M_OH]
  obtain ⟨c', h⟩ : ∃ c', nwtCell o c = some c' := by
    unfold nwtCell
    simp [ho, hc, Tp]
  obtain ⟨h1, _, h3, _⟩ := nwt_one o c c' rfl rfl T_tri 1e5 hT (by rw [hpv]; norm_num [p_tri]) (by norm_num)
    (by linarith [hr.1]) (by norm_num [hc]) (by norm_num [hc]) h
  exact ⟨c', h, h3 hr.2, by linarith [(h1 hr.2.le).1, hr.1]⟩

/-- state of the Newton-Raphson loop after `k` iterations -/
noncomputable def nwtState (o : Opts) (c : Cell) (T p : ℝ) (k : ℕ) : Nwt := (nwtIter o c (l_v T))^[k] ⟨0, c.rv, c.th, T, p⟩

/-- **C38 (what the iterations converge to).** The vapour guessed after any number of iterations is the initial vapour less
the accumulated condensation; and the iteration stands still (the next one changes nothing) only at states where the guessed
vapour equals the saturation value at the guessed temperature and pressure: if it has settled within the requested number
of iterations and the result is within the available water, the final vapour is that saturation value. -/
theorem nwt_converged (o : Opts) (c c' : Cell) (hc : o.cond = true) (T p : ℝ)
    (hT : Tp o c.rhod c.p c.th c.rv = some (T, p)) (h : nwtCell o c = some c') (k : ℕ) (hk : o.nwtrph_iters.toNat = k) :
    (∀ j, (nwtState o c T p j).rvTmp = c.rv - (nwtState o c T p j).drc) ∧
    ((nwtState o c T p (k + 1)).drc = (nwtState o c T p k).drc → p_vs (nwtState o c T p k).TTmp < (nwtState o c T p k).p →
      0 < (nwtState o c T p k).p → 0 ≤ r_vs (nwtState o c T p k).TTmp (nwtState o c T p k).p →
      0 ≤ l_v (nwtState o c T p k).TTmp * l_v T →
      -c.rc ≤ (nwtState o c T p k).drc → (nwtState o c T p k).drc ≤ c.rv →
      c'.rv = r_vs (nwtState o c T p k).TTmp (nwtState o c T p k).p) := by
  have hA : ∀ j, (nwtState o c T p j).rvTmp = c.rv - (nwtState o c T p j).drc := by
    intro j
    cases j with
    | zero => simp [nwtState]
    | succ j => unfold nwtState; rw [Function.iterate_succ_apply']; rfl
  refine ⟨hA, fun hs h1 h2 h3 h5 h6 h7 => ?_⟩
  unfold nwtCell at h
  simp only [hc, Bool.not_true, Bool.false_eq_true, if_false, hT, hk, Option.some.injEq] at h
  have hst : (nwtIter o c (l_v T))^[k] ⟨0, c.rv, c.th, T, p⟩ = nwtState o c T p k := rfl
  rw [hst] at h
  rw [← h]
  simp only
  rw [max_eq_right h6, min_eq_right h7, ← hA k]
  have hs' : (nwtIter o c (l_v T) (nwtState o c T p k)).drc = (nwtState o c T p k).drc := by
    rw [← hs]; unfold nwtState; rw [Function.iterate_succ_apply']
  have e := nwtIter_drc o c (l_v T) (nwtState o c T p k)
  rw [hs', sub_self] at e
  set s := nwtState o c T p k
  have hq1 : 0 < 1 + l_v s.TTmp * l_v T / (c_pd * R_v) / (s.TTmp * s.TTmp) / (1 - p_vs s.TTmp / s.p) * r_vs s.TTmp s.p := by
    have g1 : 0 ≤ 1 - p_vs s.TTmp / s.p := by rw [sub_nonneg, div_le_one h2]; exact h1.le
    have g2 : 0 ≤ c_pd * R_v := mul_nonneg c_pd_pos.le R_v_pos.le
    have : 0 ≤ l_v s.TTmp * l_v T / (c_pd * R_v) / (s.TTmp * s.TTmp) / (1 - p_vs s.TTmp / s.p) * r_vs s.TTmp s.p :=
      mul_nonneg (div_nonneg (div_nonneg (div_nonneg h5 g2) (mul_self_nonneg _)) g1) h3
    linarith
  have := (div_eq_zero_iff.mp e.symm).resolve_right hq1.ne'
  linarith

/-! ### the Runge-Kutta step -/

/-- **C38 (RK4 stepper).** The step is exact when `dθ/drv` is a cubic polynomial of `rv` alone, and multiplies `θ` by the
fourth-order Taylor polynomial of the exponential when `dθ/drv` is proportional to `θ`. -/
theorem rk4_exact (a0 a1 a2 a3 th rv d l : ℝ) :
    (rk4 (fun _ r => a0 + a1 * r + a2 * r ^ 2 + a3 * r ^ 3) th rv d).1 =
      th + (a0 * (rv + d) + a1 * (rv + d) ^ 2 / 2 + a2 * (rv + d) ^ 3 / 3 + a3 * (rv + d) ^ 4 / 4)
        - (a0 * rv + a1 * rv ^ 2 / 2 + a2 * rv ^ 3 / 3 + a3 * rv ^ 4 / 4) ∧
    (rk4 (fun t _ => l * t) th rv d).1 =
      th * (1 + l * d + (l * d) ^ 2 / 2 + (l * d) ^ 3 / 6 + (l * d) ^ 4 / 24) := by
  constructor <;> (simp only [rk4]; ring)

/-! ### warm rain -/

/-- **C40 (switches).** With Kessler's rates written out: cloud water turns into rain at the rate
`k (rc - r_c0)⁺` if `conv` is set, plus `2.2 rc rr^0.875` if `accr` is set, and a process that is switched off contributes
nothing. -/
theorem warm_rates (o : Opts) (c : Cell) (d : Dots) :
    (rhsWarm o c d).rr = d.rr + (if o.conv = true then o.k_acnv * max (c.rc - o.r_c0) 0 else 0)
      + (if o.accr = true then 2.2 * c.rc * c.rr ^ (0.875 : ℝ) else 0) ∧
    (rhsWarm o c d).rc = d.rc - (if o.conv = true then o.k_acnv * max (c.rc - o.r_c0) 0 else 0)
      - (if o.accr = true then 2.2 * c.rc * c.rr ^ (0.875 : ℝ) else 0) := by
  simp only [rhsWarm, autoconversion, collection, max_comm (0 : ℝ)]
  constructor <;> ring

/-- **C40.** With both switches off a call without rain evaporation changes nothing. -/
theorem warm_off (o : Opts) (c : Cell) (d : Dots) (h1 : o.conv = false) (h2 : o.accr = false) : rhsWarm o c d = d := by
  simp [rhsWarm, h1, h2]

/-! ### ice nucleation -/

/-- number concentration of ice A for a given mean particle mass -/
noncomputable def concA (ria rhod m : ℝ) : ℝ := rhod * ria / m

/-- **C41 (heterogeneous nucleation).** It takes no more than the available cloud water, happens only below freezing in the
presence of cloud water, and the ice produced in one second raises the number concentration of ice A (counted with the current
mean mass) to at most 10⁵ per cubic metre; nothing is nucleated if the concentration is already at that value. -/
theorem hetA_limits (ria rc T rhod : ℝ) (hrc : 0 ≤ rc) (hr : 0 < rhod) :
    0 ≤ hetA ria rc T rhod ∧ hetA ria rc T rhod ≤ rc ∧ (273.16 < T → hetA ria rc T rhod = 0) ∧
    (hetA ria rc T rhod ≠ 0 → concA (ria + hetA ria rc T rhod) rhod (massA ria T rhod) < 1e5) ∧
    (1e5 ≤ concA ria rhod (massA ria T rhod) → hetA ria rc T rhod = 0) := by
  have hm : 0 < massA ria T rhod := by
    unfold massA; exact lt_of_lt_of_le (by norm_num) (le_max_left _ _)
  have he0 : 0 < 1 - Real.exp (-1) := by
    have : Real.exp (-1) < 1 := by rw [Real.exp_lt_one_iff]; norm_num
    linarith
  have he1 : 1 - Real.exp (-1) < 1 := by have := Real.exp_pos (-1); linarith
  have key : hetA ria rc T rhod = 0 ∨ ∃ x, hetA ria rc T rhod = (1 - Real.exp (-1)) * x ∧ 0 < x ∧ x ≤ rc ∧ T ≤ 273.16 ∧
      x ≤ 1e5 * massA ria T rhod / rhod - ria := by
    unfold hetA
    split_ifs with h0
    · exact Or.inl rfl
    · push Not at h0
      set y := min (1e5 : ℝ) (1e-2 * Real.exp (0.6 * (273.16 - T))) * massA ria T rhod / rhod - ria with hy
      have hyle : y ≤ 1e5 * massA ria T rhod / rhod - ria := by
        rw [hy]
        have : min (1e5 : ℝ) (1e-2 * Real.exp (0.6 * (273.16 - T))) * massA ria T rhod / rhod ≤ 1e5 * massA ria T rhod / rhod :=
          div_le_div_of_nonneg_right (mul_le_mul_of_nonneg_right (min_le_left _ _) hm.le) hr.le
        linarith
      rcases le_or_gt y 0 with h | h
      · left; rw [max_eq_left h, min_eq_right hrc, mul_zero]
      · right
        rw [max_eq_right h.le]
        have hrc' : 0 < rc := lt_of_le_of_ne hrc (Ne.symm h0.1)
        exact ⟨_, rfl, lt_min hrc' h, min_le_left _ _, h0.2, (min_le_right _ _).trans hyle⟩
  have conc : ∀ r, concA r rhod (massA ria T rhod) < 1e5 ↔ r < 1e5 * massA ria T rhod / rhod := by
    intro r
    unfold concA
    rw [div_lt_iff₀ hm, lt_div_iff₀ hr, mul_comm]
  rcases key with h | ⟨x, hx, hx0, hxrc, hTt, hxn⟩
  · refine ⟨h.ge, h ▸ hrc, fun _ => h, fun hn => absurd h hn, fun _ => h⟩
  · refine ⟨by rw [hx]; positivity, by rw [hx]; nlinarith, fun hh => absurd hTt (not_le.mpr hh), fun _ => ?_, fun hh => ?_⟩
    · rw [conc, hx]; nlinarith
    · exfalso
      have := (not_lt.mpr hh)
      rw [conc] at this
      linarith

/-- a supercooled cloud without ice does nucleate -/
example : 0 < hetA 0 1e-3 253.16 1 := by
  have he0 : 0 < 1 - Real.exp (-1) := by
    have : Real.exp (-1) < 1 := by rw [Real.exp_lt_one_iff]; norm_num
    linarith
  have hm : 0 < massA 0 253.16 1 := by
    unfold massA; exact lt_of_lt_of_le (by norm_num) (le_max_left _ _)
  unfold hetA
  rw [if_neg (by norm_num)]
  apply mul_pos he0
  apply lt_min (by norm_num)
  apply lt_max_of_lt_right
  have : 0 < min (1e5 : ℝ) (1e-2 * Real.exp (0.6 * (273.16 - 253.16))) := lt_min (by norm_num) (by positivity)
  have := mul_pos this hm
  simpa using this

end LCP.Blk1m
