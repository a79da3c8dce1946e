import Verif.Blk1m.PosProps

/-!
# Saturation adjustment of the single-moment scheme (C38)
-/
namespace LCP.Blk1m
open LCP.Common

/-- water content of a cell -/
def Cell.water (c : Cell) : ℝ := c.rv + c.rc + c.rr + c.ria + c.rib

/-! ### Newton-Raphson -/

/-- **C38 (Newton-Raphson).** Whatever the number of iterations and the thermodynamic state, only vapour and cloud water are
exchanged, none of them becomes negative, and the potential temperature changes by the latent heat released. -/
theorem nwt_conserves (o : Opts) (c c' : Cell) (hc : o.cond = true) (T p : ℝ) (hT : Tp o c.rhod c.p c.th c.rv = some (T, p))
    (hT0 : T ≠ 0) (hth : c.th ≠ 0) (hrv : 0 ≤ c.rv) (hrc : 0 ≤ c.rc) (h : nwtCell o c = some c') :
    c'.rv + c'.rc = c.rv + c.rc ∧ 0 ≤ c'.rv ∧ 0 ≤ c'.rc ∧ c'.rr = c.rr ∧ c'.ria = c.ria ∧ c'.rib = c.rib ∧
    c_pd * (T / c.th) * (c'.th - c.th) = -l_v T * (c'.rv - c.rv) := by
  unfold nwtCell at h
  simp only [hc, Bool.not_true, Bool.false_eq_true, if_false, hT, Option.some.injEq] at h
  subst h
  generalize ((nwtIter o c (l_v T))^[o.nwtrph_iters.toNat] ⟨0, c.rv, c.th, T, p⟩).drc = x
  have h1 : min c.rv (max (-c.rc) x) ≤ c.rv := min_le_left _ _
  have h2 : -c.rc ≤ min c.rv (max (-c.rc) x) := le_min (by linarith) (le_max_left _ _)
  have hcp : c_pd ≠ 0 := c_pd_pos.ne'
  refine ⟨by simp only; ring, by simp only; linarith, by simp only; linarith, rfl, rfl, rfl, ?_⟩
  simp only
  field_simp
  ring

/-- **C38.** The call throws exactly when condensation is on and `const_p` and `th_dry` are equal; with `cond = false`
nothing changes. -/
theorem nwt_outcome (o : Opts) (c : Cell) :
    (nwtCell o c = none ↔ o.cond = true ∧ o.const_p = o.th_dry) ∧ (o.cond = false → nwtCell o c = some c) := by
  have hs := Tp_isSome o c.rhod c.p c.th c.rv
  constructor
  · unfold nwtCell
    rcases hT : Tp o c.rhod c.p c.th c.rv with _ | ⟨T, p⟩
    · rw [hT] at hs
      simp only [Option.isSome_none, Bool.false_eq_true, ne_eq, false_iff, not_not] at hs
      cases ho : o.cond <;> simp [hs]
    · rw [hT] at hs
      simp only [Option.isSome_some, ne_eq, true_iff] at hs
      cases ho : o.cond <;> simp [hs]
  · intro h; simp [nwtCell, h]

/-- one Newton iteration does not leave a saturated state -/
theorem nwtIter_sat (o : Opts) (c : Cell) (T p : ℝ) (hT : Tp o c.rhod c.p c.th c.rv = some (T, p)) (hsat : c.rv = r_vs T p) (L0 : ℝ) :
    nwtIter o c L0 ⟨0, c.rv, c.th, T, p⟩ = ⟨0, c.rv, c.th, T, p⟩ := by
  unfold nwtIter
  simp only
  rw [← hsat, sub_self, zero_div, add_zero, sub_zero, mul_zero, add_zero]
  unfold Tp at hT
  cases h1 : o.const_p <;> cases h2 : o.th_dry <;> simp [h1, h2] at hT ⊢
  · exact ⟨hT.1, by rw [hT.1, ← hT.2, hT.1]⟩
  · exact hT.1

/-- **C38.** A saturated cell is left alone. -/
theorem nwt_saturated (o : Opts) (c : Cell) (T p : ℝ) (hT : Tp o c.rhod c.p c.th c.rv = some (T, p)) (hsat : c.rv = r_vs T p)
    (hrv : 0 ≤ c.rv) (hrc : 0 ≤ c.rc) : nwtCell o c = some c := by
  unfold nwtCell
  split_ifs
  · rfl
  · simp only [hT]
    rw [Function.iterate_fixed (nwtIter_sat o c T p hT hsat (l_v T))]
    simp only
    rw [max_eq_right (by linarith), min_eq_right hrv]
    simp

/-! ### RK4 -/

/-- what the loop preserves -/
structure Inv (s0 s : Rk) : Prop where
  water : s.rv + s.rc + s.rr = s0.rv + s0.rc + s0.rr
  rv : 0 ≤ s.rv
  rc : 0 ≤ s.rc
  rr : 0 ≤ s.rr
  rain : s.rr ≤ s0.rr
  budget : s0.rr - s.rr = s0.drrMax - s.drrMax
  drr : 0 ≤ s.drrMax ∨ s.drrMax = s0.drrMax

theorem drv_cases (o : Opts) (s : Rk) (he : 0 ≤ o.r_eps) (hg : rkGuard o s) (hrr : 0 ≤ s.rr) :
    (s.rv - s.rs > o.r_eps ∧ rkDrv o s = -(0.5 * o.r_eps)) ∨
    (s.rv - s.rs < -o.r_eps ∧ s.rc > 0 ∧ rkDrv o s = min s.rc (0.5 * (s.rs - s.rv))) ∨
    (s.rv - s.rs < -o.r_eps ∧ ¬ s.rc > 0 ∧ s.rr > 0 ∧ s.drrMax > 0 ∧ rkDrv o s = min s.drrMax (min s.rr (0.5 * (s.rs - s.rv)))) := by
  unfold rkGuard at hg
  unfold rkDrv copysign
  simp only
  rcases hg with h | ⟨h1, h2, h3⟩
  · left
    refine ⟨h, ?_⟩
    rw [if_neg (by linarith), if_neg (by linarith), min_eq_left (by linarith), abs_of_nonneg (by linarith)]
  · right
    have hneg : s.rv - s.rs < 0 := by linarith
    have habs : |min (0.5 * o.r_eps) (0.5 * (s.rv - s.rs))| = 0.5 * (s.rs - s.rv) := by
      rw [min_eq_right (by linarith), abs_of_nonpos (by linarith)]; ring
    by_cases hc : s.rc > 0
    · left
      refine ⟨h2, hc, ?_⟩
      rw [if_pos hneg, if_pos hc, if_pos hneg, habs, neg_neg]
    · right
      rcases h3 with h3 | ⟨_, h4, h5⟩
      · exact absurd h3 hc
      · refine ⟨h2, hc, h4, h5, ?_⟩
        rw [if_pos hneg, if_neg hc, if_pos hneg, habs, neg_neg]

theorem step_inv (o : Opts) (t : Thermo) (s0 s : Rk) (he : 0 ≤ o.r_eps) (hs : 0 ≤ s.rs) (hg : rkGuard o s) (h : Inv s0 s) :
    Inv s0 (rkStep o t s).1 := by
  obtain ⟨w, a, b, c, r, bu, dr⟩ := h
  unfold rkStep
  simp only
  rcases drv_cases o s he hg c with ⟨g, e⟩ | ⟨g, g2, e⟩ | ⟨g, g2, g3, g4, e⟩
  · rw [if_pos (Or.inl (by linarith)), e]
    exact ⟨by simp only; linarith, by simp only; linarith, by simp only; linarith, c, r, bu, dr⟩
  · rw [if_pos (Or.inr g2), e]
    have h1 := min_le_left s.rc (0.5 * (s.rs - s.rv))
    have h2 : 0 ≤ min s.rc (0.5 * (s.rs - s.rv)) := le_min b (by linarith)
    exact ⟨by simp only; linarith, by simp only; linarith, by simp only; linarith, c, r, bu, dr⟩
  · rw [if_neg (by rintro (h | h) <;> linarith), e]
    have h0 : 0 ≤ min s.drrMax (min s.rr (0.5 * (s.rs - s.rv))) := le_min g4.le (le_min c (by linarith))
    have h1 : min s.drrMax (min s.rr (0.5 * (s.rs - s.rv))) ≤ s.drrMax := min_le_left _ _
    have h2 : min s.drrMax (min s.rr (0.5 * (s.rs - s.rv))) ≤ s.rr := (min_le_right _ _).trans (min_le_left _ _)
    exact ⟨by simp only; linarith, by simp only; linarith, b, by simp only; linarith, by simp only; linarith, by simp only; linarith,
      Or.inl (by simp only; linarith)⟩

theorem reach_inv (o : Opts) (t : Thermo) (s s' : Rk) (he : 0 ≤ o.r_eps) (h0 : 0 ≤ s.rv ∧ 0 ≤ s.rc ∧ 0 ≤ s.rr)
    (hrs : ∀ u, Reach o t s u → 0 ≤ u.rs) (h : Reach o t s s') : Inv s s' := by
  induction h with
  | start => exact ⟨rfl, h0.1, h0.2.1, h0.2.2, le_refl _, by ring, Or.inr rfl⟩
  | next hr hg _ ih => exact step_inv o t s _ he (hrs _ hr) hg ih

/-- **C38 (RK4).** For every thermodynamic closure with non-negative saturation mixing ratio: when the loop ends, water is
conserved, no mixing ratio is negative, rain has not increased nor decreased by more than the Kessler limit. -/
theorem rk_conserves (o : Opts) (t : Thermo) (s s' : Rk) (he : 0 ≤ o.r_eps) (h0 : 0 ≤ s.rv ∧ 0 ≤ s.rc ∧ 0 ≤ s.rr)
    (hrs : ∀ u, Reach o t s u → 0 ≤ u.rs) (hd : 0 ≤ s.drrMax) (h : Run o t s s') :
    s'.rv + s'.rc + s'.rr = s.rv + s.rc + s.rr ∧ 0 ≤ s'.rv ∧ 0 ≤ s'.rc ∧ 0 ≤ s'.rr ∧ s'.rr ≤ s.rr ∧ s.rr - s'.rr ≤ s.drrMax := by
  have : Inv s s' := by
    rcases h with ⟨h, _⟩ | ⟨u, hu, hg, _, e⟩
    · exact reach_inv o t s s' he h0 hrs h
    · rw [e]; exact step_inv o t s u he (hrs u hu) hg (reach_inv o t s u he h0 hrs hu)
  refine ⟨this.water, this.rv, this.rc, this.rr, this.rain, ?_⟩
  have := this.budget
  rcases ‹Inv s s'›.drr with h1 | h1 <;> linarith

/-- **C38 (RK4, result).** When the loop ends, the cell is within `r_eps` of saturation as last evaluated, or subsaturated with
cloud evaporation off or neither cloud water nor evaporable rain left. -/
theorem rk_result (o : Opts) (t : Thermo) (s s' : Rk) (_he : 0 ≤ o.r_eps)
    (h : Run o t s s') :
    |s'.rv - s'.rs| ≤ o.r_eps ∨
    (s'.rv - s'.rs < -o.r_eps ∧ (o.cevp = false ∨ (s'.rc ≤ 0 ∧ (o.revp = false ∨ s'.rr ≤ 0 ∨ s'.drrMax ≤ 0)))) ∨ (s'.drrMax = 0 ∧ s'.rc ≤ 0) := by
  rcases h with ⟨_, hg⟩ | ⟨u, hu, hg, hb, e⟩
  · unfold rkGuard at hg
    push Not at hg
    obtain ⟨h1, h2⟩ := hg
    by_cases h3 : s'.rv - s'.rs < -o.r_eps
    · right; left
      refine ⟨h3, ?_⟩
      by_cases h4 : o.cevp = true
      · right
        obtain ⟨h5, h6⟩ := h2 h4 h3
        refine ⟨h5, ?_⟩
        by_cases h7 : o.revp = true
        · right
          by_cases h8 : 0 < s'.rr
          · right; exact h6 h7 h8
          · left; linarith
        · left; simpa using h7
      · left; simpa using h4
    · left
      rw [abs_le]; constructor <;> linarith
  · right; right
    rw [e]
    unfold rkStep at hb ⊢
    simp only at hb ⊢
    split_ifs at hb ⊢ with hc
    · simp at hb
    · push Not at hc
      exact ⟨hb, hc.2⟩

/-- `cond = false`: nothing changes -/
theorem rk_off (o : Opts) (dt : ℝ) (c c' : Cell) (h : o.cond = false) : RkCell o dt c c' ↔ c' = c := by
  simp [RkCell, h]

/-- **C38 (adj_cellwise).** Both variants: total water of the cell is unchanged and no species becomes negative, provided (RK4
only) the saturation mixing ratio is non-negative wherever it is evaluated and it is positive initially. -/
theorem adj_conserves (o : Opts) (dt : ℝ) (c c' : Cell) (he : 0 ≤ o.r_eps) (hdt : 0 ≤ dt) (hrho : 0 < c.rhod)
    (hpos : 0 ≤ c.rv ∧ 0 ≤ c.rc ∧ 0 ≤ c.rr)
    (hT : ∀ T p, Tp o c.rhod c.p c.th c.rv = some (T, p) → T ≠ 0 ∧ 0 < p ∧ p_vs T < p) (hth : c.th ≠ 0)
    (hrs : ∀ s u, rkInit o c dt = some s → Reach o (thermo o c.rhod c.p) s u → 0 ≤ u.rs)
    (h : AdjCell o dt c c') :
    c'.water = c.water ∧ 0 ≤ c'.rv ∧ 0 ≤ c'.rc ∧ 0 ≤ c'.rr ∧ c'.rr ≤ c.rr ∧ c'.ria = c.ria ∧ c'.rib = c.rib := by
  obtain ⟨p1, p2, p3⟩ := hpos
  unfold AdjCell at h
  split_ifs at h with hn
  · cases ho : o.cond with
    | false =>
      rw [(nwt_outcome o c).2 ho] at h
      simp only [Option.some.injEq] at h
      subst h
      exact ⟨rfl, p1, p2, p3, le_refl _, rfl, rfl⟩
    | true =>
      rcases hTp : Tp o c.rhod c.p c.th c.rv with _ | ⟨T, p⟩
      · unfold nwtCell at h; simp [ho, hTp] at h
      · obtain ⟨q1, q2, q3, q4, q5, q6, _⟩ := nwt_conserves o c c' ho T p hTp (hT T p hTp).1 hth p1 p2 h
        refine ⟨?_, q2, q3, by rw [q4]; exact p3, q4.le, q5, q6⟩
        unfold Cell.water; rw [q4, q5, q6]; linarith
  · unfold RkCell at h
    split_ifs at h with ho
    · obtain ⟨s, s', h1, h2, h3⟩ := h
      have hinit := h1
      unfold rkInit at h1
      rcases hTp : Tp o c.rhod c.p c.th c.rv with _ | ⟨T, p⟩
      · rw [hTp] at h1; simp at h1
      · rw [hTp] at h1
        obtain ⟨_, hp0, hpv⟩ := hT T p hTp
        simp only [Option.some.injEq] at h1
        have hd : 0 ≤ s.drrMax := by
          rw [← h1]
          simp only
          split_ifs with hc
          · exact mul_nonneg hdt (evaporation_nonneg _ _ _ _ _ hc.1.le (r_vs_pos T p hpv) p3 hrho hp0)
          · exact le_refl _
        have e1 : s.rv = c.rv ∧ s.rc = c.rc ∧ s.rr = c.rr := by rw [← h1]; exact ⟨rfl, rfl, rfl⟩
        obtain ⟨k1, k2, k3, k4, k5, _⟩ := rk_conserves o (thermo o c.rhod c.p) s s' he
          (by rw [e1.1, e1.2.1, e1.2.2]; exact ⟨p1, p2, p3⟩) (fun u hu => hrs s u hinit hu) hd h2
        subst h3
        refine ⟨?_, k2, k3, k4, by rw [e1.2.2] at k5; exact k5, rfl, rfl⟩
        rw [e1.1, e1.2.1, e1.2.2] at k1
        unfold Cell.water
        simp only; linarith
    · subst h
      exact ⟨rfl, p1, p2, p3, le_refl _, rfl, rfl⟩

/-- **C38, negation.** Where the pressure is below the saturation vapour pressure the saturation mixing ratio is negative, and the
RK4 variant makes the vapour content negative in its first step. -/
theorem rk_negative_vapour : ∃ (c : Cell) (s : Rk), 0 ≤ c.rv ∧ 0 < c.th ∧ 0 < c.p ∧
    rkInit { adj_nwtrph := false, th_dry := false, const_p := true } c 1 = some s ∧
    rkGuard { adj_nwtrph := false, th_dry := false, const_p := true } s ∧
    (rkStep { adj_nwtrph := false, th_dry := false, const_p := true } (thermo { adj_nwtrph := false, th_dry := false, const_p := true } c.rhod c.p) s).1.rv < 0 := by
  have hx : 0 < exner 500 := Real.rpow_pos_of_pos (by norm_num [p_1000]) _
  have hTt := T_tri_pos
  refine ⟨⟨1, 500, T_tri / exner 500, 1e-6, 0, 0, 0, 0⟩, ⟨T_tri / exner 500, 1e-6, 0, 0, 0, r_vs T_tri 500⟩, by norm_num, by positivity, by norm_num, ?_, ?_, ?_⟩
  · unfold rkInit Tp
    simp [div_mul_cancel₀ _ hx.ne']
  · have : r_vs T_tri 500 < -1 := by
      unfold r_vs
      rw [triple_point.1]
      norm_num [p_tri, eps, M_v, M_H, M_OH, M_d]
    unfold rkGuard
    left
    simp only
    linarith
  · have : r_vs T_tri 500 < -1 := by
      unfold r_vs
      rw [triple_point.1]
      norm_num [p_tri, eps, M_v, M_H, M_OH, M_d]
    have hd : rkDrv { adj_nwtrph := false, th_dry := false, const_p := true } ⟨T_tri / exner 500, 1e-6, 0, 0, 0, r_vs T_tri 500⟩ = -(0.5 * 2e-5) := by
      unfold rkDrv copysign
      simp only
      rw [if_neg (by linarith), if_neg (by linarith), min_eq_left (by norm_num at *; linarith), abs_of_nonneg (by norm_num)]
    unfold rkStep
    simp only
    rw [if_pos (Or.inl (by norm_num at *; linarith))]
    simp only
    rw [hd]; norm_num

/-- non-vacuity of the RK4 statement: constant saturation mixing ratio 0.01, subsaturated cloud; the loop evaporates half the
deficit, reaches `|rv - rs| = r_eps` and stops -/
example : Run { r_eps := 5e-4 } ⟨fun _ _ => 0, fun _ _ => 0.01⟩ ⟨300, 0.009, 0.001, 0, 0, 0.01⟩ ⟨300, 0.0095, 0.0005, 0, 0, 0.01⟩ := by
  left
  have hg : rkGuard { r_eps := 5e-4 } ⟨300, 0.009, 0.001, 0, 0, 0.01⟩ := by
    right; refine ⟨rfl, by norm_num, Or.inl (by norm_num)⟩
  have hd : rkDrv { r_eps := 5e-4 } ⟨300, 0.009, 0.001, 0, 0, 0.01⟩ = 0.0005 := by
    unfold rkDrv copysign
    simp only
    rw [if_pos (by norm_num), if_pos (by norm_num), if_pos (by norm_num), min_eq_right (b := 0.5 * _) (by norm_num)]
    norm_num [abs_of_neg]
  have hst : (rkStep { r_eps := 5e-4 } ⟨fun _ _ => 0, fun _ _ => 0.01⟩ ⟨300, 0.009, 0.001, 0, 0, 0.01⟩).1 = ⟨300, 0.0095, 0.0005, 0, 0, 0.01⟩ := by
    unfold rkStep
    simp only
    rw [if_pos (Or.inr (by norm_num)), hd]
    simp [rk4]
    norm_num
  constructor
  · rw [← hst]
    refine Reach.next Reach.start hg ?_
    unfold rkStep
    simp only
    rw [if_pos (Or.inr (by norm_num))]
    simp
  · unfold rkGuard
    push Not
    norm_num

end LCP.Blk1m
