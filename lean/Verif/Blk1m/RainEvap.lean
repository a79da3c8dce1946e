import Verif.Blk1m.AdjProps
import Verif.Blk1m.RateProps
import Verif.Blk1m.TermReal

/-!
# Rain evaporation in the saturation adjustment (C38)
-/
namespace LCP.Blk1m
open LCP.Common

/-- one pass of the loop never adds rain, and leaves it alone without rain evaporation or with nothing left of the limit -/
theorem step_rain (o : Opts) (t : Thermo) (s : Rk) (he : 0 ≤ o.r_eps) (hg : rkGuard o s) (hrr : 0 ≤ s.rr) :
    0 ≤ (rkStep o t s).1.rr ∧ (rkStep o t s).1.rr ≤ s.rr ∧ ((o.revp = false ∨ s.drrMax ≤ 0) → (rkStep o t s).1.rr = s.rr ∧ (rkStep o t s).1.drrMax = s.drrMax) := by
  have hg' := hg
  unfold rkGuard at hg'
  unfold rkStep
  simp only
  rcases drv_cases o s he hg hrr with ⟨g, e⟩ | ⟨g, g2, e⟩ | ⟨g, g2, g3, g4, e⟩
  · rw [if_pos (Or.inl (by linarith))]
    exact ⟨hrr, le_refl _, fun _ => ⟨rfl, rfl⟩⟩
  · rw [if_pos (Or.inr g2)]
    exact ⟨hrr, le_refl _, fun _ => ⟨rfl, rfl⟩⟩
  · rw [if_neg (by rintro (h | h) <;> linarith), e]
    have h0 : 0 ≤ min s.drrMax (min s.rr (0.5 * (s.rs - s.rv))) := le_min g4.le (le_min hrr (by linarith))
    have h2 : min s.drrMax (min s.rr (0.5 * (s.rs - s.rv))) ≤ s.rr := (min_le_right _ _).trans (min_le_left _ _)
    refine ⟨by simp only; linarith, by simp only; linarith, ?_⟩
    rintro (h | h)
    · rcases hg' with q | ⟨_, _, q | ⟨q, _⟩⟩
      · linarith
      · exact absurd q g2
      · rw [h] at q; simp at q
    · linarith

theorem reach_rain (o : Opts) (t : Thermo) (s u : Rk) (he : 0 ≤ o.r_eps) (hrr : 0 ≤ s.rr) (h : Reach o t s u) :
    0 ≤ u.rr ∧ ((o.revp = false ∨ s.drrMax ≤ 0) → u.rr = s.rr ∧ u.drrMax = s.drrMax) ∧ (u = s ∨ u.rr ≤ (rkStep o t s).1.rr) := by
  induction h with
  | start => exact ⟨hrr, fun _ => ⟨rfl, rfl⟩, Or.inl rfl⟩
  | next _ hg _ ih =>
    obtain ⟨i1, i2, i3⟩ := ih
    obtain ⟨k1, k2, k3⟩ := step_rain o t _ he hg i1
    refine ⟨k1, fun q => ?_, Or.inr ?_⟩
    · obtain ⟨e1, e2⟩ := i2 q
      obtain ⟨f1, f2⟩ := k3 (q.imp id fun q => by rw [e2]; exact q)
      exact ⟨f1.trans e1, f2.trans e2⟩
    · rcases i3 with i3 | i3
      · rw [i3]
      · exact k2.trans i3

/-- **C38 (RK4, rain untouched).** With rain evaporation off, or in a cell that is not subsaturated at the start, the adjustment leaves the rain as it was. -/
theorem rk_rain_untouched (o : Opts) (dt : ℝ) (c c' : Cell) (he : 0 ≤ o.r_eps) (hrr : 0 ≤ c.rr)
    (hcase : o.revp = false ∨ ∃ T p, Tp o c.rhod c.p c.th c.rv = some (T, p) ∧ r_vs T p ≤ c.rv) (h : RkCell o dt c c') : c'.rr = c.rr := by
  unfold RkCell at h
  split_ifs at h with hc
  · obtain ⟨s, s', h1, h2, rfl⟩ := h
    have hs : s.rr = c.rr ∧ (o.revp = false ∨ s.drrMax ≤ 0) := by
      unfold rkInit at h1
      rcases hTp : Tp o c.rhod c.p c.th c.rv with _ | ⟨T, p⟩
      · rw [hTp] at h1; simp at h1
      · rw [hTp] at h1
        simp only [Option.some.injEq] at h1
        rw [← h1]
        refine ⟨rfl, hcase.imp id ?_⟩
        rintro ⟨T', p', e, hle⟩
        rw [hTp] at e
        simp only [Option.some.injEq, Prod.mk.injEq] at e
        rw [← e.1, ← e.2] at hle
        simp only
        rw [if_neg (fun q => absurd q.1 (not_lt.2 hle))]
    rw [← hs.1] at hrr
    rcases h2 with ⟨h, _⟩ | ⟨u, hu, hg, _, e⟩
    · exact ((reach_rain o _ s s' he hrr h).2.1 hs.2).1.trans hs.1
    · obtain ⟨i1, i2, _⟩ := reach_rain o _ s u he hrr hu
      obtain ⟨e1, e2⟩ := i2 hs.2
      rw [e]
      exact ((step_rain o _ u he hg i1).2.2 (hs.2.imp id fun q => by rw [e2]; exact q)).1.trans (e1.trans hs.1)
  · rw [h]

/-- **C38 (RK4, rain evaporates).** In a cell without cloud water, subsaturated by more than the tolerance, rain does evaporate: if rain is present and both evaporation switches are on, some of
it is gone after the adjustment (at most the Kessler rate times the time step: `rk_conserves`). -/
theorem rk_rain_evaporates (o : Opts) (dt : ℝ) (c c' : Cell) (he : 0 ≤ o.r_eps) (hrr : 0 < c.rr) (hrc : c.rc = 0) (hcond : o.cond = true) (hce : o.cevp = true) (hre : o.revp = true)
    (hdt : 0 < dt) (T p : ℝ) (hT : Tp o c.rhod c.p c.th c.rv = some (T, p)) (hrho : 0 < c.rhod) (hp : 0 < p) (hpv : p_vs T < p) (hsub : c.rv < r_vs T p - o.r_eps)
    (h : RkCell o dt c c') : c'.rr < c.rr := by
  have hev : 0 < evaporation c.rv (r_vs T p) c.rr c.rhod p := (evaporation_law c.rv (r_vs T p) c.rr c.rhod p (r_vs_pos T p hpv) hrr hrho hp).1.2 (by linarith)
  unfold RkCell at h
  rw [if_pos hcond] at h
  obtain ⟨s, s', h1, h2, rfl⟩ := h
  have hs : s = ⟨c.th, c.rv, c.rc, c.rr, dt * evaporation c.rv (r_vs T p) c.rr c.rhod p, r_vs T p⟩ := by
    unfold rkInit at h1
    rw [hT] at h1
    simp only [Option.some.injEq] at h1
    rw [← h1, if_pos ⟨by linarith, hrr, hre⟩]
  have hd : 0 < dt * evaporation c.rv (r_vs T p) c.rr c.rhod p := mul_pos hdt hev
  have hguard : rkGuard o s := by
    rw [hs]
    exact Or.inr ⟨hce, by simp only; linarith, Or.inr ⟨hre, hrr, hd⟩⟩
  have hrs : 0 ≤ s.rr := by rw [hs]; exact hrr.le
  have hfirst : (rkStep o (thermo o c.rhod c.p) s).1.rr < c.rr := by
    unfold rkStep
    simp only
    rcases drv_cases o s he hguard hrs with ⟨g, e⟩ | ⟨g, g2, e⟩ | ⟨g, g2, g3, g4, e⟩
    · rw [hs] at g; simp only at g; linarith
    · rw [hs] at g2; simp only [hrc] at g2; exact absurd g2 (lt_irrefl _)
    · rw [if_neg (by rintro (h | h) <;> linarith), e]
      have h0 : 0 < min s.drrMax (min s.rr (0.5 * (s.rs - s.rv))) := lt_min g4 (lt_min g3 (by linarith))
      have : s.rr = c.rr := by rw [hs]
      simp only
      linarith
  rcases h2 with ⟨h, hng⟩ | ⟨u, hu, hg, _, e⟩
  · rcases (reach_rain o _ s s' he hrs h).2.2 with q | q
    · rw [q] at hng; exact absurd hguard hng
    · exact lt_of_le_of_lt q hfirst
  · obtain ⟨i1, _, i3⟩ := reach_rain o _ s u he hrs hu
    rw [e]
    rcases i3 with q | q
    · rw [q]; exact hfirst
    · exact lt_of_le_of_lt ((step_rain o _ u he hg i1).2.1.trans q) hfirst

/-- non-vacuity: a dry cell at the triple point with rain; the adjustment ends and has evaporated some rain -/
example : ∃ c', RkCell { const_p := true, th_dry := false } 1 ⟨1, 1e5, 273.16, 0.001, 0, 0.0005, 0, 0⟩ c' ∧ c'.rr < 0.0005 := by
  have hx : exner 1e5 = 1 := by unfold exner p_1000; norm_num
  have ht : p_vs 273.16 = p_tri := triple_point.1
  have hb : p_vs 273.16 < 1e5 := by rw [ht]; unfold p_tri; norm_num
  obtain ⟨c', _, h, _⟩ := rk_terminates_const_p { const_p := true, th_dry := false } 1 ⟨1, 1e5, 273.16, 0.001, 0, 0.0005, 0, 0⟩ rfl rfl rfl
    (by norm_num) (by norm_num) (by norm_num) ⟨by norm_num, by norm_num, by norm_num⟩ (by norm_num)
    (by rw [hx]; norm_num) (by rw [hx]; norm_num) (by rw [hx, mul_one]; exact hb)
  refine ⟨c', h, ?_⟩
  have hr := r_vs_eq 273.16 1e5 hb
  rw [ht] at hr
  have h1 : p_tri = 611.73 := by unfold p_tri; norm_num
  rw [h1] at hr
  refine rk_rain_evaporates { const_p := true, th_dry := false } 1 ⟨1, 1e5, 273.16, 0.001, 0, 0.0005, 0, 0⟩ c' (by norm_num) (by norm_num) rfl rfl rfl rfl (by norm_num) 273.16 1e5
    (by unfold Tp; simp only [hx]; simp) (by norm_num) (by norm_num) hb ?_ h
  have := eps_bounds.1
  simp only
  nlinarith

end LCP.Blk1m
