import Verif.Blk1m.DryThermo

/-!
# The RK4 saturation adjustment ends for moderately moist air, default (dry potential temperature) variant (C101)

Discharges the hypotheses of `rk_terminates_partial` for `th_dry = true`, `const_p = false` (the defaults of `opts_t`) from
conditions on the initial cell alone.
-/
namespace LCP.Blk1m
open LCP.Common

/-- what holds at the top of the loop; `θ` is the potential temperature at which the air has 250 K -/
structure GoodDry (o : Opts) (rhod θ : ℝ) (s u : Rk) : Prop where
  inv : Inv s u
  temp : ∃ x : ℝ, 0 < x ∧ u.rs = r_vs (Tdry x rhod) (rhod * (R_d + u.rv * R_v) * Tdry x rhod) ∧
    Tdry u.th rhod ≤ Tdry x rhod + 110 * o.r_eps ∧ 250 ≤ Tdry x rhod ∧ Tdry x rhod ≤ 700 ∧
    p_vs (Tdry x rhod) / Tdry x rhod < rhod * (R_d + u.rv * R_v) ∧ p_vs (Tdry u.th rhod) / Tdry u.th rhod < rhod * (R_d + u.rv * R_v)
  phase : (s.rv ≤ u.rv ∧ s.th - heat rhod θ * (u.rv - s.rv) ≤ u.th ∧ u.th ≤ s.th) ∨
    (s.th - heat rhod θ * (s.rc + s.rr) ≤ u.th ∧ u.th ≤ s.th + heat rhod θ * (s.rv + s.rc + s.rr - u.rv) ∧ -o.r_eps ≤ u.rv - u.rs)

theorem GoodDry.step (o : Opts) (hcp : o.const_p = false) (htd : o.th_dry = true) (he1 : 1e-5 ≤ o.r_eps) (he2 : o.r_eps ≤ 1e-4)
    (rhod p θ : ℝ) (hr : 0 < rhod) (hθ : 0 < θ) (hTθ : Tdry θ rhod = 250) (s u : Rk) (hs : 0 ≤ s.rv ∧ 0 ≤ s.rc ∧ 0 ≤ s.rr)
    (hW : s.rv + s.rc + s.rr ≤ 0.008) (hL : s.rc + s.rr ≤ 0.004) (hT1 : θ + heat rhod θ * (s.rc + s.rr) ≤ s.th)
    (hT2 : Tdry s.th rhod ≤ 500) (h : GoodDry o rhod θ s u) (hg : rkGuard o u) :
    GoodDry o rhod θ s (rkStep o (thermo o rhod p) u).1 ∧
    (u.rv - u.rs > o.r_eps → (rkStep o (thermo o rhod p) u).1.rs ≤ u.rs + 3 / 2 * o.r_eps) := by
  obtain ⟨hI, ⟨x, hx0, hrs, hlag, hx1, hx2, hqx, hqu⟩, hph⟩ := h
  have he0 : 0 < o.r_eps := lt_of_lt_of_le (by norm_num) he1
  have hRd := R_d_bounds
  have hRv := R_v_bounds
  have hTx0 := Tdry_pos x rhod hx0 hr
  have hrs0 : 0 < u.rs := by rw [hrs]; exact (r_vs_dry hTx0 hqx).1
  have hI' := step_inv o (thermo o rhod p) s u he0.le hrs0.le hg hI
  have hw := hI.water
  have a1 := hI.rv; have a2 := hI.rc; have a3 := hI.rr
  obtain ⟨s1, s2, s3⟩ := hs
  obtain ⟨H, hH⟩ : ∃ H, H = heat rhod θ := ⟨_, rfl⟩
  have hH0 : 0 < H := by rw [hH]; exact heat_pos hθ hr (by rw [hTθ]; norm_num)
  have hHθ : H ≤ 10.17 * θ := by
    have := heat_K hθ hr hTθ.ge
    rw [hTθ, ← hH] at this
    clear * - this hθ; norm_num at *; linarith
  have hth : θ ≤ u.th := by
    rcases hph with ⟨_, b, _⟩ | ⟨b, _, _⟩
    · have : heat rhod θ * (u.rv - s.rv) ≤ heat rhod θ * (s.rc + s.rr) := by rw [← hH]; gcongr; linarith
      linarith
    · linarith
  have hu0 : 0 < u.th := by linarith
  have hs0 : 0 < s.th := by
    have : 0 ≤ heat rhod θ * (s.rc + s.rr) := by rw [← hH]; apply mul_nonneg hH0.le; linarith
    linarith
  have hsθ : θ ≤ s.th := by
    have : 0 ≤ heat rhod θ * (s.rc + s.rr) := by rw [← hH]; apply mul_nonneg hH0.le; linarith
    linarith
  have hTu : Tdry u.th rhod ≤ 600 := by
    have b : u.th ≤ s.th * (1 + 0.082) := by
      rcases hph with ⟨_, _, b⟩ | ⟨_, b, _⟩
      · linarith
      · have : H * (s.rv + s.rc + s.rr - u.rv) ≤ H * 0.008 := by gcongr; linarith
        rw [← hH] at b
        clear * - b this hHθ hsθ hs0
        norm_num at *; linarith
    refine (Tdry_mono hu0 hr b).trans ((Tdry_rise hs0 hr (by norm_num)).trans ?_)
    clear * - hT2
    norm_num at *; linarith
  have hTu0 := Tdry_pos u.th rhod hu0 hr
  obtain ⟨th', h1⟩ : ∃ t, (rk4 (thermo o rhod p).F u.th u.rv (rkDrv o u)).1 = t := ⟨_, rfl⟩
  obtain ⟨th4, h2⟩ : ∃ t, (rk4 (thermo o rhod p).F u.th u.rv (rkDrv o u)).2 = t := ⟨_, rfl⟩
  have fth : (rkStep o (thermo o rhod p) u).1.th = th' := by
    unfold rkStep; simp only; split_ifs <;> exact h1
  have frv : (rkStep o (thermo o rhod p) u).1.rv = u.rv + rkDrv o u := by
    unfold rkStep; simp only; split_ifs <;> rfl
  have frs : (rkStep o (thermo o rhod p) u).1.rs = r_vs (Tdry th4 rhod) (rhod * (R_d + (u.rv + rkDrv o u) * R_v) * Tdry th4 rhod) := by
    unfold rkStep; simp only; split_ifs <;> (simp only; rw [rs_dry o hcp htd, h2])
  have hw' := hI'.water
  have b2 := hI'.rc; have b3 := hI'.rr
  rw [frv] at hw'
  by_cases hx : u.rv - u.rs > o.r_eps
  · -- condensation
    have hd : rkDrv o u = -(0.5 * o.r_eps) := by
      rcases drv_cases o u he0.le hg a3 with ⟨_, e⟩ | ⟨g, _, _⟩ | ⟨g, _, _, _, _⟩
      · exact e
      · exfalso; linarith
      · exfalso; linarith
    rw [hd] at h1 h2 frv frs hw'
    obtain ⟨c1, c2, c3, c4, c5, c6⟩ := rk4_cond o hcp htd rhod p hr u.th u.rv (0.5 * o.r_eps) θ hθ hTθ hth (by linarith) (by positivity)
      (by clear * - he2; norm_num at *; linarith) th' th4 h1 h2
    have hr8 : r_vs (Tdry x rhod) (rhod * (R_d + u.rv * R_v) * Tdry x rhod) ≤ 0.008 := by rw [← hrs]; linarith
    have hqq : rhod * (R_d + u.rv * R_v) * (1 - 0.81 * o.r_eps) ≤ rhod * (R_d + (u.rv + -(0.5 * o.r_eps)) * R_v) := by
      rw [mul_assoc]
      apply mul_le_mul_of_nonneg_left _ hr.le
      have k1 : R_v * 0.5 ≤ 0.81 * R_d := by clear * - hRd hRv; norm_num at *; linarith
      have k2 : R_v * 0.5 * o.r_eps ≤ 0.81 * R_d * o.r_eps := by gcongr
      have k3 : 0 ≤ u.rv * R_v * (0.81 * o.r_eps) := by have := R_v_pos; positivity
      linarith
    have rise : ∀ y : ℝ, u.th ≤ y → Tdry y rhod ≤ Tdry u.th rhod + 3570 * (0.5 * o.r_eps) →
        p_vs (Tdry y rhod) / Tdry y rhod < rhod * (R_d + (u.rv + -(0.5 * o.r_eps)) * R_v) ∧
        r_vs (Tdry y rhod) (rhod * (R_d + (u.rv + -(0.5 * o.r_eps)) * R_v) * Tdry y rhod) ≤
          r_vs (Tdry x rhod) (rhod * (R_d + u.rv * R_v) * Tdry x rhod) + 3 / 2 * o.r_eps := by
      intro y hy hy2
      apply r_vs_rise_dry hx1 (Tdry_pos y rhod (by linarith) hr) _ _ he0 he2 hqx hqq hr8
      · clear * - hy2 hlag he0; norm_num at *; linarith
      · clear * - hx2 he2; norm_num at *; linarith
    obtain ⟨r1, _⟩ := rise th' c1 c4
    obtain ⟨r3, r4⟩ := rise th4 c2 c5
    have hT4 : 250 ≤ Tdry th4 rhod := by rw [← hTθ]; exact Tdry_mono hθ hr (by linarith)
    refine ⟨⟨hI', ⟨th4, by linarith, by rw [frs, frv], ?_, hT4, ?_, by rw [frv]; exact r3, by rw [fth, frv]; exact r1⟩, Or.inr ?_⟩,
      fun _ => by rw [frs, hrs]; exact r4⟩
    · rw [fth]; linarith
    · clear * - c5 hTu he2; norm_num at *; linarith
    · rw [fth, frv, frs]
      rw [← hH] at c3 hph ⊢
      refine ⟨?_, ?_, ?_⟩
      · rcases hph with ⟨_, b, _⟩ | ⟨b, _, _⟩
        · have : H * (u.rv - s.rv) ≤ H * (s.rc + s.rr) := by gcongr; linarith
          linarith
        · linarith
      · have e : H * (s.rv + s.rc + s.rr - (u.rv + -(0.5 * o.r_eps))) = H * (s.rv + s.rc + s.rr - u.rv) + 0.5 * o.r_eps * H := by ring
        rw [e]
        rcases hph with ⟨_, _, b⟩ | ⟨_, b, _⟩
        · have : 0 ≤ H * (s.rv + s.rc + s.rr - u.rv) := mul_nonneg hH0.le (by linarith)
          linarith
        · linarith
      · rw [hrs] at hx; linarith
  · -- evaporation
    have hd : u.rv - u.rs < -o.r_eps ∧ 0 ≤ rkDrv o u := by
      rcases drv_cases o u he0.le hg a3 with ⟨g, _⟩ | ⟨g, _, e⟩ | ⟨g, _, _, g4, e⟩
      · exact absurd g hx
      · exact ⟨g, by rw [e]; exact le_min a2 (by linarith)⟩
      · exact ⟨g, by rw [e]; exact le_min g4.le (le_min a3 (by linarith))⟩
    have hA : s.rv ≤ u.rv ∧ s.th - heat rhod θ * (u.rv - s.rv) ≤ u.th ∧ u.th ≤ s.th := by
      rcases hph with h | ⟨_, _, h⟩
      · exact h
      · exfalso; linarith [hd.1]
    obtain ⟨p1, p2, p3⟩ := hA
    obtain ⟨d, hdd⟩ : ∃ d, d = rkDrv o u := ⟨_, rfl⟩
    rw [← hdd] at hd h1 h2 frv frs hw'
    have hroom : θ + H * d ≤ u.th := by
      have : H * (d + (u.rv - s.rv)) ≤ H * (s.rc + s.rr) := mul_le_mul_of_nonneg_left (by linarith) hH0.le
      rw [← hH] at p2 hT1
      linarith
    obtain ⟨c1, c2, c3, c4, c5⟩ := rk4_evap o hcp htd rhod p hr u.th u.rv d θ hθ hTθ hd.2 (by linarith) (by rw [← hH]; exact hroom)
      (by linarith) th' th4 h1 h2
    rw [← hH] at c1 c2
    have ht'0 : 0 < th' := by linarith
    have ht40 : 0 < th4 := by linarith
    have hqq : rhod * (R_d + u.rv * R_v) ≤ rhod * (R_d + (u.rv + d) * R_v) := by
      have := R_v_pos; have := hd.2
      gcongr; linarith
    have low : ∀ y, 0 < y → y ≤ u.th → p_vs (Tdry y rhod) / Tdry y rhod < rhod * (R_d + (u.rv + d) * R_v) := by
      intro y h0 hy
      have h1 := Tdry_mono h0 hr hy
      exact ((e_mono (Tdry_pos y rhod h0 hr) h1 (by linarith)).trans_lt hqu).trans_le hqq
    refine ⟨⟨hI', ⟨th4, ht40, by rw [frs, frv], ?_, ?_, ?_, ?_, ?_⟩, Or.inl ?_⟩, fun h => absurd h hx⟩
    · rw [fth]; clear * - c5 he1; norm_num at *; linarith
    · rw [← hTθ]; exact Tdry_mono hθ hr (by linarith)
    · have := Tdry_mono ht40 hr c4; linarith
    · rw [frv]; exact low _ ht40 c4
    · rw [fth, frv]; exact low _ ht'0 c3
    · rw [fth, frv, ← hH]
      rw [← hH] at p2
      refine ⟨by linarith [hd.2], by linarith, by linarith⟩

/-- **C101 (dry potential temperature, the default variant).** For every cell with positive dry-air density and potential
temperature, non-negative mixing ratios, at most 8 g/kg of water in total of which at most 4 g/kg liquid, whose temperature is at
least 250 K plus 3700 K per unit of liquid water (more than the cooling if all of it evaporated) and at most 500 K, and whose pressure
exceeds the saturation pressure, and every tolerance between 1e-5 and 1e-4 (the default is 2e-5): the adjustment ends, after at most
`4 (rv + rc + rr) / r_eps + 4` passes of the loop. -/
theorem rk_terminates_th_dry (o : Opts) (dt : ℝ) (c : Cell) (hcond : o.cond = true) (hcp : o.const_p = false) (htd : o.th_dry = true)
    (he1 : 1e-5 ≤ o.r_eps) (he2 : o.r_eps ≤ 1e-4) (hr : 0 < c.rhod) (hth : 0 < c.th) (h0 : 0 ≤ c.rv ∧ 0 ≤ c.rc ∧ 0 ≤ c.rr)
    (hW : c.rv + c.rc + c.rr ≤ 0.008) (hL : c.rc + c.rr ≤ 0.004) (hT1 : 250 + 3700 * (c.rc + c.rr) ≤ Tdry c.th c.rhod)
    (hT2 : Tdry c.th c.rhod ≤ 500) (hb : p_vs (Tdry c.th c.rhod) < pDry c.rhod c.rv (Tdry c.th c.rhod)) :
    ∃ c' s, RkCell o dt c c' ∧ rkInit o c dt = some s ∧
      (∀ n u, ReachIn o (thermo o c.rhod c.p) s n u → (n : ℝ) ≤ 4 * (c.rv + c.rc + c.rr) / o.r_eps + 4) ∧
      ∀ u, Reach o (thermo o c.rhod c.p) s u → 0 ≤ u.rs := by
  have he0 : 0 < o.r_eps := lt_of_lt_of_le (by norm_num) he1
  have hTp : Tp o c.rhod c.p c.th c.rv = some (Tdry c.th c.rhod, pDry c.rhod c.rv (Tdry c.th c.rhod)) := by unfold Tp; simp [hcp, htd]
  obtain ⟨D, hs⟩ : ∃ D, rkInit o c dt = some ⟨c.th, c.rv, c.rc, c.rr, D, r_vs (Tdry c.th c.rhod) (pDry c.rhod c.rv (Tdry c.th c.rhod))⟩ := by
    unfold rkInit; rw [hTp]; exact ⟨_, rfl⟩
  obtain ⟨s, hsdef⟩ : ∃ s : Rk, s = ⟨c.th, c.rv, c.rc, c.rr, D, r_vs (Tdry c.th c.rhod) (pDry c.rhod c.rv (Tdry c.th c.rhod))⟩ := ⟨_, rfl⟩
  rw [← hsdef] at hs
  have e1 : s.th = c.th := by rw [hsdef]
  have e2 : s.rv = c.rv := by rw [hsdef]
  have e3 : s.rc = c.rc := by rw [hsdef]
  have e4 : s.rr = c.rr := by rw [hsdef]
  have e5 : s.rs = r_vs (Tdry c.th c.rhod) (pDry c.rhod c.rv (Tdry c.th c.rhod)) := by rw [hsdef]
  have hT0 := Tdry_pos c.th c.rhod hth hr
  obtain ⟨θ, hθ, hTθ⟩ := Tdry_surj (T := 250) hr (by norm_num)
  have hH : heat c.rhod θ ≤ 10.17 * θ := by
    have := heat_K hθ hr hTθ.ge
    rw [hTθ] at this
    clear * - this hθ; norm_num at *; linarith
  have hw0 : 0 ≤ c.rc + c.rr := add_nonneg h0.2.1 h0.2.2
  have hroom : θ + heat c.rhod θ * (c.rc + c.rr) ≤ c.th := by
    have h1 : θ * (1 + 10.17 * (c.rc + c.rr)) ≤ c.th := by
      apply Tdry_inj_le hth hr
      refine (Tdry_rise hθ hr (by positivity)).trans (le_trans ?_ hT1)
      rw [hTθ]
      generalize c.rc + c.rr = w at *
      clear * - hw0 hL
      have : w ^ 2 ≤ 0.004 * w := by nlinarith
      norm_num at *; nlinarith
    have h2 : heat c.rhod θ * (c.rc + c.rr) ≤ 10.17 * θ * (c.rc + c.rr) := by gcongr
    linarith
  have h0' : 0 ≤ s.rv ∧ 0 ≤ s.rc ∧ 0 ≤ s.rr := by rw [e2, e3, e4]; exact h0
  have hstep := fun u => GoodDry.step o hcp htd he1 he2 c.rhod c.p θ hr hθ hTθ s u h0' (by rw [e2, e3, e4]; exact hW) (by rw [e3, e4]; exact hL)
    (by rw [e1, e3, e4]; exact hroom) (by rw [e1]; exact hT2)
  have hqe : p_vs (Tdry c.th c.rhod) / Tdry c.th c.rhod < c.rhod * (R_d + c.rv * R_v) := by
    rw [div_lt_iff₀ hT0]; exact hb
  have hgood : ∀ u, Reach o (thermo o c.rhod c.p) s u → GoodDry o c.rhod θ s u := by
    intro u hu
    induction hu with
    | start =>
      refine ⟨⟨rfl, h0'.1, h0'.2.1, h0'.2.2, le_refl _, by ring, Or.inr rfl⟩, ⟨c.th, hth, by rw [e5, e2]; rfl, ?_, by linarith, by linarith,
        by rw [e2]; exact hqe, by rw [e1, e2]; exact hqe⟩, Or.inl ⟨le_refl _, by simp, le_refl _⟩⟩
      rw [e1]; linarith
    | next _ g _ ih => exact (hstep _ ih g).1
  have hrs : ∀ u, Reach o (thermo o c.rhod c.p) s u → 0 ≤ u.rs := by
    intro u hu
    obtain ⟨x, hx, e, _, _, _, h, _⟩ := (hgood u hu).temp
    rw [e]; exact (r_vs_dry (Tdry_pos x c.rhod hx hr) h).1.le
  obtain ⟨hn, s', hrun⟩ := rk_terminates_partial o (thermo o c.rhod c.p) s he0 h0' hrs (by
    intro u hu hx
    exact (hstep u (hgood u hu) (Or.inl hx)).2 hx)
  rw [e2, e3, e4] at hn
  refine ⟨{ c with th := s'.th, rv := s'.rv, rc := s'.rc, rr := s'.rr }, s, ?_, hs, hn, hrs⟩
  unfold RkCell
  rw [if_pos hcond]
  exact ⟨s, s', hs, hrun, rfl⟩

/-- **C38 + C101 (total correctness, default variant).** Under the same conditions on the initial cell the RK4 adjustment ends, and
whatever it ends with has the same total water and no negative mixing ratio. -/
theorem rk_total_th_dry (o : Opts) (dt : ℝ) (c : Cell) (hcond : o.cond = true) (hn : o.adj_nwtrph = false) (hcp : o.const_p = false)
    (htd : o.th_dry = true) (he1 : 1e-5 ≤ o.r_eps) (he2 : o.r_eps ≤ 1e-4) (hdt : 0 ≤ dt) (hr : 0 < c.rhod) (hth : 0 < c.th)
    (h0 : 0 ≤ c.rv ∧ 0 ≤ c.rc ∧ 0 ≤ c.rr) (hW : c.rv + c.rc + c.rr ≤ 0.008) (hL : c.rc + c.rr ≤ 0.004)
    (hT1 : 250 + 3700 * (c.rc + c.rr) ≤ Tdry c.th c.rhod) (hT2 : Tdry c.th c.rhod ≤ 500)
    (hb : p_vs (Tdry c.th c.rhod) < pDry c.rhod c.rv (Tdry c.th c.rhod)) :
    (∃ c', AdjCell o dt c c') ∧
    ∀ c', AdjCell o dt c c' → c'.water = c.water ∧ 0 ≤ c'.rv ∧ 0 ≤ c'.rc ∧ 0 ≤ c'.rr ∧ c'.rr ≤ c.rr ∧ c'.ria = c.ria ∧ c'.rib = c.rib := by
  obtain ⟨c1, s, h1, hs, _, hrs⟩ := rk_terminates_th_dry o dt c hcond hcp htd he1 he2 hr hth h0 hW hL hT1 hT2 hb
  have hT0 := Tdry_pos c.th c.rhod hth hr
  have he0 : 0 < o.r_eps := lt_of_lt_of_le (by norm_num) he1
  refine ⟨⟨c1, by unfold AdjCell; simp [hn, h1]⟩, fun c' hc' => ?_⟩
  refine adj_conserves o dt c c' he0.le hdt hr h0 ?_ ?_ ?_ hc'
  · intro T p hTp
    unfold Tp at hTp
    simp only [hcp, htd, Bool.not_false, Bool.and_self, if_true, Option.some.injEq, Prod.mk.injEq] at hTp
    obtain ⟨rfl, rfl⟩ := hTp
    exact ⟨hT0.ne', (p_vs_pos _).trans hb, hb⟩
  · exact hth.ne'
  · intro s' u hs' hu
    rw [hs] at hs'
    have hs' := Option.some.inj hs'
    subst hs'
    exact hrs u hu

/-- non-vacuity: a supersaturated cloudy cell at the triple-point temperature with 1 kg of dry air per cubic metre (saturation 4.9
g/kg), all options at their defaults but the choice of the RK4 variant -/
example : ∃ c c', c.rhod = 1 ∧ c.rv = 0.006 ∧ c.rc = 0.001 ∧ c.rr = 0.0005 ∧ Tdry c.th c.rhod = 273.16 ∧
    AdjCell { adj_nwtrph := false } 1 c c' := by
  obtain ⟨θ, h0, h1⟩ := Tdry_surj (rhod := 1) (T := 273.16) (by norm_num) (by norm_num)
  obtain ⟨⟨c', h⟩, _⟩ := rk_total_th_dry { adj_nwtrph := false } 1 ⟨1, 0, θ, 0.006, 0.001, 0.0005, 0, 0⟩ rfl rfl rfl rfl
    (by norm_num) (by norm_num) (by norm_num) (by norm_num) h0 ⟨by norm_num, by norm_num, by norm_num⟩ (by norm_num) (by norm_num)
    (by simp only; rw [h1]; norm_num) (by simp only; rw [h1]; norm_num)
    (by
      simp only
      rw [h1]
      have : p_vs 273.16 = p_tri := triple_point.1
      rw [this]
      have := R_d_bounds.1; have := R_v_pos
      unfold pDry p_tri
      norm_num at *
      nlinarith)
  exact ⟨_, c', rfl, rfl, rfl, rfl, h1, h⟩

end LCP.Blk1m
