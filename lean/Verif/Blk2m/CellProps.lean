import Verif.Blk2m.Model
import Verif.Common.Props
import Verif.Blk1m.PosProps
import Mathlib.Tactic.Ring
import Mathlib.Tactic.Linarith
import Mathlib.Tactic.FieldSimp
import Mathlib.Tactic.Positivity
import Mathlib.Tactic.NormNum

/-!
# Cell-wise tendencies of the double-moment scheme (C51, C52)
-/
namespace LCP.Blk2m
open LCP.Common

/-- total water tendency -/
def Dots.water (d : Dots) : ℝ := d.rv + d.rc + d.rr

/-- water produced out of nothing by the collision part: the part of the accretion rate by which autoconversion and accretion
together exceed the available cloud water per time step -/
noncomputable def excess (epsm : ℝ) (o : Opts) (dt : ℝ) (c : Cell) (rainLim : Prop) : ℝ :=
  (phase2 epsm o dt c rainLim).rc + (phase2 epsm o dt c rainLim).rr

theorem rhsCell_eq (epsm : ℝ) (o : Opts) (dt : ℝ) (c : Cell) (d d' : Dots) (T p : ℝ) (hT : Tp o c = some (T, p))
    (h : rhsCell epsm o dt c d = some d') :
    d'.rv = d.rv - ((phase1 epsm o dt T p c).rc + (phase1 epsm o dt T p c).rr) ∧
    d'.th = d.th - ((phase1 epsm o dt T p c).rc + (phase1 epsm o dt T p c).rr) * d_th_d_rv T c.th ∧
    (((phase1 epsm o dt T p c).cloudLim ∧ d'.rc = d.rc + (phase1 epsm o dt T p c).rc ∧ d'.rr = d.rr + (phase1 epsm o dt T p c).rr ∧
      d'.nc = d.nc + (phase1 epsm o dt T p c).nc ∧ d'.nr = d.nr + (phase1 epsm o dt T p c).nr) ∨
    (¬ (phase1 epsm o dt T p c).cloudLim ∧
      d'.rc = d.rc + (phase1 epsm o dt T p c).rc + (phase2 epsm o dt c (phase1 epsm o dt T p c).rainLim).rc ∧
      d'.rr = d.rr + (phase1 epsm o dt T p c).rr + (phase2 epsm o dt c (phase1 epsm o dt T p c).rainLim).rr ∧
      d'.nc = d.nc + (phase1 epsm o dt T p c).nc + (phase2 epsm o dt c (phase1 epsm o dt T p c).rainLim).nc ∧
      d'.nr = d.nr + (phase1 epsm o dt T p c).nr + (phase2 epsm o dt c (phase1 epsm o dt T p c).rainLim).nr)) := by
  unfold rhsCell at h
  simp only [hT] at h
  by_cases hl : (phase1 epsm o dt T p c).cloudLim
  · rw [if_pos hl, Option.some.injEq] at h
    subst h
    exact ⟨rfl, rfl, Or.inl ⟨hl, rfl, rfl, rfl, rfl⟩⟩
  · rw [if_neg hl, Option.some.injEq] at h
    subst h
    exact ⟨rfl, rfl, Or.inr ⟨hl, rfl, rfl, rfl, rfl⟩⟩

/-- **C51.** The call throws exactly when `const_p` and `th_dry` are both set or both unset. -/
theorem cell_throws_iff (epsm : ℝ) (o : Opts) (dt : ℝ) (c : Cell) (d : Dots) :
    rhsCell epsm o dt c d = none ↔ o.const_p = o.th_dry := by
  have hT : Tp o c = none ↔ o.const_p = o.th_dry := by
    unfold Tp
    cases o.const_p <;> cases o.th_dry <;> simp
  rw [← hT]
  unfold rhsCell
  rcases Tp o c with _ | ⟨T, p⟩
  · simp
  · simp only [reduceCtorEq, iff_false]
    split_ifs <;> simp

/-- **C51 (latent heat).** The potential-temperature tendency is the latent heat of the vapour tendency. -/
theorem cell_latent (epsm : ℝ) (o : Opts) (dt : ℝ) (c : Cell) (d d' : Dots) (T p : ℝ) (hT : Tp o c = some (T, p))
    (hT0 : T ≠ 0) (hth : c.th ≠ 0) (h : rhsCell epsm o dt c d = some d') :
    c_pd * (T / c.th) * (d'.th - d.th) = -l_v T * (d'.rv - d.rv) := by
  obtain ⟨h1, h2, -⟩ := rhsCell_eq epsm o dt c d d' T p hT h
  have hc : c_pd ≠ 0 := c_pd_pos.ne'
  rw [h1, h2]
  unfold d_th_d_rv
  field_simp
  ring

theorem acnv_range (epsm : ℝ) (o : Opts) (dt : ℝ) (c : Cell) (hdt : 0 < dt) (hrc : 0 ≤ c.rc) (hnc : 0 ≤ c.nc) (hrho : 0 ≤ c.rhod)
    (hA : 0 ≤ o.acnv_A) : 0 ≤ acnvRate epsm o dt c ∧ acnvRate epsm o dt c ≤ c.rc / dt := by
  unfold acnvRate
  split_ifs with h
  · refine ⟨le_min ?_ (by positivity), min_le_right _ _⟩
    unfold autoconv_rate
    have := Real.rpow_nonneg hrc o.acnv_b
    have := Real.rpow_nonneg (show 0 ≤ c.rhod * c.nc * 1e-6 by positivity) o.acnv_c
    positivity
  · exact ⟨le_rfl, by positivity⟩

theorem accr_nonneg (c : Cell) (h1 : 0 ≤ c.rc) (h2 : 0 ≤ c.rr) : 0 ≤ accretion_rate c.rc c.rr := by
  unfold accretion_rate
  have := Real.rpow_nonneg (mul_nonneg h1 h2) (1.15 : ℝ)
  positivity

open Classical in
/-- the accretion rate that is applied: 0 when accretion is switched off, skipped or there is nothing to collect -/
noncomputable def accrRate (epsm : ℝ) (o : Opts) (dt : ℝ) (c : Cell) (rainLim : Prop) : ℝ :=
  (phase2 epsm o dt c rainLim).rr - acnvRate epsm o dt c

theorem phase2_cases (epsm : ℝ) (o : Opts) (dt : ℝ) (c : Cell) (rainLim : Prop) (hdt : 0 < dt) (hrc : 0 ≤ c.rc)
    (hnc : 0 ≤ c.nc) (hrho : 0 ≤ c.rhod) (hA : 0 ≤ o.acnv_A) :
    (accrRate epsm o dt c rainLim = 0 ∨ (o.accr = true ∧ accrRate epsm o dt c rainLim = accretion_rate c.rc c.rr)) ∧
    (phase2 epsm o dt c rainLim).rc = -min (acnvRate epsm o dt c + accrRate epsm o dt c rainLim) (c.rc / dt) ∧
    (phase2 epsm o dt c rainLim).rr = acnvRate epsm o dt c + accrRate epsm o dt c rainLim := by
  obtain ⟨ha0, ha1⟩ := acnv_range epsm o dt c hdt hrc hnc hrho hA
  unfold accrRate
  simp only [phase2]
  split_ifs with h1
  · refine ⟨Or.inr ⟨h1.1, by ring⟩, ?_, by ring⟩
    rw [show acnvRate epsm o dt c + (acnvRate epsm o dt c + accretion_rate c.rc c.rr - acnvRate epsm o dt c)
      = acnvRate epsm o dt c + accretion_rate c.rc c.rr by ring, ← max_neg_neg]
    congr 1
    · ring
    · ring
  · refine ⟨Or.inl (by ring), ?_, by ring⟩
    rw [add_zero, sub_self, add_zero, min_eq_left ha1]

/-- **C51 (water), exact.** The water tendency of a cell changes by exactly the amount by which autoconversion plus accretion
exceed the cloud water available per time step: never negative, zero if they do not exceed it. -/
theorem cell_water (epsm : ℝ) (o : Opts) (dt : ℝ) (c : Cell) (d d' : Dots) (hdt : 0 < dt) (hrc : 0 ≤ c.rc)
    (hnc : 0 ≤ c.nc) (hrho : 0 ≤ c.rhod) (hA : 0 ≤ o.acnv_A) (h : rhsCell epsm o dt c d = some d') :
    ∃ a b, 0 ≤ a ∧ a ≤ c.rc / dt ∧ (b = 0 ∨ (o.accr = true ∧ b = accretion_rate c.rc c.rr)) ∧
      d'.water - d.water = max 0 (a + b - c.rc / dt) := by
  rcases hT : Tp o c with _ | ⟨T, p⟩
  · unfold rhsCell at h; rw [hT] at h; simp at h
  obtain ⟨h1, h2, h3⟩ := rhsCell_eq epsm o dt c d d' T p hT h
  rcases h3 with ⟨_, e1, e2, _, _⟩ | ⟨_, e1, e2, _, _⟩
  · refine ⟨0, 0, le_rfl, by positivity, Or.inl rfl, ?_⟩
    have : 0 ≤ c.rc / dt := by positivity
    rw [max_eq_left (by linarith)]
    simp only [Dots.water, h1, e1, e2]; ring
  · obtain ⟨q1, q2, q3⟩ := phase2_cases epsm o dt c (phase1 epsm o dt T p c).rainLim hdt hrc hnc hrho hA
    obtain ⟨ha0, ha1⟩ := acnv_range epsm o dt c hdt hrc hnc hrho hA
    refine ⟨acnvRate epsm o dt c, _, ha0, ha1, q1, ?_⟩
    simp only [Dots.water, h1, e1, e2, q2, q3]
    rcases le_total (acnvRate epsm o dt c + accrRate epsm o dt c (phase1 epsm o dt T p c).rainLim) (c.rc / dt) with hm | hm
    · rw [min_eq_left hm, max_eq_left (by linarith)]; ring
    · rw [min_eq_right hm, max_eq_right (by linarith)]; ring

/-- **C51 (water), partial.** Water is conserved if accretion is off or the accretion rate leaves room for autoconversion
(`accretion + autoconversion ≤ rc/dt`). Missing: the general case, which is false (`water_created`). -/
theorem cell_water_partial (epsm : ℝ) (o : Opts) (dt : ℝ) (c : Cell) (d d' : Dots) (hdt : 0 < dt) (hrc : 0 ≤ c.rc) (hrr : 0 ≤ c.rr)
    (hnc : 0 ≤ c.nc) (hrho : 0 ≤ c.rhod) (hA : 0 ≤ o.acnv_A)
    (hlim : o.accr = false ∨ (o.acnv = false ∧ accretion_rate c.rc c.rr ≤ c.rc / dt) ∨
      autoconv_rate c.rc c.nc c.rhod o.acnv_A o.acnv_b o.acnv_c + accretion_rate c.rc c.rr ≤ c.rc / dt)
    (h : rhsCell epsm o dt c d = some d') : d'.water = d.water := by
  rcases hT : Tp o c with _ | ⟨T, p⟩
  · unfold rhsCell at h; rw [hT] at h; simp at h
  obtain ⟨h1, h2, h3⟩ := rhsCell_eq epsm o dt c d d' T p hT h
  rcases h3 with ⟨_, e1, e2, _, _⟩ | ⟨_, e1, e2, _, _⟩
  · simp only [Dots.water, h1, e1, e2]; ring
  · obtain ⟨q1, q2, q3⟩ := phase2_cases epsm o dt c (phase1 epsm o dt T p c).rainLim hdt hrc hnc hrho hA
    obtain ⟨ha0, ha1⟩ := acnv_range epsm o dt c hdt hrc hnc hrho hA
    have hb := accr_nonneg c hrc hrr
    have hau : acnvRate epsm o dt c ≤ autoconv_rate c.rc c.nc c.rhod o.acnv_A o.acnv_b o.acnv_c := by
      unfold acnvRate
      split_ifs
      · exact min_le_left _ _
      · unfold autoconv_rate
        have := Real.rpow_nonneg hrc o.acnv_b
        have := Real.rpow_nonneg (show 0 ≤ c.rhod * c.nc * 1e-6 by positivity) o.acnv_c
        positivity
    have key : acnvRate epsm o dt c + accrRate epsm o dt c (phase1 epsm o dt T p c).rainLim ≤ c.rc / dt := by
      rcases q1 with q | ⟨q0, q⟩
      · rw [q]; linarith
      · rw [q]
        rcases hlim with hl | ⟨hl, hm⟩ | hl
        · rw [hl] at q0; simp at q0
        · have : acnvRate epsm o dt c = 0 := by unfold acnvRate; rw [if_neg]; simp [hl]
          linarith
        · linarith
    simp only [Dots.water, h1, e1, e2, q2, q3]
    rw [min_eq_left key]; ring

/-- **C52 (rain water, rain and droplet numbers).** Applying the tendencies over `dt` keeps rain water, rain drop number and cloud
droplet number non-negative. -/
theorem cell_nonneg (epsm : ℝ) (o : Opts) (dt : ℝ) (c : Cell) (d d' : Dots) (hdt : 0 < dt) (hrc : 0 ≤ c.rc) (hrr : 0 ≤ c.rr)
    (hnc : 0 ≤ c.nc) (hrho : 0 ≤ c.rhod) (hA : 0 ≤ o.acnv_A) (h : rhsCell epsm o dt c d = some d') :
    0 ≤ c.rr + dt * (d'.rr - d.rr) ∧ 0 ≤ c.nr + dt * (d'.nr - d.nr) ∧ 0 ≤ c.nc + dt * (d'.nc - d.nc) := by
  rcases hT : Tp o c with _ | ⟨T, p⟩
  · unfold rhsCell at h; rw [hT] at h; simp at h
  obtain ⟨h1, h2, h3⟩ := rhsCell_eq epsm o dt c d d' T p hT h
  have fin : ∀ x y : ℝ, -x / dt ≤ y → 0 ≤ x + dt * y := by
    intro x y hxy
    rw [div_le_iff₀ hdt] at hxy
    linarith
  have p1 : -c.rr / dt ≤ (phase1 epsm o dt T p c).rr := le_max_right _ _
  have p2 : -c.nr / dt ≤ (phase1 epsm o dt T p c).nr := by
    simp only [phase1]
    split_ifs
    · exact le_rfl
    · exact le_max_right _ _
  have hact : 0 ≤ actRate o dt T p c := by
    unfold actRate
    split_ifs
    · exact le_max_left _ _
    · exact le_rfl
  have hz : -c.nc / dt ≤ 0 := div_nonpos_of_nonpos_of_nonneg (by linarith) hdt.le
  rcases h3 with ⟨_, e1, e2, e3, e4⟩ | ⟨hl, e1, e2, e3, e4⟩
  · refine ⟨fin _ _ ?_, fin _ _ ?_, fin _ _ ?_⟩
    · rw [e2]; linarith
    · rw [e4]; linarith
    · rw [e3]
      have : -c.nc / dt ≤ (phase1 epsm o dt T p c).nc := by
        simp only [phase1]
        split_ifs
        · exact le_rfl
        · linarith
      linarith
  · obtain ⟨q1, q2, q3⟩ := phase2_cases epsm o dt c (phase1 epsm o dt T p c).rainLim hdt hrc hnc hrho hA
    obtain ⟨ha0, ha1⟩ := acnv_range epsm o dt c hdt hrc hnc hrho hA
    have hb := accr_nonneg c hrc hrr
    refine ⟨fin _ _ ?_, fin _ _ ?_, fin _ _ ?_⟩
    · rw [e2, q3]
      rcases q1 with q | ⟨q0, q⟩ <;> rw [q] <;> linarith
    · rw [e4]
      have : 0 ≤ (phase2 epsm o dt c (phase1 epsm o dt T p c).rainLim).nr := by
        simp only [phase2]
        have := rho_w_pos
        have hd : 0 < drizzle_radius := by unfold drizzle_radius; norm_num
        have := Real.pi_pos
        positivity
      linarith
    · rw [e3]
      have a1 : 0 ≤ (phase1 epsm o dt T p c).nc := by
        have : (phase1 epsm o dt T p c).nc = actRate o dt T p c := by
          simp only [phase1] at hl ⊢
          rw [if_neg hl]
        rw [this]; exact hact
      have a2 : -c.nc / dt ≤ (phase2 epsm o dt c (phase1 epsm o dt T p c).rainLim).nc := by
        simp only [phase2]
        have hm : ∀ y, -c.nc / dt ≤ -min y (c.nc / dt) := by
          intro y
          rw [neg_div]
          exact neg_le_neg (min_le_right _ _)
        have hite : ∀ (P : Prop) {_ : Decidable P} (x y : ℝ), -c.nc / dt ≤ x → -c.nc / dt ≤ y → -c.nc / dt ≤ if P then x else y := by
          intro P _ x y hx hy
          split_ifs
          · exact hx
          · exact hy
        exact hite _ _ _ (hite _ _ _ le_rfl (hite _ _ _ (hm _) hz)) hz
      linarith

/-- **C52 (cloud water), partial.** Cloud water stays non-negative when there is no net evaporation of it, or when nothing is
collected; in general it may fall to minus its own value, not lower. Missing: the general case, false by `rc_negative`. -/
theorem cell_rc_partial (epsm : ℝ) (o : Opts) (dt : ℝ) (c : Cell) (d d' : Dots) (hdt : 0 < dt) (hrc : 0 ≤ c.rc) (hrr : 0 ≤ c.rr)
    (hnc : 0 ≤ c.nc) (hrho : 0 ≤ c.rhod) (hA : 0 ≤ o.acnv_A) (h : rhsCell epsm o dt c d = some d') :
    -c.rc ≤ c.rc + dt * (d'.rc - d.rc) ∧
    (o.acnv = false → o.accr = false → 0 ≤ c.rc + dt * (d'.rc - d.rc)) ∧
    ((∀ T p, Tp o c = some (T, p) → 0 ≤ condRate epsm o T p c) → 0 ≤ c.rc + dt * (d'.rc - d.rc)) := by
  rcases hT : Tp o c with _ | ⟨T, p⟩
  · unfold rhsCell at h; rw [hT] at h; simp at h
  obtain ⟨h1, h2, h3⟩ := rhsCell_eq epsm o dt c d d' T p hT h
  have fin : ∀ x y : ℝ, -x / dt ≤ y → 0 ≤ x + dt * y := by
    intro x y hxy
    rw [div_le_iff₀ hdt] at hxy
    linarith
  have p1 : -c.rc / dt ≤ (phase1 epsm o dt T p c).rc := le_max_right _ _
  have p1' := fin _ _ p1
  rcases h3 with ⟨_, e1, e2, e3, e4⟩ | ⟨hl, e1, e2, e3, e4⟩
  · have : 0 ≤ c.rc + dt * (d'.rc - d.rc) := by rw [e1]; linarith
    exact ⟨by linarith, fun _ _ => this, fun _ => this⟩
  · obtain ⟨q1, q2, q3⟩ := phase2_cases epsm o dt c (phase1 epsm o dt T p c).rainLim hdt hrc hnc hrho hA
    obtain ⟨ha0, ha1⟩ := acnv_range epsm o dt c hdt hrc hnc hrho hA
    have hm : -(c.rc / dt) ≤ (phase2 epsm o dt c (phase1 epsm o dt T p c).rainLim).rc := by
      rw [q2]; exact neg_le_neg (min_le_right _ _)
    have hm' : -c.rc ≤ dt * (phase2 epsm o dt c (phase1 epsm o dt T p c).rainLim).rc := by
      have := mul_le_mul_of_nonneg_left hm hdt.le
      have e : dt * -(c.rc / dt) = -c.rc := by field_simp
      linarith
    have hb := accr_nonneg c hrc hrr
    have hb0 : 0 ≤ accrRate epsm o dt c (phase1 epsm o dt T p c).rainLim := by
      rcases q1 with q | ⟨q0, q⟩ <;> rw [q]
      exact hb
    refine ⟨?_, ?_, ?_⟩
    · rw [e1]; linarith
    · intro g1 g2
      have z1 : acnvRate epsm o dt c = 0 := by unfold acnvRate; rw [if_neg]; simp [g1]
      have z2 : accrRate epsm o dt c (phase1 epsm o dt T p c).rainLim = 0 := by
        rcases q1 with q | ⟨q0, q⟩
        · exact q
        · rw [g2] at q0; simp at q0
      rw [e1, q2, z1, z2, add_zero, min_eq_left (by positivity)]
      linarith
    · intro hc
      have h0 := hc T p rfl
      have hge : 0 ≤ (phase1 epsm o dt T p c).rc := by
        simp only [phase1]
        refine le_max_of_le_left ?_
        have hact : 0 ≤ actRate o dt T p c := by
          unfold actRate
          split_ifs
          · exact le_max_left _ _
          · exact le_rfl
        have : 0 ≤ ccnmass := by unfold ccnmass; have := rho_w_pos; have := Real.pi_pos; positivity
        positivity
      rw [e1]
      have := mul_nonneg hdt.le hge
      linarith

/-! ### Sign of the condensation rate -/

theorem eta_pos (n : ℝ) (h : 0 ≤ n) : 0 < eta n := by unfold eta; positivity

theorem miu_pos (n : ℝ) (h : 0 ≤ n) : 0 < miu_c n + 1 := by
  unfold miu_c
  have := eta_pos n h
  rw [sub_add_cancel]
  positivity

theorem c_md_pos : 0 < c_md := by unfold c_md; have := Real.pi_pos; have := rho_w_pos; positivity

theorem lambda_c_pos (n rc rhod : ℝ) (h1 : 0 < n) (h2 : 0 < rc) (h3 : 0 ≤ rhod) : 0 < lambda_c n rc rhod := by
  unfold lambda_c
  have hm := miu_pos (n * rhod) (by positivity)
  have := c_md_pos
  have g1 : 0 < Real.Gamma (miu_c (n * rhod) + 1) := Real.Gamma_pos_of_pos hm
  have g2 : 0 < Real.Gamma (miu_c (n * rhod) + d_md + 1) := Real.Gamma_pos_of_pos (by unfold d_md; linarith)
  exact Real.rpow_pos_of_pos (by positivity) _

theorem r_drop_c_pos (rc nc rhod : ℝ) (h1 : 0 < rc) (h2 : 0 < nc) (h3 : 0 ≤ rhod) : 0 < r_drop_c rc nc rhod := by
  unfold r_drop_c
  rw [if_pos ⟨h1, h2⟩]
  have := lambda_c_pos nc rc rhod h2 h1 h3
  have := miu_pos (nc * rhod) (by positivity)
  positivity

theorem lambda_r_pos (nr rr : ℝ) (h1 : 0 < nr) (h2 : 0 < rr) : 0 < lambda_r nr rr := by
  unfold lambda_r
  have := c_md_pos
  have g : 0 < Real.Gamma (d_md + 1) := Real.Gamma_pos_of_pos (by unfold d_md; norm_num)
  exact Real.rpow_pos_of_pos (by positivity) _

theorem c_p_pos (r : ℝ) (h : 0 ≤ r) : 0 < c_p r := by
  unfold c_p mix
  have := c_pd_pos
  have : 0 < c_pv := by norm_num [c_pv]
  positivity

/-- **C51.** The condensation/evaporation rate has the sign of the supersaturation. -/
theorem cond_evap_sign (T p rv tau : ℝ) (hp : p_vs T < p) (hv : 0 ≤ rv) (ht : 0 < tau) :
    (0 < cond_evap_rate T p rv tau ↔ r_vs T p < rv) ∧ (cond_evap_rate T p rv tau < 0 ↔ rv < r_vs T p) := by
  have hs := r_vs_pos T p hp
  have hc := c_p_pos rv hv
  have hR := R_v_pos
  have hden : 0 < 1 + drv_s_dT T (r_vs T p) * l_v T / c_p rv := by
    have : drv_s_dT T (r_vs T p) * l_v T / c_p rv = l_v T ^ 2 * r_vs T p / R_v / (T ^ 2) / c_p rv := by
      unfold drv_s_dT; ring
    rw [this]
    positivity
  unfold cond_evap_rate
  constructor
  · rw [div_pos_iff_of_pos_right hden, div_pos_iff_of_pos_right ht, sub_pos]
  · rw [div_lt_iff₀ hden, zero_mul, div_lt_iff₀ ht, zero_mul, sub_neg]

/-! ### Witnesses -/

/-- options with given (constant) pressure -/
noncomputable def optsP : Opts := { th_dry := false, const_p := true, acti := false }

theorem exner_1e5 : exner 1e5 = 1 := by
  unfold exner p_1000
  rw [show (1e5 : ℝ) / 100000 = 1 by norm_num, Real.one_rpow]

/-- dry air at the triple point with cloud water -/
noncomputable def dryCloud : Cell := ⟨1, T_tri, 0, 1e-3, 1e8, 0, 0, 1e5⟩

theorem Tp_dryCloud : Tp optsP dryCloud = some (T_tri, 1e5) := by
  unfold Tp optsP dryCloud
  simp only [Bool.false_eq_true, if_false, Bool.not_false, Bool.and_self, if_true, Bool.not_true,
    exner_1e5, mul_one]

/-- **C52, negation (cloud water).** In subsaturated air evaporation and autoconversion are limited separately: a cloudy cell and
a time step exist for which cloud water becomes negative. -/
theorem rc_negative (epsm : ℝ) (he : 0 ≤ epsm) (he1 : epsm ≤ 1e-6) : ∃ dt > 0, ∃ d',
    rhsCell epsm optsP dt dryCloud ⟨0, 0, 0, 0, 0, 0⟩ = some d' ∧ dryCloud.rc + dt * (d'.rc - 0) < 0 := by
  have hTp := Tp_dryCloud
  have hpv : p_vs T_tri < 1e5 := by rw [triple_point.1]; norm_num [p_tri]
  have hrd := r_drop_c_pos 1e-3 1e8 1 (by norm_num) (by norm_num) (by norm_num)
  have htau : 0 < tau_relax_c (r_drop_c 1e-3 1e8 1) (1 * 1e8) := by
    unfold tau_relax_c
    have := Real.pi_pos
    have : 0 < D_0 := by norm_num [D_0]
    positivity
  have hK := (cond_evap_sign T_tri 1e5 0 _ hpv le_rfl htau).2.2 (r_vs_pos T_tri 1e5 hpv)
  have c1 : rc_eps epsm < 1e-3 := by unfold rc_eps; norm_num at he1 ⊢; linarith
  have c2 : nc_eps epsm < 1e8 := by unfold nc_eps; norm_num at he1 ⊢; linarith
  have hcond : condRate epsm optsP T_tri 1e5 dryCloud =
      cond_evap_rate T_tri 1e5 0 (tau_relax_c (r_drop_c 1e-3 1e8 1) (1 * 1e8)) := by
    unfold condRate
    rw [if_pos (show optsP.cond = true ∧ rc_eps epsm < dryCloud.rc ∧ nc_eps epsm < dryCloud.nc from ⟨rfl, c1, c2⟩)]
    rfl
  generalize hKd : cond_evap_rate T_tri 1e5 0 (tau_relax_c (r_drop_c 1e-3 1e8 1) (1 * 1e8)) = K at hK hcond
  have hR : 0 < autoconv_rate 1e-3 1e8 1 1350 2.47 (-1.79) := by
    unfold autoconv_rate
    have := Real.rpow_pos_of_pos (show (0:ℝ) < 1e-3 by norm_num) 2.47
    have := Real.rpow_pos_of_pos (show (0:ℝ) < 1 * 1e8 * 1e-6 by norm_num) (-1.79)
    positivity
  generalize hRd : autoconv_rate 1e-3 1e8 1 1350 2.47 (-1.79) = R at hR
  -- time step slightly shorter than complete evaporation
  have hdt : 0 < 1e-3 / (-K + R / 2) := by apply div_pos (by norm_num); linarith
  refine ⟨1e-3 / (-K + R / 2), hdt, ?_⟩
  generalize hd : (1e-3 : ℝ) / (-K + R / 2) = dt at hdt
  have hdK : dt * (-K + R / 2) = 1e-3 := by
    rw [← hd]
    exact div_mul_cancel₀ _ (by linarith)
  have hq : (1e-3 : ℝ) / dt = -K + R / 2 := by rw [div_eq_iff hdt.ne']; linarith
  have hact : actRate optsP dt T_tri 1e5 dryCloud = 0 := by
    unfold actRate
    rw [if_neg]; simp [optsP]
  have hrc1 : (phase1 epsm optsP dt T_tri 1e5 dryCloud).rc = K := by
    simp only [phase1, hact, hcond, zero_mul, zero_add]
    rw [max_eq_left]
    show -1e-3 / dt ≤ K
    rw [neg_div, hq]; linarith
  have hnl : ¬ (phase1 epsm optsP dt T_tri 1e5 dryCloud).cloudLim := by
    have e : (phase1 epsm optsP dt T_tri 1e5 dryCloud).cloudLim =
      ((phase1 epsm optsP dt T_tri 1e5 dryCloud).rc = -dryCloud.rc / dt) := rfl
    rw [e, hrc1]
    show ¬ K = -1e-3 / dt
    rw [neg_div, hq]
    intro h
    linarith
  have hs : ∃ d', rhsCell epsm optsP dt dryCloud ⟨0, 0, 0, 0, 0, 0⟩ = some d' := by
    rcases h : rhsCell epsm optsP dt dryCloud ⟨0, 0, 0, 0, 0, 0⟩ with _ | d'
    · rw [cell_throws_iff] at h; simp [optsP] at h
    · exact ⟨d', rfl⟩
  obtain ⟨d', hd'⟩ := hs
  refine ⟨d', hd', ?_⟩
  obtain ⟨-, -, h3⟩ := rhsCell_eq epsm optsP dt dryCloud _ d' T_tri 1e5 hTp hd'
  rcases h3 with ⟨hl, _⟩ | ⟨_, e1, _⟩
  · exact absurd hl hnl
  · obtain ⟨q1, q2, q3⟩ := phase2_cases epsm optsP dt dryCloud (phase1 epsm optsP dt T_tri 1e5 dryCloud).rainLim hdt
      (by norm_num [dryCloud]) (by norm_num [dryCloud]) (by norm_num [dryCloud]) (by norm_num [optsP])
    have ha : acnvRate epsm optsP dt dryCloud = min R (1e-3 / dt) := by
      unfold acnvRate
      rw [if_pos (show optsP.acnv = true ∧ rc_eps epsm < dryCloud.rc ∧ nc_eps epsm < dryCloud.nc from ⟨rfl, c1, c2⟩)]
      rw [← hRd]
      rfl
    have hb : 0 ≤ accrRate epsm optsP dt dryCloud (phase1 epsm optsP dt T_tri 1e5 dryCloud).rainLim := by
      rcases q1 with q | ⟨_, q⟩ <;> rw [q]
      exact accr_nonneg dryCloud (by norm_num [dryCloud]) (by norm_num [dryCloud])
    have hm : (phase2 epsm optsP dt dryCloud (phase1 epsm optsP dt T_tri 1e5 dryCloud).rainLim).rc ≤ -min R (1e-3 / dt) := by
      rw [q2, ha]
      apply neg_le_neg
      refine le_min (by linarith) (min_le_right _ _)
    have hmin : R / 2 < min R (1e-3 / dt) := lt_min (by linarith) (by rw [hq]; linarith)
    rw [e1, hrc1]
    show 1e-3 + dt * (0 + K + _ - 0) < 0
    have : dt * (0 + K + (phase2 epsm optsP dt dryCloud (phase1 epsm optsP dt T_tri 1e5 dryCloud).rainLim).rc - 0)
      < dt * (K - R / 2) := by
      apply mul_lt_mul_of_pos_left _ hdt
      linarith
    linarith

/-- cloudy and rainy cell, condensation off -/
noncomputable def rainyCloud : Cell := ⟨1, T_tri, 0, 1e-3, 1e8, 1e-3, 1e3, 1e5⟩

/-- **C51, negation (water).** The limiter of accretion reduces the loss of cloud water but not the gain of rain: for every long
enough time step water appears from nothing. -/
theorem water_created (epsm : ℝ) (he : 0 ≤ epsm) (he1 : epsm ≤ 1e-6) : ∃ dt0, ∀ dt > dt0, ∃ d',
    rhsCell epsm { optsP with cond := false, acnv := false } dt rainyCloud ⟨0, 0, 0, 0, 0, 0⟩ = some d' ∧ 0 < d'.water := by
  set o : Opts := { optsP with cond := false, acnv := false } with ho
  have hTp : Tp o rainyCloud = some (T_tri, 1e5) := by
    unfold Tp rainyCloud
    simp only [ho, optsP, Bool.false_and, Bool.false_eq_true, if_false, Bool.not_false, Bool.and_self, if_true, Bool.not_true,
      exner_1e5, mul_one]
  have hB : 0 < accretion_rate 1e-3 1e-3 := by
    unfold accretion_rate
    have := Real.rpow_pos_of_pos (show (0:ℝ) < 1e-3 * 1e-3 by norm_num) 1.15
    positivity
  refine ⟨1e-3 / accretion_rate 1e-3 1e-3, ?_⟩
  intro dt hd
  have hdt : 0 < dt := lt_trans (by positivity) hd
  have hs : ∃ d', rhsCell epsm o dt rainyCloud ⟨0, 0, 0, 0, 0, 0⟩ = some d' := by
    rcases h : rhsCell epsm o dt rainyCloud ⟨0, 0, 0, 0, 0, 0⟩ with _ | d'
    · rw [cell_throws_iff] at h; simp [ho, optsP] at h
    · exact ⟨d', rfl⟩
  obtain ⟨d', hd'⟩ := hs
  refine ⟨d', hd', ?_⟩
  obtain ⟨h1, -, h3⟩ := rhsCell_eq epsm o dt rainyCloud _ d' T_tri 1e5 hTp hd'
  have hact : actRate o dt T_tri 1e5 rainyCloud = 0 := by
    unfold actRate; rw [if_neg]; simp [ho, optsP]
  have hco : condRate epsm o T_tri 1e5 rainyCloud = 0 := by
    unfold condRate; rw [if_neg]; simp [ho]
  have hev : evapRate epsm o T_tri 1e5 rainyCloud = 0 := by
    unfold evapRate; rw [if_neg]; simp [ho]
  have hneg : (-1e-3 : ℝ) / dt < 0 := div_neg_of_neg_of_pos (by norm_num) hdt
  have r1 : (phase1 epsm o dt T_tri 1e5 rainyCloud).rc = 0 := by
    simp only [phase1, hact, hco, zero_mul, zero_add]
    exact max_eq_left hneg.le
  have r2 : (phase1 epsm o dt T_tri 1e5 rainyCloud).rr = 0 := by
    simp only [phase1, hev]
    exact max_eq_left hneg.le
  have l1 : ¬ (phase1 epsm o dt T_tri 1e5 rainyCloud).cloudLim := by
    show ¬ ((phase1 epsm o dt T_tri 1e5 rainyCloud).rc = -1e-3 / dt)
    rw [r1]; exact hneg.ne'
  have l2 : ¬ (phase1 epsm o dt T_tri 1e5 rainyCloud).rainLim := by
    show ¬ ((phase1 epsm o dt T_tri 1e5 rainyCloud).rr = -1e-3 / dt)
    rw [r2]; exact hneg.ne'
  rcases h3 with ⟨hl, _⟩ | ⟨_, e1, e2, _⟩
  · exact absurd hl l1
  · obtain ⟨q1, q2, q3⟩ := phase2_cases epsm o dt rainyCloud (phase1 epsm o dt T_tri 1e5 rainyCloud).rainLim hdt
      (by norm_num [rainyCloud]) (by norm_num [rainyCloud]) (by norm_num [rainyCloud]) (by norm_num [ho, optsP])
    have z1 : acnvRate epsm o dt rainyCloud = 0 := by unfold acnvRate; rw [if_neg]; simp [ho]
    have hb : accrRate epsm o dt rainyCloud (phase1 epsm o dt T_tri 1e5 rainyCloud).rainLim = accretion_rate 1e-3 1e-3 := by
      unfold accrRate
      rw [z1]
      simp only [phase2, z1, sub_zero, zero_add]
      rw [if_pos]
      · rfl
      · refine ⟨rfl, by simp [ho], l2, ?_, ?_, ?_⟩
        · show rc_eps epsm < 1e-3
          unfold rc_eps; norm_num at he1 ⊢; linarith
        · show nc_eps epsm < 1e8
          unfold nc_eps; norm_num at he1 ⊢; linarith
        · show rr_eps epsm < 1e-3
          unfold rr_eps; norm_num at he1 ⊢; linarith
    have hlt : (1e-3 : ℝ) / dt < accretion_rate 1e-3 1e-3 := by
      rw [gt_iff_lt, div_lt_iff₀ hB] at hd
      rw [div_lt_iff₀ hdt]; linarith
    have hrc : rainyCloud.rc = 1e-3 := rfl
    simp only [Dots.water, h1, e1, e2, q2, q3, r1, r2, z1, hb, hrc]
    rw [zero_add (accretion_rate 1e-3 1e-3), min_eq_right hlt.le]
    linarith

/-- the cells used above meet the hypotheses of `cell_water`, `cell_water_partial`, `cell_nonneg` and `cell_rc_partial`, and the
call does not throw for them -/
example (epsm dt : ℝ) (d : Dots) : (rhsCell epsm optsP dt rainyCloud d).isSome ∧ 0 ≤ rainyCloud.rc ∧ 0 ≤ rainyCloud.rr ∧
    0 ≤ rainyCloud.nc ∧ 0 ≤ rainyCloud.rhod ∧ 0 ≤ optsP.acnv_A := by
  refine ⟨?_, ?_, ?_, ?_, ?_, ?_⟩
  · rw [Option.isSome_iff_ne_none, ne_eq, cell_throws_iff]; simp [optsP]
  all_goals simp only [rainyCloud, optsP]; norm_num

/-- and a short time step meets the limit of `cell_water_partial` -/
example : accretion_rate rainyCloud.rc rainyCloud.rr ≤ rainyCloud.rc / 10 := by
  unfold accretion_rate rainyCloud
  have h : ((1e-3 : ℝ) * 1e-3) ^ (1.15 : ℝ) ≤ (1e-3 * 1e-3) ^ (1 : ℝ) :=
    Real.rpow_le_rpow_of_exponent_ge (by norm_num) (by norm_num) (by norm_num)
  rw [Real.rpow_one] at h
  norm_num at h ⊢
  linarith

end LCP.Blk2m
