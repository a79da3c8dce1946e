import Verif.Cond.PerCellProps
import Verif.Common.Props

/-!
# C59: the air the particles see (diagnosed temperature, pressure, humidity, viscosity, mean free paths)
-/
namespace LCP.Cond
open LCP.Common LCP.Diag

/-- **C59 (humidity formulae).** The two Clausius-Clapeyron relative humidities (from vapour pressures, from mixing ratios) agree on
saturation and on its sign: they differ from 1 in the same direction, and the excess over 1 differs by the factor `1 + rv/eps`. -/
theorem humidity_cc (p rv T : ℝ) (hr : 0 ≤ rv) (hp : p_vs T < p) :
    (RHof .pv_cc p rv T - 1) * (1 + rv / eps) = RHof .rv_cc p rv T - 1 ∧
    (1 < RHof .pv_cc p rv T ↔ 1 < RHof .rv_cc p rv T) ∧ (RHof .pv_cc p rv T = 1 ↔ RHof .rv_cc p rv T = 1) := by
  have h1 := p_vs_pos T
  have he := eps_pos
  have h2 : 0 < p / p_vs T - 1 := by rw [sub_pos, one_lt_div h1]; exact hp
  have e : (RHof .pv_cc p rv T - 1) * (1 + rv / eps) = RHof .rv_cc p rv T - 1 := by
    unfold RHof p_v r_vs
    simp only []
    have h3 : rv + eps ≠ 0 := by positivity
    have h4 : p / p_vs T - 1 ≠ 0 := h2.ne'
    rw [div_div_eq_mul_div, div_sub_one (by positivity)]
    field_simp
    ring
  have hf : 0 < 1 + rv / eps := by positivity
  refine ⟨e, ?_, ?_⟩
  · rw [← sub_pos, ← sub_pos (a := RHof .rv_cc p rv T), ← e]
    exact (mul_pos_iff_of_pos_right hf).symm
  · rw [← sub_eq_zero, ← sub_eq_zero (a := RHof .rv_cc p rv T), ← e, mul_eq_zero]
    constructor
    · intro h; exact Or.inl h
    · rintro (h | h)
      · exact h
      · exact absurd h hf.ne'

/-- **C59 (vapour pressure).** With the pressure diagnosed from density and temperature, the relative humidity is the pressure of
an ideal gas of vapour of density `rhod rv` over the saturation pressure. -/
theorem humidity_density (o : TprOpts) (hc : o.const_p = false) (rhod rv T p0 : ℝ) (hr : 0 ≤ rv) (h2 : 0 < rhod) (h3 : 0 < T) :
    RHof .pv_cc (pOfCell o rhod rv T p0) rv T = rhod * rv * R_v * T / p_vs T ∧
    RHiOf .pv_cc (pOfCell o rhod rv T p0) rv T = rhod * rv * R_v * T / p_vsi T ∧
    pOfCell o rhod rv T p0 = rhod * R_d * T + rhod * rv * R_v * T := by
  have h := (p_v_pDry rhod rv T hr h2 h3).1
  unfold pOfCell
  rw [hc]
  simp only [Bool.false_eq_true, if_false, RHof, RHiOf]
  refine ⟨?_, ?_, ?_⟩
  · rw [h]
  · rw [h]
  · unfold pDry; ring

/-- **C59 (ice).** Below freezing the humidity over ice exceeds that over water, whatever the formula chosen among the
Clausius-Clapeyron ones: air saturated over water is supersaturated over ice. -/
theorem humidity_ice (p rv T : ℝ) (hr : 0 < rv) (hp : p_vs T < p) (h1 : 115 ≤ T) (h2 : T < T_tri) :
    RHof .pv_cc p rv T < RHiOf .pv_cc p rv T ∧ RHof .rv_cc p rv T < RHiOf .rv_cc p rv T := by
  have hi := p_vsi_lt_p_vs T h1 h2
  have hs := p_vs_pos T; have hsi := p_vsi_pos T
  have he := eps_pos
  constructor
  · unfold RHof RHiOf p_v
    exact div_lt_div_of_pos_left (by have : 0 < p := by linarith
                                     positivity) hsi hi
  · unfold RHof RHiOf
    have h3 : 0 < r_vsi T p := by
      unfold r_vsi
      apply div_pos he
      rw [sub_pos, one_lt_div hsi]; linarith
    exact div_lt_div_of_pos_left hr h3 (r_vsi_lt_r_vs T p h1 h2 hp)

/-- **C59 (more vapour, more humid).** At given pressure and temperature every formula increases with the vapour content (the
mixing-ratio ones as long as the pressure exceeds the saturation pressure). -/
theorem humidity_mono (p T r1 r2 : ℝ) (hp : 0 < p) (h0 : 0 ≤ r1) (h : r1 < r2) :
    RHof .pv_cc p r1 T < RHof .pv_cc p r2 T ∧ RHof .pv_tet p r1 T < RHof .pv_tet p r2 T ∧
    (p_vs T < p → RHof .rv_cc p r1 T < RHof .rv_cc p r2 T) ∧
    (610.9 < p * Real.exp (-17.2693882 * (T - 273.15) / (T - 35.86)) → RHof .rv_tet p r1 T < RHof .rv_tet p r2 T) := by
  have he := eps_pos
  have hpv : p_v p r1 < p_v p r2 := by
    unfold p_v
    rw [div_lt_div_iff₀ (by positivity) (by linarith)]
    nlinarith [mul_pos hp he]
  have ht : 0 < tet_p_vs T := by unfold tet_p_vs; positivity
  refine ⟨div_lt_div_of_pos_right hpv (p_vs_pos T), div_lt_div_of_pos_right hpv ht, fun hh => div_lt_div_of_pos_right h (r_vs_pos T p hh),
    fun hh => div_lt_div_of_pos_right h ?_⟩
  unfold tet_r_vs
  apply div_pos (by norm_num)
  rw [sub_pos]; exact hh

theorem visc_pos (T : ℝ) (h : 0 < T) : 0 < visc T := by
  have := T_tri_pos
  unfold visc; positivity

theorem lambda_pos (T p : ℝ) (h : 0 < T) (hp : 0 < p) : 0 < lambda_D T ∧ 0 < lambda_K T p := by
  have := R_v_pos; have := R_d_pos; have := D_0_pos; have := K_0_pos
  unfold lambda_D lambda_K
  constructor <;> positivity

/-- **C59 (growth in a cell's air).** In any substep a droplet at least as large as its dry particle, in a cell with positive
density, vapour and potential temperature and a temperature up to 1000 K, grows if the humidity it sees (limited to `RH_max`) is above
the equilibrium value over its surface and shrinks if it is below. -/
theorem percell_direction (o : Cfg) (hnum : o.num = numDbl) (hf : o.tpr.RH_formula = .pv_cc) (hp : o.tpr.const_p = false) (htd : o.tpr.th_dry = true)
    (hturb : o.turb = false) (hdt : 0 < o.dt) (hRH : 0 < o.RHmax) (s : St) (hs : Sorted s.d) (k : ℕ) (hk : k < o.sstp) (i : ℕ) :
    ∃ a b, run o s k = some a ∧ run o s (k + 1) = some b ∧
      let c := s.d.ijk i
      let pre := prep o k a
      (0 < pre.d.rhod c → 0 < pre.rv c → 0 < pre.th c → pre.T c ≤ 1000 → 0 ≤ s.vt i → 0 ≤ s.lamD c → 0 ≤ s.lamK c → 0 < a.rw2 i →
        cbrt (s.rd3 i) ^ 2 ≤ a.rw2 i →
        pre.RH c = pre.d.rhod c * pre.rv c * R_v * pre.T c / p_vs (pre.T c) ∧
        (koehler (s.rd3 i) (s.kpa i) (pre.T c) (Real.sqrt (a.rw2 i)) ≤ min (pre.RH c) o.RHmax → a.rw2 i ≤ b.rw2 i) ∧
        (min (pre.RH c) o.RHmax ≤ koehler (s.rd3 i) (s.kpa i) (pre.T c) (Real.sqrt (a.rw2 i)) → b.rw2 i ≤ a.rw2 i)) := by
  have hn : 0 < o.sstp := lt_of_le_of_lt (Nat.zero_le _) hk
  obtain ⟨a, ea, ia⟩ := run_inv o s hs k hk.le
  obtain ⟨b, eb, ib, t⟩ := inv_step o s hs k hk a ia
  have hb : run o s (k + 1) = some b := by show (run o s k).bind _ = _; rw [ea, Option.bind_some, eb]
  refine ⟨a, b, ea, hb, ?_⟩
  intro c pre h1 h2 h3 h4 h5 h6 h7 h8 h9
  have hrh : ∀ x, (hskpngTpr o x).d.rhod = x.d.rhod := by intro x; unfold hskpngTpr; simp only []; split_ifs <;> rfl
  obtain ⟨y, hy⟩ : ∃ y, pre = hskpngTpr o y := ⟨_, rfl⟩
  have yT : pre.T c = Tdry (pre.th c) (pre.d.rhod c) := by
    rw [hy, hrh]
    show TofCell o.tpr _ _ _ = _
    unfold TofCell; rw [htd]; rfl
  have hT : 0 < pre.T c := by rw [yT]; exact Tdry_pos _ _ h3 h1
  have yp : pre.RH c = RHof .pv_cc (pOfCell o.tpr (pre.d.rhod c) (pre.rv c) (pre.T c) (y.p c)) (pre.rv c) (pre.T c) := by
    rw [hy, hrh, ← hf]; rfl
  have hRHv := (humidity_density o.tpr hp (pre.d.rhod c) (pre.rv c) (pre.T c) (y.p c) h2.le h1 hT).1
  have hRHe : pre.RH c = pre.d.rhod c * pre.rv c * R_v * pre.T c / p_vs (pre.T c) := by rw [yp, hRHv]
  have hRHp : 0 < pre.RH c := by
    rw [hRHe]; have := R_v_pos; have := p_vs_pos (pre.T c); positivity
  have ye : pre.eta c = visc (pre.T c) := by rw [hy]; rfl
  refine ⟨hRHe, ?_⟩
  have hp0 : (prep o k a).rw2 = a.rw2 := by unfold prep hskpngTpr sgsSupersat sstpStep; split_ifs <;> rfl
  have hc' : pre.d.ijk i = c := by rw [t.same.ijk]
  let e : Env := envOf o pre (RHseen o pre) i
  have eRH : e.RH = pre.RH c := by
    show RHseen o pre i = _
    unfold RHseen; rw [hturb, hc']; simp
  have eOk : e.Ok := by
    refine ⟨?_, ?_, ?_, ?_, ?_, ?_, ?_, ?_, ?_, ?_⟩
    · show 0 < pre.d.rhod (pre.d.ijk i); rw [hc']; exact h1
    · show 0 < pre.rv (pre.d.ijk i); rw [hc']; exact h2
    · show 0 < pre.T (pre.d.ijk i); rw [hc']; exact hT
    · show pre.T (pre.d.ijk i) ≤ 1000; rw [hc']; exact h4
    · rw [eRH]; exact hRHp
    · show 0 < pre.eta (pre.d.ijk i); rw [hc', ye]; exact visc_pos _ hT
    · show 0 ≤ pre.vt i; rw [t.same.vt]; exact h5
    · show 0 ≤ pre.lamD (pre.d.ijk i); rw [hc', t.same.lamD]; exact h6
    · show 0 ≤ pre.lamK (pre.d.ijk i); rw [hc', t.same.lamK]; exact h7
    · exact hRH
  have e3 : e.rd3 = s.rd3 i := by show pre.rd3 i = _; rw [t.same.rd3]
  have ek : e.kpa = s.kpa i := by show pre.kpa i = _; rw [t.same.kpa]
  have eT : e.T = pre.T c := by show pre.T (pre.d.ijk i) = _; rw [hc']
  have hdt' : 0 < o.dt / o.sstp := div_pos hdt (by exact_mod_cast hn)
  have := advance_direction_partial e eOk (o.dt / o.sstp) (a.rw2 i) hdt' h8 (by rw [e3]; exact h9)
  rw [e3, ek, eT, eRH] at this
  have eM : e.RHmax = o.RHmax := rfl
  rw [eM] at this
  have hb2 : b.rw2 i = advance numDbl e (o.dt / o.sstp) (a.rw2 i) := by
    rw [t.rw2]; unfold rw2After; rw [hp0, hnum]
  rw [hb2]
  exact this

example : ∃ p rv T : ℝ, 0 ≤ rv ∧ p_vs T < p ∧ 115 ≤ T ∧ T < T_tri ∧ 0 < rv := ⟨p_vs 260 + 1, 0.01, 260, by norm_num, by linarith, by norm_num, by norm_num [T_tri], by norm_num⟩

/-- the first substep of `exCell` (no substeps): air of 300 K dry potential temperature and 12 g/kg of vapour -/
example : ∃ a, run { exCfg with sstp := 1, turb := false } exCell 0 = some a ∧ 0 < (prep { exCfg with sstp := 1, turb := false } 0 a).d.rhod 1 ∧
    0 < (prep { exCfg with sstp := 1, turb := false } 0 a).rv 1 ∧ 0 < (prep { exCfg with sstp := 1, turb := false } 0 a).th 1 ∧ 0 < a.rw2 0 := by
  refine ⟨exCell, rfl, ?_, ?_, ?_, ?_⟩ <;> norm_num [prep, hskpngTpr, sstpStep, exCfg, exCell]

end LCP.Cond
