import Verif.Chem.Henry
import Verif.Toms.Range
import Mathlib.Topology.Order.IntermediateValue
import Mathlib.Analysis.SpecialFunctions.ExpDeriv
import Mathlib.Tactic.FinCases

/-!
# C67: dissociation, pH and the dilution flag
-/
namespace LCP.Chem
open LCP.Common

/-! ### specification: ions of a droplet and its charge -/

/-- concentrations of ions other than H⁺ [mol/m³] -/
structure Ions where
  oh : ℝ
  hso3 : ℝ
  so3 : ℝ
  hco3 : ℝ
  co3 : ℝ
  no3 : ℝ
  nh4 : ℝ
  hso4 : ℝ
  so4 : ℝ

/-- ions in equilibrium with the H⁺ concentration `h` when the total concentrations of the dissolved species are `C`: self-ionisation of water, two
dissociations of SO₂·H₂O and of CO₂·H₂O, one of HNO₃, protonation of NH₃, sulfuric acid at least once dissociated -/
structure Dissociated (T : ℝ) (C : Sp → ℝ) (h : ℝ) (x : Ions) : Prop where
  water : h * x.oh = 1e-8
  sulfite : ∃ u, Diprotic (vantHoff (0.013 * 1000) 1960 T) (vantHoff (6.6e-8 * 1000) 1500 T) h (C .SO2) u x.hso3 x.so3
  carbonate : ∃ u, Diprotic (vantHoff (4.3e-7 * 1000) (-1000) T) (vantHoff (4.68e-11 * 1000) (-1760) T) h (C .CO2) u x.hco3 x.co3
  nitrate : ∃ u, Monoprotic (vantHoff (15.4 * 1000) 8700 T) h (C .HNO3) u x.no3
  ammonium : ∃ u, Base (vantHoff (1.7e-5 * 1000) (-450) T) 1e-8 h (C .NH3) u x.nh4
  sulfate : Monoprotic (vantHoff (0.012 * 1000) 2720 T) h (C .S_VI) x.hso4 x.so4

/-- net charge [mol of elementary charges per m³] -/
def netCharge (h : ℝ) (x : Ions) : ℝ :=
  (h + x.nh4) - (x.oh + x.hso3 + 2 * x.so3 + x.hco3 + 2 * x.co3 + x.no3 + x.hso4 + 2 * x.so4)

/-- ionic strength: half of the sum of concentrations times squared charges -/
noncomputable def strength (h : ℝ) (x : Ions) : ℝ :=
  1 / 2 * (h * 1 ^ 2 + x.nh4 * 1 ^ 2 + x.oh * 1 ^ 2 + x.hso3 * 1 ^ 2 + x.so3 * 2 ^ 2 + x.hco3 * 1 ^ 2 + x.co3 * 2 ^ 2 + x.no3 * 1 ^ 2 + x.hso4 * 1 ^ 2
    + x.so4 * 2 ^ 2)

/-- the droplet with total concentrations `C` is electrically neutral at the H⁺ concentration `h` -/
def Neutral (T : ℝ) (C : Sp → ℝ) (h : ℝ) : Prop := 0 < h ∧ ∃ x, Dissociated T C h x ∧ netCharge h x = 0

/-- molar masses of what is stored in droplets, g/mol -/
noncomputable def gPerMolAq : Sp → ℝ
  | .SO2 => 82 | .H2O2 => 34 | .O3 => 48 | .NH3 => 35 | .HNO3 => 63 | .CO2 => 62 | .S_VI => 98 | .H => 1

/-- concentration [mol/m³] of mass `m` [kg] in volume `V` -/
noncomputable def conc (m : Masses) (V : ℝ) (s : Sp) : ℝ := m s / (gPerMolAq s / 1000) / V

/-! ### the ions, explicitly -/

noncomputable def ions (T : ℝ) (C : Sp → ℝ) (h : ℝ) : Ions where
  oh := K_H2O / h
  hso3 := KtSO2 T * h * C .SO2 / (h * h + KtSO2 T * h + KtSO2 T * KtHSO3 T)
  so3 := KtSO2 T * KtHSO3 T * C .SO2 / (h * h + KtSO2 T * h + KtSO2 T * KtHSO3 T)
  hco3 := KtCO2 T * h * C .CO2 / (h * h + KtCO2 T * h + KtCO2 T * KtHCO3 T)
  co3 := KtCO2 T * KtHCO3 T * C .CO2 / (h * h + KtCO2 T * h + KtCO2 T * KtHCO3 T)
  no3 := KtHNO3 T * C .HNO3 / (h + KtHNO3 T)
  nh4 := KtNH3 T * h * C .NH3 / (K_H2O + KtNH3 T * h)
  hso4 := h * C .S_VI / (h + KtHSO4 T)
  so4 := KtHSO4 T * C .S_VI / (h + KtHSO4 T)

theorem diprotic_ions (K1 K2 h C b s : ℝ) (hh : 0 < h) (h1 : 0 < K1) (h2 : 0 < K2) : (∃ u, Diprotic K1 K2 h C u b s) ↔
    b = K1 * h * C / (h * h + K1 * h + K1 * K2) ∧ s = K1 * K2 * C / (h * h + K1 * h + K1 * K2) := by
  have hd : 0 < h * h + K1 * h + K1 * K2 := by positivity
  constructor
  · rintro ⟨u, a1, a2, a3⟩
    rw [eq_div_iff hd.ne', eq_div_iff hd.ne', ← a1]
    constructor
    · linear_combination h * a2 - K1 * a3
    · linear_combination (h + K1) * a3 + K2 * a2
  · rintro ⟨a1, a2⟩
    refine ⟨h * h * C / (h * h + K1 * h + K1 * K2), ?_, ?_, ?_⟩
    · rw [a1, a2]; field_simp
    · rw [a1]; field_simp
    · rw [a1, a2]; field_simp

theorem monoprotic_ions (K h C u b : ℝ) (hh : 0 < h) (h1 : 0 < K) : Monoprotic K h C u b ↔ u = h * C / (h + K) ∧ b = K * C / (h + K) := by
  have hd : 0 < h + K := by positivity
  constructor
  · rintro ⟨a1, a2⟩
    rw [eq_div_iff hd.ne', eq_div_iff hd.ne', ← a1]
    constructor
    · linear_combination -a2
    · linear_combination a2
  · rintro ⟨a1, a2⟩
    refine ⟨?_, ?_⟩
    · rw [a1, a2]; field_simp
    · rw [a1, a2]; field_simp

theorem base_ions (K Kw h C b : ℝ) (hh : 0 < h) (h1 : 0 < K) (h2 : 0 < Kw) : (∃ u, Base K Kw h C u b) ↔ b = K * h * C / (Kw + K * h) := by
  have hd : 0 < Kw + K * h := by positivity
  constructor
  · rintro ⟨u, a1, a2⟩
    rw [eq_div_iff hd.ne', ← a1]
    field_simp at a2
    linear_combination a2
  · rintro a1
    refine ⟨Kw * C / (Kw + K * h), ?_, ?_⟩
    · rw [a1]; field_simp
    · rw [a1]; field_simp

/-- the equilibrium has exactly one solution -/
theorem dissociated_iff (T : ℝ) (C : Sp → ℝ) (h : ℝ) (x : Ions) (hh : 0 < h) : Dissociated T C h x ↔ x = ions T C h := by
  have e1 : vantHoff (0.013 * 1000) 1960 T = KtSO2 T := by unfold vantHoff KtSO2 atT; norm_num
  have e2 : vantHoff (6.6e-8 * 1000) 1500 T = KtHSO3 T := by unfold vantHoff KtHSO3 atT; norm_num
  have e3 : vantHoff (4.3e-7 * 1000) (-1000) T = KtCO2 T := by unfold vantHoff KtCO2 atT; norm_num
  have e4 : vantHoff (4.68e-11 * 1000) (-1760) T = KtHCO3 T := by unfold vantHoff KtHCO3 atT; norm_num
  have e5 : vantHoff (15.4 * 1000) 8700 T = KtHNO3 T := by unfold vantHoff KtHNO3 atT; norm_num
  have e6 : vantHoff (1.7e-5 * 1000) (-450) T = KtNH3 T := by unfold vantHoff KtNH3 atT; norm_num
  have e7 : vantHoff (0.012 * 1000) 2720 T = KtHSO4 T := by unfold vantHoff KtHSO4 atT; norm_num
  have e8 : K_H2O = 1e-8 := by norm_num [K_H2O]
  have s1 := diprotic_ions (KtSO2 T) (KtHSO3 T) h (C .SO2) x.hso3 x.so3 hh (KtSO2_pos T) (KtHSO3_pos T)
  have s2 := diprotic_ions (KtCO2 T) (KtHCO3 T) h (C .CO2) x.hco3 x.co3 hh (KtCO2_pos T) (KtHCO3_pos T)
  have s3 : (∃ u, Monoprotic (KtHNO3 T) h (C .HNO3) u x.no3) ↔ x.no3 = KtHNO3 T * C .HNO3 / (h + KtHNO3 T) := by
    constructor
    · rintro ⟨u, hu⟩; exact ((monoprotic_ions _ _ _ _ _ hh (KtHNO3_pos T)).1 hu).2
    · intro hb; exact ⟨_, (monoprotic_ions _ _ _ _ _ hh (KtHNO3_pos T)).2 ⟨rfl, hb⟩⟩
  have s4 := base_ions (KtNH3 T) K_H2O h (C .NH3) x.nh4 hh (KtNH3_pos T) K_H2O_pos
  have s5 := monoprotic_ions (KtHSO4 T) h (C .S_VI) x.hso4 x.so4 hh (KtHSO4_pos T)
  have s0 : h * x.oh = 1e-8 ↔ x.oh = K_H2O / h := by rw [e8, eq_div_iff hh.ne', mul_comm]
  constructor
  · rintro ⟨a0, a1, a2, a3, a4, a5⟩
    rw [e1, e2, s1] at a1
    rw [e3, e4, s2] at a2
    rw [e5, s3] at a3
    rw [e6, ← e8, s4] at a4
    rw [e7, s5] at a5
    rw [s0] at a0
    cases x
    unfold ions
    simp only [Ions.mk.injEq]
    exact ⟨a0, a1.1, a1.2, a2.1, a2.2, a3, a4, a5.1, a5.2⟩
  · intro hx
    refine ⟨s0.2 ?_, ?_, ?_, ?_, ?_, ?_⟩
    · rw [hx]; rfl
    · rw [e1, e2, s1, hx]; exact ⟨rfl, rfl⟩
    · rw [e3, e4, s2, hx]; exact ⟨rfl, rfl⟩
    · rw [e5, s3, hx]; rfl
    · rw [e6, ← e8, s4, hx]; rfl
    · rw [e7, s5, hx]; exact ⟨rfl, rfl⟩

theorem neutral_iff (T : ℝ) (C : Sp → ℝ) (h : ℝ) : Neutral T C h ↔ 0 < h ∧ netCharge h (ions T C h) = 0 := by
  constructor
  · rintro ⟨hh, x, hx, h0⟩
    rw [dissociated_iff T C h x hh] at hx
    exact ⟨hh, hx ▸ h0⟩
  · rintro ⟨hh, h0⟩
    exact ⟨hh, _, (dissociated_iff T C h _ hh).2 rfl, h0⟩

/-- the net charge as a function of the H⁺ concentration -/
noncomputable def charge (T : ℝ) (C : Sp → ℝ) (h : ℝ) : ℝ := netCharge h (ions T C h)

/-! ### exactly one neutral state -/

theorem diprotic_anti (K1 K2 C a b : ℝ) (h1 : 0 < K1) (h2 : 0 < K2) (hC : 0 ≤ C) (ha : 0 < a) (hab : a ≤ b) :
    K1 * b * C / (b * b + K1 * b + K1 * K2) + 2 * (K1 * K2 * C / (b * b + K1 * b + K1 * K2))
      ≤ K1 * a * C / (a * a + K1 * a + K1 * K2) + 2 * (K1 * K2 * C / (a * a + K1 * a + K1 * K2)) := by
  have hb : 0 < b := by linarith
  have da : 0 < a * a + K1 * a + K1 * K2 := by positivity
  have db : 0 < b * b + K1 * b + K1 * K2 := by positivity
  have e : ∀ x, K1 * x * C / (x * x + K1 * x + K1 * K2) + 2 * (K1 * K2 * C / (x * x + K1 * x + K1 * K2)) = C * ((K1 * x + 2 * (K1 * K2)) / (x * x + K1 * x + K1 * K2)) := by
    intro x; ring
  rw [e, e]
  refine mul_le_mul_of_nonneg_left ?_ hC
  rw [div_le_div_iff₀ db da]
  have : 0 ≤ (b - a) * (K1 * a * b + K1 * K1 * K2 + 2 * K1 * K2 * (a + b)) := mul_nonneg (by linarith) (by positivity)
  nlinarith [this]

theorem charge_strictMono (T : ℝ) (C : Sp → ℝ) (hC : ∀ s, 0 ≤ C s) (a b : ℝ) (ha : 0 < a) (hab : a < b) : charge T C a < charge T C b := by
  have hb : 0 < b := by linarith
  have d1 := diprotic_anti (KtSO2 T) (KtHSO3 T) (C .SO2) a b (KtSO2_pos T) (KtHSO3_pos T) (hC _) ha hab.le
  have d2 := diprotic_anti (KtCO2 T) (KtHCO3 T) (C .CO2) a b (KtCO2_pos T) (KtHCO3_pos T) (hC _) ha hab.le
  have kn := KtHNO3_pos T
  have d3 : KtHNO3 T * C .HNO3 / (b + KtHNO3 T) ≤ KtHNO3 T * C .HNO3 / (a + KtHNO3 T) :=
    div_le_div_of_nonneg_left (mul_nonneg kn.le (hC _)) (by linarith) (by linarith)
  have d4 : K_H2O / b ≤ K_H2O / a := div_le_div_of_nonneg_left K_H2O_pos.le ha hab.le
  have ka := KtNH3_pos T
  have kw := K_H2O_pos
  have d5 : KtNH3 T * a * C .NH3 / (K_H2O + KtNH3 T * a) ≤ KtNH3 T * b * C .NH3 / (K_H2O + KtNH3 T * b) := by
    have e : ∀ x, KtNH3 T * x * C .NH3 / (K_H2O + KtNH3 T * x) = C .NH3 * (KtNH3 T * x / (K_H2O + KtNH3 T * x)) := by intro x; ring
    rw [e, e]
    refine mul_le_mul_of_nonneg_left ?_ (hC _)
    rw [div_le_div_iff₀ (by positivity) (by positivity)]
    have : 0 ≤ KtNH3 T * K_H2O * (b - a) := mul_nonneg (by positivity) (by linarith)
    nlinarith [this]
  have k4 := KtHSO4_pos T
  have d6 : b * C .S_VI / (b + KtHSO4 T) + 2 * (KtHSO4 T * C .S_VI / (b + KtHSO4 T)) ≤ a * C .S_VI / (a + KtHSO4 T) + 2 * (KtHSO4 T * C .S_VI / (a + KtHSO4 T)) := by
    have e : ∀ x, x * C .S_VI / (x + KtHSO4 T) + 2 * (KtHSO4 T * C .S_VI / (x + KtHSO4 T)) = C .S_VI * ((x + 2 * KtHSO4 T) / (x + KtHSO4 T)) := by intro x; ring
    rw [e, e]
    refine mul_le_mul_of_nonneg_left ?_ (hC _)
    rw [div_le_div_iff₀ (by positivity) (by positivity)]
    have : 0 ≤ KtHSO4 T * (b - a) := mul_nonneg (by positivity) (by linarith)
    nlinarith [this]
  unfold charge netCharge ions
  simp only []
  linarith

theorem charge_continuousOn (T : ℝ) (C : Sp → ℝ) : ContinuousOn (charge T C) (Set.Ioi 0) := by
  have := KtSO2_pos T; have := KtHSO3_pos T; have := KtCO2_pos T; have := KtHCO3_pos T; have := KtNH3_pos T; have := KtHNO3_pos T
  have := K_H2O_pos; have := KtHSO4_pos T
  unfold charge netCharge ions
  simp only []
  have hp : ∀ h ∈ Set.Ioi (0:ℝ), 0 < h := fun h hh => hh
  have n1 : ∀ h ∈ Set.Ioi (0:ℝ), h ≠ 0 := fun h hh => (hp h hh).ne'
  have n2 : ∀ h ∈ Set.Ioi (0:ℝ), h * h + KtSO2 T * h + KtSO2 T * KtHSO3 T ≠ 0 := fun h hh => by have := hp h hh; positivity
  have n3 : ∀ h ∈ Set.Ioi (0:ℝ), h * h + KtCO2 T * h + KtCO2 T * KtHCO3 T ≠ 0 := fun h hh => by have := hp h hh; positivity
  have n4 : ∀ h ∈ Set.Ioi (0:ℝ), h + KtHNO3 T ≠ 0 := fun h hh => by have := hp h hh; positivity
  have n5 : ∀ h ∈ Set.Ioi (0:ℝ), K_H2O + KtNH3 T * h ≠ 0 := fun h hh => by have := hp h hh; positivity
  have n6 : ∀ h ∈ Set.Ioi (0:ℝ), h + KtHSO4 T ≠ 0 := fun h hh => by have := hp h hh; positivity
  fun_prop (disch := assumption)

/-- bounds of the charge: everything else is bounded by the total concentrations -/
theorem charge_bounds (T : ℝ) (C : Sp → ℝ) (hC : ∀ s, 0 ≤ C s) (h : ℝ) (hh : 0 < h) :
    charge T C h ≤ h + C .NH3 - K_H2O / h ∧ h - K_H2O / h - 2 * (C .SO2 + C .CO2 + C .HNO3 + C .S_VI) ≤ charge T C h := by
  have a1 := KtSO2_pos T; have a2 := KtHSO3_pos T; have a3 := KtCO2_pos T; have a4 := KtHCO3_pos T; have a5 := KtNH3_pos T; have a6 := KtHNO3_pos T
  have a7 := K_H2O_pos; have a8 := KtHSO4_pos T
  have c1 := hC .SO2; have c2 := hC .CO2; have c3 := hC .HNO3; have c4 := hC .NH3; have c5 := hC .S_VI
  have p1 : 0 ≤ KtSO2 T * h * C .SO2 / (h * h + KtSO2 T * h + KtSO2 T * KtHSO3 T) := by positivity
  have p2 : 0 ≤ KtSO2 T * KtHSO3 T * C .SO2 / (h * h + KtSO2 T * h + KtSO2 T * KtHSO3 T) := by positivity
  have p3 : 0 ≤ KtCO2 T * h * C .CO2 / (h * h + KtCO2 T * h + KtCO2 T * KtHCO3 T) := by positivity
  have p4 : 0 ≤ KtCO2 T * KtHCO3 T * C .CO2 / (h * h + KtCO2 T * h + KtCO2 T * KtHCO3 T) := by positivity
  have p5 : 0 ≤ KtHNO3 T * C .HNO3 / (h + KtHNO3 T) := by positivity
  have p6 : 0 ≤ KtNH3 T * h * C .NH3 / (K_H2O + KtNH3 T * h) := by positivity
  have p7 : 0 ≤ h * C .S_VI / (h + KtHSO4 T) := by positivity
  have p8 : 0 ≤ KtHSO4 T * C .S_VI / (h + KtHSO4 T) := by positivity
  have q1 : KtSO2 T * h * C .SO2 / (h * h + KtSO2 T * h + KtSO2 T * KtHSO3 T) + KtSO2 T * KtHSO3 T * C .SO2 / (h * h + KtSO2 T * h + KtSO2 T * KtHSO3 T) ≤ C .SO2 := by
    rw [← add_div, div_le_iff₀ (by positivity)]
    nlinarith [mul_nonneg (mul_self_nonneg h) c1]
  have q2 : KtCO2 T * h * C .CO2 / (h * h + KtCO2 T * h + KtCO2 T * KtHCO3 T) + KtCO2 T * KtHCO3 T * C .CO2 / (h * h + KtCO2 T * h + KtCO2 T * KtHCO3 T) ≤ C .CO2 := by
    rw [← add_div, div_le_iff₀ (by positivity)]
    nlinarith [mul_nonneg (mul_self_nonneg h) c2]
  have q3 : KtHNO3 T * C .HNO3 / (h + KtHNO3 T) ≤ C .HNO3 := by
    rw [div_le_iff₀ (by positivity)]
    nlinarith [mul_nonneg hh.le c3]
  have q4 : KtNH3 T * h * C .NH3 / (K_H2O + KtNH3 T * h) ≤ C .NH3 := by
    rw [div_le_iff₀ (by positivity)]
    nlinarith [mul_nonneg a7.le c4]
  have q5 : h * C .S_VI / (h + KtHSO4 T) + KtHSO4 T * C .S_VI / (h + KtHSO4 T) ≤ C .S_VI := by
    rw [← add_div, div_le_iff₀ (by positivity)]
    nlinarith
  unfold charge netCharge ions
  simp only []
  constructor <;> linarith

/-- **C67 (one neutral state).** Whatever (non-negative) amounts are dissolved and whatever the temperature, there is exactly one H⁺ concentration at
which the droplet is electrically neutral. -/
theorem neutral_unique (T : ℝ) (C : Sp → ℝ) (hC : ∀ s, 0 ≤ C s) : ∃! h, Neutral T C h := by
  have kw := K_H2O_pos
  have kw1 : K_H2O = 1e-8 := by norm_num [K_H2O]
  have c1 := hC .SO2; have c2 := hC .CO2; have c3 := hC .HNO3; have c4 := hC .NH3; have c5 := hC .S_VI
  set lo := 1e-8 / (2 + C .NH3) with hlo
  set hi := 1 + 2 * (C .SO2 + C .CO2 + C .HNO3 + C .S_VI) with hhi
  have l0 : 0 < lo := by rw [hlo]; positivity
  have l1 : lo ≤ 1 := by rw [hlo, div_le_one (by positivity)]; norm_num; linarith
  have i1 : 1 ≤ hi := by rw [hhi]; linarith
  have cl : charge T C lo ≤ 0 := by
    have b := (charge_bounds T C hC lo l0).1
    have : K_H2O / lo = 2 + C .NH3 := by rw [hlo, kw1]; field_simp
    rw [this] at b; linarith
  have ch : 0 ≤ charge T C hi := by
    have b := (charge_bounds T C hC hi (by linarith)).2
    have : K_H2O / hi ≤ 1 := by rw [div_le_one (by linarith), kw1]; norm_num; linarith
    linarith
  obtain ⟨h, hm, h0⟩ := intermediate_value_Icc (l1.trans i1) ((charge_continuousOn T C).mono fun x hx => lt_of_lt_of_le l0 hx.1) ⟨cl, ch⟩
  have hp : 0 < h := lt_of_lt_of_le l0 hm.1
  refine ⟨h, (neutral_iff T C h).2 ⟨hp, h0⟩, ?_⟩
  intro k hk
  obtain ⟨kp, k0⟩ := (neutral_iff T C k).1 hk
  change charge T C k = 0 at k0
  rcases lt_trichotomy k h with g | g | g
  · have := charge_strictMono T C hC k h kp g; linarith
  · exact g
  · have := charge_strictMono T C hC h k hp g; linarith

/-! ### what the code computes -/

theorem gAq_eq : gPerMolAq .SO2 / 1000 = M_SO2_H2O ∧ gPerMolAq .CO2 / 1000 = M_CO2_H2O ∧ gPerMolAq .HNO3 / 1000 = M_HNO3 ∧
    gPerMolAq .NH3 / 1000 = M_NH3_H2O ∧ gPerMolAq .S_VI / 1000 = M_H2SO4 ∧ gPerMolAq .H / 1000 = M_H := by
  norm_num [gPerMolAq, M_SO2_H2O, M_CO2_H2O, M_HNO3, M_NH3_H2O, M_H2SO4, M_H]

/-- the residual the solver drives to zero is the net charge, as a mass of H⁺, with the opposite sign -/
theorem minfun_eq (m : Masses) (V T h : ℝ) (hV : 0 < V) (hh : 0 < h) : minfun m V T (M_H * V * h) = -(M_H * V) * charge T (conc m V) h := by
  obtain ⟨g1, g2, g3, g4, g5, g6⟩ := gAq_eq
  have mh := M_H_pos'
  have a1 := KtSO2_pos T; have a2 := KtHSO3_pos T; have a3 := KtCO2_pos T; have a4 := KtHCO3_pos T; have a5 := KtNH3_pos T; have a6 := KtHNO3_pos T
  have a7 := K_H2O_pos; have a8 := KtHSO4_pos T
  have eh : M_H * V * h / M_H / V = h := by field_simp
  have dip : ∀ K1 K2 q, 0 < K1 → 0 < K2 → q * K1 / h / (1 + K1 / h + K1 * K2 / h / h) = V * (K1 * h * (q / V) / (h * h + K1 * h + K1 * K2)) := by
    intro K1 K2 q k1 k2; field_simp
  have dip2 : ∀ K1 K2 q, 0 < K1 → 0 < K2 → q * K1 * K2 / h / h / (1 + K1 / h + K1 * K2 / h / h) = V * (K1 * K2 * (q / V) / (h * h + K1 * h + K1 * K2)) := by
    intro K1 K2 q k1 k2; field_simp
  unfold minfun
  simp only [eh]
  rw [dip _ _ _ a1 a2, dip _ _ _ a3 a4]
  rw [show 2 * m .SO2 / M_SO2_H2O * KtSO2 T * KtHSO3 T / h / h / (1 + KtSO2 T / h + KtSO2 T * KtHSO3 T / h / h)
    = 2 * (m .SO2 / M_SO2_H2O * KtSO2 T * KtHSO3 T / h / h / (1 + KtSO2 T / h + KtSO2 T * KtHSO3 T / h / h)) by ring, dip2 _ _ _ a1 a2]
  rw [show 2 * m .CO2 / M_CO2_H2O * KtCO2 T * KtHCO3 T / h / h / (1 + KtCO2 T / h + KtCO2 T * KtHCO3 T / h / h)
    = 2 * (m .CO2 / M_CO2_H2O * KtCO2 T * KtHCO3 T / h / h / (1 + KtCO2 T / h + KtCO2 T * KtHCO3 T / h / h)) by ring, dip2 _ _ _ a3 a4]
  rw [show m .HNO3 / M_HNO3 * KtHNO3 T / h / (1 + KtHNO3 T / h) = V * (KtHNO3 T * (m .HNO3 / M_HNO3 / V) / (h + KtHNO3 T)) by field_simp]
  rw [show m .NH3 / M_NH3_H2O * KtNH3 T / K_H2O * h / (1 + KtNH3 T / K_H2O * h) = V * (KtNH3 T * h * (m .NH3 / M_NH3_H2O / V) / (K_H2O + KtNH3 T * h)) by field_simp]
  rw [show h * m .S_VI / M_H2SO4 / (h + KtHSO4 T) = V * (h * (m .S_VI / M_H2SO4 / V) / (h + KtHSO4 T)) by field_simp]
  rw [show 2 * KtHSO4 T * m .S_VI / M_H2SO4 / (h + KtHSO4 T) = 2 * (V * (KtHSO4 T * (m .S_VI / M_H2SO4 / V) / (h + KtHSO4 T))) by field_simp]
  rw [show K_H2O * M_H * (V * V) / (M_H * V * h) = V * (K_H2O / h) by field_simp]
  unfold charge netCharge ions conc
  simp only []
  rw [g1, g2, g3, g4, g5]
  ring

theorem lft_eq (V : ℝ) : mHlft V = M_H * V * 1e-5 := by unfold mHlft; ring
theorem rht_eq (V : ℝ) : mHrht V = M_H * V * 1e4 := by unfold mHrht; ring

theorem conc_nonneg (m : Masses) (V : ℝ) (hV : 0 < V) (hm : ∀ s, 0 ≤ m s) (s : Sp) : 0 ≤ conc m V s := by
  have : 0 ≤ gPerMolAq s := by cases s <;> norm_num [gPerMolAq]
  have := hm s
  unfold conc
  positivity

theorem tolEps_eq : Toms.tolEps Toms.flt 32 = 2 ^ (-21 : ℤ) := by
  unfold Toms.tolEps Toms.flt
  norm_num

/-- the two floating-point types of the library -/
def IsMach (M : Toms.Mach) : Prop := M = Toms.dbl ∨ M = Toms.flt

theorem mach_ok (M : Toms.Mach) (h : IsMach M) : 0 ≤ M.epsilon ∧ M.epsilon ≤ 1 / 8 ∧ 4 * M.epsilon ≤ Toms.tolEps Toms.flt 32 := by
  rw [tolEps_eq]
  rcases h with h | h <;> rw [h] <;> norm_num [Toms.dbl, Toms.flt]

/-- result for one droplet: always within the limits of the search -/
theorem electroneutral_mem (M : Toms.Mach) (hM : IsMach M) (m : Masses) (V T : ℝ) (hV : 0 < V) :
    1e-5 ≤ electroneutral M m V T / M_H / V ∧ electroneutral M m V T / M_H / V ≤ 1e4 := by
  obtain ⟨e1, e2, e3⟩ := mach_ok M hM
  have mh := M_H_pos'
  have mv : 0 < M_H * V := by positivity
  have := Toms.solve_mem M (minfun m V T) (Toms.tolEps Toms.flt 32) (mHlft V) (mHrht V) (minfun m V T (mHlft V)) (minfun m V T (mHrht V)) 98 e1 e2 e3 (by
    rw [lft_eq, rht_eq]; nlinarith)
  rw [lft_eq, rht_eq] at this
  unfold electroneutral
  rw [lft_eq, rht_eq, div_div, le_div_iff₀ mv, div_le_iff₀ mv]
  constructor
  · linarith [this.1]
  · linarith [this.2]

theorem electroneutral_acc (m : Masses) (V T h : ℝ) (hV : 0 < V) (hm : ∀ s, 0 ≤ m s) (hn : Neutral T (conc m V) h) (h1 : 1e-5 < h) (h2 : h < 1e4) :
    |electroneutral Toms.dbl m V T / M_H / V - h| ≤ max (2 ^ (-22 : ℤ) * h) (1e4 / 2 ^ 25) := by
  have mh := M_H_pos'
  have mv : 0 < M_H * V := by positivity
  have hc := conc_nonneg m V hV hm
  obtain ⟨hp, h0⟩ := (neutral_iff T _ h).1 hn
  change charge T (conc m V) h = 0 at h0
  have c1 := charge_strictMono T _ hc 1e-5 h (by norm_num) h1
  have c2 := charge_strictMono T _ hc h 1e4 hp h2
  rw [h0] at c1 c2
  have hl : minfun m V T (mHlft V) = -(M_H * V) * charge T (conc m V) 1e-5 := by rw [lft_eq]; exact minfun_eq m V T _ hV (by norm_num)
  have hr : minfun m V T (mHrht V) = -(M_H * V) * charge T (conc m V) 1e4 := by rw [rht_eq]; exact minfun_eq m V T _ hV (by norm_num)
  have hle : mHlft V ≤ mHrht V := by rw [lft_eq, rht_eq]; nlinarith
  have hcont : ContinuousOn (minfun m V T) (Set.Icc (mHlft V) (mHrht V)) := by
    have : Set.EqOn (minfun m V T) (fun x => -(M_H * V) * charge T (conc m V) (x / (M_H * V))) (Set.Icc (mHlft V) (mHrht V)) := by
      intro x hx
      have hx0 : 0 < x / (M_H * V) := by
        rw [lft_eq] at hx
        have : 0 < x := lt_of_lt_of_le (by positivity) hx.1
        positivity
      have := minfun_eq m V T _ hV hx0
      rw [mul_div_cancel₀ _ mv.ne'] at this
      exact this
    refine ContinuousOn.congr ?_ this
    refine continuousOn_const.mul ((charge_continuousOn T (conc m V)).comp (by fun_prop) ?_)
    intro x hx
    rw [lft_eq] at hx
    have : 0 < x := lt_of_lt_of_le (by positivity) hx.1
    show 0 < x / (M_H * V)
    positivity
  obtain ⟨x, hx, hx0, hacc⟩ := Toms.solve_accuracy Toms.dbl (minfun m V T) (Toms.tolEps Toms.flt 32) (mHlft V) (mHrht V) 98 (by norm_num [Toms.dbl])
    (by norm_num [Toms.dbl]) (by rw [tolEps_eq]; norm_num [Toms.dbl]) (by rw [tolEps_eq]; norm_num) (by norm_num) hle (by
      rw [hl, hr]
      have : 0 < (M_H * V) * (M_H * V) * (charge T (conc m V) 1e4 * -charge T (conc m V) 1e-5) := mul_pos (by positivity) (mul_pos c2 (by linarith))
      nlinarith [this]) hcont
  have hxp : 0 < x := by
    rw [lft_eq] at hx
    exact lt_of_lt_of_le (by positivity) hx.1
  have hxh : x = M_H * V * h := by
    have e := minfun_eq m V T (x / (M_H * V)) hV (by positivity)
    rw [mul_div_cancel₀ _ mv.ne', hx0] at e
    have e0 : charge T (conc m V) (x / (M_H * V)) = 0 := by
      rcases mul_eq_zero.1 e.symm with g | g
      · linarith
      · exact g
    have : x / (M_H * V) = h := by
      obtain ⟨k, _, hk⟩ := neutral_unique T _ hc
      rw [hk _ ((neutral_iff T _ _).2 ⟨by positivity, e0⟩), hk h hn]
    rw [← this, mul_div_cancel₀ _ mv.ne']
  have e : electroneutral Toms.dbl m V T / M_H / V - h = (electroneutral Toms.dbl m V T - x) / (M_H * V) := by rw [hxh]; field_simp
  rw [e, abs_div, abs_of_pos mv, div_le_iff₀ mv]
  unfold electroneutral
  refine le_trans hacc ?_
  rw [max_mul_of_nonneg _ _ mv.le]
  refine max_le_max ?_ ?_
  · rw [tolEps_eq, abs_of_pos hxp, hxh]
    norm_num
    linarith
  · rw [lft_eq, rht_eq]
    norm_num
    nlinarith

theorem electroneutral_alkaline (M : Toms.Mach) (hM : IsMach M) (m : Masses) (V T h : ℝ) (hV : 0 < V) (hm : ∀ s, 0 ≤ m s) (hn : Neutral T (conc m V) h) (h1 : h < 1e-5) :
    5000 ≤ electroneutral M m V T / M_H / V := by
  obtain ⟨e1, e2, e3⟩ := mach_ok M hM
  have mh := M_H_pos'
  have mv : 0 < M_H * V := by positivity
  have hc := conc_nonneg m V hV hm
  obtain ⟨hp, h0⟩ := (neutral_iff T _ h).1 hn
  change charge T (conc m V) h = 0 at h0
  have := Toms.solve_negative M (minfun m V T) (Toms.tolEps Toms.flt 32) (mHlft V) (mHrht V) 98 e1 e2 e3 (by rw [lft_eq, rht_eq]; nlinarith) (by
    intro x hx1 hx2
    rw [lft_eq] at hx1
    have hx : 1e-5 ≤ x / (M_H * V) := by rw [le_div_iff₀ mv]; linarith
    have hc' := charge_strictMono T _ hc h (x / (M_H * V)) hp (by linarith)
    have e := minfun_eq m V T (x / (M_H * V)) hV (by linarith)
    rw [mul_div_cancel₀ _ mv.ne'] at e
    rw [e]
    nlinarith)
  unfold electroneutral
  rw [div_div, le_div_iff₀ mv]
  refine le_trans ?_ this
  rw [lft_eq, rht_eq]
  nlinarith

/-! ### claims about the whole population -/

/-- **C67 (range, who is affected).** The dissociation step gives every dilute droplet an H⁺ concentration between 10⁻⁸ and 10 mol/l, and changes nothing
else: no other species, no other droplet. -/
theorem dissoc_range (M : Toms.Mach) (hM : IsMach M) (x : CSt) (vol : ℕ → ℝ) (flag : ℕ → Bool) (i : ℕ) (hV : 0 < vol i) :
    (flag i = true → 1e-5 ≤ conc (fun s => (chemDissoc M vol flag x).chem s i) (vol i) .H ∧ conc (fun s => (chemDissoc M vol flag x).chem s i) (vol i) .H ≤ 1e4) ∧
    (flag i = false → ∀ s, (chemDissoc M vol flag x).chem s i = x.chem s i) ∧ (∀ s, s ≠ Sp.H → (chemDissoc M vol flag x).chem s i = x.chem s i) ∧
    (chemDissoc M vol flag x).amb = x.amb ∧ (chemDissoc M vol flag x).rd3 = x.rd3 ∧ (chemDissoc M vol flag x).rw2 = x.rw2 := by
  refine ⟨?_, ?_, ?_, rfl, rfl, rfl⟩
  · intro hf
    have := electroneutral_mem M hM (fun s => x.chem s i) (vol i) (x.T (x.d.ijk i)) hV
    unfold conc chemDissoc
    simp only [Function.update_self, hf, if_true, gAq_eq.2.2.2.2.2]
    exact this
  · intro hf s
    unfold chemDissoc
    by_cases hs : s = .H
    · subst hs; simp [hf]
    · simp [hs]
  · intro s hs
    unfold chemDissoc
    simp [hs]

/-- **C67 (neutrality).** If the H⁺ concentration `h` at which the droplet is neutral is between 10⁻⁸ and 10 mol/l, the stored one agrees with it up
to a relative error 2⁻²² or up to 10/2²⁵ mol/l (double precision). -/
theorem dissoc_neutral (x : CSt) (vol : ℕ → ℝ) (flag : ℕ → Bool) (i : ℕ) (h : ℝ) (hV : 0 < vol i) (hf : flag i = true) (hm : ∀ s, 0 ≤ x.chem s i)
    (hn : Neutral (x.T (x.d.ijk i)) (conc (fun s => x.chem s i) (vol i)) h) (h1 : 1e-8 * 1000 < h) (h2 : h < 10 * 1000) :
    |conc (fun s => (chemDissoc Toms.dbl vol flag x).chem s i) (vol i) .H - h| ≤ max (2 ^ (-22 : ℤ) * h) (10 * 1000 / 2 ^ 25) := by
  have := electroneutral_acc (fun s => x.chem s i) (vol i) (x.T (x.d.ijk i)) h hV hm hn (by norm_num at h1 ⊢; exact h1) (by norm_num at h2 ⊢; exact h2)
  unfold conc chemDissoc
  simp only [Function.update_self, hf, if_true, gAq_eq.2.2.2.2.2]
  refine le_trans this (max_le_max (le_refl _) (by norm_num))

theorem ionStrength_eq (m : Masses) (V T : ℝ) : ionStrength m V T = strength (conc m V .H) (ions T (conc m V) (conc m V .H)) := by
  obtain ⟨g1, g2, g3, g4, g5, g6⟩ := gAq_eq
  have h0 : conc m V .H = m .H / M_H / V := by unfold conc; rw [g6]
  rw [h0]
  unfold ionStrength strength ions conc
  simp only []
  rw [g1, g2, g3, g4, g5]
  ring

/-- **C67 (dilution flag).** A droplet takes part in chemistry exactly when the ionic strength of its solution is below 0.02 mol/l. -/
theorem flag_iff (x : CSt) (i : ℕ) (hV : 0 < x.rw2 i) (hH : 0 < x.chem .H i) : x.flag i = true ↔
    ∃ y, Dissociated (x.T (x.d.ijk i)) (conc (fun s => x.chem s i) (x.vol i)) (conc (fun s => x.chem s i) (x.vol i) .H) y ∧
      strength (conc (fun s => x.chem s i) (x.vol i) .H) y / 1000 < 0.02 := by
  have hv : 0 < x.vol i := by
    unfold CSt.vol dropVol
    have := Real.pi_pos; positivity
  have hh : 0 < conc (fun s => x.chem s i) (x.vol i) .H := by
    unfold conc gPerMolAq
    simp only []
    positivity
  unfold CSt.flag setFlag
  rw [decide_eq_true_iff, ionStrength_eq]
  constructor
  · rintro ⟨-, -, h⟩
    exact ⟨_, (dissociated_iff _ _ _ _ hh).2 rfl, by linarith⟩
  · rintro ⟨y, hy, h⟩
    rw [dissociated_iff _ _ _ _ hh] at hy
    refine ⟨hH.ne', hv.ne', ?_⟩
    rw [← hy]; linarith

/-- a droplet taking part in chemistry has water and H⁺ -/
theorem flag_pos (x : CSt) (i : ℕ) (hr : 0 ≤ x.rw2 i) (hm : 0 ≤ x.chem .H i) (hf : x.flag i = true) : 0 < x.vol i ∧ 0 < x.chem .H i := by
  unfold CSt.flag setFlag at hf
  rw [decide_eq_true_iff] at hf
  have hv : 0 ≤ x.vol i := by unfold CSt.vol dropVol; have := Real.pi_pos; positivity
  exact ⟨lt_of_le_of_ne hv (Ne.symm hf.2.1), lt_of_le_of_ne hm (Ne.symm hf.1)⟩

/-- **C67 (finding).** A droplet that should be alkaline (neutral above pH 8) is given an H⁺ concentration of at least 5 mol/l, and is excluded from chemistry
from then on: its ionic strength is above the limit of the flag. -/
theorem dissoc_alkaline (M : Toms.Mach) (hM : IsMach M) (x : CSt) (flag : ℕ → Bool) (i : ℕ) (h : ℝ) (hV : 0 < x.rw2 i) (hf : flag i = true) (hm : ∀ s, 0 ≤ x.chem s i)
    (hn : Neutral (x.T (x.d.ijk i)) (conc (fun s => x.chem s i) (x.vol i)) h) (h1 : h < 1e-8 * 1000) :
    5 * 1000 ≤ conc (fun s => (chemDissoc M x.vol flag x).chem s i) (x.vol i) .H ∧ (chemDissoc M x.vol flag x).flag i = false := by
  have hv : 0 < x.vol i := by
    unfold CSt.vol dropVol
    have := Real.pi_pos; positivity
  have hb := electroneutral_alkaline M hM (fun s => x.chem s i) (x.vol i) (x.T (x.d.ijk i)) h hv hm hn (by norm_num at h1 ⊢; exact h1)
  have hc : 5 * 1000 ≤ conc (fun s => (chemDissoc M x.vol flag x).chem s i) (x.vol i) .H := by
    unfold conc chemDissoc
    simp only [Function.update_self, hf, if_true, gAq_eq.2.2.2.2.2]
    linarith
  refine ⟨hc, ?_⟩
  have hvol : (chemDissoc M x.vol flag x).vol i = x.vol i := rfl
  have hT : (chemDissoc M x.vol flag x).T ((chemDissoc M x.vol flag x).d.ijk i) = x.T (x.d.ijk i) := rfl
  have hnn : ∀ s, 0 ≤ conc (fun s => (chemDissoc M x.vol flag x).chem s i) (x.vol i) s := by
    intro s
    by_cases hs : s = .H
    · subst hs; linarith
    · have := conc_nonneg (fun s => x.chem s i) (x.vol i) hv hm s
      unfold conc at this ⊢
      beta_reduce
      rw [(dissoc_range M hM x x.vol flag i hv).2.2.1 s hs]
      exact this
  unfold CSt.flag setFlag
  rw [decide_eq_false_iff_not, ionStrength_eq, hvol, hT]
  rintro ⟨-, -, hlt⟩
  revert hlt
  rw [imp_false, not_lt]
  set C := conc (fun s => (chemDissoc M x.vol flag x).chem s i) (x.vol i)
  have hp : 0 < C .H := by linarith
  generalize x.T (x.d.ijk i) = T
  have a1 := KtSO2_pos T; have a2 := KtHSO3_pos T; have a3 := KtCO2_pos T; have a4 := KtHCO3_pos T; have a5 := KtNH3_pos T; have a6 := KtHNO3_pos T
  have a7 := K_H2O_pos; have a8 := KtHSO4_pos T
  have c1 := hnn .SO2; have c2 := hnn .CO2; have c3 := hnn .HNO3; have c4 := hnn .NH3; have c5 := hnn .S_VI
  have : C .H / 2 ≤ strength (C .H) (ions T C (C .H)) := by
    unfold strength ions
    simp only []
    have : 0 ≤ (KtNH3 T * C .H * C .NH3 / (K_H2O + KtNH3 T * C .H) * 1 ^ 2 + K_H2O / C .H * 1 ^ 2 + KtSO2 T * C .H * C .SO2 / (C .H * C .H + KtSO2 T * C .H + KtSO2 T * KtHSO3 T) * 1 ^ 2
      + KtSO2 T * KtHSO3 T * C .SO2 / (C .H * C .H + KtSO2 T * C .H + KtSO2 T * KtHSO3 T) * 2 ^ 2 + KtCO2 T * C .H * C .CO2 / (C .H * C .H + KtCO2 T * C .H + KtCO2 T * KtHCO3 T) * 1 ^ 2
      + KtCO2 T * KtHCO3 T * C .CO2 / (C .H * C .H + KtCO2 T * C .H + KtCO2 T * KtHCO3 T) * 2 ^ 2 + KtHNO3 T * C .HNO3 / (C .H + KtHNO3 T) * 1 ^ 2
      + C .H * C .S_VI / (C .H + KtHSO4 T) * 1 ^ 2 + KtHSO4 T * C .S_VI / (C .H + KtHSO4 T) * 2 ^ 2 : ℝ) := by positivity
    linarith
  linarith

/-! ### concrete cases -/

/-- one droplet of 10 µm with `a` mol/m³ of ammonia, of pH 7 -/
noncomputable def exDrop (a : ℝ) : CSt :=
  { d := { N := 1, n := fun _ => 1, ijk := fun _ => 0, sid := [0], nf := none, nCell := 1, nDims := 0, dv := fun _ => 1, rhod := fun _ => 1, countN := 0,
           countIjk := fun _ => 0, countMom := fun _ => 0 }
    T := fun _ => 298, rw2 := fun _ => 1e-10, rd3 := fun _ => 1e-24
    chem := fun s _ => if s = .H then 1e-7 * dropVol 1e-10 else if s = .NH3 then 0.035 * a * dropVol 1e-10 else 0
    amb := fun _ _ => 0
    tmp := fun _ _ => 0 }

theorem exVol_pos : 0 < dropVol 1e-10 := by unfold dropVol; have := Real.pi_pos; positivity

theorem exDrop_conc (a : ℝ) : conc (fun s => (exDrop a).chem s 0) ((exDrop a).vol 0) = fun s => if s = .H then 1e-4 else if s = .NH3 then a else 0 := by
  have hv := exVol_pos
  have hvol : (exDrop a).vol 0 = dropVol 1e-10 := rfl
  funext s
  unfold conc
  rw [hvol]
  simp only [exDrop]
  cases s <;> simp [gPerMolAq]
  · field_simp; norm_num; ring
  · field_simp; norm_num

theorem exDrop_nonneg (a : ℝ) (ha : 0 ≤ a) (s : Sp) : 0 ≤ (exDrop a).chem s 0 := by
  have hv := exVol_pos
  simp only [exDrop]
  split_ifs <;> positivity

theorem KtNH3_298 : KtNH3 298 = 0.017 := by
  unfold KtNH3 atT
  rw [sub_self, mul_zero, Real.exp_zero]; norm_num

theorem exDrop_flag (a : ℝ) (h1 : a ≤ 1) : (exDrop a).flag 0 = true := by
  have hv := exVol_pos
  unfold CSt.flag setFlag
  rw [decide_eq_true_iff, ionStrength_eq, exDrop_conc]
  refine ⟨by simp only [exDrop, if_true]; positivity, hv.ne', ?_⟩
  have hT : (exDrop a).T ((exDrop a).d.ijk 0) = 298 := rfl
  rw [hT]
  unfold strength ions
  simp [KtNH3_298]
  have : K_H2O = 1e-8 := by norm_num [K_H2O]
  rw [this]
  norm_num
  linarith

/-- the hypotheses of `dissoc_neutral` are met by pure water, neutral at 10⁻⁷ mol/l -/
example : |conc (fun s => (chemDissoc Toms.dbl (exDrop 0).vol (exDrop 0).flag (exDrop 0)).chem s 0) ((exDrop 0).vol 0) .H - 1e-4| ≤
    max (2 ^ (-22 : ℤ) * 1e-4) (10 * 1000 / 2 ^ 25) := by
  refine dissoc_neutral (exDrop 0) (exDrop 0).vol (exDrop 0).flag 0 1e-4 exVol_pos (exDrop_flag 0 (by norm_num)) (exDrop_nonneg 0 (le_refl _)) ?_ (by norm_num) (by norm_num)
  rw [exDrop_conc, neutral_iff]
  refine ⟨by norm_num, ?_⟩
  unfold netCharge ions
  have : K_H2O = 1e-8 := by norm_num [K_H2O]
  simp [this]
  norm_num

/-- **C67 (finding, concrete).** A dilute droplet with 1 mmol/l of ammonia and nothing else at 298 K (it should be alkaline): after the dissociation
step its H⁺ concentration is at least 5 mol/l, and it is excluded from chemistry. -/
theorem ammonia_droplet (M : Toms.Mach) (hM : IsMach M) : let x := exDrop 1
    x.flag 0 = true ∧ (∀ s, s ≠ Sp.H → conc (fun s => x.chem s 0) (x.vol 0) s = if s = .NH3 then 1 else 0) ∧
    (∃ h, Neutral 298 (conc (fun s => x.chem s 0) (x.vol 0)) h ∧ h < 1e-8 * 1000) ∧
    5 * 1000 ≤ conc (fun s => (chemDissoc M x.vol x.flag x).chem s 0) (x.vol 0) .H ∧ (chemDissoc M x.vol x.flag x).flag 0 = false := by
  intro x
  have hfl : x.flag 0 = true := exDrop_flag 1 (le_refl _)
  have hc := exDrop_conc 1
  have hnn := conc_nonneg (fun s => x.chem s 0) (x.vol 0) exVol_pos (exDrop_nonneg 1 (by norm_num))
  obtain ⟨h, hn, -⟩ := neutral_unique 298 _ hnn
  have hlt : h < 1e-8 * 1000 := by
    obtain ⟨hp, h0⟩ := (neutral_iff _ _ _).1 hn
    change charge _ _ h = 0 at h0
    by_contra hge
    push Not at hge
    have hpos : 0 < charge 298 (conc (fun s => x.chem s 0) (x.vol 0)) (1e-8 * 1000) := by
      show 0 < charge 298 (conc (fun s => (exDrop 1).chem s 0) ((exDrop 1).vol 0)) (1e-8 * 1000)
      rw [hc]
      unfold charge netCharge ions
      have : K_H2O = 1e-8 := by norm_num [K_H2O]
      simp [this, KtNH3_298]
      norm_num
    rcases hge.lt_or_eq with g | g
    · have := charge_strictMono 298 _ hnn _ _ (by norm_num) g; linarith
    · rw [g] at hpos; linarith
  have hb := dissoc_alkaline M hM x x.flag 0 h (by norm_num [x, exDrop]) hfl (exDrop_nonneg 1 (by norm_num)) hn hlt
  refine ⟨hfl, ?_, ⟨h, hn, hlt⟩, hb.1, hb.2⟩
  intro s hs
  show conc (fun s => (exDrop 1).chem s 0) ((exDrop 1).vol 0) s = _
  rw [hc]
  simp [hs]

end LCP.Chem
