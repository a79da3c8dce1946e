import Verif.Chem.Model
import Mathlib.Analysis.SpecialFunctions.Exp
import Mathlib.Analysis.Calculus.Deriv.Inv
import Mathlib.Analysis.Calculus.Deriv.Mul
import Mathlib.Analysis.SpecialFunctions.Pow.Real
import Mathlib.Analysis.SpecificLimits.Basic
import Mathlib.Analysis.Real.Pi.Bounds
import Mathlib.Tactic.FieldSimp
import Mathlib.Tactic.Positivity
import Mathlib.Tactic.LinearCombination

/-!
# C65: uptake of trace gases by one droplet (Henry's law)
-/
namespace LCP.Chem
open LCP.Common Filter

/-! ### specification: chemical equilibrium -/

/-- Van 't Hoff: an equilibrium constant given at 298 K, at temperature `T` -/
noncomputable def vantHoff (k298 dHoverR T : ℝ) : ℝ := k298 * Real.exp (dHoverR * (1 / T - 1 / 298))

/-- a substance of total concentration `C`, undissociated `u`, with ions `b` (after the loss of one H⁺) and `s` (two), at the H⁺ concentration `h`
and dissociation constants `K1`, `K2` -/
structure Diprotic (K1 K2 h C u b s : ℝ) : Prop where
  total : u + b + s = C
  first : h * b = K1 * u
  second : h * s = K2 * b

/-- one dissociation only -/
structure Monoprotic (K h C u b : ℝ) : Prop where
  total : u + b = C
  law : h * b = K * u

/-- a base taking up H⁺ from water: `b·[OH⁻] = K u` with `[H⁺][OH⁻] = Kw` -/
structure Base (K Kw h C u b : ℝ) : Prop where
  total : u + b = C
  law : b * (Kw / h) = K * u

/-- Henry constants at 298 K in mol/l/atm -/
noncomputable def henry298 : Sp → ℝ
  | .SO2 => 1.23
  | .H2O2 => 7.45e4
  | .O3 => 0.0113
  | .NH3 => 62
  | .HNO3 => 2.1e5
  | .CO2 => 0.034
  | _ => 0

/-- a gas of partial pressure `p` [Pa] is in equilibrium with the total concentration `C` [mol/m³] dissolved in water with
the H⁺ concentration `h` [mol/m³] at temperature `T`: Henry's law for the undissociated part, dissociation equilibria for the rest
(the constants of Kreidenweis et al. 2003 and Seinfeld & Pandis in mol/l, i.e. 1000 mol/m³) -/
def InEquilibrium (g : Sp) (T h p C : ℝ) : Prop :=
  match g with
  | .SO2 => ∃ u b s, u = vantHoff (henry298 .SO2 * 1000 / 101325) 3150 T * p ∧
      Diprotic (vantHoff (0.013 * 1000) 1960 T) (vantHoff (6.6e-8 * 1000) 1500 T) h C u b s
  | .CO2 => ∃ u b s, u = vantHoff (henry298 .CO2 * 1000 / 101325) 2440 T * p ∧
      Diprotic (vantHoff (4.3e-7 * 1000) (-1000) T) (vantHoff (4.68e-11 * 1000) (-1760) T) h C u b s
  | .HNO3 => ∃ u b, u = vantHoff (henry298 .HNO3 * 1000 / 101325) 8700 T * p ∧ Monoprotic (vantHoff (15.4 * 1000) 8700 T) h C u b
  | .NH3 => ∃ u b, u = vantHoff (henry298 .NH3 * 1000 / 101325) 4100 T * p ∧ Base (vantHoff (1.7e-5 * 1000) (-450) T) 1e-8 h C u b
  | .H2O2 => C = vantHoff (henry298 .H2O2 * 1000 / 101325) 7300 T * p
  | .O3 => C = vantHoff (henry298 .O3 * 1000 / 101325) 2540 T * p
  | _ => False

/-! ### positivity -/

theorem atT_pos (T k d : ℝ) (h : 0 < k) : 0 < atT T k d := mul_pos h (Real.exp_pos _)

theorem M_H_pos' : 0 < M_H := by unfold M_H; norm_num

theorem Hc_pos (g : Sp) (hg : g ∈ gases) : 0 < Hc g := by
  cases g <;> simp [gases] at hg <;> unfold Hc p_stp <;> norm_num

theorem Mgas_pos (g : Sp) (hg : g ∈ gases) : 0 < Mgas g := by
  cases g <;> simp [gases] at hg <;> norm_num [Mgas, M_HNO3, M_NH3, M_CO2, M_SO2, M_H2O2, M_O3]

theorem Maq_pos (g : Sp) (hg : g ∈ gases) : 0 < Maq g := by
  cases g <;> simp [gases] at hg <;> norm_num [Maq, M_HNO3, M_NH3_H2O, M_CO2_H2O, M_SO2_H2O, M_H2O2, M_O3]

theorem Dg_pos (g : Sp) (hg : g ∈ gases) : 0 < Dg g := by
  cases g <;> simp [gases] at hg <;> unfold Dg <;> norm_num

theorem acc_pos (g : Sp) (hg : g ∈ gases) : 0 < acc g := by
  cases g <;> simp [gases] at hg <;> unfold acc <;> norm_num

theorem K_H2O_pos : 0 < K_H2O := by unfold K_H2O; norm_num
theorem KtSO2_pos (T : ℝ) : 0 < KtSO2 T := atT_pos _ _ _ (by norm_num)
theorem KtHSO3_pos (T : ℝ) : 0 < KtHSO3 T := atT_pos _ _ _ (by norm_num)
theorem KtHSO4_pos (T : ℝ) : 0 < KtHSO4 T := atT_pos _ _ _ (by norm_num)
theorem KtCO2_pos (T : ℝ) : 0 < KtCO2 T := atT_pos _ _ _ (by norm_num)
theorem KtHCO3_pos (T : ℝ) : 0 < KtHCO3 T := atT_pos _ _ _ (by norm_num)
theorem KtNH3_pos (T : ℝ) : 0 < KtNH3 T := atT_pos _ _ _ (by norm_num)
theorem KtHNO3_pos (T : ℝ) : 0 < KtHNO3 T := atT_pos _ _ _ (by norm_num)

theorem hlp_pos (g : Sp) (T h : ℝ) (hh : 0 < h) : 0 < hlp g T h := by
  have := KtSO2_pos T; have := KtHSO3_pos T; have := KtCO2_pos T; have := KtHCO3_pos T; have := KtNH3_pos T; have := KtHNO3_pos T
  have := K_H2O_pos
  cases g <;> unfold hlp <;> simp only [] <;> positivity

theorem kaBoNA_pos : 0 < kaBoNA := by unfold kaBoNA; norm_num

theorem molecVel_pos (T M : ℝ) (hT : 0 < T) (hM : 0 < M) : 0 < molecVel T M := by
  unfold molecVel
  have := Real.pi_pos; have := kaBoNA_pos
  exact Real.sqrt_pos.2 (by positivity)

theorem massTrans_pos (rw2 D a T M : ℝ) (hr : 0 < rw2) (hD : 0 < D) (ha : 0 < a) (hT : 0 < T) (hM : 0 < M) : 0 < massTrans rw2 D a T M := by
  unfold massTrans
  have := molecVel_pos T M hT hM
  have := Real.sqrt_pos.2 hr
  positivity

/-- molar masses in g/mol (specification) -/
noncomputable def gPerMol : Sp → ℝ
  | .SO2 => 64 | .H2O2 => 34 | .O3 => 48 | .NH3 => 17 | .HNO3 => 63 | .CO2 => 44 | _ => 0

/-- diffusivities in cm²/s (Massman 1998, Tang et al. 2014) -/
noncomputable def cm2PerS : Sp → ℝ
  | .SO2 => 0.1089 | .H2O2 => 0.87 | .O3 => 0.1444 | .NH3 => 0.1978 | .HNO3 => 0.6525 | .CO2 => 0.1381 | _ => 0

/-- accommodation coefficients (Kreidenweis et al. 2003) -/
noncomputable def accom : Sp → ℝ
  | .SO2 => 0.035 | .H2O2 => 0.018 | .O3 => 0.00053 | .NH3 => 0.05 | .HNO3 => 0.05 | .CO2 => 0.05 | _ => 0

theorem Mgas_eq (g : Sp) : Mgas g = gPerMol g / 1000 := by
  cases g <;> norm_num [Mgas, gPerMol, M_HNO3, M_NH3, M_CO2, M_SO2, M_H2O2, M_O3]

theorem Dg_eq (g : Sp) : Dg g = cm2PerS g / 10000 := by cases g <;> norm_num [Dg, cm2PerS]

theorem acc_eq (g : Sp) : acc g = accom g := by cases g <;> norm_num [acc, accom]

/-- transfer rate of gas `g` to a droplet of radius `r` (specification): gas-phase diffusion and interfacial resistance in series, with the mean
molecular speed `sqrt(8RT/(πM))` -/
noncomputable def transfer (g : Sp) (r T : ℝ) : ℝ :=
  1 / (r ^ 2 / (3 * (cm2PerS g / 10000)) + 4 * r / (3 * accom g * Real.sqrt (8 * kaBoNA * T / (Real.pi * (gPerMol g / 1000)))))

theorem massTrans_eq (g : Sp) (r T : ℝ) (hr : 0 ≤ r) : massTrans (r ^ 2) (Dg g) (acc g) T (Mgas g) = transfer g r T := by
  unfold massTrans transfer molecVel
  rw [← Mgas_eq, ← Dg_eq, ← acc_eq]
  rw [Real.sqrt_sq hr]
  have e : 8 / Real.pi * (kaBoNA * T / Mgas g) = 8 * kaBoNA * T / (Real.pi * Mgas g) := by
    rw [div_mul_div_comm]; ring
  rw [e]
  congr 1
  ring

theorem transfer_pos (g : Sp) (hg : g ∈ gases) (r T : ℝ) (hr : 0 < r) (hT : 0 < T) : 0 < transfer g r T := by
  rw [← massTrans_eq g r T hr.le]
  exact massTrans_pos _ _ _ _ _ (by positivity) (Dg_pos g hg) (acc_pos g hg) hT (Mgas_pos g hg)

/-! ### the equilibrium -/

/-- mass in equilibrium with a gas of mixing ratio `c` -/
noncomputable def eqMass (g : Sp) (V T c rhod h : ℝ) : ℝ := V * c * rhod * (Maq g / Mgas g) * (atT T (Hc g) (dHR g) * hlp g T h) * kaBoNA * T

/-- effective Henry constant times R T -/
noncomputable def HRT (g : Sp) (T h : ℝ) : ℝ := atT T (Hc g) (dHR g) * hlp g T h * kaBoNA * T

theorem HRT_pos (g : Sp) (hg : g ∈ gases) (T h : ℝ) (hT : 0 < T) (hh : 0 < h) : 0 < HRT g T h := by
  unfold HRT
  have := atT_pos T (Hc g) (dHR g) (Hc_pos g hg); have := hlp_pos g T h hh; have := kaBoNA_pos
  positivity

theorem diprotic_iff (K1 K2 h C u : ℝ) (hh : 0 < h) : (∃ b s, Diprotic K1 K2 h C u b s) ↔ C = u * (1 + K1 / h + K1 * K2 / h / h) := by
  constructor
  · rintro ⟨b, s, h1, h2, h3⟩
    have hb : b = K1 * u / h := by field_simp; linarith
    have hs : s = K2 * b / h := by field_simp; linarith
    rw [← h1, hs, hb]; field_simp
  · intro h1
    refine ⟨K1 * u / h, K2 * (K1 * u / h) / h, ?_, ?_, ?_⟩
    · rw [h1]; field_simp
    · field_simp
    · field_simp

theorem monoprotic_iff (K h C u : ℝ) (hh : 0 < h) : (∃ b, Monoprotic K h C u b) ↔ C = u * (1 + K / h) := by
  constructor
  · rintro ⟨b, h1, h2⟩
    have hb : b = K * u / h := by field_simp; linarith
    rw [← h1, hb]; field_simp
  · intro h1
    refine ⟨K * u / h, ?_, ?_⟩
    · rw [h1]; field_simp
    · field_simp

theorem base_iff (K Kw h C u : ℝ) (hh : 0 < h) (hw : 0 < Kw) : (∃ b, Base K Kw h C u b) ↔ C = u * (1 + K / Kw * h) := by
  constructor
  · rintro ⟨b, h1, h2⟩
    have hb : b = K * u / Kw * h := by field_simp at h2 ⊢; linarith
    rw [← h1, hb]; field_simp
  · intro h1
    refine ⟨K * u / Kw * h, ?_, ?_⟩
    · rw [h1]; field_simp
    · field_simp

theorem exists_eq3 (A : ℝ) (P : ℝ → ℝ → ℝ → Prop) : (∃ u b s, u = A ∧ P u b s) ↔ ∃ b s, P A b s :=
  ⟨fun ⟨_, b, s, e, h⟩ => ⟨b, s, e ▸ h⟩, fun ⟨b, s, h⟩ => ⟨A, b, s, rfl, h⟩⟩

theorem exists_eq2 (A : ℝ) (P : ℝ → ℝ → Prop) : (∃ u b, u = A ∧ P u b) ↔ ∃ b, P A b :=
  ⟨fun ⟨_, b, e, h⟩ => ⟨b, e ▸ h⟩, fun ⟨b, h⟩ => ⟨A, b, rfl, h⟩⟩

theorem inEquilibrium_iff (g : Sp) (hg : g ∈ gases) (T h p C : ℝ) (hh : 0 < h) : InEquilibrium g T h p C ↔ C = atT T (Hc g) (dHR g) * hlp g T h * p := by
  have e : ∀ k d, vantHoff k d T = atT T k d := fun _ _ => rfl
  cases g <;> simp [gases] at hg
  · unfold InEquilibrium
    simp only []
    rw [exists_eq2, monoprotic_iff _ _ _ _ hh, e, e]
    have h1 : henry298 .HNO3 * 1000 / 101325 = Hc .HNO3 := by norm_num [henry298, Hc, p_stp]
    rw [h1]
    unfold hlp KtHNO3 dHR
    norm_num
    ring_nf
  · unfold InEquilibrium
    simp only []
    rw [exists_eq2, base_iff _ _ _ _ _ hh (by norm_num), e, e]
    have h1 : henry298 .NH3 * 1000 / 101325 = Hc .NH3 := by norm_num [henry298, Hc, p_stp]
    have h2 : K_H2O = 1e-8 := by norm_num [K_H2O]
    rw [h1]
    unfold hlp KtNH3 dHR
    rw [h2]
    norm_num
    ring_nf
  · unfold InEquilibrium
    simp only []
    rw [exists_eq3, diprotic_iff _ _ _ _ _ hh, e, e, e]
    have h1 : henry298 .CO2 * 1000 / 101325 = Hc .CO2 := by norm_num [henry298, Hc, p_stp]
    rw [h1]
    unfold hlp KtCO2 KtHCO3 dHR
    norm_num
    ring_nf
  · unfold InEquilibrium
    simp only []
    rw [exists_eq3, diprotic_iff _ _ _ _ _ hh, e, e, e]
    have h1 : henry298 .SO2 * 1000 / 101325 = Hc .SO2 := by norm_num [henry298, Hc, p_stp]
    rw [h1]
    unfold hlp KtSO2 KtHSO3 dHR
    norm_num
    ring_nf
  · unfold InEquilibrium
    simp only []
    have h1 : henry298 .H2O2 * 1000 / 101325 = Hc .H2O2 := by norm_num [henry298, Hc, p_stp]
    rw [h1, e]
    unfold hlp dHR
    norm_num
  · unfold InEquilibrium
    simp only []
    have h1 : henry298 .O3 * 1000 / 101325 = Hc .O3 := by norm_num [henry298, Hc, p_stp]
    rw [h1, e]
    unfold hlp dHR
    norm_num

/-! ### one droplet -/

/-- share of the distance from equilibrium left after a time step -/
noncomputable def left (g : Sp) (dt V T rw2 mH : ℝ) : ℝ := 1 / (1 + dt * massTrans rw2 (Dg g) (acc g) T (Mgas g) / HRT g T (mH / M_H / V))

theorem henryFun_eq (g : Sp) (hg : g ∈ gases) (dt V T c mOld rw2 rhod mH : ℝ) (hdt : 0 ≤ dt) (hV : 0 < V) (hT : 0 < T) (hr : 0 < rw2) (hH : 0 < mH) :
    henryFun g dt V T c mOld rw2 rhod mH = eqMass g V T c rhod (mH / M_H / V) + left g dt V T rw2 mH * (mOld - eqMass g V T c rhod (mH / M_H / V)) := by
  have hk := massTrans_pos rw2 (Dg g) (acc g) T (Mgas g) hr (Dg_pos g hg) (acc_pos g hg) hT (Mgas_pos g hg)
  have hh : 0 < mH / M_H / V := by have := M_H_pos'; positivity
  have hR := HRT_pos g hg T (mH / M_H / V) hT hh
  have hR' : atT T (Hc g) (dHR g) * hlp g T (mH / M_H / V) * kaBoNA * T = HRT g T (mH / M_H / V) := rfl
  unfold henryFun left eqMass
  simp only []
  set k := massTrans rw2 (Dg g) (acc g) T (Mgas g)
  have e1 : dt * k / (atT T (Hc g) (dHR g) * hlp g T (mH / M_H / V)) / kaBoNA / T = dt * k / HRT g T (mH / M_H / V) := by
    rw [div_div, div_div, ← mul_assoc, hR']
  have e2 : V * c * rhod * (Maq g / Mgas g) * (atT T (Hc g) (dHR g) * hlp g T (mH / M_H / V)) * kaBoNA * T =
      V * c * rhod * (Maq g / Mgas g) * HRT g T (mH / M_H / V) := by rw [← hR']; ring
  rw [e1, e2]
  set R := HRT g T (mH / M_H / V)
  have h1 : 1 + dt * k / R ≠ 0 := by positivity
  field_simp
  ring

theorem left_mem (g : Sp) (hg : g ∈ gases) (dt V T rw2 mH : ℝ) (hdt : 0 < dt) (hV : 0 < V) (hT : 0 < T) (hr : 0 < rw2) (hH : 0 < mH) :
    0 < left g dt V T rw2 mH ∧ left g dt V T rw2 mH < 1 := by
  have hk := massTrans_pos rw2 (Dg g) (acc g) T (Mgas g) hr (Dg_pos g hg) (acc_pos g hg) hT (Mgas_pos g hg)
  have hh : 0 < mH / M_H / V := by have := M_H_pos'; positivity
  have hR := HRT_pos g hg T (mH / M_H / V) hT hh
  have h1 : 0 < dt * massTrans rw2 (Dg g) (acc g) T (Mgas g) / HRT g T (mH / M_H / V) := by positivity
  unfold left
  exact ⟨by positivity, by rw [div_lt_one (by positivity)]; linarith⟩

/-- **C65 (equilibrium).** A droplet's dissolved mass of a gas stays as it is exactly if its concentration is in equilibrium with the partial
pressure `c ρd/M · R T` of the gas: Henry's law and the dissociation laws. -/
theorem henry_equilibrium (g : Sp) (hg : g ∈ gases) (dt V T c m rw2 rhod mH : ℝ) (hdt : 0 < dt) (hV : 0 < V) (hT : 0 < T) (hr : 0 < rw2) (hH : 0 < mH) :
    henryFun g dt V T c m rw2 rhod mH = m ↔ InEquilibrium g T (mH / M_H / V) (c * rhod / Mgas g * kaBoNA * T) (m / Maq g / V) := by
  have hh : 0 < mH / M_H / V := by have := M_H_pos'; positivity
  obtain ⟨l0, l1⟩ := left_mem g hg dt V T rw2 mH hdt hV hT hr hH
  have ha := Maq_pos g hg; have hm := Mgas_pos g hg
  rw [henryFun_eq g hg dt V T c m rw2 rhod mH hdt.le hV hT hr hH, inEquilibrium_iff g hg _ _ _ _ hh]
  set E := eqMass g V T c rhod (mH / M_H / V) with hE
  have h1 : E + left g dt V T rw2 mH * (m - E) = m ↔ m = E := by
    constructor
    · intro h
      have : (1 - left g dt V T rw2 mH) * (m - E) = 0 := by linear_combination -h
      rcases mul_eq_zero.1 this with h | h
      · linarith
      · linarith
    · rintro rfl; ring
  rw [h1, hE]
  unfold eqMass
  have h2 : atT T (Hc g) (dHR g) * hlp g T (mH / M_H / V) * (c * rhod / Mgas g * kaBoNA * T) =
      (V * c * rhod * (Maq g / Mgas g) * (atT T (Hc g) (dHR g) * hlp g T (mH / M_H / V)) * kaBoNA * T) / Maq g / V := by
    field_simp
  rw [h2]
  constructor
  · intro h; rw [h]
  · intro h
    field_simp at h ⊢
    linarith

/-- **C65 (stability).** Whatever the time step, the new mass lies strictly between the old one and the equilibrium - there is no overshoot;
it is not negative. -/
theorem henry_between (g : Sp) (hg : g ∈ gases) (dt V T c m E rw2 rhod mH : ℝ) (hdt : 0 < dt) (hV : 0 < V) (hT : 0 < T) (hr : 0 < rw2) (hH : 0 < mH)
    (hE : InEquilibrium g T (mH / M_H / V) (c * rhod / Mgas g * kaBoNA * T) (E / Maq g / V)) :
    (m < E → m < henryFun g dt V T c m rw2 rhod mH ∧ henryFun g dt V T c m rw2 rhod mH < E) ∧
    (E < m → E < henryFun g dt V T c m rw2 rhod mH ∧ henryFun g dt V T c m rw2 rhod mH < m) := by
  obtain ⟨l0, l1⟩ := left_mem g hg dt V T rw2 mH hdt hV hT hr hH
  have h0 := (henry_equilibrium g hg dt V T c E rw2 rhod mH hdt hV hT hr hH).2 hE
  rw [henryFun_eq g hg dt V T c E rw2 rhod mH hdt.le hV hT hr hH] at h0
  rw [henryFun_eq g hg dt V T c m rw2 rhod mH hdt.le hV hT hr hH]
  set E' := eqMass g V T c rhod (mH / M_H / V)
  have : E = E' := by
    have : (1 - left g dt V T rw2 mH) * (E - E') = 0 := by linear_combination -h0
    rcases mul_eq_zero.1 this with h | h <;> linarith
  subst this
  constructor <;> intro h <;> constructor <;> nlinarith

theorem henryFun_nonneg (g : Sp) (hg : g ∈ gases) (dt V T c m rw2 rhod mH : ℝ) (hdt : 0 ≤ dt) (hV : 0 ≤ V) (hT : 0 < T) (hr : 0 ≤ rw2) (hH : 0 ≤ mH)
    (hm : 0 ≤ m) (hc : 0 ≤ c) (hrho : 0 ≤ rhod) : 0 ≤ henryFun g dt V T c m rw2 rhod mH := by
  have hD := Dg_pos g hg; have ha := acc_pos g hg; have hM := Mgas_pos g hg; have hA := Maq_pos g hg
  have hmv := molecVel_pos T (Mgas g) hT hM
  have hk : 0 ≤ massTrans rw2 (Dg g) (acc g) T (Mgas g) := by
    unfold massTrans
    have := Real.sqrt_nonneg rw2
    positivity
  have hh : 0 ≤ mH / M_H / V := by have := M_H_pos'; positivity
  have hl : 0 ≤ hlp g T (mH / M_H / V) := by
    have := (KtSO2_pos T).le; have := (KtHSO3_pos T).le; have := (KtCO2_pos T).le; have := (KtHCO3_pos T).le; have := (KtNH3_pos T).le
    have := (KtHNO3_pos T).le; have := K_H2O_pos.le
    cases g <;> unfold hlp <;> simp only [] <;> positivity
  have hHe := (atT_pos T (Hc g) (dHR g) (Hc_pos g hg)).le
  have := kaBoNA_pos
  unfold henryFun
  simp only []
  positivity

/-- the mass in equilibrium (specification of a sequence: `n` steps in unchanging air) -/
theorem henry_steps (g : Sp) (hg : g ∈ gases) (dt V T c m E rw2 rhod mH : ℝ) (hdt : 0 < dt) (hV : 0 < V) (hT : 0 < T) (hr : 0 < rw2) (hH : 0 < mH)
    (hE : InEquilibrium g T (mH / M_H / V) (c * rhod / Mgas g * kaBoNA * T) (E / Maq g / V)) :
    Tendsto (fun n => (fun m => henryFun g dt V T c m rw2 rhod mH)^[n] m) atTop (nhds E) := by
  obtain ⟨l0, l1⟩ := left_mem g hg dt V T rw2 mH hdt hV hT hr hH
  have h0 := (henry_equilibrium g hg dt V T c E rw2 rhod mH hdt hV hT hr hH).2 hE
  have hstep : ∀ m, henryFun g dt V T c m rw2 rhod mH - E = left g dt V T rw2 mH * (m - E) := by
    intro m
    conv_lhs => rw [← h0]
    rw [henryFun_eq g hg dt V T c m rw2 rhod mH hdt.le hV hT hr hH, henryFun_eq g hg dt V T c E rw2 rhod mH hdt.le hV hT hr hH]
    ring
  have hn : ∀ n : ℕ, (fun m => henryFun g dt V T c m rw2 rhod mH)^[n] m = E + left g dt V T rw2 mH ^ n * (m - E) := by
    intro n
    induction n with
    | zero => simp
    | succ n ih =>
      rw [Function.iterate_succ_apply', ih]
      have := hstep (E + left g dt V T rw2 mH ^ n * (m - E))
      rw [pow_succ]
      linear_combination this
  simp only [hn]
  have := (tendsto_pow_atTop_nhds_zero_of_lt_one l0.le l1).mul_const (m - E)
  rw [zero_mul] at this
  simpa using this.const_add E

/-- **C65 (rate).** To first order in the time step the uptake is that of the two-film model: `dm/dt = k (V c ρd M_aq/M_gas - m/(H R T))`, where `H` is the
concentration in equilibrium with a unit pressure. -/
theorem henry_rate (g : Sp) (hg : g ∈ gases) (V T c m r rhod mH He : ℝ) (hV : 0 < V) (hT : 0 < T) (hr : 0 < r) (hH : 0 < mH)
    (hHe : InEquilibrium g T (mH / M_H / V) 1 He) :
    HasDerivAt (fun dt => henryFun g dt V T c m (r ^ 2) rhod mH) (transfer g r T * (V * c * rhod * Maq g / Mgas g - m / (He * kaBoNA * T))) 0 := by
  have hh : 0 < mH / M_H / V := by have := M_H_pos'; positivity
  have hR := HRT_pos g hg T (mH / M_H / V) hT hh
  rw [inEquilibrium_iff g hg _ _ _ _ hh, mul_one] at hHe
  have hR' : He * kaBoNA * T = HRT g T (mH / M_H / V) := by rw [hHe]; rfl
  have e : (fun dt => henryFun g dt V T c m (r ^ 2) rhod mH) = fun dt =>
      (m + dt * (V * transfer g r T * c * rhod * (Maq g / Mgas g))) / (1 + dt * (transfer g r T / HRT g T (mH / M_H / V))) := by
    funext dt
    unfold henryFun
    simp only []
    rw [massTrans_eq g r T hr.le, ← hHe]
    congr 1
    · ring
    · rw [div_div, div_div, ← mul_assoc, hR', mul_div_assoc]
  rw [e, hR']
  set R := HRT g T (mH / M_H / V)
  have d1 : HasDerivAt (fun dt : ℝ => m + dt * (V * transfer g r T * c * rhod * (Maq g / Mgas g))) (1 * (V * transfer g r T * c * rhod * (Maq g / Mgas g))) 0 :=
    ((hasDerivAt_id (0 : ℝ)).mul_const _).const_add _
  have d2 : HasDerivAt (fun dt : ℝ => 1 + dt * (transfer g r T / R)) (1 * (transfer g r T / R)) 0 := ((hasDerivAt_id (0 : ℝ)).mul_const _).const_add _
  have d3 := d1.div d2 (by norm_num)
  refine HasDerivAt.congr_deriv d3 ?_
  have e0 : (1 : ℝ) + 0 * (transfer g r T / R) = 1 := by ring
  have e1 : m + 0 * (V * transfer g r T * c * rhod * (Maq g / Mgas g)) = m := by ring
  rw [e0, e1]
  ring

/-- a droplet of 10 µm at pH 4, 280 K and SO₂ of 1 ppb meets the hypotheses, and an equilibrium exists for every gas -/
example : ∃ E, InEquilibrium .SO2 280 (1e-4 * 1000) (1e-9 * 1 / Mgas .SO2 * kaBoNA * 280) E :=
  ⟨_, (inEquilibrium_iff .SO2 (by simp [gases]) _ _ _ _ (by norm_num)).2 rfl⟩

example : 0 < dropVol 1e-10 := by
  unfold dropVol
  have := Real.pi_pos
  positivity

end LCP.Chem
