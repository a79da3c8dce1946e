import Verif.Chem.Dissoc

/-!
# C68: oxidation of S(IV) by ozone and hydrogen peroxide
-/
namespace LCP.Chem
open LCP.Common

/-! ### specification -/

/-- moles of species `s` in droplet `i` -/
noncomputable def moles (x : CSt) (s : Sp) (i : ℕ) : ℝ := x.chem s i / (gPerMolAq s / 1000)

/-- rate law of the oxidation by ozone [mol/m³/s]: `(k0 [SO2·H2O] + k1 [HSO3⁻] + k2 [SO3²⁻]) [O3]`, constants in l/mol/s at 298 K with their activation
energies over R -/
noncomputable def ozoneLaw (T so2 hso3 so3 o3 : ℝ) : ℝ :=
  (vantHoff (2.4e4 / 1000) 0 T * so2 + vantHoff (3.7e5 / 1000) (-5530) T * hso3 + vantHoff (1.5e9 / 1000) (-5280) T * so3) * o3

/-- rate law of the oxidation by hydrogen peroxide [mol/m³/s]: `k [H⁺] [H2O2] [HSO3⁻] / (1 + K [H⁺])`, k = 7.5·10⁷ l²/mol²/s, K = 13 l/mol -/
noncomputable def peroxideLaw (T h hso3 h2o2 : ℝ) : ℝ :=
  vantHoff (7.5e7 / 1000 ^ 2) (-4430) T * h * h2o2 * hso3 / (1 + 13 / 1000 * h)

/-! ### the rates -/

theorem min_ite (r a dt : ℝ) (hdt : 0 < dt) : (if r * dt < a then r else a / dt) = min r (a / dt) := by
  split_ifs with h
  · rw [min_eq_left]
    rw [le_div_iff₀ hdt]; exact h.le
  · rw [min_eq_right]
    rw [div_le_iff₀ hdt]; exact not_lt.1 h

theorem gAq_eq' : gPerMolAq .H2O2 / 1000 = M_H2O2 ∧ gPerMolAq .O3 / 1000 = M_O3 := by
  norm_num [gPerMolAq, M_H2O2, M_O3]

/-- **C68 (rate laws).** The reactions run at the rates given by the rate laws for the dissociated S(IV), unless this would exhaust within the time step the
oxidant or the S(IV) that is left: then at the rate that exhausts it exactly. -/
theorem react_rates (dt V T : ℝ) (m : Masses) (mH u b s : ℝ) (hdt : 0 < dt) (hV : 0 < V) (hH : 0 < mH)
    (hd : Diprotic (vantHoff (0.013 * 1000) 1960 T) (vantHoff (6.6e-8 * 1000) 1500 T) (mH / (1 / 1000) / V) (conc m V .SO2) u b s) :
    o3React dt V T m mH = min (min (V * ozoneLaw T u b s (conc m V .O3)) (V * conc m V .O3 / dt)) (V * conc m V .SO2 / dt) ∧
    h2o2React dt V T m mH = min (min (V * peroxideLaw T (mH / (1 / 1000) / V) b (conc m V .H2O2)) (V * conc m V .H2O2 / dt)) (V * conc m V .SO2 / dt - o3React dt V T m mH) := by
  have mh := M_H_pos'
  have eMH : (1 : ℝ) / 1000 = M_H := by norm_num [M_H]
  have e1 : vantHoff (0.013 * 1000) 1960 T = KtSO2 T := by unfold vantHoff KtSO2 atT; norm_num
  have e2 : vantHoff (6.6e-8 * 1000) 1500 T = KtHSO3 T := by unfold vantHoff KtHSO3 atT; norm_num
  have f0 : vantHoff (2.4e4 / 1000) 0 T = RO3k0 T := by unfold vantHoff RO3k0 atT; norm_num
  have f1 : vantHoff (3.7e5 / 1000) (-5530) T = RO3k1 T := by unfold vantHoff RO3k1 atT; norm_num
  have f2 : vantHoff (1.5e9 / 1000) (-5280) T = RO3k2 T := by unfold vantHoff RO3k2 atT; norm_num
  have f3 : vantHoff (7.5e7 / 1000 ^ 2) (-4430) T = RH2O2k T := by unfold vantHoff RH2O2k atT; norm_num
  have f4 : (13 : ℝ) / 1000 = RH2O2K := by unfold RH2O2K; norm_num
  obtain ⟨g1, g2, g3, g4, g5, g6⟩ := gAq_eq
  obtain ⟨g7, g8⟩ := gAq_eq'
  rw [e1, e2, eMH] at hd
  set h := mH / M_H / V with hh
  have hp : 0 < h := by rw [hh]; positivity
  have k1 := KtSO2_pos T; have k2 := KtHSO3_pos T
  have c1 : V * conc m V .O3 = m .O3 / M_O3 := by unfold conc; rw [g8]; field_simp
  have c2 : V * conc m V .SO2 = m .SO2 / M_SO2_H2O := by unfold conc; rw [g1]; field_simp
  have c3 : V * conc m V .H2O2 = m .H2O2 / M_H2O2 := by unfold conc; rw [g7]; field_simp
  have hu : u = conc m V .SO2 / (1 + KtSO2 T / h + KtSO2 T * KtHSO3 T / h / h) := by
    have := (diprotic_iff _ _ h (conc m V .SO2) u hp).1 ⟨b, s, hd⟩
    rw [this]; field_simp
  have hb : b = KtSO2 T * u / h := by have := hd.first; field_simp; linarith
  have hs : s = KtSO2 T * KtHSO3 T * u / h / h := by have := hd.second; rw [hb] at this; field_simp at this ⊢; linarith
  have q1 : conc m V .SO2 = m .SO2 / M_SO2_H2O / V := by unfold conc; rw [g1]
  have q2 : conc m V .O3 = m .O3 / M_O3 / V := by unfold conc; rw [g8]
  have q3 : conc m V .H2O2 = m .H2O2 / M_H2O2 / V := by unfold conc; rw [g7]
  constructor
  · unfold o3React
    simp only []
    rw [min_ite _ _ _ hdt, min_ite _ _ _ hdt, c1, c2, ← hh]
    congr 2
    unfold ozoneLaw
    rw [f0, f1, f2, hb, hs, hu, q1, q2]
    ring
  · unfold h2o2React
    simp only []
    set o := o3React dt V T m mH
    have hx : ∀ r, (if r * dt < m .SO2 / M_SO2_H2O - o * dt then r else m .SO2 / M_SO2_H2O / dt - o) = min r (m .SO2 / M_SO2_H2O / dt - o) := by
      intro r
      have := min_ite r (m .SO2 / M_SO2_H2O - o * dt) dt hdt
      rw [sub_div, mul_div_cancel_right₀ _ hdt.ne'] at this
      exact this
    rw [min_ite _ _ _ hdt, hx, c2, c3, eMH, ← hh]
    congr 2
    unfold peroxideLaw
    rw [f3, f4, hb, hu, q1, q3]
    have : h * (KtSO2 T * (m .SO2 / M_SO2_H2O / V / (1 + KtSO2 T / h + KtSO2 T * KtHSO3 T / h / h)) / h) = KtSO2 T * (m .SO2 / M_SO2_H2O / V / (1 + KtSO2 T / h + KtSO2 T * KtHSO3 T / h / h)) := by
      field_simp
    rw [show RH2O2k T * h * (m .H2O2 / M_H2O2 / V) * (KtSO2 T * (m .SO2 / M_SO2_H2O / V / (1 + KtSO2 T / h + KtSO2 T * KtHSO3 T / h / h)) / h)
      = RH2O2k T * (m .H2O2 / M_H2O2 / V) * (h * (KtSO2 T * (m .SO2 / M_SO2_H2O / V / (1 + KtSO2 T / h + KtSO2 T * KtHSO3 T / h / h)) / h)) by ring, this]
    ring

/-- bounds of the rates -/
theorem rates_bounds (dt V T : ℝ) (m : Masses) (mH : ℝ) (hdt : 0 < dt) (hV : 0 < V) (hH : 0 < mH) (h1 : 0 ≤ m .SO2) (h2 : 0 ≤ m .O3) (h3 : 0 ≤ m .H2O2) :
    0 ≤ o3React dt V T m mH ∧ 0 ≤ h2o2React dt V T m mH ∧ dt * o3React dt V T m mH ≤ m .O3 / M_O3 ∧ dt * h2o2React dt V T m mH ≤ m .H2O2 / M_H2O2 ∧
    dt * (o3React dt V T m mH + h2o2React dt V T m mH) ≤ m .SO2 / M_SO2_H2O := by
  have mh := M_H_pos'
  have hh : 0 < mH / M_H / V := by positivity
  have k1 := KtSO2_pos T; have k2 := KtHSO3_pos T
  have r0 : 0 < RO3k0 T := atT_pos _ _ _ (by norm_num)
  have r1 : 0 < RO3k1 T := atT_pos _ _ _ (by norm_num)
  have r2 : 0 < RO3k2 T := atT_pos _ _ _ (by norm_num)
  have r3 : 0 < RH2O2k T := atT_pos _ _ _ (by norm_num)
  have r4 : 0 < RH2O2K := by unfold RH2O2K; norm_num
  have p1 : 0 < M_O3 := by norm_num [M_O3]
  have p2 : 0 < M_SO2_H2O := by norm_num [M_SO2_H2O]
  have p3 : 0 < M_H2O2 := by norm_num [M_H2O2]
  have ho : 0 ≤ o3React dt V T m mH ∧ dt * o3React dt V T m mH ≤ m .O3 / M_O3 ∧ dt * o3React dt V T m mH ≤ m .SO2 / M_SO2_H2O := by
    unfold o3React
    simp only []
    rw [min_ite _ _ _ hdt, min_ite _ _ _ hdt]
    set h := mH / M_H / V
    set r := V * m .O3 / M_O3 / V * m .SO2 / M_SO2_H2O / V / (1 + KtSO2 T / h + KtSO2 T * KtHSO3 T / h / h)
      * (RO3k0 T + RO3k1 T * KtSO2 T / h + RO3k2 T * KtSO2 T * KtHSO3 T / h / h) with hr
    have hr0 : 0 ≤ r := by rw [hr]; positivity
    refine ⟨le_min (le_min hr0 (by positivity)) (by positivity), ?_, ?_⟩
    · have : min (min r (m .O3 / M_O3 / dt)) (m .SO2 / M_SO2_H2O / dt) ≤ m .O3 / M_O3 / dt := (min_le_left _ _).trans (min_le_right _ _)
      rw [le_div_iff₀ hdt] at this; linarith
    · have : min (min r (m .O3 / M_O3 / dt)) (m .SO2 / M_SO2_H2O / dt) ≤ m .SO2 / M_SO2_H2O / dt := min_le_right _ _
      rw [le_div_iff₀ hdt] at this; linarith
  obtain ⟨o1, o2, o3⟩ := ho
  unfold h2o2React
  simp only []
  set o := o3React dt V T m mH
  set h := mH / M_H / V
  set r := V * RH2O2k T * KtSO2 T * m .H2O2 / M_H2O2 / V * m .SO2 / M_SO2_H2O / V / (1 + KtSO2 T / h + KtSO2 T * KtHSO3 T / h / h)
    / (1 + RH2O2K * h) with hr
  have hr0 : 0 ≤ r := by rw [hr]; positivity
  rw [min_ite _ _ _ hdt]
  have hx : ∀ r, (if r * dt < m .SO2 / M_SO2_H2O - o * dt then r else m .SO2 / M_SO2_H2O / dt - o) = min r (m .SO2 / M_SO2_H2O / dt - o) := by
    intro r
    have := min_ite r (m .SO2 / M_SO2_H2O - o * dt) dt hdt
    rw [sub_div, mul_div_cancel_right₀ _ hdt.ne'] at this
    exact this
  rw [hx]
  refine ⟨o1, le_min (le_min hr0 (by positivity)) ?_, o2, ?_, ?_⟩
  · rw [sub_nonneg, le_div_iff₀ hdt]; linarith
  · have : min (min r (m .H2O2 / M_H2O2 / dt)) (m .SO2 / M_SO2_H2O / dt - o) ≤ m .H2O2 / M_H2O2 / dt := (min_le_left _ _).trans (min_le_right _ _)
    rw [le_div_iff₀ hdt] at this; linarith
  · have : min (min r (m .H2O2 / M_H2O2 / dt)) (m .SO2 / M_SO2_H2O / dt - o) ≤ m .SO2 / M_SO2_H2O / dt - o := min_le_right _ _
    have h3 : o + min (min r (m .H2O2 / M_H2O2 / dt)) (m .SO2 / M_SO2_H2O / dt - o) ≤ m .SO2 / M_SO2_H2O / dt := by linarith
    rw [le_div_iff₀ hdt] at h3; linarith

/-! ### conservation -/

/-- four stages of odeint for one droplet -/
noncomputable def stage (dt V T mH : ℝ) (fl : Bool) (m : Masses) : Masses := fun s => if fl then rhsHelper dt V T m mH s else 0

/-- the increment of one step -/
noncomputable def incr (dt V T mH : ℝ) (fl : Bool) (m : Masses) : Masses :=
  let k1 := stage dt V T mH fl m
  let k2 := stage dt V T mH fl (fun s => m s + dt / 2 * k1 s)
  let k3 := stage dt V T mH fl (fun s => m s + dt / 2 * k2 s)
  let k4 := stage dt V T mH fl (fun s => m s + dt * k3 s)
  fun s => dt / 6 * k1 s + dt / 3 * k2 s + dt / 3 * k3 s + dt / 6 * k4 s

theorem react_incr (rho dt : ℝ) (vol : ℕ → ℝ) (flag : ℕ → Bool) (x : CSt) (s : Sp) (i : ℕ) :
    (chemReact rho dt vol flag x).chem s i = x.chem s i + incr dt (vol i) (x.T (x.d.ijk i)) (x.chem .H i) (flag i) (fun s => x.chem s i) s := by
  have hz : ∀ m, inRhs s = false → stage dt (vol i) (x.T (x.d.ijk i)) (x.chem .H i) (flag i) m s = 0 := by
    intro m h
    unfold stage
    cases s <;> simp [inRhs] at h <;> simp [rhsHelper]
  unfold chemReact rk4
  simp only []
  split_ifs with h
  · unfold incr chemRhs stage
    simp only []
    ring
  · unfold incr
    simp only []
    rw [hz _ (by simpa using h), hz _ (by simpa using h), hz _ (by simpa using h), hz _ (by simpa using h)]
    ring

theorem stage_sulfur (dt V T mH : ℝ) (fl : Bool) (m : Masses) :
    stage dt V T mH fl m .SO2 / M_SO2_H2O + stage dt V T mH fl m .S_VI / M_H2SO4 = 0 ∧
    stage dt V T mH fl m .S_VI / M_H2SO4 + stage dt V T mH fl m .O3 / M_O3 + stage dt V T mH fl m .H2O2 / M_H2O2 = 0 ∧
    stage dt V T mH fl m .HNO3 = 0 ∧ stage dt V T mH fl m .NH3 = 0 ∧ stage dt V T mH fl m .CO2 = 0 ∧ stage dt V T mH fl m .H = 0 := by
  have p1 : M_O3 ≠ 0 := by norm_num [M_O3]
  have p2 : M_SO2_H2O ≠ 0 := by norm_num [M_SO2_H2O]
  have p3 : M_H2O2 ≠ 0 := by norm_num [M_H2O2]
  have p4 : M_H2SO4 ≠ 0 := by norm_num [M_H2SO4]
  unfold stage
  cases fl
  · simp
  · simp only [if_true, rhsHelper]
    refine ⟨?_, ?_, trivial, trivial, trivial, trivial⟩ <;> · field_simp; ring

/-- **C68 (stoichiometry).** In every droplet, whatever the state and the time step: S(IV) lost = sulfate gained (in moles, so sulfur is conserved) = ozone
lost + hydrogen peroxide lost; HNO₃, NH₃, CO₂ and H⁺ are untouched. -/
theorem react_stoichiometry (rho dt : ℝ) (vol : ℕ → ℝ) (flag : ℕ → Bool) (x : CSt) (i : ℕ) : let y := chemReact rho dt vol flag x
    moles y .SO2 i + moles y .S_VI i = moles x .SO2 i + moles x .S_VI i ∧
    moles y .S_VI i - moles x .S_VI i = (moles x .O3 i - moles y .O3 i) + (moles x .H2O2 i - moles y .H2O2 i) ∧
    ∀ s ∈ [Sp.HNO3, Sp.NH3, Sp.CO2, Sp.H], y.chem s i = x.chem s i := by
  intro y
  obtain ⟨g1, g2, g3, g4, g5, g6⟩ := gAq_eq
  obtain ⟨g7, g8⟩ := gAq_eq'
  have hy : ∀ s, y.chem s i = _ := fun s => react_incr rho dt vol flag x s i
  set V := vol i
  set T := x.T (x.d.ijk i)
  set mH := x.chem .H i
  set m : Masses := fun s => x.chem s i with hm
  set k1 := stage dt V T mH (flag i) m with hk1
  set k2 := stage dt V T mH (flag i) (fun s => m s + dt / 2 * k1 s) with hk2
  set k3 := stage dt V T mH (flag i) (fun s => m s + dt / 2 * k2 s) with hk3
  set k4 := stage dt V T mH (flag i) (fun s => m s + dt * k3 s) with hk4
  have hi : ∀ s, incr dt V T mH (flag i) m s = dt / 6 * k1 s + dt / 3 * k2 s + dt / 3 * k3 s + dt / 6 * k4 s := fun s => rfl
  obtain ⟨a1, a2, a3, a4, a5, a6⟩ := stage_sulfur dt V T mH (flag i) m
  obtain ⟨b1, b2, b3, b4, b5, b6⟩ := stage_sulfur dt V T mH (flag i) (fun s => m s + dt / 2 * k1 s)
  obtain ⟨c1, c2, c3, c4, c5, c6⟩ := stage_sulfur dt V T mH (flag i) (fun s => m s + dt / 2 * k2 s)
  obtain ⟨d1, d2, d3, d4, d5, d6⟩ := stage_sulfur dt V T mH (flag i) (fun s => m s + dt * k3 s)
  rw [← hk1] at a1 a2 a3 a4 a5 a6
  rw [← hk2] at b1 b2 b3 b4 b5 b6
  rw [← hk3] at c1 c2 c3 c4 c5 c6
  rw [← hk4] at d1 d2 d3 d4 d5 d6
  refine ⟨?_, ?_, ?_⟩
  · unfold moles
    rw [g1, g5, hy, hy, hi, hi]
    linear_combination dt / 6 * a1 + dt / 3 * b1 + dt / 3 * c1 + dt / 6 * d1
  · unfold moles
    rw [g7, g5, g8, hy, hy, hy, hi, hi, hi]
    linear_combination dt / 6 * a2 + dt / 3 * b2 + dt / 3 * c2 + dt / 6 * d2
  · intro s hs
    rw [hy, hi]
    simp only [List.mem_cons, List.not_mem_nil, or_false] at hs
    rcases hs with h | h | h | h <;> subst h
    · rw [a3, b3, c3, d3]; ring
    · rw [a4, b4, c4, d4]; ring
    · rw [a5, b5, c5, d5]; ring
    · rw [a6, b6, c6, d6]; ring

/-- **C68 (dry radius).** The dry mass of a droplet grows by the mass of sulfate produced in it; droplets not dilute enough, and everything else, are left alone. -/
theorem react_dry (rho dt : ℝ) (hrho : rho ≠ 0) (vol : ℕ → ℝ) (flag : ℕ → Bool) (x : CSt) (i : ℕ) : let y := chemReact rho dt vol flag x
    4 / 3 * Real.pi * rho * y.rd3 i - y.chem .S_VI i = 4 / 3 * Real.pi * rho * x.rd3 i - x.chem .S_VI i ∧
    (flag i = false → y.rd3 i = x.rd3 i ∧ ∀ s, y.chem s i = x.chem s i) ∧ y.amb = x.amb ∧ y.rw2 = x.rw2 ∧ y.d = x.d := by
  intro y
  have hpi := Real.pi_pos.ne'
  have hun : flag i = false → ∀ s, y.chem s i = x.chem s i := by
    intro hf s
    have := react_incr rho dt vol flag x s i
    rw [show y.chem s i = _ from this, hf]
    unfold incr stage
    simp
  refine ⟨?_, fun hf => ⟨?_, hun hf⟩, rfl, rfl, rfl⟩
  · cases hf : flag i with
    | false =>
      have h1 := hun hf .S_VI
      have h2 : y.rd3 i = x.rd3 i := by show (if flag i then _ else _) = _; rw [hf]; rfl
      rw [h1, h2]
    | true =>
      have h2 : y.rd3 i = x.rd3 i + 3 / 4 / Real.pi / rho * (y.chem .S_VI i - x.chem .S_VI i) := by show (if flag i then _ else _) = _; rw [hf]; rfl
      rw [h2]
      field_simp
      ring
  · show (if flag i then _ else _) = _; rw [hf]; rfl

/-! ### nothing becomes negative -/

/-- one stage evaluated at masses between 0 and `m` takes at most `m` within the time step -/
theorem stage_bounds (dt V T mH : ℝ) (fl : Bool) (m q : Masses) (hdt : 0 < dt) (hV : fl = true → 0 < V) (hH : fl = true → 0 < mH)
    (hq : ∀ s ∈ [Sp.SO2, Sp.O3, Sp.H2O2], 0 ≤ q s ∧ q s ≤ m s) :
    (∀ s ∈ [Sp.SO2, Sp.O3, Sp.H2O2], stage dt V T mH fl q s ≤ 0 ∧ -m s ≤ dt * stage dt V T mH fl q s) ∧ 0 ≤ stage dt V T mH fl q .S_VI := by
  have p1 : 0 < M_O3 := by norm_num [M_O3]
  have p2 : 0 < M_SO2_H2O := by norm_num [M_SO2_H2O]
  have p3 : 0 < M_H2O2 := by norm_num [M_H2O2]
  have p4 : 0 < M_H2SO4 := by norm_num [M_H2SO4]
  have q1 := hq .SO2 (by simp); have q2 := hq .O3 (by simp); have q3 := hq .H2O2 (by simp)
  unfold stage
  cases fl
  · simp only [Bool.false_eq_true, if_false, mul_zero, le_refl, true_and, and_true]
    intro s hs
    have := hq s hs
    linarith
  · obtain ⟨o1, o2, o3, o4, o5⟩ := rates_bounds dt V T q mH hdt (hV rfl) (hH rfl) q1.1 q2.1 q3.1
    rw [le_div_iff₀ p1] at o3
    rw [le_div_iff₀ p3] at o4
    rw [le_div_iff₀ p2] at o5
    simp only [if_true, rhsHelper]
    refine ⟨?_, by positivity⟩
    intro s hs
    simp only [List.mem_cons, List.not_mem_nil, or_false] at hs
    rcases hs with h | h | h <;> subst h <;> simp only []
    · exact ⟨by have := mul_nonneg p2.le (add_nonneg o1 o2); linarith, by nlinarith⟩
    · exact ⟨by have := mul_nonneg p1.le o1; linarith, by nlinarith⟩
    · exact ⟨by have := mul_nonneg p3.le o2; linarith, by nlinarith⟩

/-- **C68 (no overdraft).** For any time step: S(IV), ozone and hydrogen peroxide in a droplet never become negative and never grow, sulfate never shrinks. -/
theorem react_nonneg (rho dt : ℝ) (hdt : 0 < dt) (vol : ℕ → ℝ) (flag : ℕ → Bool) (x : CSt) (i : ℕ) (hV : flag i = true → 0 < vol i) (hH : flag i = true → 0 < x.chem .H i)
    (hm : ∀ s, 0 ≤ x.chem s i) : let y := chemReact rho dt vol flag x
    (∀ s ∈ [Sp.SO2, Sp.O3, Sp.H2O2], 0 ≤ y.chem s i ∧ y.chem s i ≤ x.chem s i) ∧ x.chem .S_VI i ≤ y.chem .S_VI i ∧ (∀ s, 0 ≤ y.chem s i) := by
  intro y
  have hy : ∀ s, y.chem s i = _ := fun s => react_incr rho dt vol flag x s i
  have hsto := react_stoichiometry rho dt vol flag x i
  set V := vol i
  set T := x.T (x.d.ijk i)
  set mH := x.chem .H i
  set m : Masses := fun s => x.chem s i with hmd
  set k1 := stage dt V T mH (flag i) m with hk1
  set k2 := stage dt V T mH (flag i) (fun s => m s + dt / 2 * k1 s) with hk2
  set k3 := stage dt V T mH (flag i) (fun s => m s + dt / 2 * k2 s) with hk3
  set k4 := stage dt V T mH (flag i) (fun s => m s + dt * k3 s) with hk4
  have hi : ∀ s, incr dt V T mH (flag i) m s = dt / 6 * k1 s + dt / 3 * k2 s + dt / 3 * k3 s + dt / 6 * k4 s := fun s => rfl
  have hm' : ∀ s, 0 ≤ m s := hm
  obtain ⟨a1, a2⟩ := stage_bounds dt V T mH (flag i) m m hdt hV hH (fun s _ => ⟨hm' s, le_refl _⟩)
  rw [← hk1] at a1 a2
  obtain ⟨b1, b2⟩ := stage_bounds dt V T mH (flag i) m (fun s => m s + dt / 2 * k1 s) hdt hV hH (fun s hs => by
    obtain ⟨h1, h2⟩ := a1 s hs
    have := hm' s
    constructor <;> nlinarith)
  rw [← hk2] at b1 b2
  obtain ⟨c1, c2⟩ := stage_bounds dt V T mH (flag i) m (fun s => m s + dt / 2 * k2 s) hdt hV hH (fun s hs => by
    obtain ⟨h1, h2⟩ := b1 s hs
    have := hm' s
    constructor <;> nlinarith)
  rw [← hk3] at c1 c2
  obtain ⟨d1, d2⟩ := stage_bounds dt V T mH (flag i) m (fun s => m s + dt * k3 s) hdt hV hH (fun s hs => by
    obtain ⟨h1, h2⟩ := c1 s hs
    have := hm' s
    constructor <;> nlinarith)
  rw [← hk4] at d1 d2
  have key : ∀ s ∈ [Sp.SO2, Sp.O3, Sp.H2O2], 0 ≤ y.chem s i ∧ y.chem s i ≤ x.chem s i := by
    intro s hs
    obtain ⟨a3, a4⟩ := a1 s hs; obtain ⟨b3, b4⟩ := b1 s hs; obtain ⟨c3, c4⟩ := c1 s hs; obtain ⟨d3, d4⟩ := d1 s hs
    rw [hy, hi]
    have hms : m s = x.chem s i := rfl
    rw [hms] at a4 b4 c4 d4
    constructor
    · nlinarith
    · nlinarith
  have h6 : x.chem .S_VI i ≤ y.chem .S_VI i := by
    rw [hy, hi]
    have : 0 ≤ dt / 6 * k1 .S_VI + dt / 3 * k2 .S_VI + dt / 3 * k3 .S_VI + dt / 6 * k4 .S_VI := by positivity
    linarith
  refine ⟨key, h6, ?_⟩
  intro s
  cases s with
  | SO2 => exact (key _ (by simp)).1
  | O3 => exact (key _ (by simp)).1
  | H2O2 => exact (key _ (by simp)).1
  | S_VI => exact (hm .S_VI).trans h6
  | HNO3 => rw [show y.chem .HNO3 i = _ from hsto.2.2 _ (by simp)]; exact hm _
  | NH3 => rw [show y.chem .NH3 i = _ from hsto.2.2 _ (by simp)]; exact hm _
  | CO2 => rw [show y.chem .CO2 i = _ from hsto.2.2 _ (by simp)]; exact hm _
  | H => rw [show y.chem .H i = _ from hsto.2.2 _ (by simp)]; exact hm _

/-- **C68 (the reaction runs).** Where there is S(IV) and ozone, sulfate is produced. -/
theorem react_proceeds (rho dt : ℝ) (hdt : 0 < dt) (vol : ℕ → ℝ) (flag : ℕ → Bool) (x : CSt) (i : ℕ) (hV : 0 < vol i) (hH : 0 < x.chem .H i)
    (hm : ∀ s, 0 ≤ x.chem s i) (hf : flag i = true) (h1 : 0 < x.chem .SO2 i) (h2 : 0 < x.chem .O3 i) :
    x.chem .S_VI i < (chemReact rho dt vol flag x).chem .S_VI i := by
  rw [react_incr]
  set V := vol i
  set T := x.T (x.d.ijk i)
  set mH := x.chem .H i
  set m : Masses := fun s => x.chem s i with hmd
  set k1 := stage dt V T mH (flag i) m with hk1
  set k2 := stage dt V T mH (flag i) (fun s => m s + dt / 2 * k1 s) with hk2
  set k3 := stage dt V T mH (flag i) (fun s => m s + dt / 2 * k2 s) with hk3
  set k4 := stage dt V T mH (flag i) (fun s => m s + dt * k3 s) with hk4
  have hi : ∀ s, incr dt V T mH (flag i) m s = dt / 6 * k1 s + dt / 3 * k2 s + dt / 3 * k3 s + dt / 6 * k4 s := fun s => rfl
  have hm' : ∀ s, 0 ≤ m s := hm
  obtain ⟨a1, a2⟩ := stage_bounds dt V T mH (flag i) m m hdt (fun _ => hV) (fun _ => hH) (fun s _ => ⟨hm' s, le_refl _⟩)
  rw [← hk1] at a1 a2
  obtain ⟨b1, b2⟩ := stage_bounds dt V T mH (flag i) m (fun s => m s + dt / 2 * k1 s) hdt (fun _ => hV) (fun _ => hH) (fun s hs => by
    obtain ⟨h1, h2⟩ := a1 s hs
    have := hm' s
    constructor <;> nlinarith)
  rw [← hk2] at b1 b2
  obtain ⟨c1, c2⟩ := stage_bounds dt V T mH (flag i) m (fun s => m s + dt / 2 * k2 s) hdt (fun _ => hV) (fun _ => hH) (fun s hs => by
    obtain ⟨h1, h2⟩ := b1 s hs
    have := hm' s
    constructor <;> nlinarith)
  rw [← hk3] at c1 c2
  obtain ⟨d1, d2⟩ := stage_bounds dt V T mH (flag i) m (fun s => m s + dt * k3 s) hdt (fun _ => hV) (fun _ => hH) (fun s hs => by
    obtain ⟨h1, h2⟩ := c1 s hs
    have := hm' s
    constructor <;> nlinarith)
  rw [← hk4] at d1 d2
  have hk : 0 < k1 .S_VI := by
    have p1 : 0 < M_O3 := by norm_num [M_O3]
    have p2 : 0 < M_SO2_H2O := by norm_num [M_SO2_H2O]
    have p4 : 0 < M_H2SO4 := by norm_num [M_H2SO4]
    have r0 : 0 < RO3k0 T := atT_pos _ _ _ (by norm_num)
    have r1 : 0 < RO3k1 T := atT_pos _ _ _ (by norm_num)
    have r2 : 0 < RO3k2 T := atT_pos _ _ _ (by norm_num)
    have q1 := KtSO2_pos T; have q2 := KtHSO3_pos T; have mh := M_H_pos'
    have hp : 0 < mH / M_H / V := by positivity
    have ho : 0 < o3React dt V T m mH := by
      unfold o3React
      simp only []
      rw [min_ite _ _ _ hdt, min_ite _ _ _ hdt]
      have e1 : 0 < m .SO2 := h1
      have e2 : 0 < m .O3 := h2
      refine lt_min (lt_min ?_ ?_) ?_ <;> positivity
    have hh := (rates_bounds dt V T m mH hdt hV hH (hm _) (hm _) (hm _)).2.1
    rw [hk1]
    unfold stage
    rw [hf]
    simp only [if_true, rhsHelper]
    positivity
  have : 0 < dt / 6 * k1 .S_VI + dt / 3 * k2 .S_VI + dt / 3 * k3 .S_VI + dt / 6 * k4 .S_VI := by positivity
  rw [hi]
  linarith

/-- a droplet with S(IV), ozone and hydrogen peroxide meets the hypotheses -/
example : let x : CSt := { exDrop 0 with chem := fun s _ => if s = .CO2 then 0 else 1e-15 }
    x.chem .S_VI 0 < (chemReact 1800 1 x.vol (fun _ => true) x).chem .S_VI 0 := by
  intro x
  exact react_proceeds 1800 1 one_pos x.vol (fun _ => true) x 0 exVol_pos (by simp [x]; norm_num) (fun s => by simp only [x]; split_ifs <;> norm_num) rfl
    (by simp [x]; norm_num) (by simp [x]; norm_num)

/-- and the dissociation equilibrium of `react_rates` has a solution for every H⁺ concentration -/
example (m : Masses) (V T mH : ℝ) (hV : 0 < V) (hH : 0 < mH) : ∃ u b s,
    Diprotic (vantHoff (0.013 * 1000) 1960 T) (vantHoff (6.6e-8 * 1000) 1500 T) (mH / (1 / 1000) / V) (conc m V .SO2) u b s := by
  have h0 : 0 < mH / (1 / 1000) / V := by positivity
  obtain ⟨b, s, h⟩ := (diprotic_iff (vantHoff (0.013 * 1000) 1960 T) (vantHoff (6.6e-8 * 1000) 1500 T) (mH / (1 / 1000) / V) (conc m V .SO2)
    (conc m V .SO2 / (1 + vantHoff (0.013 * 1000) 1960 T / (mH / (1 / 1000) / V) + vantHoff (0.013 * 1000) 1960 T * vantHoff (6.6e-8 * 1000) 1500 T / (mH / (1 / 1000) / V) / (mH / (1 / 1000) / V)))
    h0).2 (by
      have k1 : 0 < vantHoff (0.013 * 1000) 1960 T := by unfold vantHoff; positivity
      have k2 : 0 < vantHoff (6.6e-8 * 1000) 1500 T := by unfold vantHoff; positivity
      rw [div_mul_cancel₀]
      positivity)
  exact ⟨_, b, s, h⟩

/-- the clipping after each chemical process does nothing if no mass is negative -/
theorem cleanup_id (x : CSt) (h : ∀ s i, 0 ≤ x.chem s i) : cleanup x = x := by
  unfold cleanup
  have : (fun s i => if x.chem s i ≥ 0 then x.chem s i else 0) = x.chem := by
    funext s i; rw [if_pos (h s i)]
  rw [this]

end LCP.Chem
