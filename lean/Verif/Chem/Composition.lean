import Verif.Chem.Step
import Verif.Coal.Props

/-!
# C70: chemical composition of droplets: initial, and over a history of chemistry steps and collisions
-/
namespace LCP.Chem
open LCP.Common

/-- **C70 (initial composition).** A dry particle of dry mass `4/3 π ρ r_d³` starts as ammonium bisulfate: equal numbers of moles of NH₃·H₂O, H⁺ and S(VI), as many as
moles of NH₄HSO₄ (115 g/mol) in the dry mass, and nothing else dissolved. -/
theorem init_composition (rho rd3 : ℝ) : ∃ N : ℝ, N * (0.018 + 0.097) = 4 / 3 * Real.pi * rho * rd3 ∧
    initChem rho rd3 .NH3 / (gPerMolAq .NH3 / 1000) = N ∧ initChem rho rd3 .H / (gPerMolAq .H / 1000) = N ∧ initChem rho rd3 .S_VI / (gPerMolAq .S_VI / 1000) = N ∧
    ∀ s ∈ [Sp.HNO3, Sp.CO2, Sp.SO2, Sp.H2O2, Sp.O3], initChem rho rd3 s = 0 := by
  refine ⟨4 / 3 * Real.pi * rho * rd3 / (0.018 + 0.097), ?_, ?_, ?_, ?_, ?_⟩
  · field_simp
  · unfold initChem gPerMolAq M_NH3_H2O M_NH4 M_HSO4; simp only []; norm_num; ring
  · unfold initChem gPerMolAq M_H M_NH4 M_HSO4; simp only []; norm_num; ring
  · unfold initChem gPerMolAq M_H2SO4 M_NH4 M_HSO4; simp only []; norm_num; ring
  · intro s hs
    simp only [List.mem_cons, List.not_mem_nil, or_false] at hs
    rcases hs with h | h | h | h | h <;> subst h <;> rfl

/-- the non-sulfate part of the dry mass of a particle with dry radius cubed `rd3` and sulfate `m` -/
noncomputable def rest (rho rd3 m : ℝ) : ℝ := 4 / 3 * Real.pi * rho * rd3 - m

/-- dry radii cubed and sulfate masses of `N` super-droplets reachable from an initial aerosol by chemistry steps and collisions (with aerosol density `rho`) -/
inductive Reach (rho : ℝ) (N : ℕ) : (ℕ → ℝ) → (ℕ → ℝ) → Prop
  | init (rd3 : ℕ → ℝ) (h : ∀ i, 0 ≤ rd3 i) : Reach rho N rd3 (fun i => initChem rho (rd3 i) .S_VI)
  | chem (o : COpts) (x : CSt) (h : Ready o x) (hr : o.rho = rho) (rd3 s6 : ℕ → ℝ) (hp : Reach rho N rd3 s6)
      (h1 : ∀ i < N, x.rd3 i = rd3 i ∧ x.chem .S_VI i = s6 i) : Reach rho N (chemStep o x).rd3 ((chemStep o x).chem .S_VI)
  | coal (o : Coal.Opts) (e : Coal.Env) (σ : Coal.Scheds) (s s' : Coal.State) (h : e.Sorted) (hσ : σ.Valid e.N) (hN : e.N = N) (hc : 6 < o.nChem)
      (hr : Coal.coal o e σ s = some s') (rd3 s6 : ℕ → ℝ) (hp : Reach rho N rd3 s6)
      (h1 : ∀ i < N, (s.sd i).rd3 = rd3 i ∧ (s.sd i).chem 6 = s6 i) : Reach rho N (fun i => (s'.sd i).rd3) (fun i => (s'.sd i).chem 6)

/-- **C70 (sulfate and dry size stay consistent).** In every state reachable by chemistry steps and collisions, no super-droplet has a negative sulfate mass or more
sulfate than its dry mass. -/
theorem sulfate_le_dry (rho : ℝ) (hrho : 0 < rho) (N : ℕ) (rd3 s6 : ℕ → ℝ) (h : Reach rho N rd3 s6) :
    ∀ i < N, 0 ≤ s6 i ∧ s6 i ≤ 4 / 3 * Real.pi * rho * rd3 i := by
  have hpi := Real.pi_pos
  induction h with
  | init rd3 h0 =>
    intro i _
    have := h0 i
    unfold initChem M_H2SO4 M_NH4 M_HSO4
    simp only []
    norm_num
    constructor
    · positivity
    · have : 0 ≤ Real.pi * rho * rd3 i := by positivity
      nlinarith
  | chem o x hx hr rd3 s6 _ h1 ih =>
    intro i hi
    obtain ⟨a1, -, a3, -⟩ := step_sound o x hx
    have b := a3 (by rw [hr]; exact hrho.ne') i
    rw [hr] at b
    obtain ⟨c1, c2⟩ := h1 i hi
    obtain ⟨d1, d2⟩ := ih i hi
    refine ⟨a1 _ _, ?_⟩
    rw [c1, c2] at b
    nlinarith
  | coal o e σ s s' he hσ hN hc hr rd3 s6 _ h1 ih =>
    intro i hi
    subst hN
    obtain ⟨c1, c2⟩ := h1 i hi
    obtain ⟨d1, d2⟩ := ih i hi
    rcases Coal.coal_each he hσ hr i hi with g | ⟨j, hj, -, -, k, -, ⟨-, g, -⟩ | ⟨-, g, -⟩⟩
    · simp only []; rw [g, c1, c2]; exact ⟨d1, d2⟩
    · simp only []; rw [g]; simp only [Coal.donated]; rw [c1, c2]; exact ⟨d1, d2⟩
    · simp only []
      rw [g]
      simp only [Coal.merged, if_pos hc]
      obtain ⟨e1, e2⟩ := h1 j hj
      obtain ⟨f1, f2⟩ := ih j hj
      rw [c1, c2, e1, e2]
      have hk : (0 : ℝ) ≤ k := Nat.cast_nonneg _
      refine ⟨by positivity, ?_⟩
      have := mul_le_mul_of_nonneg_left f2 hk
      nlinarith

/-- **C70 (collisions).** The part of the dry mass that is not sulfate is handed over in collisions like everything else: summed over the droplets of a cell it does not change. -/
theorem coal_conserves_rest {o : Coal.Opts} {e : Coal.Env} (h : e.Sorted) {σ : Coal.Scheds} (hσ : σ.Valid e.N) {s s' : Coal.State} (hr : Coal.coal o e σ s = some s')
    (hU : Coal.FitsU64 e.N s.sd) (hc : 6 < o.nChem) (rho : ℝ) (c : ℕ) :
    Coal.cellTotal e.N e.ijk s'.sd c (fun d => d.n * rest rho d.rd3 (d.chem 6)) = Coal.cellTotal e.N e.ijk s.sd c (fun d => d.n * rest rho d.rd3 (d.chem 6)) := by
  have h1 := Coal.coal_conserves_dry_volume h hσ hr hU c
  have h2 := Coal.coal_conserves_chem h hσ hr hU 6 hc c
  unfold Coal.cellTotal rest at *
  have e1 : ∀ sd : ℕ → Coal.SD, (∑ i ∈ Finset.range e.N, if e.ijk i = c then ((sd i).n : ℝ) * (4 / 3 * Real.pi * rho * (sd i).rd3 - (sd i).chem 6) else 0)
      = 4 / 3 * Real.pi * rho * (∑ i ∈ Finset.range e.N, if e.ijk i = c then ((sd i).n : ℝ) * (sd i).rd3 else 0)
        - ∑ i ∈ Finset.range e.N, if e.ijk i = c then ((sd i).n : ℝ) * (sd i).chem 6 else 0 := by
    intro sd
    rw [Finset.mul_sum, ← Finset.sum_sub_distrib]
    refine Finset.sum_congr rfl fun i _ => ?_
    split_ifs
    · ring
    · ring
  beta_reduce at h1 h2 ⊢
  rw [e1, e1, h1, h2]

/-- a chemistry step after initialisation is a history -/
example : Reach 1800 1 (chemStep ⟨true, true, true, true, true, 10, 1, 1800, Toms.dbl⟩ { exOne 5 with chem := fun s _ => initChem 1800 1e-24 s }).rd3
    ((chemStep ⟨true, true, true, true, true, 10, 1, 1800, Toms.dbl⟩ { exOne 5 with chem := fun s _ => initChem 1800 1e-24 s }).chem .S_VI) := by
  refine Reach.chem _ _ ?_ rfl (fun _ => 1e-24) _ (Reach.init (fun _ => 1e-24) (fun _ => by norm_num)) ?_
  · obtain ⟨a1, a2, a3, a4, a5, a6⟩ := exOne_ready 5
    refine ⟨a1, ⟨⟨a2.dv, a2.rhod⟩, fun s _ => ?_, a2.amb, a2.T, a2.rw2⟩, a3, a4, a5, a6⟩
    have := Real.pi_pos
    have m1 : 0 ≤ M_NH3_H2O / (M_NH4 + M_HSO4) := by norm_num [M_NH3_H2O, M_NH4, M_HSO4]
    have m2 : 0 ≤ M_H / (M_NH4 + M_HSO4) := by norm_num [M_H, M_NH4, M_HSO4]
    have m3 : 0 ≤ M_H2SO4 / (M_NH4 + M_HSO4) := by norm_num [M_H2SO4, M_NH4, M_HSO4]
    cases s <;> simp only [initChem] <;> positivity
  · intro i _
    exact ⟨rfl, rfl⟩

end LCP.Chem
