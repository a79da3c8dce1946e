import Verif.Chem.Budget
import Verif.Chem.React
import Mathlib.Algebra.BigOperators.Field

/-!
# C69: the whole chemistry step (substeps, dissolution, dissociation, oxidation)
-/
namespace LCP.Chem
open LCP.Common LCP.Cond LCP.Diag

/-! ### specification: conserved quantities -/

/-- what chemistry conserves: nitrogen of HNO₃, nitrogen of NH₃, carbon, sulfur, and the oxidising capacity (O₃, H₂O₂ and the sulfate made with them) -/
inductive Elt where
  | nitrate | ammonia | carbon | sulfur | oxidant
  deriving DecidableEq

/-- moles in a droplet with masses `m` [kg] -/
noncomputable def dropMoles (m : Sp → ℝ) : Elt → ℝ
  | .nitrate => m .HNO3 / 0.063
  | .ammonia => m .NH3 / 0.035
  | .carbon => m .CO2 / 0.062
  | .sulfur => m .SO2 / 0.082 + m .S_VI / 0.098
  | .oxidant => m .O3 / 0.048 + m .H2O2 / 0.034 + m .S_VI / 0.098

/-- moles in air with masses `m` [kg] of gases -/
noncomputable def airMoles (m : Sp → ℝ) : Elt → ℝ
  | .nitrate => m .HNO3 / 0.063
  | .ammonia => m .NH3 / 0.017
  | .carbon => m .CO2 / 0.044
  | .sulfur => m .SO2 / 0.064
  | .oxidant => m .O3 / 0.048 + m .H2O2 / 0.034

/-- moles in cell `c`: in the air (mixing ratio times mass of dry air) and in the droplets -/
noncomputable def total (x : CSt) (c : ℕ) (e : Elt) : ℝ :=
  airMoles (fun g => x.amb g c * (x.d.rhod c * x.d.dv c)) e +
    ∑ i ∈ (Finset.range x.d.N).filter (fun i => x.d.ijk i = c), (x.d.n i : ℝ) * dropMoles (fun s => x.chem s i) e

/-- the droplets of every cell could not sweep the whole cell within the substep `dt` (see `henry_creates` for why this is needed) -/
def NoSweep (dt : ℝ) (x : CSt) : Prop := ∀ g ∈ gases, ∀ c,
  ∑ i ∈ (Finset.range x.d.N).filter (fun i => x.d.ijk i = c), (x.d.n i : ℝ) * (dt * transfer g (Real.sqrt (x.rw2 i)) (x.T c) * x.vol i) ≤ x.d.dv c

/-! ### one process at a time -/

/-- same cells, droplets, sizes, temperatures -/
structure Same (x y : CSt) : Prop where
  geo : Geo x.d y.d
  T : y.T = x.T
  rw2 : y.rw2 = x.rw2

theorem Same.refl (x : CSt) : Same x x := ⟨Geo.refl _, rfl, rfl⟩
theorem Same.trans {x y z : CSt} (h : Same x y) (g : Same y z) : Same x z := ⟨h.geo.trans g.geo, g.T.trans h.T, g.rw2.trans h.rw2⟩
theorem Frame.same {x y : CSt} (h : Frame x y) : Same x y := ⟨h.geo, h.T, h.rw2⟩

theorem Same.vol {x y : CSt} (h : Same x y) : y.vol = x.vol := by funext i; unfold CSt.vol; rw [h.rw2]

theorem Same.noSweep {x y : CSt} (h : Same x y) (dt : ℝ) (hn : NoSweep dt x) : NoSweep dt y := by
  intro g hg c
  have := hn g hg c
  rw [h.geo.N, h.geo.ijk, h.geo.n, h.geo.dv, h.rw2, h.T, h.vol]
  exact this

/-- everything but the gases is as it should be -/
structure PhysA (x : CSt) : Prop extends CellsOk x where
  chem : ∀ s i, 0 ≤ x.chem s i
  T : ∀ c, 0 < x.T c
  rw2 : ∀ i, 0 ≤ x.rw2 i

theorem PhysA.mk' {x : CSt} (h : PhysA x) (ha : ∀ g ∈ gases, ∀ c, 0 ≤ x.amb g c) : Phys x := ⟨h.toCellsOk, h.chem, ha, h.T, h.rw2⟩
theorem Phys.toA {x : CSt} (h : Phys x) : PhysA x := ⟨h.toCellsOk, h.chem, h.T, h.rw2⟩

theorem PhysA.same {x y : CSt} (h : PhysA x) (s : Same x y) (hc : ∀ s i, 0 ≤ y.chem s i) : PhysA y :=
  ⟨⟨by rw [s.geo.dv]; exact h.dv, by rw [s.geo.rhod]; exact h.rhod⟩, hc, by rw [s.T]; exact h.T, by rw [s.rw2]; exact h.rw2⟩

theorem total_split (x : CSt) (c : ℕ) (e : Elt) : total x c e = match e with
    | .nitrate => gasMoles x .HNO3 c + aqMoles x .HNO3 c
    | .ammonia => gasMoles x .NH3 c + aqMoles x .NH3 c
    | .carbon => gasMoles x .CO2 c + aqMoles x .CO2 c
    | .sulfur => gasMoles x .SO2 c + aqMoles x .SO2 c + (∑ i ∈ (Finset.range x.d.N).filter (fun i => x.d.ijk i = c), (x.d.n i : ℝ) * x.chem .S_VI i) / 0.098
    | .oxidant => gasMoles x .O3 c + aqMoles x .O3 c + (gasMoles x .H2O2 c + aqMoles x .H2O2 c) +
        (∑ i ∈ (Finset.range x.d.N).filter (fun i => x.d.ijk i = c), (x.d.n i : ℝ) * x.chem .S_VI i) / 0.098 := by
  have m1 : Mgas .HNO3 = 0.063 := by norm_num [Mgas, M_HNO3]
  have m2 : Mgas .NH3 = 0.017 := by norm_num [Mgas, M_NH3]
  have m3 : Mgas .CO2 = 0.044 := by norm_num [Mgas, M_CO2]
  have m4 : Mgas .SO2 = 0.064 := by norm_num [Mgas, M_SO2]
  have m5 : Mgas .O3 = 0.048 := by norm_num [Mgas, M_O3]
  have m6 : Mgas .H2O2 = 0.034 := by norm_num [Mgas, M_H2O2]
  have n1 : Maq .HNO3 = 0.063 := by norm_num [Maq, M_HNO3]
  have n2 : Maq .NH3 = 0.035 := by norm_num [Maq, M_NH3_H2O]
  have n3 : Maq .CO2 = 0.062 := by norm_num [Maq, M_CO2_H2O]
  have n4 : Maq .SO2 = 0.082 := by norm_num [Maq, M_SO2_H2O]
  have n5 : Maq .O3 = 0.048 := by norm_num [Maq, M_O3]
  have n6 : Maq .H2O2 = 0.034 := by norm_num [Maq, M_H2O2]
  unfold total gasMoles aqMoles
  cases e <;> simp only [airMoles, dropMoles, m1, m2, m3, m4, m5, m6, n1, n2, n3, n4, n5, n6]
  · simp only [mul_div_assoc', Finset.sum_div]
  · simp only [mul_div_assoc', Finset.sum_div]
  · simp only [mul_div_assoc', Finset.sum_div]
  · simp only [mul_add, Finset.sum_add_distrib, mul_div_assoc', Finset.sum_div]
    ring
  · simp only [mul_add, Finset.sum_add_distrib, mul_div_assoc', Finset.sum_div]
    ring

/-- dissolution conserves every total -/
theorem henry_total (dt : ℝ) (flag : ℕ → Bool) (x : CSt) (hs : Sorted x.d) (hp : Phys x) (hdt : 0 ≤ dt) (hn : NoSweep dt x) (c : ℕ) (e : Elt) :
    total (chemHenry dt x.vol flag x) c e = total x c e := by
  have h := fun g hg => henry_conserved_partial dt flag x hs hp hdt g hg c (hn g hg c)
  obtain ⟨-, -, fr, -, -, -, h6⟩ := henry_budget dt flag x hs hp hdt
  rw [total_split, total_split]
  cases e <;> simp only []
  · exact h .HNO3 (by decide)
  · exact h .NH3 (by decide)
  · exact h .CO2 (by decide)
  · rw [h .SO2 (by decide), h6, fr.geo.N, fr.geo.ijk, fr.geo.n]
  · rw [h .O3 (by decide), h .H2O2 (by decide), h6, fr.geo.N, fr.geo.ijk, fr.geo.n]

/-- totals only grow in dissolution (clipping of exhausted gases) -/
theorem henry_total_le (dt : ℝ) (flag : ℕ → Bool) (x : CSt) (hs : Sorted x.d) (hp : Phys x) (hdt : 0 ≤ dt) (c : ℕ) (e : Elt) :
    total x c e ≤ total (chemHenry dt x.vol flag x) c e := by
  obtain ⟨h0, -, fr, -, -, -, h6⟩ := henry_budget dt flag x hs hp hdt
  have h : ∀ g ∈ gases, gasMoles x g c + aqMoles x g c ≤ gasMoles (chemHenry dt x.vol flag x) g c + aqMoles (chemHenry dt x.vol flag x) g c := by
    intro g hg
    rw [h0 g hg c]; exact le_max_left _ _
  rw [total_split, total_split]
  cases e <;> simp only []
  · exact h .HNO3 (by decide)
  · exact h .NH3 (by decide)
  · exact h .CO2 (by decide)
  · rw [h6, fr.geo.N, fr.geo.ijk, fr.geo.n]; have := h .SO2 (by decide); linarith
  · rw [h6, fr.geo.N, fr.geo.ijk, fr.geo.n]; have := h .O3 (by decide); have := h .H2O2 (by decide); linarith

theorem total_congr {x y : CSt} (h : Same x y) (ha : y.amb = x.amb) (c : ℕ) (e : Elt)
    (hd : ∀ i, dropMoles (fun s => y.chem s i) e = dropMoles (fun s => x.chem s i) e) : total y c e = total x c e := by
  unfold total
  rw [ha, h.geo.N, h.geo.ijk, h.geo.n, h.geo.dv, h.geo.rhod]
  simp only [hd]

theorem dissoc_spec (M : Toms.Mach) (hM : IsMach M) (x : CSt) (flag : ℕ → Bool) (vol : ℕ → ℝ) (hv : ∀ i, flag i = true → 0 < vol i) (hc : ∀ s i, 0 ≤ x.chem s i) :
    (∀ c e, total (chemDissoc M vol flag x) c e = total x c e) ∧ (∀ s i, 0 ≤ (chemDissoc M vol flag x).chem s i) ∧
    (∀ i, flag i = true → 0 < (chemDissoc M vol flag x).chem .H i) := by
  have hne : ∀ s, s ≠ Sp.H → ∀ i, (chemDissoc M vol flag x).chem s i = x.chem s i := by
    intro s hs i; unfold chemDissoc; simp [hs]
  have hH : ∀ i, flag i = true → 0 < (chemDissoc M vol flag x).chem .H i := by
    intro i hf
    have hv := hv i hf
    have := ((dissoc_range M hM x vol flag i hv).1 hf).1
    by_contra hneg
    push Not at hneg
    have h2 : conc (fun s => (chemDissoc M vol flag x).chem s i) (vol i) .H ≤ 0 := by
      unfold conc gPerMolAq
      simp only []
      exact div_nonpos_of_nonpos_of_nonneg (div_nonpos_of_nonpos_of_nonneg hneg (by norm_num)) hv.le
    linarith
  refine ⟨?_, ?_, hH⟩
  · intro c e
    refine total_congr ⟨Geo.refl _, rfl, rfl⟩ rfl c e ?_
    intro i
    cases e <;> simp [dropMoles, hne]
  · intro s i
    by_cases hs : s = .H
    · subst hs
      cases hf : flag i with
      | true => exact (hH i hf).le
      | false => unfold chemDissoc; simp [hf, hc]
    · rw [hne s hs]; exact hc s i

theorem react_total (rho dt : ℝ) (vol : ℕ → ℝ) (flag : ℕ → Bool) (x : CSt) (c : ℕ) (e : Elt) : total (chemReact rho dt vol flag x) c e = total x c e := by
  refine total_congr (x := x) (y := chemReact rho dt vol flag x) ⟨Geo.refl _, rfl, rfl⟩ rfl c e ?_
  intro i
  obtain ⟨h1, h2, h3⟩ := react_stoichiometry rho dt vol flag x i
  unfold moles gPerMolAq at h1 h2
  simp only [] at h1 h2
  norm_num at h1 h2
  cases e <;> simp only [dropMoles]
  · rw [h3 .HNO3 (by simp)]
  · rw [h3 .NH3 (by simp)]
  · rw [h3 .CO2 (by simp)]
  · norm_num; linarith
  · norm_num; linarith

/-! ### substeps -/

/-- gases are given in proportion to the part of the step done -/
noncomputable def delta (o : COpts) (x : CSt) (g : Sp) (c : ℕ) : ℝ := if g ∈ stepped o.varRho then x.amb g c - x.tmp g c else 0

theorem airMoles_add (a b : Sp → ℝ) (t : ℝ) (e : Elt) : airMoles (fun g => a g + t * b g) e = airMoles a e + t * airMoles b e := by
  cases e <;> simp only [airMoles] <;> ring

theorem sstp_total (x : CSt) (y : CSt) (hg : y.d = x.d) (hc : y.chem = x.chem) (t : ℝ) (b : Sp → ℕ → ℝ) (ha : ∀ g c, y.amb g c = x.amb g c + t * b g c) (c : ℕ) (e : Elt) :
    total y c e = total x c e + t * airMoles (fun g => b g c * (x.d.rhod c * x.d.dv c)) e := by
  unfold total
  rw [hg, hc]
  have : (fun g => y.amb g c * (x.d.rhod c * x.d.dv c)) = fun g => x.amb g c * (x.d.rhod c * x.d.dv c) + t * (b g c * (x.d.rhod c * x.d.dv c)) := by
    funext g; rw [ha]; ring
  rw [this, airMoles_add]
  ring

/-- the three processes of a substep, given the state `z` with gases adjusted -/
theorem sub_spec (o : COpts) (x : CSt) (k : ℕ) (hs : Sorted x.d) (hp : PhysA x) (hM : IsMach o.mach) (hdt : 0 < o.dt) (hn : 1 ≤ o.sstp)
    (hpos : o.dsl = true → ∀ g ∈ gases, ∀ c, 0 ≤ (sstpStep o k x).amb g c) :
    let z := if o.dsl then sstpStep o k x else x
    Same x (chemSub o x k) ∧ PhysA (chemSub o x k) ∧ (o.dsl = true → ∀ g ∈ gases, ∀ c, 0 ≤ (chemSub o x k).amb g c) ∧
    (chemSub o x k).tmp = z.tmp ∧ (∀ c e, total z c e ≤ total (chemSub o x k) c e) ∧ (NoSweep (o.dt / o.sstp) x → ∀ c e, total (chemSub o x k) c e = total z c e) ∧
    (o.dsl = false → (chemSub o x k).amb = x.amb) ∧
    (o.rho ≠ 0 → ∀ i, 4 / 3 * Real.pi * o.rho * (chemSub o x k).rd3 i - (chemSub o x k).chem .S_VI i = 4 / 3 * Real.pi * o.rho * x.rd3 i - x.chem .S_VI i) ∧
    (∀ g ∈ gases, ∀ c, (∀ i < x.d.N, x.d.ijk i ≠ c) → (chemSub o x k).amb g c = z.amb g c) ∧
    (∀ i, x.flag i = false → (∀ s, (chemSub o x k).chem s i = x.chem s i) ∧ (chemSub o x k).rd3 i = x.rd3 i) := by
  intro z
  have hdt' : 0 < o.dt / o.sstp := by have : (0 : ℝ) < o.sstp := by exact_mod_cast hn
                                      positivity
  have hvol : ∀ i, x.flag i = true → 0 < x.vol i := fun i hf => (flag_pos x i (hp.rw2 i) (hp.chem _ _) hf).1
  have hH0 : ∀ i, x.flag i = true → 0 < x.chem .H i := fun i hf => (flag_pos x i (hp.rw2 i) (hp.chem _ _) hf).2
  have hzd : z.d = x.d ∧ z.T = x.T ∧ z.rw2 = x.rw2 ∧ z.rd3 = x.rd3 ∧ z.chem = x.chem := by
    simp only [z, sstpStep]; split_ifs <;> exact ⟨rfl, rfl, rfl, rfl, rfl⟩
  have hzs : Same x z := ⟨by rw [hzd.1]; exact Geo.refl _, hzd.2.1, hzd.2.2.1⟩
  have hzp : PhysA z := hp.same hzs (by rw [hzd.2.2.2.2]; exact hp.chem)
  -- after dissolution
  obtain ⟨y1, hy1, f1, p1, a1, t1, e1, e1', r1, m1, s1, H1, q1, u1⟩ : ∃ y1 : CSt, (if o.dsl then cleanup (chemHenry (o.dt / o.sstp) x.vol x.flag (sstpStep o k x)) else x) = y1 ∧
      Same z y1 ∧ PhysA y1 ∧ (o.dsl = true → ∀ g ∈ gases, ∀ c, 0 ≤ y1.amb g c) ∧ y1.tmp = z.tmp ∧ (∀ c e, total z c e ≤ total y1 c e) ∧ (NoSweep (o.dt / o.sstp) x → ∀ c e, total y1 c e = total z c e) ∧
      y1.rd3 = x.rd3 ∧ (o.dsl = false → y1.amb = x.amb) ∧ y1.chem .S_VI = x.chem .S_VI ∧ y1.chem .H = x.chem .H ∧
      (∀ g ∈ gases, ∀ c, (∀ i < x.d.N, x.d.ijk i ≠ c) → y1.amb g c = z.amb g c) ∧ (∀ s i, x.flag i = false → y1.chem s i = x.chem s i) := by
    cases hd : o.dsl with
    | false =>
      have hz : z = x := by simp [z, hd]
      refine ⟨x, by simp, by rw [hz]; exact Same.refl x, hp, by simp, by rw [hz], fun c e => by rw [hz], fun _ c e => by rw [hz], rfl, fun _ => rfl, rfl, rfl, fun g _ c _ => by rw [hz], fun _ _ _ => rfl⟩
    | true =>
      have hz : z = sstpStep o k x := by simp [z, hd]
      have hpz : Phys z := hzp.mk' (by rw [hz]; exact hpos hd)
      have hsz : Sorted z.d := by rw [hzd.1]; exact hs
      have hb := henry_budget (o.dt / o.sstp) x.flag z hsz hpz hdt'.le
      have ht := henry_total (o.dt / o.sstp) x.flag z hsz hpz hdt'.le
      have htl := henry_total_le (o.dt / o.sstp) x.flag z hsz hpz hdt'.le
      rw [hzs.vol] at hb ht htl
      obtain ⟨-, b2, b3, b4, b5, b6, b7⟩ := hb
      refine ⟨chemHenry (o.dt / o.sstp) x.vol x.flag z, ?_, b3.same, b2.toA, fun _ => b2.amb, b3.tmp, htl, fun hn => ht (hzs.noSweep _ hn), ?_, by simp, ?_, ?_, ?_, ?_⟩
      · rw [if_pos rfl, ← hz, cleanup_id _ b2.chem]
      · rw [b3.rd3, hzd.2.2.2.1]
      · rw [b7, hzd.2.2.2.2]
      · rw [b6, hzd.2.2.2.2]
      · intro g hg c hc
        exact b4 g hg c (by rw [hzd.1]; exact hc)
      · intro s i hf
        rw [b5 s i hf, hzd.2.2.2.2]
  -- after dissociation
  obtain ⟨y2, hy2, f2, p2, a2, t2, e2, r2, m2, H2, u2⟩ : ∃ y2 : CSt, (if o.dsc then cleanup (chemDissoc o.mach x.vol x.flag y1) else y1) = y2 ∧
      Same y1 y2 ∧ PhysA y2 ∧ y2.amb = y1.amb ∧ y2.tmp = y1.tmp ∧ (∀ c e, total y2 c e = total y1 c e) ∧ y2.rd3 = y1.rd3 ∧ y2.chem .S_VI = y1.chem .S_VI ∧
      (∀ i, x.flag i = true → 0 < y2.chem .H i) ∧ (∀ s i, x.flag i = false → y2.chem s i = y1.chem s i) := by
    cases hd : o.dsc with
    | false => exact ⟨y1, by simp, Same.refl _, p1, rfl, rfl, fun _ _ => rfl, rfl, rfl, fun i hf => by rw [H1]; exact hH0 i hf, fun _ _ _ => rfl⟩
    | true =>
      obtain ⟨d1, d2, d3⟩ := dissoc_spec o.mach hM y1 x.flag x.vol hvol p1.chem
      have hsame : Same y1 (chemDissoc o.mach x.vol x.flag y1) := ⟨Geo.refl _, rfl, rfl⟩
      refine ⟨chemDissoc o.mach x.vol x.flag y1, ?_, hsame, p1.same hsame d2, rfl, rfl, d1, rfl, ?_, d3, ?_⟩
      · rw [if_pos rfl, cleanup_id _ d2]
      · unfold chemDissoc; simp
      · intro s i hf
        unfold chemDissoc
        by_cases hs : s = .H
        · subst hs; simp [hf]
        · simp [hs]
  -- after oxidation
  have hfin : chemSub o x k = if o.rct then cleanup (chemReact o.rho (o.dt / o.sstp) x.vol x.flag y2) else y2 := by
    unfold chemSub
    simp only []
    rw [hy1, hy2]
  have fz : Same x y2 := (hzs.trans f1).trans f2
  rw [hfin]
  have amb12 : ∀ g ∈ gases, ∀ c, (∀ i < x.d.N, x.d.ijk i ≠ c) → y2.amb g c = z.amb g c := fun g hg c hc => by rw [a2]; exact q1 g hg c hc
  cases hd : o.rct with
  | false =>
    simp only [Bool.false_eq_true, if_false]
    refine ⟨fz, p2, fun h => by rw [a2]; exact a1 h, by rw [t2, t1], fun c e => by rw [e2]; exact e1 c e, fun hn c e => by rw [e2, e1' hn], fun h => by rw [a2, m1 h], ?_, amb12, ?_⟩
    · intro _ i
      rw [r2, m2, r1, s1]
    · intro i hf
      exact ⟨fun s => by rw [u2 s i hf, u1 s i hf], by rw [r2, r1]⟩
  | true =>
    simp only [if_true]
    have hnn : ∀ s i, 0 ≤ (chemReact o.rho (o.dt / o.sstp) x.vol x.flag y2).chem s i := fun s i =>
      (react_nonneg o.rho (o.dt / o.sstp) hdt' x.vol x.flag y2 i (fun hf => hvol i hf) (fun hf => H2 i hf) (fun s => p2.chem s i)).2.2 s
    have hsame : Same y2 (chemReact o.rho (o.dt / o.sstp) x.vol x.flag y2) := ⟨Geo.refl _, rfl, rfl⟩
    rw [cleanup_id _ hnn]
    refine ⟨fz.trans hsame, p2.same hsame hnn, fun h => by show ∀ g ∈ gases, ∀ c, 0 ≤ y2.amb g c; rw [a2]; exact a1 h, by show y2.tmp = _; rw [t2, t1],
      fun c e => by rw [react_total, e2]; exact e1 c e, fun hn c e => by rw [react_total, e2, e1' hn], fun h => by show y2.amb = _; rw [a2, m1 h], ?_, amb12, ?_⟩
    · intro hr i
      rw [(react_dry o.rho (o.dt / o.sstp) hr x.vol x.flag y2 i).1, r2, m2, r1, s1]
    · intro i hf
      by_cases hr : o.rho = 0
      · -- the density plays no role for droplets without flag
        have h1 : (chemReact o.rho (o.dt / o.sstp) x.vol x.flag y2).rd3 i = y2.rd3 i := by show (if x.flag i then _ else _) = _; rw [hf]; rfl
        have h2 := (react_dry 1 (o.dt / o.sstp) one_ne_zero x.vol x.flag y2 i).2.1 hf
        exact ⟨fun s => (h2.2 s).trans (by rw [u2 s i hf, u1 s i hf]), by rw [h1, r2, r1]⟩
      · have h2 := (react_dry o.rho (o.dt / o.sstp) hr x.vol x.flag y2 i).2.1 hf
        exact ⟨fun s => (h2.2 s).trans (by rw [u2 s i hf, u1 s i hf]), by rw [h2.1, r2, r1]⟩

/-- state after `k` substeps -/
noncomputable def after (o : COpts) (x : CSt) (k : ℕ) : CSt := (List.range k).foldl (chemSub o) x

theorem after_succ (o : COpts) (x : CSt) (k : ℕ) : after o x (k + 1) = chemSub o (after o x k) k := by
  unfold after; rw [List.range_succ, List.foldl_append]; rfl

/-- the gases after the adjustment at the beginning of substep `k` -/
theorem adjust_amb (o : COpts) (x y : CSt) (k : ℕ) (h0 : k = 0 → y.tmp = x.tmp ∧ y.amb = x.amb) (h1 : k ≠ 0 → o.allow = true → ∀ g c, g ∈ stepped o.varRho → y.tmp g c = x.amb g c - x.tmp g c)
    (hn : 1 ≤ o.sstp) (ha : o.allow = true) (g : Sp) (c : ℕ) :
    (sstpStep o k y).amb g c = y.amb g c + (if k = 0 then -(((o.sstp : ℝ) - 1) / o.sstp) else 1 / (o.sstp : ℝ)) * delta o x g c ∧
    (g ∈ stepped o.varRho → (sstpStep o k y).tmp g c = x.amb g c - x.tmp g c) := by
  have hs : (o.sstp : ℝ) ≠ 0 := by have : (0 : ℝ) < o.sstp := by exact_mod_cast hn
                                   exact this.ne'
  unfold sstpStep
  rw [if_pos ha]
  by_cases hk : k = 0
  · obtain ⟨e1, e2⟩ := h0 hk
    rw [if_pos hk, if_pos hk]
    simp only [e1, e2]
    unfold delta
    constructor
    · split_ifs with hg
      · ring
      · ring
    · intro hg; rw [if_pos hg]
  · rw [if_neg hk, if_neg hk]
    simp only []
    unfold delta
    constructor
    · split_ifs with hg
      · rw [h1 hk ha g c hg]; ring
      · ring
    · intro hg; exact h1 hk ha g c hg

/-- substance added by the adjustments that are still to come, after `k ≥ 1` substeps -/
noncomputable def pending (o : COpts) (x : CSt) (k : ℕ) (c : ℕ) (e : Elt) : ℝ :=
  if o.dsl = true ∧ o.allow = true ∧ k ≠ 0 then ((o.sstp : ℝ) - k) / o.sstp * airMoles (fun g => delta o x g c * (x.d.rhod c * x.d.dv c)) e else 0

structure Inv (o : COpts) (x : CSt) (k : ℕ) (y : CSt) : Prop where
  same : Same x y
  phys : PhysA y
  amb0 : o.dsl = true → ∀ g ∈ gases, ∀ c, 0 ≤ y.amb g c
  first : k = 0 → y.tmp = x.tmp ∧ y.amb = x.amb
  tmp : k ≠ 0 → o.dsl = true → o.allow = true → ∀ g c, g ∈ stepped o.varRho → y.tmp g c = x.amb g c - x.tmp g c
  noDsl : o.dsl = false → y.amb = x.amb
  le : ∀ c e, total x c e ≤ total y c e + pending o x k c e
  eq : NoSweep (o.dt / o.sstp) x → ∀ c e, total x c e = total y c e + pending o x k c e
  dry : o.rho ≠ 0 → ∀ i, 4 / 3 * Real.pi * o.rho * y.rd3 i - y.chem .S_VI i = 4 / 3 * Real.pi * o.rho * x.rd3 i - x.chem .S_VI i
  empty : ∀ g ∈ gases, ∀ c, (∀ i < x.d.N, x.d.ijk i ≠ c) → y.amb g c = x.amb g c - (if o.dsl = true ∧ o.allow = true ∧ k ≠ 0 then ((o.sstp : ℝ) - k) / o.sstp * delta o x g c else 0)

theorem inv_step (o : COpts) (x y : CSt) (k : ℕ) (hs : Sorted x.d) (hM : IsMach o.mach) (hdt : 0 < o.dt) (hn : 1 ≤ o.sstp) (h : Inv o x k y)
    (hpos : o.dsl = true → ∀ g ∈ gases, ∀ c, 0 ≤ (sstpStep o k y).amb g c) : Inv o x (k + 1) (chemSub o y k) := by
  obtain ⟨q1, q2, q3, q4, q5, q6, q7, q8, q9, -⟩ := sub_spec o y k (h.same.geo.sorted hs) h.phys hM hdt hn hpos
  have hsx : (o.sstp : ℝ) ≠ 0 := by have : (0 : ℝ) < o.sstp := by exact_mod_cast hn
                                    exact this.ne'
  -- total of the adjusted state
  set z := if o.dsl then sstpStep o k y else y with hz
  have hzt : ∀ c e, total z c e + pending o x (k + 1) c e = total y c e + pending o x k c e := by
    intro c e
    unfold pending
    cases hd : o.dsl with
    | false => simp [hz, hd]
    | true =>
      cases ha : o.allow with
      | false => simp [hz, hd, sstpStep, ha]
      | true =>
        have hze : z = sstpStep o k y := by simp [hz, hd]
        have hA := fun g c => (adjust_amb o x y k h.first (fun hk ha => h.tmp hk hd ha) hn ha g c).1
        have hzd : z.d = y.d := by rw [hze]; unfold sstpStep; split_ifs <;> rfl
        have hzc : z.chem = y.chem := by rw [hze]; unfold sstpStep; split_ifs <;> rfl
        rw [sstp_total y z hzd hzc _ _ (by rw [hze]; exact hA) c e, h.same.geo.rhod, h.same.geo.dv]
        simp only [true_and]
        rw [if_pos (Nat.succ_ne_zero k)]
        by_cases hk : k = 0
        · subst hk
          simp only [if_true, ne_eq, not_true, if_false]
          push_cast
          ring
        · simp only [hk, if_false, ne_eq, not_false_eq_true, if_true]
          push_cast
          ring
  refine ⟨h.same.trans q1, q2, q3, fun hk => absurd hk (Nat.succ_ne_zero k), ?_, fun hd => by rw [q7 hd, h.noDsl hd], ?_, ?_, ?_, ?_⟩
  · intro _ hd ha g c hg
    rw [q4, hz, if_pos hd]
    exact (adjust_amb o x y k h.first (fun hk ha => h.tmp hk hd ha) hn ha g c).2 hg
  · intro c e
    have := q5 c e; have := hzt c e; have := h.le c e
    linarith
  · intro hsw c e
    rw [q6 (h.same.noSweep _ hsw) c e, hzt c e]
    exact h.eq hsw c e
  · intro hr i
    rw [q8 hr i, h.dry hr i]
  · intro g hg c hc
    have hc' : ∀ i < y.d.N, y.d.ijk i ≠ c := by rw [h.same.geo.N, h.same.geo.ijk]; exact hc
    rw [q9 g hg c hc', hz]
    cases hd : o.dsl with
    | false =>
      have := h.empty g hg c hc
      simp [hd] at this ⊢
      exact this
    | true =>
      have he := h.empty g hg c hc
      simp only [hd, if_true, true_and] at he ⊢
      cases ha : o.allow with
      | false =>
        simp only [ha, Bool.false_eq_true, false_and, if_false, sub_zero] at he ⊢
        unfold sstpStep
        rw [ha]
        simpa using he
      | true =>
        rw [(adjust_amb o x y k h.first (fun hk ha => h.tmp hk hd ha) hn ha g c).1, he]
        simp only [ha, true_and]
        rw [if_pos (Nat.succ_ne_zero k)]
        by_cases hk : k = 0
        · subst hk
          simp only [if_true, ne_eq, not_true, if_false]
          push_cast
          field_simp
          ring
        · simp only [hk, if_false, ne_eq, not_false_eq_true, if_true]
          push_cast
          field_simp
          ring

theorem inv_after (o : COpts) (x : CSt) (hs : Sorted x.d) (hp : Phys x) (hM : IsMach o.mach) (hdt : 0 < o.dt) (hn : 1 ≤ o.sstp) (k : ℕ)
    (hpos : ∀ j < k, o.dsl = true → ∀ g ∈ gases, ∀ c, 0 ≤ (sstpStep o j (after o x j)).amb g c) : Inv o x k (after o x k) := by
  induction k with
  | zero =>
    refine ⟨Same.refl x, hp.toA, fun _ => hp.amb, fun _ => ⟨rfl, rfl⟩, fun h => absurd rfl h, fun _ => rfl, ?_, ?_, fun _ _ => rfl, ?_⟩
    · intro c e; simp [pending, after]
    · intro _ c e; simp [pending, after]
    · intro g _ c _; simp [after]
  | succ k ih =>
    rw [after_succ]
    exact inv_step o x _ k hs hM hdt hn (ih fun j hj => hpos j (by omega)) (hpos k (by omega))

/-- gases that did not decrease since the last step stay non-negative during substeps -/
theorem pos_of_growth (o : COpts) (x : CSt) (hs : Sorted x.d) (hp : Phys x) (hM : IsMach o.mach) (hdt : 0 < o.dt) (hn : 1 ≤ o.sstp)
    (hg : o.allow = true → ∀ g ∈ gases, ∀ c, 0 ≤ x.tmp g c ∧ x.tmp g c ≤ x.amb g c) :
    ∀ k, ∀ j < k, o.dsl = true → ∀ g ∈ gases, ∀ c, 0 ≤ (sstpStep o j (after o x j)).amb g c := by
  have hsx : (0 : ℝ) < o.sstp := by exact_mod_cast hn
  have hst : ∀ g, g ∈ stepped o.varRho → g ∈ gases := by
    intro g h
    unfold stepped at h
    split_ifs at h
    · exact h
    · exact List.dropLast_subset _ h
  intro k
  induction k with
  | zero => intro j hj; omega
  | succ k ih =>
    intro j hj hd g hgs c
    have hi := inv_after o x hs hp hM hdt hn j (fun i hij => ih i (by omega))
    cases ha : o.allow with
    | false =>
      have : sstpStep o j (after o x j) = after o x j := by unfold sstpStep; rw [ha]; simp
      rw [this]; exact hi.amb0 hd g hgs c
    | true =>
      rw [(adjust_amb o x (after o x j) j hi.first (fun hk ha => hi.tmp hk hd ha) hn ha g c).1]
      obtain ⟨t0, t1⟩ := hg ha g hgs c
      have hdel : 0 ≤ delta o x g c ∧ delta o x g c ≤ x.amb g c := by
        unfold delta
        split_ifs
        · constructor <;> linarith
        · exact ⟨le_refl _, hp.amb g hgs c⟩
      by_cases hj0 : j = 0
      · rw [if_pos hj0, (hi.first hj0).2]
        have h1 : ((o.sstp : ℝ) - 1) / o.sstp ≤ 1 := by rw [div_le_one hsx]; linarith
        have h2 : 0 ≤ ((o.sstp : ℝ) - 1) / o.sstp := div_nonneg (by have : (1:ℝ) ≤ o.sstp := by exact_mod_cast hn
                                                                    linarith) hsx.le
        nlinarith [mul_le_mul h1 hdel.2 hdel.1 (by norm_num)]
      · rw [if_neg hj0]
        have := hi.amb0 hd g hgs c
        have := mul_nonneg (show 0 ≤ 1 / (o.sstp : ℝ) by positivity) hdel.1
        linarith

/-- hypotheses under which the whole step is described: physical state, sorted arrays, one of the two precisions; with substepping allocated, gases
that did not decrease since they were saved -/
structure Ready (o : COpts) (x : CSt) : Prop where
  sorted : Sorted x.d
  phys : Phys x
  mach : IsMach o.mach
  dt : 0 < o.dt
  sstp : 1 ≤ o.sstp
  growth : o.allow = true → ∀ g ∈ gases, ∀ c, 0 ≤ x.tmp g c ∧ x.tmp g c ≤ x.amb g c

theorem inv_chemStep (o : COpts) (x : CSt) (h : Ready o x) : (o.dsl || o.dsc || o.rct) = true → Inv o x o.sstp (chemStep o x) := by
  intro hon
  have := inv_after o x h.sorted h.phys h.mach h.dt h.sstp o.sstp (pos_of_growth o x h.sorted h.phys h.mach h.dt h.sstp h.growth o.sstp)
  unfold chemStep
  rw [if_pos hon]
  exact this

theorem pending_end (o : COpts) (x : CSt) (c : ℕ) (e : Elt) : pending o x o.sstp c e = 0 := by
  unfold pending
  split_ifs <;> simp

/-- **C69 (budgets of the whole step).** For every combination of chemical processes and every number of substeps, nitrogen of HNO₃, nitrogen of NH₃, carbon, sulfur
and oxidising capacity in every cell (air and droplets together) do not decrease. -/
theorem step_no_loss (o : COpts) (x : CSt) (h : Ready o x) (c : ℕ) (e : Elt) : total x c e ≤ total (chemStep o x) c e := by
  cases hon : (o.dsl || o.dsc || o.rct) with
  | false => unfold chemStep; rw [hon]; simp
  | true =>
    have := (inv_chemStep o x h hon).le c e
    rw [pending_end, add_zero] at this
    exact this

/-- **C69 (conservation).** They are conserved exactly if the droplets could not sweep a whole cell within a substep. -/
theorem step_conserves_partial (o : COpts) (x : CSt) (h : Ready o x) (hn : NoSweep (o.dt / o.sstp) x) (c : ℕ) (e : Elt) : total (chemStep o x) c e = total x c e := by
  cases hon : (o.dsl || o.dsc || o.rct) with
  | false => unfold chemStep; rw [hon]; simp
  | true =>
    have := (inv_chemStep o x h hon).eq hn c e
    rw [pending_end, add_zero] at this
    exact this.symm

/-- **C69 (signs, dry mass, what is not touched).** After the whole step no dissolved mass is negative, no mixing ratio is negative; the dry mass of every droplet has grown by the mass of sulfate
it gained; gases of cells without droplets are as they were passed in; sizes, numbers, temperatures are not touched. -/
theorem step_sound (o : COpts) (x : CSt) (h : Ready o x) : let y := chemStep o x
    (∀ s i, 0 ≤ y.chem s i) ∧ (∀ g ∈ gases, ∀ c, 0 ≤ y.amb g c) ∧
    (o.rho ≠ 0 → ∀ i, 4 / 3 * Real.pi * o.rho * (y.rd3 i - x.rd3 i) = y.chem .S_VI i - x.chem .S_VI i) ∧
    (∀ g ∈ gases, ∀ c, (∀ i < x.d.N, x.d.ijk i ≠ c) → y.amb g c = x.amb g c) ∧
    y.rw2 = x.rw2 ∧ y.T = x.T ∧ y.d.n = x.d.n ∧ y.d.ijk = x.d.ijk := by
  intro y
  cases hon : (o.dsl || o.dsc || o.rct) with
  | false =>
    have hy : y = x := by simp only [y]; unfold chemStep; rw [hon]; simp
    rw [hy]
    exact ⟨h.phys.chem, h.phys.amb, fun _ i => by ring, fun _ _ _ _ => rfl, rfl, rfl, rfl, rfl⟩
  | true =>
    have hi := inv_chemStep o x h hon
    refine ⟨hi.phys.chem, ?_, ?_, ?_, hi.same.rw2, hi.same.T, hi.same.geo.n, hi.same.geo.ijk⟩
    · cases hd : o.dsl with
      | true => exact hi.amb0 hd
      | false => rw [show y.amb = x.amb from hi.noDsl hd]; exact h.phys.amb
    · intro hr i
      have := hi.dry hr i
      linarith
    · intro g hg c hc
      have := hi.empty g hg c hc
      rw [this]
      split_ifs <;> simp

/-- **C69 (substepping of gases).** With density passed at each step, a substep sees every gas increased by an equal part of its change since the last step. -/
theorem gas_substeps (o : COpts) (x : CSt) (h : Ready o x) (ha : o.allow = true) (hd : o.dsl = true) (k : ℕ) (g : Sp) (hg : g ∈ gases) (c : ℕ)
    (hv : o.varRho = true ∨ g ≠ .O3) :
    (k = 0 → (sstpStep o k (after o x k)).amb g c = x.tmp g c + (x.amb g c - x.tmp g c) / o.sstp) ∧
    (k ≠ 0 → (sstpStep o k (after o x k)).amb g c = (after o x k).amb g c + (x.amb g c - x.tmp g c) / o.sstp) := by
  have hsx : (o.sstp : ℝ) ≠ 0 := by have : (0 : ℝ) < o.sstp := by exact_mod_cast h.sstp
                                    exact this.ne'
  have hst : g ∈ stepped o.varRho := by
    unfold stepped
    rcases hv with hv | hv
    · rw [hv]; exact hg
    · split_ifs
      · exact hg
      · cases g <;> simp [gases] at hg hv ⊢
  have hi := inv_after o x h.sorted h.phys h.mach h.dt h.sstp k (pos_of_growth o x h.sorted h.phys h.mach h.dt h.sstp h.growth k)
  have hA := (adjust_amb o x (after o x k) k hi.first (fun hk ha => hi.tmp hk hd ha) h.sstp ha g c).1
  have hdel : delta o x g c = x.amb g c - x.tmp g c := by unfold delta; rw [if_pos hst]
  rw [hdel] at hA
  constructor
  · intro h0
    rw [hA, if_pos h0, (hi.first h0).2]
    field_simp
    ring
  · intro h0
    rw [hA, if_neg h0]
    ring

/-- **C69 (finding).** With constant density (never passed after initialisation) ozone is not substepped: already the first substep sees its full change. -/
theorem ozone_not_substepped (o : COpts) (x : CSt) (hv : o.varRho = false) (k : ℕ) : (sstpStep o k x).amb .O3 = x.amb .O3 := by
  have : Sp.O3 ∉ stepped false := by decide
  unfold sstpStep
  rw [hv]
  split_ifs <;> simp [this]

/-! ### concrete case -/

theorem exOne_ready (n : ℕ) : Ready ⟨true, true, true, true, true, 10, 1, 1800, Toms.dbl⟩ (exOne n) := by
  refine ⟨exOne_sorted n, exOne_phys n, Or.inl rfl, by norm_num, by norm_num, fun _ g _ c => ?_⟩
  simp only [exOne]
  split_ifs <;> norm_num

/-- a million droplets of 10 µm in one cubic metre, ten substeps of 0.1 s: the hypotheses of `step_conserves_partial` are met -/
example (c : ℕ) (e : Elt) : total (chemStep ⟨true, true, true, true, true, 10, 1, 1800, Toms.dbl⟩ (exOne 1000000)) c e = total (exOne 1000000) c e := by
  refine step_conserves_partial _ _ (exOne_ready _) ?_ c e
  intro g hg c
  have := exOne_sweep (1 / (10 : ℕ)) (by norm_num) g hg c
  exact this

end LCP.Chem
