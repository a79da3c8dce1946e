import Verif.Ice.Props
import Mathlib.Logic.Relation

/-!
# C62: phases through any history; melting and the dry radius
-/
namespace LCP.Ice
open LCP.Common LCP.Cond
open LCP.Diag hiding St

/-- a droplet stays a droplet in condensation, whatever its size relative to the dry radius -/
theorem advanceG_pos (N : Num) (g : ℝ → ℝ) (rd3 dt r : ℝ) (h3 : 0 < rd3) (hr : 0 < r) : 0 < advanceG N g rd3 dt r := by
  have hc : 0 < cbrt rd3 * cbrt rd3 := mul_pos (cbrt_pos _ h3) (cbrt_pos _ h3)
  unfold advanceG
  simp only []
  rw [if_neg (not_le.2 hr)]
  split_ifs <;> first | exact hr | exact hc | (refine lt_of_lt_of_le hc (not_lt.1 ?_); assumption)

theorem advanceIce_pos (e : Env) (dt : ℝ) (ac : ℝ × ℝ) (h : 0 < ac.1) (g : 0 < ac.2) : 0 < (advanceIce e dt ac).1 ∧ 0 < (advanceIce e dt ac).2 := by
  unfold advanceIce
  rw [if_neg (by rintro (x | x) <;> linarith)]
  exact ⟨lt_of_lt_of_le (by norm_num) (le_max_right _ _), lt_of_lt_of_le (by norm_num) (le_max_right _ _)⟩

theorem advanceIce_zero (e : Env) (dt : ℝ) (ac : ℝ × ℝ) (h : ac.1 = 0) : advanceIce e dt ac = ac := by
  unfold advanceIce
  rw [if_pos (Or.inl h.le)]

/-- **C62 (condensation and deposition keep phases).** Through any number of substeps droplets stay droplets and ice particles stay
ice particles of the same density. -/
theorem percell_phase (o : Cfg) (allow : Bool) (s : St) (hs : Sorted s.d) (h3 : ∀ i < s.d.N, 0 < s.rd3 i) :
    ∃ s', condPerCell o allow s = some s' ∧ s'.d.N = s.d.N ∧ s'.rd3 = s.rd3 ∧
      ∀ i < s.d.N, (Liquid (dropOf s i) → Liquid (dropOf s' i)) ∧ (Frozen (dropOf s i) → Frozen (dropOf s' i)) := by
  set s0 : St := { s with lamD := fun c => lambda_D (s.T c), lamK := fun c => lambda_K (s.T c) (s.p c) } with he
  obtain ⟨a, e, iv, p⟩ := condPerCell_run o allow s hs
    (fun k a => ∀ i < s.d.N, (0 < s.rw2 i → 0 < a.rw2 i) ∧ (s.rw2 i = 0 → a.rw2 i = 0) ∧
      (s.iceA i = 0 → a.iceA i = 0 ∧ a.iceC i = s.iceC i) ∧ (0 < s.iceA i → 0 < s.iceC i → 0 < a.iceA i ∧ 0 < a.iceC i))
    s0 he (fun i _ => ⟨id, id, fun h => ⟨h, rfl⟩, fun h g => ⟨h, g⟩⟩)
    (fun k hk a a' hrun h1 t => by
      have hp2 : (prep o k a).rw2 = a.rw2 ∧ (prep o k a).iceA = a.iceA ∧ (prep o k a).iceC = a.iceC := by
        unfold prep hskpngTpr sgsSupersat sstpStep; split_ifs <;> exact ⟨rfl, rfl, rfl⟩
      have h33 : (prep o k a).rd3 = s.rd3 := t.same.rd3
      intro i hi
      obtain ⟨q1, q2, q3, q4⟩ := h1 i hi
      have hq : (envOf o (prep o k a) (RHseen o (prep o k a)) i).rd3 = s.rd3 i := by unfold envOf; simp only []; rw [h33]
      rw [t.rw2, t.iceA, t.iceC]
      refine ⟨fun h => ?_, fun h => ?_, fun h => ?_, fun h g => ?_⟩
      · unfold rw2After advance
        rw [hp2.1]
        exact advanceG_pos _ _ _ _ _ (by rw [hq]; exact h3 i hi) (q1 h)
      · unfold rw2After advance
        rw [hp2.1, advance_ice _ _ _ _ _ (q2 h).le]; exact q2 h
      · obtain ⟨x1, x2⟩ := q3 h
        cases o.ice with
        | false => exact ⟨x1, x2⟩
        | true =>
          simp only [if_true]
          unfold acAfter
          rw [hp2.2.1, hp2.2.2, advanceIce_zero _ _ _ x1]
          exact ⟨x1, x2⟩
      · obtain ⟨x1, x2⟩ := q4 h g
        cases o.ice with
        | false => exact ⟨x1, x2⟩
        | true =>
          simp only [if_true]
          unfold acAfter
          rw [hp2.2.1, hp2.2.2]
          exact advanceIce_pos _ _ _ x1 x2)
  have hd : (sstpSave allow a).d = a.d ∧ (sstpSave allow a).rd3 = a.rd3 ∧ ∀ i, dropOf (sstpSave allow a) i = dropOf a i := by
    unfold sstpSave; split_ifs <;> exact ⟨rfl, rfl, fun _ => rfl⟩
  refine ⟨_, e, by rw [hd.1]; exact iv.same.N, by rw [hd.2.1]; exact iv.same.rd3, fun i hi => ?_⟩
  rw [hd.2.2]
  have hrho : a.iceRho = s.iceRho := iv.same.iceRho
  obtain ⟨q1, q2, q3, q4⟩ := p i hi
  unfold Liquid Frozen dropOf
  simp only [hrho]
  constructor
  · rintro ⟨a1, a2, a3, a4⟩
    exact ⟨q1 a1, (q3 a2).1, (q3 a2).2.trans a3, a4⟩
  · rintro ⟨a1, a2, a3, a4⟩
    exact ⟨q2 a1, (q4 a2 a3).1, (q4 a2 a3).2, a4⟩

/-- what can happen between two observations of the super-droplets: freezing and melting, condensation and deposition, and anything
that leaves sizes and phases alone (transport, sorting, new fields from the host model) -/
inductive Step : St → St → Prop
  | nucl (q : In) (s s' : St) : Sorted s.d → (∀ c < s.d.nCell, 0 < s.T c) → (∀ c < s.d.nCell, 0 < s.th c) →
      (∀ c < s.d.nCell, 0 < airMass s (s.d.rhod c) c) → iceNuclMelt q s = some s' → Step s s'
  | cond (o : Cfg) (allow : Bool) (s s' : St) : Sorted s.d → condPerCell o allow s = some s' → Step s s'
  | other (s s' : St) : s'.d.N = s.d.N → s'.rd3 = s.rd3 → (∀ i, dropOf s' i = dropOf s i) → Step s s'

theorem nucl_rd3 (q : In) (s s' : St) (h : iceNuclMelt q s = some s') : s'.rd3 = s.rd3 := by
  unfold iceNuclMelt at h
  cases e1 : momLiq s.d s.iceA s.rw2 with
  | none => rw [e1] at h; simp at h
  | some d1 =>
    rw [e1] at h
    simp only [Option.bind_eq_bind, Option.bind_some] at h
    cases e2 : momLiq d1 (fun i => (change q s i).a) (fun i => (change q s i).rw2) with
    | none => rw [e2] at h; simp at h
    | some d2 =>
      rw [e2] at h
      simp only [Option.bind_some, Option.some.injEq] at h
      rw [← h]; rfl

/-- **C62 (any history).** Starting from droplets, after any sequence of freezing/melting, condensation/deposition and other
steps, every super-droplet is either a droplet without ice attributes or an ice particle without liquid water, of the library's
ice density: never both, never neither. -/
theorem phases_always (s0 s : St) (h : Relation.ReflTransGen Step s0 s) (h3 : ∀ i < s0.d.N, 0 < s0.rd3 i)
    (hp : ∀ i < s0.d.N, Liquid (dropOf s0 i) ∨ Frozen (dropOf s0 i)) :
    ∀ i < s0.d.N, (Liquid (dropOf s i) ∧ ¬ Frozen (dropOf s i)) ∨ (Frozen (dropOf s i) ∧ ¬ Liquid (dropOf s i)) := by
  have key : s.d.N = s0.d.N ∧ s.rd3 = s0.rd3 ∧ ∀ i < s0.d.N, Liquid (dropOf s i) ∨ Frozen (dropOf s i) := by
    induction h with
    | refl => exact ⟨rfl, rfl, hp⟩
    | tail _ st ih =>
      obtain ⟨i1, i2, i3⟩ := ih
      cases st with
      | nucl q b c hs hT hth ha e =>
        obtain ⟨s', e', n1, -, -, -, -, -, -, -, -, out, -, -⟩ := nucl_melt q _ hs (by rw [i1]; exact i3) hT hth ha
        rw [e] at e'
        cases e'
        exact ⟨n1.trans i1, (nucl_rd3 q _ _ e).trans i2, fun i hi => (out i (by rw [i1]; exact hi)).pure⟩
      | cond o allow b c hs e =>
        obtain ⟨s', e', n1, n2, out⟩ := percell_phase o allow _ hs (by rw [i1, i2]; exact h3)
        rw [e] at e'
        cases e'
        refine ⟨n1.trans i1, n2.trans i2, fun i hi => ?_⟩
        obtain ⟨o1, o2⟩ := out i (by rw [i1]; exact hi)
        exact (i3 i hi).imp o1 o2
      | other b c n1 n2 n3 =>
        refine ⟨n1.trans i1, n2.trans i2, fun i hi => ?_⟩
        rw [n3]; exact i3 i hi
  intro i hi
  rcases key.2.2 i hi with h | h
  · exact Or.inl ⟨h, fun g => not_both _ ⟨h, g⟩⟩
  · exact Or.inr ⟨h, fun g => not_both _ ⟨g, h⟩⟩

/-- **C62 (finding).** Melting does not look at the dry size: an ice particle with less water than the volume of its dry core
(deposition lets the semi-axes shrink to 1 nm whatever the core) becomes a droplet smaller than its dry particle. -/
theorem melt_below_dry (T rd3 : ℝ) (x : Drop) (h : Frozen x) (hT : 273.15 < T) (h3 : 0 < rd3) (hw : rho_i * x.a ^ 2 * x.c < rho_w * rd3) :
    (melt T x).rw2 < cbrt rd3 ^ 2 := by
  obtain ⟨m1, m2⟩ := melt_frozen T x h hT
  unfold waterMass at m2
  rw [m1.2.1, m1.2.2.1, m1.2.2.2, h.1, h.2.2.2, Real.sqrt_zero] at m2
  have hpi := Real.pi_pos
  have hw0 := rho_w_pos
  have e : Real.sqrt (melt T x).rw2 ^ 3 * rho_w = rho_i * x.a ^ 2 * x.c := by
    have : (4 / 3 * Real.pi) * (Real.sqrt (melt T x).rw2 ^ 3 * rho_w) = (4 / 3 * Real.pi) * (rho_i * x.a ^ 2 * x.c) := by linarith
    exact mul_left_cancel₀ (by positivity) this
  have h4 : Real.sqrt (melt T x).rw2 ^ 3 < rd3 := by
    by_contra hh
    nlinarith [not_lt.1 hh]
  have h5 : Real.sqrt (melt T x).rw2 < cbrt rd3 := by
    by_contra hh
    have := pow_le_pow_left₀ (cbrt_pos _ h3).le (not_lt.1 hh) 3
    rw [cbrt_cube _ h3.le] at this
    linarith
  have h6 := pow_lt_pow_left₀ h5 (Real.sqrt_nonneg _) two_ne_zero
  rwa [Real.sq_sqrt m1.1.le] at h6

/-- the hypotheses of `melt_below_dry` are met by an ice particle of the smallest size left by sublimation, with a dry core of 10 nm -/
example : Frozen ⟨0, 1e-9, 1e-9, rho_i⟩ ∧ rho_i * (1e-9 : ℝ) ^ 2 * 1e-9 < rho_w * (1e-8) ^ 3 := by
  refine ⟨⟨rfl, by norm_num, by norm_num, rfl⟩, ?_⟩
  norm_num [rho_i, rho_w]

/-- ... and sublimation does leave it at that size: growth rates that would take more than everything are cut off at 1 nm -/
theorem sublimation_floor (e : Env) (dt : ℝ) (a c : ℝ) (ha : 0 < a) (hc : 0 < c) (h1 : a + dt * (dr2dtIce e (a * a) / (2 * a)) ≤ 1e-9)
    (h2 : c + dt * (dr2dtIce e (c * c) / (2 * c)) ≤ 1e-9) : advanceIce e dt (a, c) = (1e-9, 1e-9) := by
  unfold advanceIce
  rw [if_neg (by rintro (x | x) <;> simp at x <;> linarith)]
  simp only [max_eq_right h1, max_eq_right h2]

/-! ## Non-vacuity -/

/-- two cells, one at 260 K, one at 280 K; a droplet in the warm one, an ice particle and a droplet in the cold one -/
noncomputable def exIce : St :=
  { exCell with T := fun c => if c = 0 then 260 else 280, RH := fun _ => 1.01, iceRho := fun i => if i = 1 then rho_i else 0 }

noncomputable def exIn : In := { timeDep := false, dt := 1, Tf := fun _ => 265, insol := fun _ => 1e-13, u01 := fun _ => 0.5 }

theorem exIce_pure : ∀ i < exIce.d.N, Liquid (dropOf exIce i) ∨ Frozen (dropOf exIce i) := by
  intro i hi
  have hi : i < 3 := hi
  by_cases h : i = 1
  · subst h; right; refine ⟨?_, ?_, ?_, ?_⟩ <;> norm_num [dropOf, exIce, exCell]
  · left; refine ⟨?_, ?_, ?_, ?_⟩ <;> norm_num [dropOf, exIce, exCell, h]

theorem exIce_air : ∀ c < exIce.d.nCell, 0 < airMass exIce (exIce.d.rhod c) c := by
  intro c _; norm_num [airMass, exIce, exCell]

theorem exIce_T : ∀ c < exIce.d.nCell, 0 < exIce.T c := by
  intro c _; show (0 : ℝ) < if c = 0 then 260 else 280; split_ifs <;> norm_num

theorem exIce_th : ∀ c < exIce.d.nCell, 0 < exIce.th c := by intro c _; norm_num [exIce, exCell]

/-- the droplet in the cold cell freezes to a sphere, the ice particle and the droplet in the warm cell stay -/
example : ∃ s', iceNuclMelt exIn exIce = some s' ∧ Frozen (dropOf s' 2) ∧ s'.iceA 2 = s'.iceC 2 ∧ dropOf s' 1 = dropOf exIce 1 ∧
    dropOf s' 0 = dropOf exIce 0 := by
  obtain ⟨s', e, -, -, -, -, -, -, -, -, -, out, -, -⟩ := nucl_melt exIn exIce exCell_sorted exIce_pure exIce_T exIce_th exIce_air
  have l2 : Liquid (dropOf exIce 2) := by refine ⟨?_, ?_, ?_, ?_⟩ <;> norm_num [dropOf, exIce, exCell]
  have l0 : Liquid (dropOf exIce 0) := by refine ⟨?_, ?_, ?_, ?_⟩ <;> norm_num [dropOf, exIce, exCell]
  have f1 : Frozen (dropOf exIce 1) := by refine ⟨?_, ?_, ?_, ?_⟩ <;> norm_num [dropOf, exIce, exCell]
  have t2 : exIce.T (exIce.d.ijk 2) ≤ 273.15 := by norm_num [exIce, exCell]
  have t1 : exIce.T (exIce.d.ijk 1) ≤ 273.15 := by norm_num [exIce, exCell]
  have t0 : 273.15 < exIce.T (exIce.d.ijk 0) := by norm_num [exIce, exCell]
  have fr : Freezes exIn exIce 2 := by
    unfold Freezes; norm_num [exIn, exIce, exCell]
  have o2 := (out 2 (by norm_num [exIce, exCell])).droplet l2 t2 fr
  exact ⟨s', e, o2.1, o2.2, (out 1 (by norm_num [exIce, exCell])).ice f1 t1, (out 0 (by norm_num [exIce, exCell])).stays l0 (Or.inl t0)⟩

/-- a history with both processes -/
example : ∃ s, Relation.ReflTransGen Step exIce s ∧ s ≠ exIce := by
  obtain ⟨s', e, -, -, -, -, -, -, -, -, -, out, -, -⟩ := nucl_melt exIn exIce exCell_sorted exIce_pure exIce_T exIce_th exIce_air
  refine ⟨s', Relation.ReflTransGen.single (Step.nucl exIn _ _ exCell_sorted exIce_T exIce_th exIce_air e), ?_⟩
  rintro rfl
  have l2 : Liquid (dropOf exIce 2) := by refine ⟨?_, ?_, ?_, ?_⟩ <;> norm_num [dropOf, exIce, exCell]
  have o2 := (out 2 (by norm_num [exIce, exCell])).droplet l2 (by norm_num [exIce, exCell]) (by unfold Freezes; norm_num [exIn, exIce, exCell])
  exact not_both _ ⟨l2, o2.1⟩

end LCP.Ice
