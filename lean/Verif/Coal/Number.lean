import Verif.Coal.Props
import Mathlib.MeasureTheory.Integral.IntervalIntegral.Basic

/-!
# How many collisions happen (C54)
-/
namespace LCP.Coal
open PairLoop
noncomputable section

/-- Specification: number of collisions of a pair with multiplicities `hi ≥ lo` when `c` are called for: all of them, but no more
than the more numerous super-droplet can supply -/
def performed (c hi lo : ℕ) : ℕ := if 0 < lo then min c (hi / lo) else c

theorem mem_candidate {e : Env} (c p : ℕ) (hp : p ∈ candidatePairs e c) : kind e p = .pair ∧ e.cell p = c := by
  simp only [candidatePairs, Finset.mem_filter, Finset.mem_range] at hp
  rw [kind_pair_iff]
  exact ⟨⟨by omega, hp.2.2.2, by rw [hp.2.1, hp.2.2.1]⟩, hp.2.1⟩

/-- **C54.** Result for each candidate pair: with `C` collisions called for (`C` is the stochastic rounding of the collision
probability with this pair's random number), nothing happens if `C = 0`; otherwise the less numerous one takes up
`k = performed C …` partners per droplet: the donor loses `k` times the receiver's multiplicity and nothing else changes of it,
the receiver keeps its multiplicity and gains `k` times the donor's dry volume, liquid volume and dissolved masses, its
in-cloud time becomes the longer of the two. -/
theorem pair_result {o : Opts} {e : Env} (h : e.Sorted) {σ : Scheds} (hσ : σ.Valid e.N) {s s' : State}
    (hr : coal o e σ s = some s') (hU : FitsU64 e.N s.sd) (hpos : ∀ i < e.N, 0 ≤ (s.sd i).rw2)
    (c p : ℕ) (hp : p ∈ candidatePairs e c) :
    let C := colNo0 e p (s.sd (e.id p)) (s.sd (e.id (p + 1))) (s.col p)
    (C = 0 → s'.sd (e.id p) = s.sd (e.id p) ∧ s'.sd (e.id (p + 1)) = s.sd (e.id (p + 1))) ∧
    (C ≠ 0 → ∃ d r, ((d = e.id p ∧ r = e.id (p + 1) ∧ (s.sd r).n ≤ (s.sd d).n) ∨
        (d = e.id (p + 1) ∧ r = e.id p ∧ (s.sd r).n < (s.sd d).n)) ∧
      s'.sd d = { s.sd d with n := (s.sd d).n - performed C (s.sd d).n (s.sd r).n * (s.sd r).n } ∧
      (s'.sd r).n = (s.sd r).n ∧
      (s'.sd r).rd3 = (s.sd r).rd3 + performed C (s.sd d).n (s.sd r).n * (s.sd d).rd3 ∧
      √(s'.sd r).rw2 ^ 3 = √(s.sd r).rw2 ^ 3 + performed C (s.sd d).n (s.sd r).n * √(s.sd d).rw2 ^ 3 ∧
      (∀ i < o.nChem, (s'.sd r).chem i = (s.sd r).chem i + performed C (s.sd d).n (s.sd r).n * (s.sd d).chem i) ∧
      (o.incloud = true → (s'.sd r).inc = max (s.sd d).inc (s.sd r).inc) ∧
      (o.incloud = false → (s'.sd r).inc = (s.sd r).inc)) := by
  obtain ⟨hk, -⟩ := mem_candidate c p hp
  obtain ⟨hN, -, -⟩ := (kind_pair_iff e p).1 hk
  have hpw := coal_pointwise h hσ hr
  have h1 := hpw p
  have h2 := hpw (p + 1)
  simp only [PairLoop.apply, hk] at h1
  simp only [PairLoop.apply, kind_disj h p hk, Nat.add_sub_cancel, hk] at h2
  have H := coalPair_outcome o e p (view e s p) (view e s (p + 1))
  rw [if_pos ⟨by omega, trivial⟩] at h2
  rw [← h1, ← h2] at H
  simp only [view] at H
  have m : ∀ (d r : ℕ) (_ : d < e.N) (_ : r < e.N) (k : ℕ),
      √(merged o (s.sd d) (s.sd r) k).rw2 ^ 3 = √(s.sd r).rw2 ^ 3 + k * √(s.sd d).rw2 ^ 3 := by
    intro d r hd hr' k
    have hi0 := hpos d hd
    have hj0 := hpos r hr'
    simp only [merged]
    rw [cube_cbrt (by positivity), mul_assoc (k : ℝ), rw3_eq hi0, rw3_eq hj0]
    ring
  intro C
  constructor
  · intro hC
    generalize hx : s'.sd (e.id p) = x at H
    generalize hy : s'.sd (e.id (p + 1)) = y at H
    cases H with
    | miss _ => exact ⟨rfl, rfl⟩
    | ab k hc _ _ _ _ => exact absurd hC hc
    | ba k hc _ _ _ _ => exact absurd hC hc
  · intro hC
    generalize hx : s'.sd (e.id p) = x at H
    generalize hy : s'.sd (e.id (p + 1)) = y at H
    have l1 := id_lt h (p := p) (by omega)
    have l2 := id_lt h (p := p + 1) hN
    cases H with
    | miss hc => exact absurd hc hC
    | ab k hc hn k1 k2 k3 =>
      refine ⟨_, _, Or.inl ⟨rfl, rfl, hn⟩, ?_⟩
      rw [hx, hy]
      have hkk : performed C (s.sd (e.id p)).n (s.sd (e.id (p + 1))).n = k := k3.symm
      rw [hkk]
      refine ⟨?_, rfl, ?_, m _ _ l1 l2 k, ?_, ?_, ?_⟩
      · simp only [donated, subU64_eq (hU _ l1) k2]
      · simp only [merged]; ring
      · intro i hi; simp only [merged, hi, if_true]
      · intro hI; simp [merged, hI]
      · intro hI; simp [merged, hI]
    | ba k hc hn k1 k2 k3 =>
      refine ⟨_, _, Or.inr ⟨rfl, rfl, hn⟩, ?_⟩
      rw [hx, hy]
      have hkk : performed C (s.sd (e.id (p + 1))).n (s.sd (e.id p)).n = k := k3.symm
      rw [hkk]
      refine ⟨?_, rfl, ?_, m _ _ l2 l1 k, ?_, ?_, ?_⟩
      · simp only [donated, subU64_eq (hU _ l2) k2]
      · simp only [merged]; ring
      · intro i hi; simp only [merged, hi, if_true]
      · intro hI; simp [merged, hI]
      · intro hI; simp [merged, hI]

/-- stochastic rounding: its mean over a uniform random number is the rounded value -/
theorem stochastic_round (x : ℝ) (hx : 0 ≤ x) :
    ∫ u in (0:ℝ)..1, (((if u < x - ⌊x⌋₊ then ⌊x⌋₊ + 1 else ⌊x⌋₊ : ℕ)) : ℝ) = x := by
  set f : ℝ := x - ⌊x⌋₊ with hf
  have f0 : 0 ≤ f := sub_nonneg.2 (Nat.floor_le hx)
  have f1 : f ≤ 1 := by have := (Nat.lt_floor_add_one x).le; linarith
  have i1 : ∫ u in (0:ℝ)..f, (((if u < f then ⌊x⌋₊ + 1 else ⌊x⌋₊ : ℕ)) : ℝ) = f * (⌊x⌋₊ + 1) := by
    rw [intervalIntegral.integral_of_le f0, MeasureTheory.integral_Ioc_eq_integral_Ioo,
      MeasureTheory.setIntegral_congr_fun (g := fun _ => (⌊x⌋₊ : ℝ) + 1) measurableSet_Ioo]
    · rw [← MeasureTheory.integral_Ioc_eq_integral_Ioo, ← intervalIntegral.integral_of_le f0]
      simp
      ring
    · intro u hu
      simp only [hu.2, if_true]; push_cast; rfl
  have i2 : ∫ u in f..(1:ℝ), (((if u < f then ⌊x⌋₊ + 1 else ⌊x⌋₊ : ℕ)) : ℝ) = (1 - f) * ⌊x⌋₊ := by
    rw [intervalIntegral.integral_congr (g := fun _ => (⌊x⌋₊ : ℝ))]
    · simp
    · intro u hu
      rw [Set.uIcc_of_le f1] at hu
      simp only [not_lt.2 hu.1, if_false]
  have hi : ∀ a b : ℝ, IntervalIntegrable (fun u : ℝ => (((if u < f then ⌊x⌋₊ + 1 else ⌊x⌋₊ : ℕ)) : ℝ)) MeasureTheory.volume a b := by
    intro a b
    have hm : Measurable (fun u : ℝ => (((if u < f then ⌊x⌋₊ + 1 else ⌊x⌋₊ : ℕ)) : ℝ)) := by
      refine Measurable.comp (measurable_of_countable _) ?_
      exact Measurable.ite measurableSet_Iio measurable_const measurable_const
    refine (intervalIntegrable_const (c := ((⌊x⌋₊ : ℝ) + 1))).mono_fun hm.aestronglyMeasurable ?_
    refine Filter.Eventually.of_forall fun u => ?_
    simp only [Real.norm_eq_abs]
    rw [abs_of_nonneg (by positivity), abs_of_nonneg (by positivity)]
    split_ifs <;> push_cast <;> linarith
  rw [← intervalIntegral.integral_add_adjacent_intervals (hi 0 f) (hi f 1), i1, i2, hf]
  ring

/-- **C54.** Averaged over the uniform random number, the number of collisions called for equals the collision probability
(which may exceed one): the substep length over the cell volume times the kernel, times the number of all pairs of the cell over
the number of pairs examined. -/
theorem collisions_mean {e : Env} (h : e.Sorted) (c p : ℕ) (hp : p ∈ candidatePairs e c) (a b : SD)
    (hpos : 0 ≤ e.dt ∧ 0 ≤ e.dv c ∧ 0 ≤ e.ker p a b) :
    ∫ u in (0:ℝ)..1, (colNo0 e p a b u : ℝ) =
      e.dt / e.dv c * e.ker p a b *
        ((((Finset.range e.N).filter (fun i => e.ijk i = c)).card.choose 2 : ℝ) / (candidatePairs e c).card) := by
  have hcard : ((candidatePairs e c).card : ℝ) ≠ 0 := by
    have : (candidatePairs e c).card ≠ 0 := Finset.card_ne_zero_of_mem hp
    exact_mod_cast this
  obtain ⟨-, hc⟩ := mem_candidate c p hp
  have hs := scaled_pairs_represent_all_pairs h c
  have hprob : prob e p a b = e.dt / e.dv c * e.ker p a b *
        ((((Finset.range e.N).filter (fun i => e.ijk i = c)).card.choose 2 : ℝ) / (candidatePairs e c).card) := by
    unfold prob
    rw [← hs, hc]
    field_simp
  have h0 : 0 ≤ prob e p a b := by
    obtain ⟨h1, h2, h3⟩ := hpos
    rw [hprob]; positivity
  have := stochastic_round _ h0
  rw [← hprob]
  exact this

/-- a random number of one or more never adds the extra collision; the number called for never differs from the probability by one
or more -/
theorem colNo0_close (e : Env) (p : ℕ) (a b : SD) (u : ℝ) (h : 0 ≤ prob e p a b) (hu : 0 ≤ u) :
    |(colNo0 e p a b u : ℝ) - prob e p a b| < 1 := by
  unfold colNo0
  have h1 := Nat.floor_le h
  have h2 := Nat.lt_floor_add_one (prob e p a b)
  rw [abs_lt]
  split_ifs with hc
  · push_cast; constructor <;> linarith
  · constructor <;> linarith

/-! ### detection of multiple collisions -/

theorem increase_step (e : Env) (s : State) (p : ℕ) :
    (colliderStep e s p).increase = if e.cix p % 2 ≠ 0 then s.increase else if e.cix p + 1 ≠ e.cix (p + 1) then s.increase
      else s.increase || (e.constMulti && decide (1 ≤ ⌊prob e p (s.sd (e.id p)) (s.sd (e.id (p + 1)))⌋₊)) := by
  unfold colliderStep
  split_ifs <;> simp only [] <;> split_ifs <;> rfl

theorem increase_fold {e : Env} (h : e.Sorted) (s : State) (L : List ℕ) : ∀ (t : State), L.Nodup → (∀ p ∈ L, p + 1 < e.N) →
    (∀ p ∈ L, kind e p = .pair → t.sd (e.id p) = s.sd (e.id p) ∧ t.sd (e.id (p + 1)) = s.sd (e.id (p + 1))) →
    ((L.foldl (colliderStep e) t).increase = true ↔ t.increase = true ∨ (e.constMulti = true ∧ ∃ p ∈ L, kind e p = .pair ∧
      1 ≤ ⌊prob e p (s.sd (e.id p)) (s.sd (e.id (p + 1)))⌋₊)) := by
  induction L with
  | nil => intro t _ _ _; simp
  | cons p L ih =>
    intro t hn hlt hv
    rw [List.nodup_cons] at hn
    rw [List.foldl_cons]
    have hp := hlt p (by simp)
    have hview := view_colliderStep h t p hp
    rw [ih (colliderStep e t p) hn.2 (fun q hq => hlt q (List.mem_cons_of_mem _ hq)) ?_]
    · rw [increase_step]
      constructor
      · rintro (h1 | ⟨h1, q, hq, h2⟩)
        · split_ifs at h1 with c1 c2
          · exact Or.inl h1
          · exact Or.inl h1
          · simp only [Bool.or_eq_true, Bool.and_eq_true, decide_eq_true_eq] at h1
            rcases h1 with h1 | ⟨h1, h2⟩
            · exact Or.inl h1
            · have hk : kind e p = .pair := by
                rw [kind_pair_iff]
                exact ⟨hp, by omega, (cix_succ_iff h hp).1 (by omega)⟩
              obtain ⟨v1, v2⟩ := hv p (by simp) hk
              rw [v1, v2] at h2
              exact Or.inr ⟨h1, p, by simp, hk, h2⟩
        · exact Or.inr ⟨h1, q, List.mem_cons_of_mem _ hq, h2⟩
      · rintro (h1 | ⟨h1, q, hq, hk, h2⟩)
        · left
          split_ifs
          · exact h1
          · exact h1
          · rw [h1]; rfl
        · rcases List.mem_cons.1 hq with rfl | hq
          · left
            obtain ⟨v1, v2⟩ := hv q (by simp) hk
            obtain ⟨k1, k2, k3⟩ := (kind_pair_iff e q).1 hk
            have := (cix_succ_iff h k1).2 k3
            rw [if_neg (by omega), if_neg (by omega), v1, v2]
            simp [h1, h2]
          · exact Or.inr ⟨h1, q, hq, hk, h2⟩
    · intro q hq hk
      have hne : q ≠ p := fun hh => hn.1 (hh ▸ hq)
      obtain ⟨v1, v2⟩ := hv q (List.mem_cons_of_mem _ hq) hk
      have e1 : q + 1 ≠ p + 1 := by omega
      have w1 := congrFun hview q
      have w2 := congrFun hview (q + 1)
      have hs := kind_disj h q hk
      have key : ∀ r, (kind e p ≠ .skip → r ≠ p) → (kind e p = .pair → r ≠ p + 1) → view e (colliderStep e t p) r = view e t r := by
        intro r r1 r2
        rw [hview]
        unfold step
        cases hkp : kind e p with
        | skip => rfl
        | single => have := r1 (by rw [hkp]; decide); simp [this]
        | pair => have := r1 (by rw [hkp]; decide); simp [this, r2 hkp]
      have k1 := key q (fun _ => hne) (fun hkp hh => by have := kind_disj h p hkp; rw [← hh, hk] at this; exact absurd this (by decide))
      have k2 := key (q + 1) (fun hkp hh => hkp (hh ▸ hs)) (fun _ => e1)
      exact ⟨by rw [← v1]; exact congrArg Prod.fst k1, by rw [← v2]; exact congrArg Prod.fst k2⟩

theorem pass_recv_increase (u : SD → SD → ℝ → SD) (e : Env) (L : List ℕ) (s : State) :
    (pass (recvStep u) e L s).increase = s.increase := by
  unfold pass
  induction L generalizing s with
  | nil => rfl
  | cons p t ih =>
    rw [List.foldl_cons, ih]
    unfold recvStep; split_ifs <;> rfl

/-- **C54.** In constant-multiplicity runs the request for more substeps is raised exactly when some examined pair of some cell
had a collision probability of one or more (whatever the random numbers and the execution order); otherwise never. -/
theorem increase_iff {o : Opts} {e : Env} (h : e.Sorted) {σ : Scheds} (hσ : σ.Valid e.N) {s s' : State}
    (hr : coal o e σ s = some s') (h0 : s.increase = false) :
    s'.increase = true ↔ e.constMulti = true ∧ ∃ c, ∃ p ∈ candidatePairs e c,
      1 ≤ prob e p (s.sd (e.id p)) (s.sd (e.id (p + 1))) := by
  have hlt : ∀ p ∈ σ.coll, p + 1 < e.N := by
    intro p hp; have := hσ.coll.mem_iff.1 hp; simp at this; omega
  have hmain := increase_fold h s σ.coll s (hσ.coll.nodup_iff.2 List.nodup_range) hlt (fun _ _ _ => ⟨rfl, rfl⟩)
  have hinc : s'.increase = (pass colliderStep e σ.coll s).increase := by
    unfold coal at hr
    by_cases hN : e.N = 0
    · rw [if_pos hN] at hr; exact absurd hr (by simp)
    rw [if_neg hN] at hr
    simp only [Option.some.injEq, summatorStep_eq, kappaStep_eq, incloudStep_eq, rc2Step_eq] at hr
    rw [← hr]
    generalize pass colliderStep e σ.coll s = t
    have hchem : ∀ (L : List ℕ) (t : State), (L.foldl (fun s i => pass (recvStep (uChem i)) e (σ.chem i) s) t).increase = t.increase := by
      intro L
      induction L with
      | nil => intro t; rfl
      | cons i L ih => intro t; rw [List.foldl_cons, ih, pass_recv_increase]
    split_ifs <;> simp only [pass_recv_increase, hchem]
  rw [hinc, pass, hmain, h0]
  simp only [Bool.false_eq_true, false_or, and_congr_right_iff]
  intro _
  constructor
  · rintro ⟨p, hp, hk, h1⟩
    obtain ⟨k1, k2, k3⟩ := (kind_pair_iff e p).1 hk
    refine ⟨e.cell p, p, ?_, (Nat.one_le_floor_iff _).1 h1⟩
    simp only [candidatePairs, Finset.mem_filter, Finset.mem_range, true_and]
    exact ⟨by omega, k3.symm, k2⟩
  · rintro ⟨c, p, hp, h1⟩
    obtain ⟨hk, -⟩ := mem_candidate c p hp
    obtain ⟨k1, -, -⟩ := (kind_pair_iff e p).1 hk
    exact ⟨p, hσ.coll.mem_iff.2 (by simp; omega), hk, (Nat.one_le_floor_iff _).2 h1⟩

/-- the witness of `Props.lean` has exactly one candidate pair in cell 0, with three possible pairs represented as one -/
example : 0 ∈ candidatePairs exEnv 0 ∧ (candidatePairs exEnv 0).card = 1 ∧ 0 ≤ exEnv.dt ∧ 0 ≤ exEnv.dv 0 ∧
    ∀ a b, 0 ≤ exEnv.ker 0 a b := by
  have hc : (candidatePairs exEnv 0).card = 1 := by rw [candidate_pair_count exEnv_sorted]; decide
  refine ⟨?_, hc, ?_, ?_, ?_⟩
  · decide
  all_goals simp [exEnv]

end
end LCP.Coal
