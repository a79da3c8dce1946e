import Verif.Init.DistAnalysis
import Mathlib.Analysis.SpecialFunctions.Log.Deriv
import Mathlib.Analysis.SpecificLimits.Basic
import Mathlib.Analysis.Complex.ExponentialBounds
import Mathlib.Tactic.Linarith
import Mathlib.Tactic.Positivity
import Mathlib.Tactic.FieldSimp

/-!
# C95: the range of dry radii found automatically

Specification: with the radii between `lo` and `hi` divided (in logarithm) between `sd` super-droplets per cell, a super-droplet of radius `r` stands for
`particlesPerSD … r` particles of the distribution.
-/
namespace LCP.Init

/-- number of particles of the distribution `f` (per unit volume and unit logarithm of radius, times `dt` for sources) in a cell of volume `vol` for which a super-droplet of radius `r` stands, if `sd`
super-droplets share the radii from `lo` to `hi` -/
noncomputable def particlesPerSD (f : ℝ → ℝ) (sd : ℕ) (dt vol lo hi r : ℝ) : ℝ :=
  f (Real.log r) * ((Real.log hi - Real.log lo) / sd) * (dt * vol)

theorem perSD_eq (f : ℝ → ℝ) (p : SearchPar) (s : ℝ × ℝ) (r : ℝ) (h1 : 0 < s.1) (h2 : 0 < s.2) :
    f (Real.log r) * searchMult p s = particlesPerSD f p.sd p.dt p.vol s.1 s.2 r := by
  unfold particlesPerSD searchMult
  rw [Real.log_div h2.ne' h1.ne']; ring

/-- number of particles grows with the range -/
theorem perSD_mono (f : ℝ → ℝ) (sd : ℕ) (dt vol lo hi lo' hi' r : ℝ) (hf : ∀ x, 0 ≤ f x) (hdt : 0 < dt) (hv : 0 < vol) (h0 : 0 < lo') (h1 : lo' ≤ lo) (h2 : 0 < hi)
    (h3 : hi ≤ hi') : particlesPerSD f sd dt vol lo hi r ≤ particlesPerSD f sd dt vol lo' hi' r := by
  unfold particlesPerSD
  have a1 := Real.log_le_log h0 h1
  have a2 := Real.log_le_log h2 h3
  apply mul_le_mul_of_nonneg_right _ (by positivity)
  apply mul_le_mul_of_nonneg_left _ (hf _)
  exact div_le_div_of_nonneg_right (by linarith) (by positivity)

theorem toUint?_zero (x : ℝ) (h : -1 < x) : toUint? x = some 0 ↔ x < 1 := by
  unfold toUint?
  rw [if_neg (by linarith)]
  simp [Nat.floor_eq_zero]

theorem toUint?_pos (x : ℝ) (n : ℕ) (h : toUint? x = some n) : n ≠ 0 ↔ 1 ≤ x := by
  unfold toUint? at h
  split_ifs at h
  have h := Option.some.inj h
  rw [← h, Nat.ne_zero_iff_zero_lt, Nat.floor_pos]

/-- the state of the search after `i` increases of the lower and `j` decreases of the upper limit -/
noncomputable abbrev sState (i j : ℕ) : ℝ × ℝ := (rdMinInit * (101 / 100) ^ i, rdMaxInit / (101 / 100) ^ j)

theorem sState_pos (i j : ℕ) : 0 < (sState i j).1 ∧ 0 < (sState i j).2 := by
  constructor
  · show 0 < rdMinInit * (101 / 100 : ℝ) ^ i; positivity
  · show 0 < rdMaxInit / (101 / 100 : ℝ) ^ j; positivity

theorem sState_fst_eq (i j : ℕ) : (sState i j).1 = rdMinInit ↔ i = 0 := by
  constructor
  · intro h
    by_contra hi
    have : (1 : ℝ) < (101 / 100) ^ i := one_lt_pow₀ (by norm_num) hi
    have h : rdMinInit * (101 / 100 : ℝ) ^ i = rdMinInit := h
    have h0 : 0 < rdMinInit := by norm_num
    nlinarith
  · rintro rfl; simp

theorem sState_snd_eq (i j : ℕ) : (sState i j).2 = rdMaxInit ↔ j = 0 := by
  constructor
  · intro h
    by_contra hi
    have : (1 : ℝ) < (101 / 100) ^ j := one_lt_pow₀ (by norm_num) hi
    have h : rdMaxInit / (101 / 100 : ℝ) ^ j = rdMaxInit := h
    rw [div_eq_iff (by positivity)] at h
    have h0 : 0 < rdMaxInit := by norm_num
    nlinarith
  · rintro rfl; simp

theorem sState_next1 (i j : ℕ) : ((sState i j).1 * (101 / 100), (sState i j).2) = sState (i + 1) j := by
  unfold sState; rw [pow_succ]; simp only [Prod.mk.injEq, and_true]; ring

theorem sState_next2 (i j : ℕ) : ((sState i j).1, (sState i j).2 / (101 / 100)) = sState i (j + 1) := by
  unfold sState; rw [pow_succ]; simp only [Prod.mk.injEq, true_and]; rw [div_div]

theorem sState_mono1 (i i' j : ℕ) (h : i ≤ i') : (sState i j).1 ≤ (sState i' j).1 := by
  show rdMinInit * (101 / 100 : ℝ) ^ i ≤ rdMinInit * (101 / 100 : ℝ) ^ i'
  have : (101 / 100 : ℝ) ^ i ≤ (101 / 100) ^ i' := pow_le_pow_right₀ (by norm_num) h
  have h0 : 0 < rdMinInit := by norm_num
  nlinarith

theorem sState_mono2 (i j j' : ℕ) (h : j ≤ j') : (sState i j').2 ≤ (sState i j).2 := by
  show rdMaxInit / (101 / 100 : ℝ) ^ j' ≤ rdMaxInit / (101 / 100 : ℝ) ^ j
  have : (101 / 100 : ℝ) ^ j ≤ (101 / 100) ^ j' := pow_le_pow_right₀ (by norm_num) h
  exact div_le_div_of_nonneg_left (by norm_num) (by positivity) this

/-- complete description of one pass -/
theorem searchStep_cases (f : ℝ → ℝ) (p : SearchPar) (i j : ℕ) :
    let R := fun r => particlesPerSD f p.sd p.dt p.vol (sState i j).1 (sState i j).2 r
    (searchStep f p (sState i j) = .undefined ∧ (R (sState i j).1 ≤ -1 ∨ R (sState i j).2 ≤ -1)) ∨
    (searchStep f p (sState i j) = .throwMin ∧ i = 0 ∧ 1 ≤ R (sState i j).1) ∨
    (searchStep f p (sState i j) = .throwMax ∧ j = 0 ∧ 1 ≤ R (sState i j).2 ∧ ¬ (i = 0 ∧ 1 ≤ R (sState i j).1)) ∨
    (searchStep f p (sState i j) = .next (sState (i + 1) j) ∧ R (sState i j).1 < 1 ∧ ¬ (j = 0 ∧ 1 ≤ R (sState i j).2)) ∨
    (searchStep f p (sState i j) = .next (sState i (j + 1)) ∧ R (sState i j).2 < 1 ∧ 1 ≤ R (sState i j).1 ∧ i ≠ 0) ∨
    (searchStep f p (sState i j) = .found (sState i j).1 (sState i j).2 ∧ 1 ≤ R (sState i j).1 ∧ 1 ≤ R (sState i j).2 ∧ i ≠ 0 ∧ j ≠ 0) := by
  intro R
  have hp := sState_pos i j
  have e1 : f (Real.log (sState i j).1) * searchMult p (sState i j) = R (sState i j).1 := perSD_eq f p _ _ hp.1 hp.2
  have e2 : f (Real.log (sState i j).2) * searchMult p (sState i j) = R (sState i j).2 := perSD_eq f p _ _ hp.1 hp.2
  unfold searchStep
  rw [e1, e2, sState_next1, sState_next2]
  rcases h1 : toUint? (R (sState i j).1) with _ | nMin
  · left
    refine ⟨rfl, Or.inl ?_⟩
    unfold toUint? at h1; split_ifs at h1; assumption
  rcases h2 : toUint? (R (sState i j).2) with _ | nMax
  · left
    refine ⟨rfl, Or.inr ?_⟩
    unfold toUint? at h2; split_ifs at h2; assumption
  right
  have q1 := toUint?_pos _ _ h1
  have q2 := toUint?_pos _ _ h2
  have w1 := sState_fst_eq i j
  have w2 := sState_snd_eq i j
  simp only [w1, w2]
  by_cases c1 : i = 0 ∧ nMin ≠ 0
  · left
    exact ⟨by rw [if_pos c1], c1.1, q1.1 c1.2⟩
  right
  rw [if_neg c1]
  by_cases c2 : j = 0 ∧ nMax ≠ 0
  · left
    exact ⟨by rw [if_pos c2], c2.1, q2.1 c2.2, fun h => c1 ⟨h.1, q1.2 h.2⟩⟩
  right
  rw [if_neg c2]
  by_cases c3 : nMin = 0
  · left
    exact ⟨by rw [if_pos c3], not_le.1 fun h => q1.2 h c3, fun h => c2 ⟨h.1, q2.2 h.2⟩⟩
  right
  rw [if_neg c3]
  by_cases c4 : nMax = 0
  · left
    exact ⟨by rw [if_pos c4], not_le.1 fun h => q2.2 h c4, q1.1 c3, fun h => c1 ⟨h, c3⟩⟩
  right
  exact ⟨by rw [if_neg c4], q1.1 c3, q2.1 c4, fun h => c1 ⟨h, c3⟩, fun h => c2 ⟨h, c4⟩⟩

/-- every outcome is reached from some state with the invariant -/
theorem loop_reach (f : ℝ → ℝ) (p : SearchPar) (P : ℕ → ℕ → Prop)
    (h1 : ∀ i j, P i j → searchStep f p (sState i j) = .next (sState (i + 1) j) →
      particlesPerSD f p.sd p.dt p.vol (sState i j).1 (sState i j).2 (sState i j).1 < 1 → P (i + 1) j)
    (h2 : ∀ i j, P i j → searchStep f p (sState i j) = .next (sState i (j + 1)) →
      particlesPerSD f p.sd p.dt p.vol (sState i j).1 (sState i j).2 (sState i j).2 < 1 → i ≠ 0 → P i (j + 1)) :
    ∀ n i j r, P i j → searchLoop f p n (sState i j) = some r → ∃ i' j', P i' j' ∧ searchStep f p (sState i' j') = r ∧ ∀ s, r ≠ .next s := by
  intro n
  induction n with
  | zero => intro i j r _ h; simp [searchLoop] at h
  | succ n ih =>
    intro i j r hP h
    unfold searchLoop at h
    rcases searchStep_cases f p i j with h' | h' | h' | h' | h' | h'
    · rw [h'.1] at h; exact ⟨i, j, hP, by rw [h'.1]; exact Option.some.inj h, fun s hs => by rw [hs] at h; exact SearchRes.noConfusion (Option.some.inj h)⟩
    · rw [h'.1] at h; exact ⟨i, j, hP, by rw [h'.1]; exact Option.some.inj h, fun s hs => by rw [hs] at h; exact SearchRes.noConfusion (Option.some.inj h)⟩
    · rw [h'.1] at h; exact ⟨i, j, hP, by rw [h'.1]; exact Option.some.inj h, fun s hs => by rw [hs] at h; exact SearchRes.noConfusion (Option.some.inj h)⟩
    · rw [h'.1] at h; exact ih _ _ _ (h1 i j hP h'.1 h'.2.1) h
    · rw [h'.1] at h; exact ih _ _ _ (h2 i j hP h'.1 h'.2.1 h'.2.2.2) h
    · rw [h'.1] at h; exact ⟨i, j, hP, by rw [h'.1]; exact Option.some.inj h, fun s hs => by rw [hs] at h; exact SearchRes.noConfusion (Option.some.inj h)⟩

theorem init_state : (rdMinInit, rdMaxInit) = sState 0 0 := by simp

/-- **C95 (what is found).** If the search ends with a range, then its limits come from the initial ones by whole steps of one per cent, super-droplets of both limiting radii stand for at least
one particle, and a super-droplet of any of the radii tried outside of the range would stand for less than one. -/
theorem search_sound (f : ℝ → ℝ) (p : SearchPar) (hf : ∀ x, 0 ≤ f x) (hdt : 0 < p.dt) (hv : 0 < p.vol) (n : ℕ) (lo hi : ℝ) (h : search f p n = some (.found lo hi)) :
    ∃ i j : ℕ, i ≠ 0 ∧ j ≠ 0 ∧ lo = 1 / 10 ^ 14 * 1.01 ^ i ∧ hi = 1 / 10 ^ 3 / 1.01 ^ j ∧ 0 < lo ∧ lo < hi ∧
      1 ≤ particlesPerSD f p.sd p.dt p.vol lo hi lo ∧ 1 ≤ particlesPerSD f p.sd p.dt p.vol lo hi hi ∧
      (∀ k < i, particlesPerSD f p.sd p.dt p.vol lo hi (1 / 10 ^ 14 * 1.01 ^ k) < 1) ∧
      ∀ k < j, particlesPerSD f p.sd p.dt p.vol lo hi (1 / 10 ^ 3 / 1.01 ^ k) < 1 := by
  unfold search at h
  rw [init_state] at h
  have e : (1.01 : ℝ) = 101 / 100 := by norm_num
  rw [e]
  obtain ⟨i, j, ⟨P1, P2⟩, hs, -⟩ := loop_reach f p
    (fun i j => (∀ k < i, particlesPerSD f p.sd p.dt p.vol (sState i j).1 (sState i j).2 (sState k j).1 < 1) ∧
      ∀ k < j, particlesPerSD f p.sd p.dt p.vol (sState i j).1 (sState i j).2 (sState i k).2 < 1)
    (by
      rintro i j ⟨a, b⟩ - c
      have mono : ∀ r, particlesPerSD f p.sd p.dt p.vol (sState (i + 1) j).1 (sState (i + 1) j).2 r ≤ particlesPerSD f p.sd p.dt p.vol (sState i j).1 (sState i j).2 r :=
        fun r => perSD_mono f _ _ _ _ _ _ _ r hf hdt hv (sState_pos i j).1 (sState_mono1 i (i + 1) j (Nat.le_succ i)) (sState_pos (i + 1) j).2 (le_refl _)
      refine ⟨fun k hk => lt_of_le_of_lt (mono _) ?_, fun k hk => lt_of_le_of_lt (mono _) (b k hk)⟩
      rcases Nat.lt_succ_iff_lt_or_eq.1 hk with hk | hk
      · exact a k hk
      · rw [hk]; exact c)
    (by
      rintro i j ⟨a, b⟩ - c -
      have mono : ∀ r, particlesPerSD f p.sd p.dt p.vol (sState i (j + 1)).1 (sState i (j + 1)).2 r ≤ particlesPerSD f p.sd p.dt p.vol (sState i j).1 (sState i j).2 r :=
        fun r => perSD_mono f _ _ _ _ _ _ _ r hf hdt hv (sState_pos i j).1 (le_refl _) (sState_pos i (j + 1)).2 (sState_mono2 i j (j + 1) (Nat.le_succ j))
      refine ⟨fun k hk => lt_of_le_of_lt (mono _) (a k hk), fun k hk => lt_of_le_of_lt (mono _) ?_⟩
      rcases Nat.lt_succ_iff_lt_or_eq.1 hk with hk | hk
      · exact b k hk
      · rw [hk]; exact c)
    n 0 0 _ ⟨fun k hk => absurd hk (Nat.not_lt_zero k), fun k hk => absurd hk (Nat.not_lt_zero k)⟩ h
  rcases searchStep_cases f p i j with h' | h' | h' | h' | h' | h'
  · rw [h'.1] at hs; cases hs
  · rw [h'.1] at hs; cases hs
  · rw [h'.1] at hs; cases hs
  · rw [h'.1] at hs; cases hs
  · rw [h'.1] at hs; cases hs
  · rw [h'.1] at hs
    injection hs with hl hh
    obtain ⟨-, g1, g2, g3, g4⟩ := h'
    refine ⟨i, j, g3, g4, hl.symm, hh.symm, by rw [← hl]; exact (sState_pos i j).1, ?_, ?_, ?_, ?_, ?_⟩
    · by_contra hc
      push Not at hc
      rw [← hl, ← hh] at hc
      have hlog := Real.log_le_log (sState_pos i j).2 hc
      have : particlesPerSD f p.sd p.dt p.vol (sState i j).1 (sState i j).2 (sState i j).1 ≤ 0 := by
        unfold particlesPerSD
        apply mul_nonpos_of_nonpos_of_nonneg _ (by positivity)
        apply mul_nonpos_of_nonneg_of_nonpos (hf _)
        exact div_nonpos_of_nonpos_of_nonneg (by linarith) (by positivity)
      linarith
    · rw [← hl, ← hh]; exact g1
    · rw [← hl, ← hh]; exact g2
    · intro k hk; rw [← hl, ← hh]; exact P1 k hk
    · intro k hk; rw [← hl, ← hh]; exact P2 k hk

/-- **C95 (single-mode distributions).** If the distribution is not smaller between two radii than at the smaller of the values there (one mode), then every super-droplet in the range found stands for at least one
particle. -/
theorem search_unimodal (f : ℝ → ℝ) (p : SearchPar) (hf : ∀ x, 0 ≤ f x) (hdt : 0 < p.dt) (hv : 0 < p.vol)
    (huni : ∀ x y z, x ≤ y → y ≤ z → min (f x) (f z) ≤ f y) (n : ℕ) (lo hi : ℝ) (h : search f p n = some (.found lo hi)) (r : ℝ) (h1 : lo ≤ r) (h2 : r ≤ hi) :
    1 ≤ particlesPerSD f p.sd p.dt p.vol lo hi r := by
  obtain ⟨i, j, -, -, -, -, g0, g1, g2, g3, -⟩ := search_sound f p hf hdt hv n lo hi h
  have a := huni (Real.log lo) (Real.log r) (Real.log hi) (Real.log_le_log g0 h1) (Real.log_le_log (by linarith) h2)
  have hl := Real.log_le_log g0 g1.le
  have hc : 0 ≤ (Real.log hi - Real.log lo) / p.sd * (p.dt * p.vol) := mul_nonneg (div_nonneg (by linarith) (by positivity)) (by positivity)
  have key : ∀ y, f y ≤ f (Real.log r) → 1 ≤ f y * ((Real.log hi - Real.log lo) / p.sd) * (p.dt * p.vol) → 1 ≤ particlesPerSD f p.sd p.dt p.vol lo hi r := by
    intro y hy h
    unfold particlesPerSD
    refine h.trans ?_
    rw [mul_assoc, mul_assoc]
    exact mul_le_mul_of_nonneg_right hy hc
  rcases min_le_iff.1 a with a | a
  · exact key _ a g2
  · exact key _ a g3

/-- **C95 (exceptions).** The exception for the smallest radius is thrown exactly if a super-droplet there would stand for a particle or more, and the one for the largest radius exactly if
the first is not and a super-droplet of the largest radius would stand for a particle or more. -/
theorem search_throws_iff (f : ℝ → ℝ) (p : SearchPar) (hf : ∀ x, 0 ≤ f x) (hdt : 0 < p.dt) (hv : 0 < p.vol) :
    ((∃ n, search f p n = some .throwMin) ↔ 1 ≤ particlesPerSD f p.sd p.dt p.vol (1 / 10 ^ 14) (1 / 10 ^ 3) (1 / 10 ^ 14)) ∧
    ((∃ n, search f p n = some .throwMax) ↔ particlesPerSD f p.sd p.dt p.vol (1 / 10 ^ 14) (1 / 10 ^ 3) (1 / 10 ^ 14) < 1 ∧
      1 ≤ particlesPerSD f p.sd p.dt p.vol (1 / 10 ^ 14) (1 / 10 ^ 3) (1 / 10 ^ 3)) := by
  have e0 : (sState 0 0).1 = 1 / 10 ^ 14 := by simp
  have e1 : (sState 0 0).2 = 1 / 10 ^ 3 := by simp
  have pos : ∀ r, 0 ≤ particlesPerSD f p.sd p.dt p.vol (1 / 10 ^ 14) (1 / 10 ^ 3) r := by
    intro r
    unfold particlesPerSD
    have := Real.log_le_log (x := 1 / 10 ^ 14) (y := 1 / 10 ^ 3) (by positivity) (by norm_num)
    apply mul_nonneg (mul_nonneg (hf _) (div_nonneg (by linarith) (by positivity))) (by positivity)
  have c := searchStep_cases f p 0 0
  rw [e0, e1] at c
  have p1 := pos (1 / 10 ^ 14)
  have p2 := pos (1 / 10 ^ 3)
  -- the invariant that holds after a first pass without exception
  have inv : ∀ n r, search f p n = some r → ∃ i j, ((i = 0 → j = 0) ∧ (i ≠ 0 → j = 0 → particlesPerSD f p.sd p.dt p.vol (1 / 10 ^ 14) (1 / 10 ^ 3) (1 / 10 ^ 3) < 1) ∧
      (i ≠ 0 → particlesPerSD f p.sd p.dt p.vol (1 / 10 ^ 14) (1 / 10 ^ 3) (1 / 10 ^ 14) < 1)) ∧
      searchStep f p (sState i j) = r := by
    intro n r h
    unfold search at h
    rw [init_state] at h
    obtain ⟨i, j, hP, hs, -⟩ := loop_reach f p
      (fun i j => (i = 0 → j = 0) ∧ (i ≠ 0 → j = 0 → particlesPerSD f p.sd p.dt p.vol (1 / 10 ^ 14) (1 / 10 ^ 3) (1 / 10 ^ 3) < 1) ∧
        (i ≠ 0 → particlesPerSD f p.sd p.dt p.vol (1 / 10 ^ 14) (1 / 10 ^ 3) (1 / 10 ^ 14) < 1))
      (by
        rintro i j ⟨a, b, b'⟩ hst h1
        refine ⟨fun h => absurd h (Nat.succ_ne_zero i), fun _ hj => ?_, fun _ => ?_⟩
        · by_cases hi : i = 0
          · subst hi; subst hj
            rcases searchStep_cases f p 0 0 with h' | h' | h' | h' | h' | h'
            · rw [h'.1] at hst; cases hst
            · rw [h'.1] at hst; cases hst
            · rw [h'.1] at hst; cases hst
            · rw [e0, e1] at h'; by_contra hc; exact h'.2.2 ⟨rfl, not_lt.1 hc⟩
            · exact absurd rfl h'.2.2.2
            · rw [h'.1] at hst; cases hst
          · exact b hi hj
        · by_cases hi : i = 0
          · have hj := a hi
            subst hi; subst hj
            rw [e0, e1] at h1; exact h1
          · exact b' hi)
      (by
        rintro i j ⟨a, b, b'⟩ hst h1 hi
        exact ⟨fun h => absurd h hi, fun _ h => absurd h (Nat.succ_ne_zero j), b'⟩)
      n 0 0 r ⟨fun _ => rfl, fun h => absurd rfl h, fun h => absurd rfl h⟩ h
    exact ⟨i, j, hP, hs⟩
  constructor
  · constructor
    · rintro ⟨n, h⟩
      obtain ⟨i, j, hP, hs⟩ := inv n _ h
      rcases searchStep_cases f p i j with h' | h' | h' | h' | h' | h'
      · rw [h'.1] at hs; cases hs
      · have hj := hP.1 h'.2.1
        have hi := h'.2.1
        subst hi; subst hj
        have := h'.2.2; rw [e0, e1] at this; exact this
      · rw [h'.1] at hs; cases hs
      · rw [h'.1] at hs; cases hs
      · rw [h'.1] at hs; cases hs
      · rw [h'.1] at hs; cases hs
    · intro h
      refine ⟨1, ?_⟩
      unfold search searchLoop
      rw [init_state]
      rcases c with h' | h' | h' | h' | h' | h'
      · rcases h'.2 with h' | h' <;> linarith
      · rw [h'.1]
      · exact absurd ⟨rfl, h⟩ h'.2.2.2
      · linarith [h'.2.1]
      · exact absurd rfl h'.2.2.2
      · exact absurd rfl h'.2.2.2.1
  · constructor
    · rintro ⟨n, h⟩
      obtain ⟨i, j, hP, hs⟩ := inv n _ h
      rcases searchStep_cases f p i j with h' | h' | h' | h' | h' | h'
      · rw [h'.1] at hs; cases hs
      · rw [h'.1] at hs; cases hs
      · have hj := h'.2.1
        by_cases hi : i = 0
        · subst hi; subst hj
          have w := h'.2.2
          rw [e0, e1] at w
          exact ⟨not_le.1 fun hc => w.2 ⟨rfl, hc⟩, w.1⟩
        · exfalso
          have lt := hP.2.1 hi hj
          subst hj
          have w := h'.2.2.1
          rw [show (sState i 0).2 = 1 / 10 ^ 3 by simp] at w
          have m : particlesPerSD f p.sd p.dt p.vol (sState i 0).1 (1 / 10 ^ 3) (1 / 10 ^ 3) ≤ particlesPerSD f p.sd p.dt p.vol (1 / 10 ^ 14) (1 / 10 ^ 3) (1 / 10 ^ 3) :=
            perSD_mono f _ _ _ _ _ _ _ _ hf hdt hv (by positivity) (by have := sState_mono1 0 i 0 (Nat.zero_le i); rw [e0] at this; exact this) (by positivity) (le_refl _)
          linarith
      · rw [h'.1] at hs; cases hs
      · rw [h'.1] at hs; cases hs
      · rw [h'.1] at hs; cases hs
    · rintro ⟨g1, g2⟩
      refine ⟨1, ?_⟩
      unfold search searchLoop
      rw [init_state]
      rcases c with h' | h' | h' | h' | h' | h'
      · rcases h'.2 with h' | h' <;> linarith
      · linarith [h'.2.2]
      · rw [h'.1]
      · exact absurd ⟨rfl, g2⟩ h'.2.2
      · exact absurd rfl h'.2.2.2
      · exact absurd rfl h'.2.2.2.1

/-- **C95 (a range is found).** If there is an interval of radii from `a` to `b`, on which the distribution is so large that super-droplets sharing it (made shorter by one per cent of the radius at both ends) stand for a particle or more,
and super-droplets of the smallest and largest radius would stand for less than one, the search ends, and the range found covers the interval up to one per cent of the radius. -/
theorem search_finds (f : ℝ → ℝ) (p : SearchPar) (hf : ∀ x, 0 ≤ f x) (hdt : 0 < p.dt) (hv : 0 < p.vol) (a b : ℝ) (ha : 1 / 10 ^ 14 ≤ a) (hab : a * 1.01 ^ 2 < b) (hb : b ≤ 1 / 10 ^ 3)
    (core : ∀ r, a ≤ r → r ≤ b → 1 ≤ particlesPerSD f p.sd p.dt p.vol (a * 1.01) (b / 1.01) r)
    (e1 : particlesPerSD f p.sd p.dt p.vol (1 / 10 ^ 14) (1 / 10 ^ 3) (1 / 10 ^ 14) < 1)
    (e2 : particlesPerSD f p.sd p.dt p.vol (1 / 10 ^ 14) (1 / 10 ^ 3) (1 / 10 ^ 3) < 1) :
    ∃ n lo hi, search f p n = some (.found lo hi) ∧ 1 / 10 ^ 14 < lo ∧ lo ≤ a * 1.01 ∧ b / 1.01 ≤ hi ∧ hi < 1 / 10 ^ 3 := by
  have ee : (1.01 : ℝ) = 101 / 100 := by norm_num
  rw [ee] at hab ⊢
  simp only [ee] at core
  have ha0 : 0 < a := lt_of_lt_of_le (by norm_num) ha
  have hb0 : 0 < b := by nlinarith
  have hclose : a * (101 / 100) < b / (101 / 100) := by rw [lt_div_iff₀ (by norm_num)]; nlinarith
  -- number of steps left
  have key : ∀ m i j, (sState i j).1 ≤ a * (101 / 100) → b / (101 / 100) ≤ (sState i j).2 →
      rdMaxInit * 100 ≤ rdMinInit * (101 / 100) ^ (m + i + j) →
      (i = 0 → j = 0) →
      ∃ n lo hi, searchLoop f p n (sState i j) = some (.found lo hi) ∧ 1 / 10 ^ 14 < lo ∧ lo ≤ a * (101 / 100) ∧ b / (101 / 100) ≤ hi ∧ hi < 1 / 10 ^ 3 := by
    intro m
    induction m with
    | zero =>
      intro i j h1 h2 h3 _
      exfalso
      have h1 : rdMinInit * (101 / 100 : ℝ) ^ i ≤ a * (101 / 100) := h1
      have h2 : b / (101 / 100 : ℝ) ≤ rdMaxInit / (101 / 100 : ℝ) ^ j := h2
      have h4 : a * (101 / 100) < rdMaxInit / (101 / 100 : ℝ) ^ j := lt_of_lt_of_le hclose h2
      have h5 : rdMinInit * (101 / 100 : ℝ) ^ i < rdMaxInit / (101 / 100 : ℝ) ^ j := lt_of_le_of_lt h1 h4
      rw [lt_div_iff₀ (by positivity)] at h5
      rw [zero_add, pow_add, ← mul_assoc] at h3
      have : (0 : ℝ) < rdMaxInit := by norm_num
      linarith
    | succ m ih =>
      intro i j h1 h2 h3 h0
      have hpos := sState_pos i j
      have lohi : (sState i j).1 < (sState i j).2 := lt_of_le_of_lt h1 (lt_of_lt_of_le hclose h2)
      have hl := Real.log_le_log hpos.1 lohi.le
      have pos : ∀ r, 0 ≤ particlesPerSD f p.sd p.dt p.vol (sState i j).1 (sState i j).2 r := fun r => by
        unfold particlesPerSD
        exact mul_nonneg (mul_nonneg (hf _) (div_nonneg (by linarith) (by positivity))) (by positivity)
      have big : ∀ r, a ≤ r → r ≤ b → 1 ≤ particlesPerSD f p.sd p.dt p.vol (sState i j).1 (sState i j).2 r := fun r q1 q2 =>
        (core r q1 q2).trans (perSD_mono f _ _ _ _ _ _ _ r hf hdt hv hpos.1 h1 (by positivity) h2)
      have e3 : (sState i j).1 ≥ 1 / 10 ^ 14 := by have := sState_mono1 0 i j (Nat.zero_le i); simpa using this
      have e4 : (sState i j).2 ≤ 1 / 10 ^ 3 := by have := sState_mono2 i 0 j (Nat.zero_le j); simpa using this
      have small : ∀ r, particlesPerSD f p.sd p.dt p.vol (sState i j).1 (sState i j).2 r ≤ particlesPerSD f p.sd p.dt p.vol (1 / 10 ^ 14) (1 / 10 ^ 3) r := fun r =>
        perSD_mono f _ _ _ _ _ _ _ r hf hdt hv (by positivity) e3 hpos.2 e4
      rcases searchStep_cases f p i j with h' | h' | h' | h' | h' | h'
      · rcases h'.2 with h' | h'
        · have := pos (sState i j).1; linarith
        · have := pos (sState i j).2; linarith
      · exfalso
        have := small (sState i j).1
        have w : (sState i j).1 = 1 / 10 ^ 14 := by rw [sState_fst_eq]; exact h'.2.1
        have h'' := h'.2.2
        rw [w] at this h''
        have e5 := lt_of_le_of_lt this e1
        beta_reduce at h''
        linarith
      · exfalso
        have := small (sState i j).2
        have w : (sState i j).2 = 1 / 10 ^ 3 := by rw [sState_snd_eq]; exact h'.2.1
        have h'' := h'.2.2.1
        rw [w] at this h''
        have e5 := lt_of_le_of_lt this e2
        beta_reduce at h''
        linarith
      · have h4 : (sState i j).1 < a := by
          by_contra hc
          have := big (sState i j).1 (not_lt.1 hc) (by
            refine h1.trans (hclose.le.trans ?_)
            exact div_le_self hb0.le (by norm_num))
          linarith [h'.2.1]
        have h5 : (sState (i + 1) j).1 ≤ a * (101 / 100) := by
          rw [← sState_next1]
          exact mul_le_mul_of_nonneg_right h4.le (by norm_num)
        obtain ⟨n, lo, hi, hn, r1⟩ := ih (i + 1) j h5 h2 (by rw [show m + (i + 1) + j = m + 1 + i + j by ring]; exact h3) (fun h => absurd h (Nat.succ_ne_zero i))
        refine ⟨n + 1, lo, hi, ?_, r1⟩
        unfold searchLoop
        rw [h'.1]
        exact hn
      · have h4 : b < (sState i j).2 := by
          by_contra hc
          have := big (sState i j).2 (by
            refine le_trans ?_ (hclose.le.trans h2)
            exact le_mul_of_one_le_right ha0.le (by norm_num)) (not_lt.1 hc)
          linarith [h'.2.1]
        have h5 : b / (101 / 100) ≤ (sState i (j + 1)).2 := by
          rw [← sState_next2]
          exact div_le_div_of_nonneg_right h4.le (by norm_num)
        obtain ⟨n, lo, hi, hn, r1⟩ := ih i (j + 1) h1 h5 (by rw [show m + i + (j + 1) = m + 1 + i + j by ring]; exact h3) (fun h => absurd h h'.2.2.2)
        refine ⟨n + 1, lo, hi, ?_, r1⟩
        unfold searchLoop
        rw [h'.1]
        exact hn
      · refine ⟨1, _, _, ?_, ?_, h1, h2, ?_⟩
        · unfold searchLoop
          rw [h'.1]
        · exact lt_of_le_of_ne e3 fun hh => h'.2.2.2.1 ((sState_fst_eq i j).1 hh.symm)
        · exact lt_of_le_of_ne e4 fun hh => h'.2.2.2.2 ((sState_snd_eq i j).1 hh)
  obtain ⟨m, hm⟩ := pow_unbounded_of_one_lt (rdMaxInit * 100 / rdMinInit) (by norm_num : (1 : ℝ) < 101 / 100)
  obtain ⟨n, lo, hi, hn, r⟩ := key m 0 0 (by
      have : (sState 0 0).1 = 1 / 10 ^ 14 := by simp
      rw [this]; nlinarith) (by
      have : (sState 0 0).2 = 1 / 10 ^ 3 := by simp
      rw [this]; exact (div_le_self hb0.le (by norm_num)).trans hb) (by
      rw [div_lt_iff₀ (by norm_num)] at hm
      rw [add_zero, add_zero]; linarith) (fun _ => rfl)
  exact ⟨n, lo, hi, by unfold search; rw [init_state]; exact hn, r⟩

/-- **C95, refuted: an aerosol too thin for the number of super-droplets is not reported.** If no radius has a particle per super-droplet (and there are none above the largest radius), the search does not end: the lower
limit passes the upper one and goes on growing.  (In floating-point arithmetic it goes on until the radius overflows and NaN is converted to an integer, which is undefined.) -/
theorem search_never_ends (f : ℝ → ℝ) (p : SearchPar) (hf : ∀ x, 0 ≤ f x) (hdt : 0 < p.dt) (hv : 0 < p.vol) (hout : ∀ x, Real.log (1 / 10 ^ 3) ≤ x → f x = 0)
    (thin : ∀ r, 1 / 10 ^ 14 ≤ r → r ≤ 1 / 10 ^ 3 → particlesPerSD f p.sd p.dt p.vol (1 / 10 ^ 14) (1 / 10 ^ 3) r < 1) (n : ℕ) : search f p n = none := by
  unfold search
  rw [init_state]
  have e4 : ∀ i, (sState i 0).2 = 1 / 10 ^ 3 := by simp
  have key : ∀ n i, searchLoop f p n (sState i 0) = none := by
    intro n
    induction n with
    | zero => intro i; rfl
    | succ n ih =>
      intro i
      have hpos := sState_pos i 0
      have e3 : (sState i 0).1 ≥ 1 / 10 ^ 14 := by have := sState_mono1 0 i 0 (Nat.zero_le i); simpa using this
      have small : ∀ r, particlesPerSD f p.sd p.dt p.vol (sState i 0).1 (sState i 0).2 r ≤ particlesPerSD f p.sd p.dt p.vol (1 / 10 ^ 14) (1 / 10 ^ 3) r := fun r =>
        perSD_mono f _ _ _ _ _ _ _ r hf hdt hv (by positivity) e3 hpos.2 (e4 i).le
      have z : particlesPerSD f p.sd p.dt p.vol (sState i 0).1 (sState i 0).2 (sState i 0).2 = 0 := by
        rw [e4]
        unfold particlesPerSD
        rw [hout _ (le_refl _)]; ring
      have y : -1 < particlesPerSD f p.sd p.dt p.vol (sState i 0).1 (sState i 0).2 (sState i 0).1 ∧ particlesPerSD f p.sd p.dt p.vol (sState i 0).1 (sState i 0).2 (sState i 0).1 < 1 := by
        rcases le_total (sState i 0).1 (1 / 10 ^ 3) with hle | hge
        · refine ⟨?_, lt_of_le_of_lt (small _) (thin _ e3 hle)⟩
          have hl := Real.log_le_log hpos.1 hle
          refine lt_of_lt_of_le (by norm_num) (?_ : (0 : ℝ) ≤ _)
          rw [e4]
          unfold particlesPerSD
          exact mul_nonneg (mul_nonneg (hf _) (div_nonneg (by linarith) (by positivity))) (by positivity)
        · have : f (Real.log (sState i 0).1) = 0 := hout _ (Real.log_le_log (by positivity) hge)
          unfold particlesPerSD
          rw [this]; simp
      unfold searchLoop
      rcases searchStep_cases f p i 0 with h' | h' | h' | h' | h' | h'
      · rcases h'.2 with h' | h' <;> linarith
      · linarith [h'.2.2]
      · linarith [h'.2.2.1]
      · rw [h'.1]; exact ih (i + 1)
      · linarith [h'.2.2.1]
      · linarith [h'.2.1]
  exact key n 0

/-- a distribution with particles of 10 nm to 1 µm only, `c` per unit volume and logarithm of radius -/
noncomputable def boxDistro (c : ℝ) (x : ℝ) : ℝ := if Real.log (1 / 10 ^ 8) ≤ x ∧ x ≤ Real.log (1 / 10 ^ 6) then c else 0

theorem boxDistro_nonneg (c : ℝ) (hc : 0 ≤ c) (x : ℝ) : 0 ≤ boxDistro c x := by
  unfold boxDistro; split_ifs <;> [exact hc; exact le_refl _]

theorem boxDistro_edges (c : ℝ) : boxDistro c (Real.log (1 / 10 ^ 14)) = 0 ∧ ∀ x, Real.log (1 / 10 ^ 3) ≤ x → boxDistro c x = 0 := by
  constructor
  · unfold boxDistro
    rw [if_neg]
    rintro ⟨h, -⟩
    have := Real.log_lt_log (x := 1 / 10 ^ 14) (y := 1 / 10 ^ 8) (by positivity) (by norm_num)
    linarith
  · intro x hx
    unfold boxDistro
    rw [if_neg]
    rintro ⟨-, h⟩
    have := Real.log_lt_log (x := 1 / 10 ^ 6) (y := 1 / 10 ^ 3) (by positivity) (by norm_num)
    linarith

/-- the hypotheses are met: a billion particles per cubic metre, 64 super-droplets in a cell of a cubic metre -/
example : ∃ n lo hi, search (boxDistro (10 ^ 9)) ⟨64, 1, 1⟩ n = some (.found lo hi) ∧ 1 / 10 ^ 14 < lo ∧ lo ≤ 1 / 10 ^ 8 * 1.01 ∧ 1 / 10 ^ 6 / 1.01 ≤ hi ∧ hi < 1 / 10 ^ 3 := by
  refine search_finds _ _ (boxDistro_nonneg _ (by norm_num)) (by norm_num) (by norm_num) (1 / 10 ^ 8) (1 / 10 ^ 6) (by norm_num) (by norm_num) (by norm_num) ?_ ?_ ?_
  · intro r h1 h2
    have hr : 0 < r := lt_of_lt_of_le (by norm_num) h1
    unfold particlesPerSD boxDistro
    rw [if_pos ⟨Real.log_le_log (by norm_num) h1, Real.log_le_log hr h2⟩, ← Real.log_div (by norm_num) (by norm_num)]
    have := Real.one_sub_inv_le_log_of_pos (x := 1 / 10 ^ 6 / 1.01 / (1 / 10 ^ 8 * 1.01)) (by norm_num)
    have h3 : (1 : ℝ) / 2 ≤ 1 - (1 / 10 ^ 6 / 1.01 / (1 / 10 ^ 8 * 1.01))⁻¹ := by norm_num
    push_cast
    linarith
  · unfold particlesPerSD
    rw [(boxDistro_edges _).1]; norm_num
  · unfold particlesPerSD
    rw [(boxDistro_edges _).2 _ (le_refl _)]; norm_num

/-- and for the search that does not end: one particle per cubic metre -/
example (n : ℕ) : search (boxDistro 1) ⟨64, 1, 1⟩ n = none := by
  refine search_never_ends _ _ (boxDistro_nonneg _ (by norm_num)) (by norm_num) (by norm_num) (boxDistro_edges _).2 ?_ n
  intro r _ _
  unfold particlesPerSD
  have h1 : boxDistro 1 (Real.log r) ≤ 1 := by unfold boxDistro; split_ifs <;> norm_num
  have h2 : Real.log (1 / 10 ^ 3) - Real.log (1 / 10 ^ 14) < 33 := by
    rw [← Real.log_div (by norm_num) (by norm_num), Real.log_lt_iff_lt_exp (by norm_num)]
    have : Real.exp 33 = Real.exp 1 ^ 33 := by rw [← Real.exp_nat_mul]; norm_num
    rw [this]
    have h3 : (2.7 : ℝ) ^ 33 ≤ Real.exp 1 ^ 33 := pow_le_pow_left₀ (by norm_num) (by linarith [Real.exp_one_gt_d9]) 33
    refine lt_of_lt_of_le ?_ h3
    norm_num
  have h4 : 0 ≤ Real.log (1 / 10 ^ 3) - Real.log (1 / 10 ^ 14) := by
    have := Real.log_le_log (x := 1 / 10 ^ 14) (y := 1 / 10 ^ 3) (by positivity) (by norm_num)
    linarith
  have h5 := boxDistro_nonneg 1 (by norm_num) (Real.log r)
  push_cast
  nlinarith

end LCP.Init
