import Verif.Toms.Model
import Mathlib.Tactic.Linarith
import Mathlib.Tactic.Ring
import Mathlib.Tactic.NormNum
import Mathlib.Tactic.Positivity
import Mathlib.Topology.Order.IntermediateValue
import Mathlib.Topology.Instances.Real.Lemmas

/-!
# Properties of the root finder (C49)
-/
namespace LCP.Toms

/-- a valid bracket inside `[ax,bx]`: either a root has been found at `a`, or the function values at the ends have opposite
signs -/
def Ok (f : ℝ → ℝ) (ax bx : ℝ) (s : St) : Prop :=
  ax ≤ s.a ∧ s.a ≤ s.b ∧ s.b ≤ bx ∧ (∀ x ∈ s.evals, ax ≤ x ∧ x ≤ bx) ∧
    ((s.fa = 0 ∧ f s.a = 0) ∨ (s.fa = f s.a ∧ s.fb = f s.b ∧ s.fa * s.fb < 0))

theorem clip_mem (M : Mach) (eps a b c : ℝ) (h0 : 0 ≤ M.epsilon) (h1 : M.epsilon ≤ 1 / 8) (he : 4 * M.epsilon ≤ eps)
    (hab : a ≤ b) (ht : ¬ tolTest eps a b) : a ≤ clip M a b c ∧ clip M a b c ≤ b := by
  have hd : 4 * M.epsilon * min |a| |b| < b - a := by
    unfold tolTest at ht
    push Not at ht
    rw [abs_sub_comm, abs_of_nonneg (by linarith : 0 ≤ b - a)] at ht
    have : 4 * M.epsilon * min |a| |b| ≤ eps * min |a| |b| :=
      mul_le_mul_of_nonneg_right he (le_min (abs_nonneg _) (abs_nonneg _))
    linarith
  have key : |a| * (M.epsilon * 2) ≤ b - a := by
    rcases le_total 0 a with ha | ha
    · rw [min_eq_left (by rw [abs_of_nonneg ha, abs_of_nonneg (by linarith)]; exact hab), abs_of_nonneg ha] at hd
      rw [abs_of_nonneg ha]
      nlinarith
    · rw [abs_of_nonpos ha] at *
      rcases le_total 0 b with hb | hb
      · nlinarith
      · rw [abs_of_nonpos hb, min_eq_right (by linarith)] at hd
        nlinarith
  have hn : 0 ≤ |a| * (M.epsilon * 2) := by positivity
  have hn' : 0 ≤ |b| * (M.epsilon * 2) := by positivity
  unfold clip
  simp only
  split_ifs with g1 g2 g3
  · constructor <;> linarith
  · constructor <;> linarith
  · constructor <;> linarith
  · push Not at g2 g3
    constructor <;> linarith

theorem bracket_ok (M : Mach) (f : ℝ → ℝ) (eps ax bx c : ℝ) (s : St) (h0 : 0 ≤ M.epsilon) (h1 : M.epsilon ≤ 1 / 8)
    (he : 4 * M.epsilon ≤ eps) (hs : Ok f ax bx s) (hd : ¬ done eps s) :
    Ok f ax bx (bracket M f s c) ∧ (bracket M f s c).evals.length = s.evals.length + 1 ∧
      s.a ≤ (bracket M f s c).a ∧ (bracket M f s c).b ≤ s.b := by
  obtain ⟨a1, a2, a3, a4, a5⟩ := hs
  unfold done at hd
  push Not at hd
  obtain ⟨b1, b2⟩ := hd
  obtain ⟨c1, c2⟩ := clip_mem M eps s.a s.b c h0 h1 he a2 b2
  have a5' : s.fa = f s.a ∧ s.fb = f s.b ∧ s.fa * s.fb < 0 := by
    rcases a5 with h | h
    · exact absurd h.1 b1
    · exact h
  obtain ⟨d1, d2, d3⟩ := a5'
  have hev : ∀ x ∈ clip M s.a s.b c :: s.evals, ax ≤ x ∧ x ≤ bx := by
    intro x hx
    rcases List.mem_cons.1 hx with h | h
    · subst h; constructor <;> linarith
    · exact a4 x h
  unfold bracket
  simp only
  split_ifs with g1 g2
  · exact ⟨⟨by simp only; linarith, c2, a3, hev, Or.inl ⟨rfl, g1⟩⟩, by simp, c1, le_refl _⟩
  · exact ⟨⟨a1, c1, by simp only; linarith, hev, Or.inr ⟨d1, rfl, g2⟩⟩, by simp, le_refl _, c2⟩
  · refine ⟨⟨by simp only; linarith, c2, a3, hev, Or.inr ⟨rfl, d2, ?_⟩⟩, by simp, c1, le_refl _⟩
    simp only
    push Not at g2
    rcases lt_or_gt_of_ne b1 with hn | hp
    · have : 0 < s.fb := by by_contra hh; nlinarith
      have : f (clip M s.a s.b c) ≤ 0 := by by_contra hh; nlinarith
      have : f (clip M s.a s.b c) < 0 := lt_of_le_of_ne this g1
      nlinarith
    · have : s.fb < 0 := by by_contra hh; nlinarith
      have : 0 ≤ f (clip M s.a s.b c) := by by_contra hh; nlinarith
      have : 0 < f (clip M s.a s.b c) := lt_of_le_of_ne this (Ne.symm g1)
      nlinarith

/-- bisection halves the bracket -/
theorem bisect_half (M : Mach) (f : ℝ → ℝ) (eps ax bx : ℝ) (s : St) (h0 : 0 ≤ M.epsilon) (h1 : M.epsilon ≤ 1 / 8)
    (he : 8 * M.epsilon ≤ eps) (hs : Ok f ax bx s) (hd : ¬ done eps s) :
    (bracket M f s (s.a + (s.b - s.a) / 2)).fa = 0 ∨
    (bracket M f s (s.a + (s.b - s.a) / 2)).b - (bracket M f s (s.a + (s.b - s.a) / 2)).a = (s.b - s.a) / 2 := by
  obtain ⟨a1, a2, a3, a4, a5⟩ := hs
  unfold done at hd
  push Not at hd
  obtain ⟨b1, ht⟩ := hd
  have hd : 8 * M.epsilon * min |s.a| |s.b| < s.b - s.a := by
    unfold tolTest at ht
    push Not at ht
    rw [abs_sub_comm, abs_of_nonneg (by linarith : 0 ≤ s.b - s.a)] at ht
    have : 8 * M.epsilon * min |s.a| |s.b| ≤ eps * min |s.a| |s.b| :=
      mul_le_mul_of_nonneg_right he (le_min (abs_nonneg _) (abs_nonneg _))
    linarith
  have hpos : 0 < s.b - s.a := lt_of_le_of_lt (by positivity) hd
  have ka : |s.a| * (M.epsilon * 2) < (s.b - s.a) / 2 ∧ |s.b| * (M.epsilon * 2) < (s.b - s.a) / 2 := by
    rcases le_total 0 s.a with ha | ha
    · have hb : 0 ≤ s.b := by linarith
      rw [min_eq_left (by rw [abs_of_nonneg ha, abs_of_nonneg hb]; exact a2), abs_of_nonneg ha] at hd
      rw [abs_of_nonneg ha, abs_of_nonneg hb]
      constructor <;> nlinarith
    · rw [abs_of_nonpos ha] at *
      rcases le_total 0 s.b with hb | hb
      · rw [abs_of_nonneg hb] at *
        constructor
        · nlinarith [min_le_left (-s.a) s.b, min_le_right (-s.a) s.b]
        · nlinarith [min_le_left (-s.a) s.b, min_le_right (-s.a) s.b]
      · rw [abs_of_nonpos hb, min_eq_right (by linarith)] at hd
        rw [abs_of_nonpos hb]
        constructor <;> nlinarith
  have hc : clip M s.a s.b (s.a + (s.b - s.a) / 2) = s.a + (s.b - s.a) / 2 := by
    unfold clip
    simp only
    rw [if_neg (by linarith [ka.1, ka.2] : ¬ (s.a + (s.b - s.a) / 2 ≤ s.a + |s.a| * (M.epsilon * 2))),
      if_neg (by linarith [ka.1, ka.2] : ¬ (s.a + (s.b - s.a) / 2 ≥ s.b - |s.b| * (M.epsilon * 2))), ite_self]
  unfold bracket
  simp only [hc]
  split_ifs with g1 g2
  · left; rfl
  · right; simp only; ring
  · right; simp only; ring

theorem ok_saveE (f : ℝ → ℝ) (ax bx : ℝ) (s : St) (h : Ok f ax bx s) : Ok f ax bx (saveE s) := h

/-- the loop keeps a valid bracket, uses at most `count` evaluations, and stops only when done or when all are used -/
theorem loop_ok (M : Mach) (f : ℝ → ℝ) (eps ax bx : ℝ) (h0 : 0 ≤ M.epsilon) (h1 : M.epsilon ≤ 1 / 8)
    (he : 4 * M.epsilon ≤ eps) : ∀ (fuel count : ℕ) (s : St), count ≤ fuel → Ok f ax bx s →
      Ok f ax bx (loop M f eps fuel count s) ∧
      (loop M f eps fuel count s).evals.length ≤ s.evals.length + count ∧
      (done eps (loop M f eps fuel count s) ∨ (loop M f eps fuel count s).evals.length = s.evals.length + count) ∧
      s.a ≤ (loop M f eps fuel count s).a ∧ (loop M f eps fuel count s).b ≤ s.b := by
  intro fuel
  induction fuel with
  | zero =>
    intro count s hc hs
    have : count = 0 := by omega
    subst this
    exact ⟨hs, le_refl _, Or.inr rfl, le_refl _, le_refl _⟩
  | succ fuel ih =>
    intro count s hc hs
    unfold loop
    by_cases g0 : count = 0 ∨ done eps s
    · rw [if_pos g0]
      refine ⟨hs, by omega, ?_, le_refl _, le_refl _⟩
      rcases g0 with g | g
      · right; omega
      · left; exact g
    · rw [if_neg g0]
      push Not at g0
      obtain ⟨gc, gd⟩ := g0
      simp only
      obtain ⟨k1, k2, k3, k4⟩ := bracket_ok M f eps ax bx (interp M s 2) (saveE s) h0 h1 he (ok_saveE f ax bx s hs) gd
      set s1 := bracket M f (saveE s) (interp M s 2) with hs1
      have k2' : s1.evals.length = s.evals.length + 1 := k2
      have k3' : s.a ≤ s1.a := k3
      have k4' : s1.b ≤ s.b := k4
      by_cases g1 : count - 1 = 0 ∨ done eps s1
      · rw [if_pos g1]
        refine ⟨k1, by omega, ?_, k3', k4'⟩
        rcases g1 with g | g
        · right; omega
        · left; exact g
      · rw [if_neg g1]
        push Not at g1
        obtain ⟨gc1, gd1⟩ := g1
        obtain ⟨l1, l2, l3, l4⟩ := bracket_ok M f eps ax bx (interp M s1 3) s1 h0 h1 he k1 gd1
        set s2 := bracket M f s1 (interp M s1 3) with hs2
        by_cases g2 : count - 2 = 0 ∨ done eps s2
        · rw [if_pos g2]
          refine ⟨l1, by omega, ?_, by linarith, by linarith⟩
          rcases g2 with g | g
          · right; omega
          · left; exact g
        · rw [if_neg g2]
          push Not at g2
          obtain ⟨gc2, gd2⟩ := g2
          obtain ⟨m1, m2, m3, m4⟩ := bracket_ok M f eps ax bx (doubleSecant s2) (saveE s2) h0 h1 he (ok_saveE f ax bx s2 l1) gd2
          set s3 := bracket M f (saveE s2) (doubleSecant s2) with hs3
          have m2' : s3.evals.length = s2.evals.length + 1 := m2
          have m3' : s2.a ≤ s3.a := m3
          have m4' : s3.b ≤ s2.b := m4
          by_cases g3 : count - 3 = 0 ∨ done eps s3
          · rw [if_pos g3]
            refine ⟨m1, by omega, ?_, by linarith, by linarith⟩
            rcases g3 with g | g
            · right; omega
            · left; exact g
          · rw [if_neg g3]
            push Not at g3
            obtain ⟨gc3, gd3⟩ := g3
            by_cases g4 : s3.b - s3.a < 1 / 2 * (s.b - s.a)
            · rw [if_pos g4]
              obtain ⟨n1, n2, n3, n4, n5⟩ := ih (count - 3) s3 (by omega) m1
              refine ⟨n1, by omega, ?_, by linarith, by linarith⟩
              rcases n3 with g | g
              · left; exact g
              · right; omega
            · rw [if_neg g4]
              obtain ⟨n1, n2, n3, n4⟩ := bracket_ok M f eps ax bx (s3.a + (s3.b - s3.a) / 2) (saveE s3) h0 h1 he
                (ok_saveE f ax bx s3 m1) gd3
              have n2' : (bracket M f (saveE s3) (s3.a + (s3.b - s3.a) / 2)).evals.length = s3.evals.length + 1 := n2
              have n3' : s3.a ≤ (bracket M f (saveE s3) (s3.a + (s3.b - s3.a) / 2)).a := n3
              have n4' : (bracket M f (saveE s3) (s3.a + (s3.b - s3.a) / 2)).b ≤ s3.b := n4
              obtain ⟨p1, p2, p3, p4, p5⟩ := ih (count - 4) _ (by omega) n1
              refine ⟨p1, by omega, ?_, by linarith, by linarith⟩
              rcases p3 with g | g
              · left; exact g
              · right; omega

/-- every four evaluations at least halve the bracket -/
theorem loop_half (M : Mach) (f : ℝ → ℝ) (eps ax bx : ℝ) (h0 : 0 ≤ M.epsilon) (h1 : M.epsilon ≤ 1 / 8)
    (he : 8 * M.epsilon ≤ eps) : ∀ (fuel count : ℕ) (s : St), count ≤ fuel → Ok f ax bx s →
      done eps (loop M f eps fuel count s) ∨
      (loop M f eps fuel count s).b - (loop M f eps fuel count s).a ≤ (s.b - s.a) / 2 ^ (count / 4) := by
  intro fuel
  induction fuel with
  | zero =>
    intro count s hc hs
    have : count = 0 := by omega
    subst this
    right
    simp [loop]
  | succ fuel ih =>
    intro count s hc hs
    have he' : 4 * M.epsilon ≤ eps := by linarith
    by_cases hsmall : count < 4
    · have : count / 4 = 0 := by omega
      rw [this, pow_zero, div_one]
      obtain ⟨_, _, _, q4, q5⟩ := loop_ok M f eps ax bx h0 h1 he' (fuel + 1) count s hc hs
      right; linarith
    unfold loop
    by_cases g0 : count = 0 ∨ done eps s
    · rw [if_pos g0]
      left
      rcases g0 with g | g
      · omega
      · exact g
    · rw [if_neg g0]
      push Not at g0
      obtain ⟨gc, gd⟩ := g0
      simp only
      obtain ⟨k1, k2, k3, k4⟩ := bracket_ok M f eps ax bx (interp M s 2) (saveE s) h0 h1 he' (ok_saveE f ax bx s hs) gd
      set s1 := bracket M f (saveE s) (interp M s 2) with hs1
      have k3' : s.a ≤ s1.a := k3
      have k4' : s1.b ≤ s.b := k4
      by_cases g1 : count - 1 = 0 ∨ done eps s1
      · rw [if_pos g1]
        left
        rcases g1 with g | g
        · omega
        · exact g
      · rw [if_neg g1]
        push Not at g1
        obtain ⟨gc1, gd1⟩ := g1
        obtain ⟨l1, l2, l3, l4⟩ := bracket_ok M f eps ax bx (interp M s1 3) s1 h0 h1 he' k1 gd1
        set s2 := bracket M f s1 (interp M s1 3) with hs2
        by_cases g2 : count - 2 = 0 ∨ done eps s2
        · rw [if_pos g2]
          left
          rcases g2 with g | g
          · omega
          · exact g
        · rw [if_neg g2]
          push Not at g2
          obtain ⟨gc2, gd2⟩ := g2
          obtain ⟨m1, m2, m3, m4⟩ := bracket_ok M f eps ax bx (doubleSecant s2) (saveE s2) h0 h1 he' (ok_saveE f ax bx s2 l1) gd2
          set s3 := bracket M f (saveE s2) (doubleSecant s2) with hs3
          have m3' : s2.a ≤ s3.a := m3
          have m4' : s3.b ≤ s2.b := m4
          by_cases g3 : count - 3 = 0 ∨ done eps s3
          · rw [if_pos g3]
            left
            rcases g3 with g | g
            · omega
            · exact g
          · rw [if_neg g3]
            push Not at g3
            obtain ⟨gc3, gd3⟩ := g3
            have hw : 0 ≤ s.b - s.a := by linarith [hs.2.1]
            by_cases g4 : s3.b - s3.a < 1 / 2 * (s.b - s.a)
            · rw [if_pos g4]
              rcases ih (count - 3) s3 (by omega) m1 with g | g
              · left; exact g
              · right
                refine le_trans g ?_
                have e1 : count / 4 ≤ (count - 3) / 4 + 1 := by omega
                have e2 : (2 : ℝ) ^ (count / 4) ≤ 2 ^ ((count - 3) / 4 + 1) := pow_le_pow_right₀ (by norm_num) e1
                rw [div_le_div_iff₀ (by positivity) (by positivity)]
                rw [pow_succ] at e2
                have : 0 ≤ s3.b - s3.a := by linarith [m1.2.1]
                calc (s3.b - s3.a) * 2 ^ (count / 4) ≤ (s3.b - s3.a) * (2 ^ ((count - 3) / 4) * 2) :=
                      mul_le_mul_of_nonneg_left e2 this
                  _ = ((s3.b - s3.a) * 2) * 2 ^ ((count - 3) / 4) := by ring
                  _ ≤ (s.b - s.a) * 2 ^ ((count - 3) / 4) :=
                      mul_le_mul_of_nonneg_right (by linarith) (by positivity)
            · rw [if_neg g4]
              obtain ⟨n1, n2, n3, n4⟩ := bracket_ok M f eps ax bx (s3.a + (s3.b - s3.a) / 2) (saveE s3) h0 h1 he'
                (ok_saveE f ax bx s3 m1) gd3
              have hb := bisect_half M f eps ax bx (saveE s3) h0 h1 he (ok_saveE f ax bx s3 m1) gd3
              have ee : (saveE s3).a + ((saveE s3).b - (saveE s3).a) / 2 = s3.a + (s3.b - s3.a) / 2 := rfl
              rw [ee] at hb
              set s4 := bracket M f (saveE s3) (s3.a + (s3.b - s3.a) / 2) with hs4
              rcases hb with hb | hb
              · left
                have hd4 : done eps s4 := Or.inl hb
                have : ∀ (fu c : ℕ), loop M f eps fu c s4 = s4 := by
                  intro fu c
                  cases fu with
                  | zero => rfl
                  | succ n => unfold loop; rw [if_pos (Or.inr hd4)]
                rw [this]; exact hd4
              · rcases ih (count - 4) s4 (by omega) n1 with g | g
                · left; exact g
                · right
                  refine le_trans g ?_
                  have hb' : s4.b - s4.a = (s3.b - s3.a) / 2 := hb
                  have e1 : count / 4 = (count - 4) / 4 + 1 := by omega
                  rw [e1, pow_succ, hb', div_div, mul_comm (2 : ℝ) (2 ^ ((count - 4) / 4))]
                  exact div_le_div_of_nonneg_right (by linarith) (by positivity)

/-- facts on the final state -/
theorem final_ok (M : Mach) (f : ℝ → ℝ) (eps ax bx : ℝ) (maxIter : ℕ) (h0 : 0 ≤ M.epsilon) (h1 : M.epsilon ≤ 1 / 8)
    (he : 4 * M.epsilon ≤ eps) (hm : 1 ≤ maxIter) (hab : ax ≤ bx) (hsgn : f ax * f bx < 0) :
    Ok f ax bx (final M f eps maxIter ax bx (f ax) (f bx)) ∧
      (final M f eps maxIter ax bx (f ax) (f bx)).evals.length ≤ maxIter ∧
      (done eps (final M f eps maxIter ax bx (f ax) (f bx)) ∨
        (final M f eps maxIter ax bx (f ax) (f bx)).evals.length = maxIter) := by
  have hfa : f ax ≠ 0 := by intro h; rw [h] at hsgn; simp at hsgn
  have hfb : f bx ≠ 0 := by intro h; rw [h] at hsgn; simp at hsgn
  set s : St := ⟨ax, bx, f ax, f bx, 0, 1e5, 1e5, 1e5, []⟩ with hs
  have hok : Ok f ax bx s := ⟨le_refl _, hab, le_refl _, by simp [hs], Or.inr ⟨rfl, rfl, hsgn⟩⟩
  unfold final
  simp only
  rw [← hs]
  by_cases g0 : tolTest eps ax bx ∨ f ax = 0 ∨ f bx = 0
  · rw [if_pos g0]
    refine ⟨hok, by simp [hs], Or.inl ?_⟩
    rcases g0 with g | g | g
    · exact Or.inr g
    · exact absurd g hfa
    · exact absurd g hfb
  · rw [if_neg g0]
    push Not at g0
    have gd : ¬ done eps s := by
      unfold done; push Not; exact ⟨hfa, g0.1⟩
    obtain ⟨k1, k2, k3, k4⟩ := bracket_ok M f eps ax bx (secant M ax bx (f ax) (f bx)) s h0 h1 he hok gd
    set s1 := bracket M f s (secant M ax bx (f ax) (f bx)) with hs1
    have e0 : s.evals.length = 0 := rfl
    by_cases g1 : maxIter - 1 ≠ 0 ∧ ¬ done eps s1
    · rw [if_pos g1]
      obtain ⟨l1, l2, l3, l4⟩ := bracket_ok M f eps ax bx (quadratic M s1.a s1.b s1.d s1.fa s1.fb s1.fd 2) (saveE s1) h0 h1 he
        (ok_saveE f ax bx s1 k1) g1.2
      have l2' : (bracket M f (saveE s1) (quadratic M s1.a s1.b s1.d s1.fa s1.fb s1.fd 2)).evals.length = s1.evals.length + 1 := l2
      obtain ⟨m1, m2, m3, m4, m5⟩ := loop_ok M f eps ax bx h0 h1 he (maxIter - 1 - 1) (maxIter - 1 - 1) _ (le_refl _) l1
      refine ⟨m1, by omega, ?_⟩
      rcases m3 with g | g
      · left; exact g
      · right; omega
    · rw [if_neg g1]
      obtain ⟨m1, m2, m3, m4, m5⟩ := loop_ok M f eps ax bx h0 h1 he (maxIter - 1) (maxIter - 1) s1 (le_refl _) k1
      refine ⟨m1, by omega, ?_⟩
      rcases m3 with g | g
      · left; exact g
      · right; omega

theorem final_half (M : Mach) (f : ℝ → ℝ) (eps ax bx : ℝ) (maxIter : ℕ) (h0 : 0 ≤ M.epsilon) (h1 : M.epsilon ≤ 1 / 8)
    (he : 8 * M.epsilon ≤ eps) (hm : 1 ≤ maxIter) (hab : ax ≤ bx) (hsgn : f ax * f bx < 0) :
    done eps (final M f eps maxIter ax bx (f ax) (f bx)) ∨
      (final M f eps maxIter ax bx (f ax) (f bx)).b - (final M f eps maxIter ax bx (f ax) (f bx)).a
        ≤ (bx - ax) / 2 ^ ((maxIter - 2) / 4) := by
  have he' : 4 * M.epsilon ≤ eps := by linarith
  have hfa : f ax ≠ 0 := by intro h; rw [h] at hsgn; simp at hsgn
  have hfb : f bx ≠ 0 := by intro h; rw [h] at hsgn; simp at hsgn
  set s : St := ⟨ax, bx, f ax, f bx, 0, 1e5, 1e5, 1e5, []⟩ with hs
  have hok : Ok f ax bx s := ⟨le_refl _, hab, le_refl _, by simp [hs], Or.inr ⟨rfl, rfl, hsgn⟩⟩
  unfold final
  simp only
  rw [← hs]
  by_cases g0 : tolTest eps ax bx ∨ f ax = 0 ∨ f bx = 0
  · rw [if_pos g0]
    refine Or.inl ?_
    rcases g0 with g | g | g
    · exact Or.inr g
    · exact absurd g hfa
    · exact absurd g hfb
  · rw [if_neg g0]
    push Not at g0
    have gd : ¬ done eps s := by
      unfold done; push Not; exact ⟨hfa, g0.1⟩
    obtain ⟨k1, k2, k3, k4⟩ := bracket_ok M f eps ax bx (secant M ax bx (f ax) (f bx)) s h0 h1 he' hok gd
    set s1 := bracket M f s (secant M ax bx (f ax) (f bx)) with hs1
    have k3' : ax ≤ s1.a := k3
    have k4' : s1.b ≤ bx := k4
    by_cases g1 : maxIter - 1 ≠ 0 ∧ ¬ done eps s1
    · rw [if_pos g1]
      obtain ⟨l1, l2, l3, l4⟩ := bracket_ok M f eps ax bx (quadratic M s1.a s1.b s1.d s1.fa s1.fb s1.fd 2) (saveE s1) h0 h1 he'
        (ok_saveE f ax bx s1 k1) g1.2
      set s2 := bracket M f (saveE s1) (quadratic M s1.a s1.b s1.d s1.fa s1.fb s1.fd 2) with hs2
      have l3' : s1.a ≤ s2.a := l3
      have l4' : s2.b ≤ s1.b := l4
      rcases loop_half M f eps ax bx h0 h1 he (maxIter - 1 - 1) (maxIter - 1 - 1) s2 (le_refl _) l1 with g | g
      · left; exact g
      · right
        rw [show maxIter - 1 - 1 = maxIter - 2 by omega] at g ⊢
        refine le_trans g (div_le_div_of_nonneg_right (by linarith) (by positivity))
    · rw [if_neg g1]
      by_cases hd1 : done eps s1
      · left
        have : ∀ (fu c : ℕ), loop M f eps fu c s1 = s1 := by
          intro fu c
          cases fu with
          | zero => rfl
          | succ n => unfold loop; rw [if_pos (Or.inr hd1)]
        rw [this]; exact hd1
      · have hm1 : maxIter - 1 = 0 := by
          by_contra hh; exact g1 ⟨hh, hd1⟩
        right
        rw [hm1]
        simp only [loop]
        rw [show (maxIter - 2) / 4 = 0 by omega, pow_zero, div_one]
        linarith

/-- **C49 (containment).** With end points of opposite sign, the solver evaluates the function only inside the given interval,
at most `maxIter` times, and returns a point of a subinterval across which the function changes sign (or vanishes). -/
theorem solve_bracket (M : Mach) (f : ℝ → ℝ) (eps ax bx : ℝ) (maxIter : ℕ) (h0 : 0 ≤ M.epsilon) (h1 : M.epsilon ≤ 1 / 8)
    (he : 4 * M.epsilon ≤ eps) (hm : 1 ≤ maxIter) (hab : ax ≤ bx) (hsgn : f ax * f bx < 0) :
    (∀ x ∈ (final M f eps maxIter ax bx (f ax) (f bx)).evals, x ∈ Set.Icc ax bx) ∧
    (final M f eps maxIter ax bx (f ax) (f bx)).evals.length ≤ maxIter ∧
    ∃ a b, ax ≤ a ∧ a ≤ solve M f eps maxIter ax bx (f ax) (f bx) ∧ solve M f eps maxIter ax bx (f ax) (f bx) ≤ b ∧ b ≤ bx ∧
      f a * f b ≤ 0 := by
  obtain ⟨⟨a1, a2, a3, a4, a5⟩, q2, q3⟩ := final_ok M f eps ax bx maxIter h0 h1 he hm hab hsgn
  refine ⟨a4, q2, ?_⟩
  unfold solve
  set s := final M f eps maxIter ax bx (f ax) (f bx)
  rcases a5 with ⟨g1, g2⟩ | ⟨g1, g2, g3⟩
  · refine ⟨s.a, s.a, a1, ?_, ?_, by linarith, by rw [g2]; simp⟩ <;>
    · unfold result; rw [if_pos g1]; linarith
  · have n1 : s.fa ≠ 0 := by intro h; rw [h] at g3; simp at g3
    have n2 : s.fb ≠ 0 := by intro h; rw [h] at g3; simp at g3
    refine ⟨s.a, s.b, a1, ?_, ?_, a3, by rw [← g1, ← g2]; exact g3.le⟩ <;>
    · unfold result; rw [if_neg n1, if_neg n2]; linarith

/-- half of a tolerable bracket is small compared to any point in it -/
theorem tol_close (eps a b x : ℝ) (h1 : eps < 1) (h2 : 0 ≤ eps) (ht : tolTest eps a b) (hx1 : a ≤ x) (hx2 : x ≤ b) :
    (b - a) / 2 ≤ eps / 2 * |x| := by
  unfold tolTest at ht
  rw [abs_sub_comm, abs_of_nonneg (by linarith : 0 ≤ b - a)] at ht
  have hmin : min |a| |b| ≤ |x| ∨ b - a ≤ 0 := by
    rcases le_total 0 a with ha | ha
    · left
      refine le_trans (min_le_left _ _) ?_
      rw [abs_of_nonneg ha, abs_of_nonneg (by linarith)]; exact hx1
    · rcases le_total 0 b with hb | hb
      · right
        have : min |a| |b| ≤ b - a := by
          refine le_trans (min_le_left _ _) ?_
          rw [abs_of_nonpos ha]; linarith
        have hm : 0 ≤ min |a| |b| := by positivity
        by_contra hh
        push Not at hh
        nlinarith
      · left
        refine le_trans (min_le_right _ _) ?_
        rw [abs_of_nonpos hb, abs_of_nonpos (by linarith)]; linarith
  rcases hmin with h | h
  · nlinarith [abs_nonneg x]
  · have := mul_nonneg h2 (abs_nonneg x)
    linarith

/-- **C49 (accuracy).** For a continuous function with end points of opposite sign the returned value is within the relative
tolerance of a true root, or within the bracket width divided by `2^((maxIter-2)/4)`. -/
theorem solve_accuracy (M : Mach) (f : ℝ → ℝ) (eps ax bx : ℝ) (maxIter : ℕ) (h0 : 0 ≤ M.epsilon) (h1 : M.epsilon ≤ 1 / 8)
    (he : 8 * M.epsilon ≤ eps) (he1 : eps < 1) (hm : 1 ≤ maxIter) (hab : ax ≤ bx) (hsgn : f ax * f bx < 0)
    (hf : ContinuousOn f (Set.Icc ax bx)) :
    ∃ x ∈ Set.Icc ax bx, f x = 0 ∧
      |solve M f eps maxIter ax bx (f ax) (f bx) - x| ≤ max (eps / 2 * |x|) ((bx - ax) / 2 / 2 ^ ((maxIter - 2) / 4)) := by
  have he' : 4 * M.epsilon ≤ eps := by linarith
  have he0 : 0 ≤ eps := by linarith
  obtain ⟨⟨a1, a2, a3, a4, a5⟩, q2, q3⟩ := final_ok M f eps ax bx maxIter h0 h1 he' hm hab hsgn
  have hh := final_half M f eps ax bx maxIter h0 h1 he hm hab hsgn
  unfold solve
  set s := final M f eps maxIter ax bx (f ax) (f bx)
  rcases a5 with ⟨g1, g2⟩ | ⟨g1, g2, g3⟩
  · refine ⟨s.a, ⟨a1, by linarith⟩, g2, ?_⟩
    have : result s - s.a = 0 := by unfold result; rw [if_pos g1]; ring
    rw [this, abs_zero]
    exact le_max_of_le_left (by positivity)
  · have n1 : s.fa ≠ 0 := by intro h; rw [h] at g3; simp at g3
    have n2 : s.fb ≠ 0 := by intro h; rw [h] at g3; simp at g3
    have hc : ContinuousOn f (Set.Icc s.a s.b) := hf.mono (Set.Icc_subset_Icc a1 a3)
    have hroot : ∃ x ∈ Set.Icc s.a s.b, f x = 0 := by
      rw [g1, g2] at g3
      rcases lt_or_ge (f s.a) 0 with hn | hp
      · have : 0 < f s.b := by by_contra hq; nlinarith
        obtain ⟨x, hx, hfx⟩ := intermediate_value_Icc a2 hc ⟨hn.le, this.le⟩
        exact ⟨x, hx, hfx⟩
      · have : f s.b < 0 := by by_contra hq; nlinarith
        obtain ⟨x, hx, hfx⟩ := intermediate_value_Icc' a2 hc ⟨this.le, hp⟩
        exact ⟨x, hx, hfx⟩
    obtain ⟨x, ⟨hx1, hx2⟩, hfx⟩ := hroot
    refine ⟨x, ⟨by linarith, by linarith⟩, hfx, ?_⟩
    have hr : result s = (s.a + s.b) / 2 := by unfold result; rw [if_neg n1, if_neg n2]
    have hle : |result s - x| ≤ (s.b - s.a) / 2 := by rw [hr, abs_le]; constructor <;> linarith
    rcases hh with hd | hw
    · rcases hd with hd | hd
      · exact absurd hd n1
      · exact le_max_of_le_left (le_trans hle (tol_close eps s.a s.b x he1 he0 hd hx1 hx2))
    · refine le_max_of_le_right (le_trans hle ?_)
      rw [div_right_comm]
      exact div_le_div_of_nonneg_right hw (by norm_num)

/-- **C49 (default double precision solver).** -/
theorem solveDbl_accuracy (f : ℝ → ℝ) (ax bx : ℝ) (hab : ax ≤ bx) (hsgn : f ax * f bx < 0)
    (hf : ContinuousOn f (Set.Icc ax bx)) :
    ∃ x ∈ Set.Icc ax bx, f x = 0 ∧ |solveDbl f ax bx - x| ≤ max (2 ^ (-16 : ℤ) * |x|) ((bx - ax) / 2 ^ 25) := by
  have e1 : tolEps dbl 16 = 2 ^ (-15 : ℤ) := by
    unfold tolEps dbl
    norm_num
  obtain ⟨x, hx, h2, h3⟩ := solve_accuracy dbl f (tolEps dbl 16) ax bx 100 (by norm_num [dbl]) (by norm_num [dbl])
    (by rw [e1]; norm_num [dbl]) (by rw [e1]; norm_num) (by norm_num) hab hsgn hf
  refine ⟨x, hx, h2, le_trans h3 ?_⟩
  rw [e1]
  apply max_le_max
  · norm_num
  · norm_num
    linarith

/-- **C49 (default single precision solver).** -/
theorem solveFlt_accuracy (f : ℝ → ℝ) (ax bx : ℝ) (hab : ax ≤ bx) (hsgn : f ax * f bx < 0)
    (hf : ContinuousOn f (Set.Icc ax bx)) :
    ∃ x ∈ Set.Icc ax bx, f x = 0 ∧ |solveFlt f ax bx - x| ≤ max (2 ^ (-8 : ℤ) * |x|) ((bx - ax) / 2 ^ 25) := by
  have e1 : tolEps flt 8 = 2 ^ (-7 : ℤ) := by
    unfold tolEps flt
    norm_num
  obtain ⟨x, hx, h2, h3⟩ := solve_accuracy flt f (tolEps flt 8) ax bx 100 (by norm_num [flt]) (by norm_num [flt])
    (by rw [e1]; norm_num [flt]) (by rw [e1]; norm_num) (by norm_num) hab hsgn hf
  refine ⟨x, hx, h2, le_trans h3 ?_⟩
  rw [e1]
  apply max_le_max
  · norm_num
  · norm_num
    linarith

/-- the hypotheses are met: `x² − 2` on `[1,2]` -/
example : ∃ x ∈ Set.Icc (1 : ℝ) 2, x ^ 2 - 2 = 0 ∧
    |solveDbl (fun x => x ^ 2 - 2) 1 2 - x| ≤ max (2 ^ (-16 : ℤ) * |x|) ((2 - 1) / 2 ^ 25) :=
  solveDbl_accuracy (fun x => x ^ 2 - 2) 1 2 (by norm_num) (by norm_num) (by fun_prop)

/-- an end point that is a root is returned as such, without any evaluation -/
theorem solve_endpoint (M : Mach) (f : ℝ → ℝ) (eps ax bx fbx : ℝ) (maxIter : ℕ) :
    solve M f eps maxIter ax bx 0 fbx = ax ∧ (final M f eps maxIter ax bx 0 fbx).evals = [] := by
  unfold solve final
  simp only
  rw [if_pos (Or.inr (Or.inl rfl))]
  exact ⟨by unfold result; rw [if_pos rfl]; ring, rfl⟩

end LCP.Toms
