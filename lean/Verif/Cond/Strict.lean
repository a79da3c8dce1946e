import Verif.Cond.Accuracy

/-!
# C57: strict growth and evaporation

The root finder returns an interior point of its bracket, so out of equilibrium the size really changes.
-/
namespace LCP.Cond
open LCP.Common

/-- with values of opposite sign at the ends, the value returned is strictly between them -/
theorem solve_strict (N : Num) (hN : N.Ok) (f : ℝ → ℝ) (a b : ℝ) (hab : a ≤ b) (hs : f a * f b < 0) :
    a < Toms.solve N.mach f N.eps N.nIter a b (f a) (f b) ∧ Toms.solve N.mach f N.eps N.nIter a b (f a) (f b) < b := by
  obtain ⟨⟨a1, a2, a3, a4, a5⟩, q2, q3⟩ := Toms.final_ok N.mach f N.eps a b N.nIter hN.eps0 hN.eps1
    (by have := hN.tol; have := hN.eps0; linarith) hN.iter hab hs
  unfold Toms.solve
  set s := Toms.final N.mach f N.eps N.nIter a b (f a) (f b)
  rcases a5 with ⟨g1, g2⟩ | ⟨g1, g2, g3⟩
  · have e : Toms.result s = s.a := by unfold Toms.result; rw [if_pos g1]; ring
    rw [e]
    have n1 : s.a ≠ a := by intro h; rw [h] at g2; rw [g2] at hs; simp at hs
    have n2 : s.a ≠ b := by intro h; rw [h] at g2; rw [g2] at hs; simp at hs
    exact ⟨lt_of_le_of_ne a1 n1.symm, lt_of_le_of_ne (by linarith) n2⟩
  · have n1 : s.fa ≠ 0 := by intro h; rw [h] at g3; simp at g3
    have n2 : s.fb ≠ 0 := by intro h; rw [h] at g3; simp at g3
    have hne : s.a ≠ s.b := by
      intro h
      rw [g1, g2, h] at g3
      nlinarith [mul_self_nonneg (f s.b)]
    have hlt : s.a < s.b := lt_of_le_of_ne (by linarith) hne
    unfold Toms.result
    rw [if_neg n1, if_neg n2]
    constructor <;> linarith

/-- **C57 (strictness).** Out of equilibrium the step really changes the size: a droplet whose rate is positive becomes larger, one whose rate
is negative smaller unless it is as small as its dry core. -/
theorem advanceG_strict (N : Num) (hN : N.Ok) (g : ℝ → ℝ) (rd3 dt r : ℝ) (hr : 0 < r) (hrd : cbrt rd3 ^ 2 ≤ r) :
    (0 < dt * g r → r < advanceG N g rd3 dt r) ∧ (dt * g r < 0 → cbrt rd3 ^ 2 < r → advanceG N g rd3 dt r < r) := by
  have hm := hN.mlt
  unfold advanceG
  rw [if_neg (not_le.mpr hr), ← pow_two]
  simp only
  set d := dt * g r with hd
  set q := cbrt rd3 ^ 2 with hq
  have hfr : r + dt * g r - r = d := by simp only [hd]; ring
  constructor
  · intro h
    have h1' : 0 < N.mlt * d := by nlinarith
    rw [if_neg h.ne', min_eq_left h1'.le, max_eq_right h1'.le, add_zero, max_eq_right hrd, if_neg (by linarith : r ≠ r + N.mlt * d),
      if_pos h, if_pos h]
    set b := r + N.mlt * d with hb
    have mem : r < (if d * (r + dt * g b - b) > 0 then r + d
        else Toms.solve N.mach (fun x => r + dt * g x - x) N.eps N.nIter r b d (r + dt * g b - b)) := by
      split_ifs with hs
      · linarith
      · rcases (not_lt.mp hs).lt_or_eq with h2 | h2
        · have := (solve_strict N hN (fun x => r + dt * g x - x) r b (by linarith) (by simp only [hfr]; exact h2)).1
          simp only [show r + dt * g r - r = d by rw [hd]; ring] at this
          exact this
        · have h3 : r + dt * g b - b = 0 := by
            rcases mul_eq_zero.1 h2 with h3 | h3
            · exact absurd h3 h.ne'
            · exact h3
          have hb' : Toms.solve N.mach (fun x => r + dt * g x - x) N.eps N.nIter r b d 0 = b := by
            unfold Toms.solve Toms.final
            simp only
            rw [if_pos (Or.inr (Or.inr rfl))]
            unfold Toms.result
            rw [if_neg h.ne', if_pos rfl]; ring
          rw [h3, hb']
          linarith
    generalize (if d * (r + dt * g b - b) > 0 then r + d
        else Toms.solve N.mach (fun x => r + dt * g x - x) N.eps N.nIter r b d (r + dt * g b - b)) = new at mem ⊢
    rw [if_neg (by linarith : ¬ new < q)]
    exact mem
  · intro h hlt
    have h1' : N.mlt * d < 0 := by nlinarith
    rw [if_neg h.ne, min_eq_right h1'.le, max_eq_left h1'.le, add_zero, if_neg (not_lt.mpr h.le), if_neg (not_lt.mpr h.le)]
    have hal : max q (r + N.mlt * d) < r := max_lt hlt (by linarith)
    rw [if_neg hal.ne]
    set a := max q (r + N.mlt * d) with ha
    have mem : (if (r + dt * g a - a) * d > 0 then r + d
          else Toms.solve N.mach (fun x => r + dt * g x - x) N.eps N.nIter a r (r + dt * g a - a) d) < r := by
      split_ifs with hs
      · linarith
      · rcases (not_lt.mp hs).lt_or_eq with h2 | h2
        · have := (solve_strict N hN (fun x => r + dt * g x - x) a r hal.le (by simp only [hfr]; exact h2)).2
          simp only [show r + dt * g r - r = d by rw [hd]; ring] at this
          exact this
        · have h3 : r + dt * g a - a = 0 := by
            rcases mul_eq_zero.1 h2 with h3 | h3
            · exact h3
            · exact absurd h3 h.ne
          rw [h3, (Toms.solve_endpoint N.mach (fun x => r + dt * g x - x) N.eps a r d N.nIter).1]
          exact hal
    generalize (if (r + dt * g a - a) * d > 0 then r + d
          else Toms.solve N.mach (fun x => r + dt * g x - x) N.eps N.nIter a r (r + dt * g a - a) d) = new at mem ⊢
    split_ifs
    · exact hlt
    · exact mem

/-- **C57 (direction, strict).** In air more humid than the droplet's equilibrium it becomes strictly larger; in drier air strictly smaller,
unless it is as small as its dry core. -/
theorem advance_grows_partial (e : Env) (he : e.Ok) (dt r : ℝ) (hdt : 0 < dt) (hr : 0 < r) (hrd : cbrt e.rd3 ^ 2 ≤ r) :
    (koehler e.rd3 e.kpa e.T (Real.sqrt r) < min e.RH e.RHmax → r < advance numDbl e dt r) ∧
    (min e.RH e.RHmax < koehler e.rd3 e.kpa e.T (Real.sqrt r) → cbrt e.rd3 ^ 2 < r → advance numDbl e dt r < r) := by
  obtain ⟨s1, s2, s3⟩ := drw2dt_sign e he r hr
  obtain ⟨b1, b2⟩ := advanceG_strict numDbl numDbl_ok (drw2dt e) e.rd3 dt r hr hrd
  exact ⟨fun h => b1 (mul_pos hdt (s1.mpr h)), fun h => b2 (mul_neg_of_pos_of_neg hdt (s2.mpr h))⟩

end LCP.Cond
