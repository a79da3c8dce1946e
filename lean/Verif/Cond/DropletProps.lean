import Verif.Cond.Droplet
import Verif.Toms.Props
import Verif.Common.Props

/-!
# Condensational growth of one super-droplet (C57)
-/
namespace LCP.Cond
open LCP.Common

/-- requirements on the numerical parameters; the values used by the library satisfy them (`numDbl_ok`) -/
structure Num.Ok (N : Num) : Prop where
  eps0 : 0 ≤ N.mach.epsilon
  eps1 : N.mach.epsilon ≤ 1 / 8
  tol : 8 * N.mach.epsilon ≤ N.eps
  tol1 : N.eps < 1
  iter : 1 ≤ N.nIter
  mlt : 1 ≤ N.mlt

theorem numDbl_ok : numDbl.Ok := by
  have e1 : Toms.tolEps Toms.dbl 16 = 2 ^ (-15 : ℤ) := by
    unfold Toms.tolEps Toms.dbl
    norm_num
  constructor <;> simp only [numDbl, e1] <;> norm_num [Toms.dbl]

/-- the root finder stays in the bracket, also when the function vanishes at one of its ends -/
theorem solve_mem (N : Num) (hN : N.Ok) (f : ℝ → ℝ) (a b : ℝ) (hab : a ≤ b) (hs : f a * f b ≤ 0) :
    a ≤ Toms.solve N.mach f N.eps N.nIter a b (f a) (f b) ∧ Toms.solve N.mach f N.eps N.nIter a b (f a) (f b) ≤ b := by
  rcases hs.lt_or_eq with h | h
  · obtain ⟨_, _, x, y, h1, h2, h3, h4, _⟩ :=
      Toms.solve_bracket N.mach f N.eps a b N.nIter hN.eps0 hN.eps1 (by have := hN.tol; have := hN.eps0; linarith) hN.iter hab h
    exact ⟨h1.trans h2, h3.trans h4⟩
  · rcases mul_eq_zero.mp h with h | h
    · rw [h, (Toms.solve_endpoint N.mach f N.eps a b (f b) N.nIter).1]
      exact ⟨le_rfl, hab⟩
    · by_cases ha : f a = 0
      · rw [ha, (Toms.solve_endpoint N.mach f N.eps a b (f b) N.nIter).1]
        exact ⟨le_rfl, hab⟩
      · have : Toms.solve N.mach f N.eps N.nIter a b (f a) (f b) = b := by
          unfold Toms.solve Toms.final
          simp only
          rw [if_pos (Or.inr (Or.inr h))]
          unfold Toms.result
          simp only
          rw [if_neg ha, if_pos h]; ring
        rw [this]; exact ⟨hab, le_rfl⟩

/-- **C57 (bounds).** A droplet not smaller than its dry core never becomes smaller than it; it grows if the growth rate at its
present size is positive, shrinks if it is negative, by at most `cond_mlt` times the explicit Euler change, and stays as it is
if the rate is zero.  Holds for every growth law `g`, hence for whatever ambient conditions. -/
theorem advanceG_bounds (N : Num) (hN : N.Ok) (g : ℝ → ℝ) (rd3 dt r : ℝ) (hr : 0 < r) (hrd : cbrt rd3 ^ 2 ≤ r) :
    cbrt rd3 ^ 2 ≤ advanceG N g rd3 dt r ∧
    (dt * g r = 0 → advanceG N g rd3 dt r = r) ∧
    (0 < dt * g r → r ≤ advanceG N g rd3 dt r ∧ advanceG N g rd3 dt r ≤ r + N.mlt * (dt * g r)) ∧
    (dt * g r < 0 → r + N.mlt * (dt * g r) ≤ advanceG N g rd3 dt r ∧ advanceG N g rd3 dt r ≤ r) := by
  have hm := hN.mlt
  unfold advanceG
  rw [if_neg (not_le.mpr hr), ← pow_two]
  simp only
  set d := dt * g r with hd
  set q := cbrt rd3 ^ 2 with hq
  rcases lt_trichotomy d 0 with h | h | h
  · -- evaporation
    have h1 : N.mlt * d ≤ d := by nlinarith
    have h1' : N.mlt * d < 0 := by linarith
    rw [if_neg h.ne, min_eq_right h1'.le, max_eq_left h1'.le, add_zero, if_neg (not_lt.mpr h.le), if_neg (not_lt.mpr h.le)]
    by_cases hab : max q (r + N.mlt * d) = r
    · rw [if_pos hab]
      exact ⟨hrd, fun _ => rfl, fun hh => absurd hh (not_lt.mpr h.le), fun _ => ⟨by linarith, le_rfl⟩⟩
    · rw [if_neg hab]
      have hle : max q (r + N.mlt * d) ≤ r := max_le hrd (by linarith)
      set a := max q (r + N.mlt * d) with ha
      have hfr : (fun x => r + dt * g x - x) r = d := by simp only [hd]; ring
      have mem : r + N.mlt * d ≤ (if (r + dt * g a - a) * d > 0 then r + d
          else Toms.solve N.mach (fun x => r + dt * g x - x) N.eps N.nIter a r (r + dt * g a - a) d) ∧
          (if (r + dt * g a - a) * d > 0 then r + d
          else Toms.solve N.mach (fun x => r + dt * g x - x) N.eps N.nIter a r (r + dt * g a - a) d) ≤ r := by
        split_ifs with hs
        · constructor <;> linarith
        · have hs' : (fun x => r + dt * g x - x) a * (fun x => r + dt * g x - x) r ≤ 0 := by
            rw [hfr]; exact not_lt.mp hs
          have := solve_mem N hN (fun x => r + dt * g x - x) a r hle hs'
          simp only [show r + dt * g r - r = d by rw [hd]; ring] at this
          exact ⟨(le_max_right _ _).trans this.1, this.2⟩
      generalize (if (r + dt * g a - a) * d > 0 then r + d
          else Toms.solve N.mach (fun x => r + dt * g x - x) N.eps N.nIter a r (r + dt * g a - a) d) = new at mem ⊢
      refine ⟨?_, fun hh => absurd hh h.ne, fun hh => absurd hh (not_lt.mpr h.le), fun _ => ?_⟩
      · split_ifs with hn
        · exact le_rfl
        · exact not_lt.mp hn
      · split_ifs with hn
        · exact ⟨by linarith [mem.1], hrd⟩
        · exact mem
  · rw [if_pos h]
    exact ⟨hrd, fun _ => rfl, fun hh => absurd h hh.ne', fun hh => absurd h hh.ne⟩
  · have h1 : d ≤ N.mlt * d := by nlinarith
    have h1' : 0 < N.mlt * d := by linarith
    rw [if_neg h.ne', min_eq_left h1'.le, max_eq_right h1'.le, add_zero, max_eq_right hrd, if_neg (by linarith : r ≠ r + N.mlt * d),
      if_pos h, if_pos h]
    set b := r + N.mlt * d with hb
    have hfr : (fun x => r + dt * g x - x) r = d := by simp only [hd]; ring
    have mem : r ≤ (if d * (r + dt * g b - b) > 0 then r + d
        else Toms.solve N.mach (fun x => r + dt * g x - x) N.eps N.nIter r b d (r + dt * g b - b)) ∧
        (if d * (r + dt * g b - b) > 0 then r + d
        else Toms.solve N.mach (fun x => r + dt * g x - x) N.eps N.nIter r b d (r + dt * g b - b)) ≤ b := by
      split_ifs with hs
      · constructor <;> linarith
      · have hs' : (fun x => r + dt * g x - x) r * (fun x => r + dt * g x - x) b ≤ 0 := by
          rw [hfr]; exact not_lt.mp hs
        have := solve_mem N hN (fun x => r + dt * g x - x) r b (by linarith) hs'
        simp only [show r + dt * g r - r = d by rw [hd]; ring] at this
        exact this
    generalize (if d * (r + dt * g b - b) > 0 then r + d
        else Toms.solve N.mach (fun x => r + dt * g x - x) N.eps N.nIter r b d (r + dt * g b - b)) = new at mem ⊢
    rw [if_neg (by linarith [mem.1] : ¬ new < q)]
    exact ⟨by linarith [mem.1], fun hh => absurd hh h.ne', fun _ => mem, fun hh => absurd hh (not_lt.mpr h.le)⟩

end LCP.Cond
