import Verif.Toms.Props

/-!
# What the root finder returns without a sign change (helper for C67)
-/
namespace LCP.Toms

/-- anything kept by bracketing (and by remembering the last point) holds at the end -/
theorem loop_inv (M : Mach) (f : ℝ → ℝ) (eps : ℝ) (P : St → Prop) (hs : ∀ s, P s → P (saveE s))
    (hb : ∀ s c, P s → ¬ done eps s → P (bracket M f s c)) : ∀ (fuel count : ℕ) (s : St), P s → P (loop M f eps fuel count s) := by
  intro fuel
  induction fuel with
  | zero => intro count s h; exact h
  | succ fuel ih =>
    intro count s h
    unfold loop
    by_cases g0 : count = 0 ∨ done eps s
    · rw [if_pos g0]; exact h
    rw [if_neg g0]
    push Not at g0
    simp only
    have q1 := hb (saveE s) (interp M s 2) (hs s h) g0.2
    set s1 := bracket M f (saveE s) (interp M s 2)
    by_cases g1 : count - 1 = 0 ∨ done eps s1
    · rw [if_pos g1]; exact q1
    rw [if_neg g1]
    push Not at g1
    have q2 := hb s1 (interp M s1 3) q1 g1.2
    set s2 := bracket M f s1 (interp M s1 3)
    by_cases g2 : count - 2 = 0 ∨ done eps s2
    · rw [if_pos g2]; exact q2
    rw [if_neg g2]
    push Not at g2
    have q3 := hb (saveE s2) (doubleSecant s2) (hs s2 q2) g2.2
    set s3 := bracket M f (saveE s2) (doubleSecant s2)
    by_cases g3 : count - 3 = 0 ∨ done eps s3
    · rw [if_pos g3]; exact q3
    rw [if_neg g3]
    push Not at g3
    by_cases g4 : s3.b - s3.a < 1 / 2 * (s.b - s.a)
    · rw [if_pos g4]; exact ih _ _ q3
    · rw [if_neg g4]
      exact ih _ _ (hb _ _ (hs s3 q3) g3.2)

theorem final_inv (M : Mach) (f : ℝ → ℝ) (eps : ℝ) (maxIter : ℕ) (ax bx fax fbx : ℝ) (P : St → Prop) (hs : ∀ s, P s → P (saveE s))
    (hb : ∀ s c, P s → ¬ done eps s → P (bracket M f s c)) (h0 : P ⟨ax, bx, fax, fbx, 0, 1e5, 1e5, 1e5, []⟩) :
    P (final M f eps maxIter ax bx fax fbx) := by
  unfold final
  simp only []
  split_ifs with h1 h2
  · exact h0
  · push Not at h1
    have hd : ¬ done eps ⟨ax, bx, fax, fbx, 0, 1e5, 1e5, 1e5, []⟩ := by
      rintro (h | h)
      · exact h1.2.1 h
      · exact h1.1 h
    exact loop_inv M f eps P hs hb _ _ _ (hb _ _ (hs _ (hb _ _ h0 hd)) h2.2)
  · push Not at h1
    have hd : ¬ done eps ⟨ax, bx, fax, fbx, 0, 1e5, 1e5, 1e5, []⟩ := by
      rintro (h | h)
      · exact h1.2.1 h
      · exact h1.1 h
    exact loop_inv M f eps P hs hb _ _ _ (hb _ _ h0 hd)

/-- the result lies between the limits, whatever the function -/
theorem solve_mem (M : Mach) (f : ℝ → ℝ) (eps ax bx fax fbx : ℝ) (maxIter : ℕ) (h0 : 0 ≤ M.epsilon) (h1 : M.epsilon ≤ 1 / 8) (he : 4 * M.epsilon ≤ eps)
    (hab : ax ≤ bx) : ax ≤ solve M f eps maxIter ax bx fax fbx ∧ solve M f eps maxIter ax bx fax fbx ≤ bx := by
  have key := final_inv M f eps maxIter ax bx fax fbx (fun s => ax ≤ s.a ∧ s.a ≤ s.b ∧ s.b ≤ bx) (fun s h => h) (by
    rintro s c ⟨a1, a2, a3⟩ hd
    have ht : ¬ tolTest eps s.a s.b := fun h => hd (Or.inr h)
    obtain ⟨c1, c2⟩ := clip_mem M eps s.a s.b c h0 h1 he a2 ht
    unfold bracket
    simp only []
    split_ifs
    · exact ⟨a1.trans c1, c2, a3⟩
    · exact ⟨a1, c1, c2.trans a3⟩
    · exact ⟨a1.trans c1, c2, a3⟩) ⟨le_refl _, hab, le_refl _⟩
  obtain ⟨a1, a2, a3⟩ := key
  unfold solve result
  set s := final M f eps maxIter ax bx fax fbx
  split_ifs <;> constructor <;> linarith

/-- with a function negative over the whole range, the right limit is kept and the result is in the right half -/
theorem solve_negative (M : Mach) (f : ℝ → ℝ) (eps ax bx : ℝ) (maxIter : ℕ) (h0 : 0 ≤ M.epsilon) (h1 : M.epsilon ≤ 1 / 8) (he : 4 * M.epsilon ≤ eps)
    (hab : ax ≤ bx) (hf : ∀ x, ax ≤ x → x ≤ bx → f x < 0) : (ax + bx) / 2 ≤ solve M f eps maxIter ax bx (f ax) (f bx) := by
  have key := final_inv M f eps maxIter ax bx (f ax) (f bx) (fun s => ax ≤ s.a ∧ s.a ≤ s.b ∧ s.b = bx ∧ s.fa < 0 ∧ s.fb < 0) (fun s h => h) (by
    rintro s c ⟨a1, a2, a3, a4, a5⟩ hd
    have ht : ¬ tolTest eps s.a s.b := fun h => hd (Or.inr h)
    obtain ⟨c1, c2⟩ := clip_mem M eps s.a s.b c h0 h1 he a2 ht
    have hc := hf (clip M s.a s.b c) (a1.trans c1) (by rw [← a3]; exact c2)
    unfold bracket
    simp only []
    rw [if_neg hc.ne, if_neg (not_lt.2 (mul_pos_of_neg_of_neg a4 hc).le)]
    exact ⟨a1.trans c1, c2, a3, hc, a5⟩) ⟨le_refl _, hab, rfl, hf _ (le_refl _) hab, hf _ hab (le_refl _)⟩
  obtain ⟨a1, a2, a3, a4, a5⟩ := key
  unfold solve result
  set s := final M f eps maxIter ax bx (f ax) (f bx)
  rw [if_neg a4.ne, if_neg a5.ne, a3]
  linarith

end LCP.Toms
