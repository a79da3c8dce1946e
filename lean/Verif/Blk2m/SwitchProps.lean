import Verif.Blk2m.CellProps

/-!
# Double-moment scheme: what the process switches guarantee (C51)
-/
namespace LCP.Blk2m
open LCP.Common

/-- **C51 (rain does not grow from vapour).** With both collision processes switched off no rain water is ever gained and
cloud water changes only together with vapour, whatever the supersaturation. -/
theorem rain_only_evaporates (epsm : ℝ) (o : Opts) (dt : ℝ) (c : Cell) (d d' : Dots) (hdt : 0 < dt) (hrr : 0 ≤ c.rr)
    (h1 : o.acnv = false) (h2 : o.accr = false) (h : rhsCell epsm o dt c d = some d') :
    d'.rr ≤ d.rr ∧ (d'.rv - d.rv) + (d'.rc - d.rc) + (d'.rr - d.rr) = 0 := by
  unfold rhsCell at h
  cases hT : Tp o c with
  | none => rw [hT] at h; simp at h
  | some tp =>
    obtain ⟨T, p⟩ := tp
    rw [hT] at h
    simp only at h
    have hl : (phase1 epsm o dt T p c).rr ≤ 0 := by
      unfold phase1
      simp only
      refine max_le ?_ ?_
      · unfold evapRate; split_ifs
        · exact min_le_right _ _
        · exact le_rfl
      · exact div_nonpos_of_nonpos_of_nonneg (by linarith) hdt.le
    have ha : acnvRate epsm o dt c = 0 := by unfold acnvRate; rw [if_neg]; simp [h1]
    have hm : ∀ R, (phase2 epsm o dt c R).rc = 0 ∧ (phase2 epsm o dt c R).rr = 0 := by
      intro R
      unfold phase2
      constructor <;> simp [ha, h2, h1]
    split_ifs at h
    · cases h; simp only; constructor
      · linarith
      · ring
    · cases h; simp only [(hm _).1, (hm _).2]; constructor
      · linarith
      · ring

/-- **C51 (switches).** With activation, condensation and collisions all off, a cell with cloud water and rain keeps every
tendency. -/
theorem all_off (epsm : ℝ) (o : Opts) (dt : ℝ) (c : Cell) (d d' : Dots) (hdt : 0 < dt) (hrc : 0 < c.rc) (hrr : 0 < c.rr)
    (hnr : 0 ≤ c.nr) (h0 : o.acti = false) (h1 : o.cond = false) (h2 : o.acnv = false) (h3 : o.accr = false)
    (h : rhsCell epsm o dt c d = some d') : d' = d := by
  unfold rhsCell at h
  cases hT : Tp o c with
  | none => rw [hT] at h; simp at h
  | some tp =>
    obtain ⟨T, p⟩ := tp
    rw [hT] at h
    simp only at h
    have a0 : actRate o dt T p c = 0 := by unfold actRate; rw [if_neg]; simp [h0]
    have a1 : condRate epsm o T p c = 0 := by unfold condRate; rw [if_neg]; simp [h1]
    have a2 : evapRate epsm o T p c = 0 := by unfold evapRate; rw [if_neg]; simp [h1]
    have ha : acnvRate epsm o dt c = 0 := by unfold acnvRate; rw [if_neg]; simp [h2]
    have n1 : -c.rc / dt < 0 := div_neg_of_neg_of_pos (by linarith) hdt
    have n2 : -c.rr / dt < 0 := div_neg_of_neg_of_pos (by linarith) hdt
    have n3 : -c.nr / dt ≤ 0 := div_nonpos_of_nonpos_of_nonneg (by linarith) hdt.le
    have hp : phase1 epsm o dt T p c = ⟨0, 0, 0, 0, False, False⟩ := by
      unfold phase1
      simp only [a0, a1, a2, zero_mul, zero_add, zero_div, max_eq_left n1.le, max_eq_left n2.le, max_eq_left n3, n1.ne', n2.ne',
        if_false]
    have hm : (phase2 epsm o dt c False).rc = 0 ∧ (phase2 epsm o dt c False).rr = 0 ∧ (phase2 epsm o dt c False).nc = 0 ∧
        (phase2 epsm o dt c False).nr = 0 := by
      unfold phase2
      simp [ha, h2, h3]
    rw [hp] at h
    simp only [if_false, hm.1, hm.2.1, hm.2.2.1, hm.2.2.2] at h
    cases h
    cases d
    simp

/-- **C51 (condensation switch).** With activation and condensation off vapour and temperature are untouched. -/
theorem cond_off (epsm : ℝ) (o : Opts) (dt : ℝ) (c : Cell) (d d' : Dots) (hdt : 0 < dt) (hrc : 0 ≤ c.rc) (hrr : 0 ≤ c.rr)
    (h0 : o.acti = false) (h1 : o.cond = false) (h : rhsCell epsm o dt c d = some d') : d'.rv = d.rv ∧ d'.th = d.th := by
  unfold rhsCell at h
  cases hT : Tp o c with
  | none => rw [hT] at h; simp at h
  | some tp =>
    obtain ⟨T, p⟩ := tp
    rw [hT] at h
    simp only at h
    have a0 : actRate o dt T p c = 0 := by unfold actRate; rw [if_neg]; simp [h0]
    have a1 : condRate epsm o T p c = 0 := by unfold condRate; rw [if_neg]; simp [h1]
    have a2 : evapRate epsm o T p c = 0 := by unfold evapRate; rw [if_neg]; simp [h1]
    have n1 : -c.rc / dt ≤ 0 := div_nonpos_of_nonpos_of_nonneg (by linarith) hdt.le
    have n2 : -c.rr / dt ≤ 0 := div_nonpos_of_nonpos_of_nonneg (by linarith) hdt.le
    have hp : (phase1 epsm o dt T p c).rc = 0 ∧ (phase1 epsm o dt T p c).rr = 0 := by
      unfold phase1
      simp only [a0, a1, a2, zero_mul, zero_add, max_eq_left n1, max_eq_left n2]
      exact ⟨trivial, trivial⟩
    split_ifs at h <;> cases h <;> simp [hp.1, hp.2]

/-- the hypotheses are met by a cloudy, rainy cell -/
example (epsm dt : ℝ) (d : Dots) : (rhsCell epsm { optsP with acti := false, cond := false, acnv := false, accr := false } dt
    rainyCloud d).isSome ∧ 0 < rainyCloud.rc ∧ 0 < rainyCloud.rr ∧ 0 ≤ rainyCloud.nr := by
  refine ⟨?_, by norm_num [rainyCloud], by norm_num [rainyCloud], by norm_num [rainyCloud]⟩
  rw [Option.isSome_iff_ne_none, ne_eq, cell_throws_iff]; simp [optsP]

end LCP.Blk2m
