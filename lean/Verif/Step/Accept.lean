import Verif.Step.Props
import Mathlib.Tactic.IntervalCases

/-!
# Exactly which calls are accepted (C55)
-/
namespace LCP.Step

/-- the Courant arrays that a grid of the given dimensionality needs: x from 1D on, z from 2D on, y in 3D -/
structure CourantsMatch (nDims : ℕ) (a : SyncArgs) : Prop where
  x : a.cx = true ↔ 1 ≤ nDims
  z : a.cz = true ↔ 2 ≤ nDims
  y : a.cy = true ↔ 3 ≤ nDims

/-- the arguments of sync_in are acceptable: the two mandatory fields are given; either no Courant array or exactly the ones
of the grid are given; six ambient gases with chemistry and none without; the dissipation rate is given exactly if some
subgrid turbulence option is on -/
structure ArgsMatch (c : Cfg) (a : SyncArgs) : Prop where
  th : a.th = true
  rv : a.rv = true
  courants : (a.cx = false ∧ a.cy = false ∧ a.cz = false) ∨ (1 ≤ c.nDims ∧ CourantsMatch c.nDims a)
  gases : a.ambient = if c.chem = true then 6 else 0
  diss : a.diss = true ↔ c.turbAdve = true ∨ c.turbCond = true ∨ c.turbCoal = true

theorem courantOk_iff (c : Cfg) (a : SyncArgs) (hd : c.nDims ≤ 3) :
    courantOk c a = true ↔ (a.cx = false ∧ a.cy = false ∧ a.cz = false) ∨ (1 ≤ c.nDims ∧ CourantsMatch c.nDims a) := by
  have hm : CourantsMatch c.nDims a ↔ (a.cx = true ↔ 1 ≤ c.nDims) ∧ (a.cz = true ↔ 2 ≤ c.nDims) ∧ (a.cy = true ↔ 3 ≤ c.nDims) :=
    ⟨fun h => ⟨h.x, h.z, h.y⟩, fun h => ⟨h.1, h.2.1, h.2.2⟩⟩
  rw [hm]
  unfold courantOk
  generalize c.nDims = n at *
  cases a.cx <;> cases a.cy <;> cases a.cz <;> interval_cases n <;> decide

theorem syncArgsOk_iff (c : Cfg) (a : SyncArgs) (hd : c.nDims ≤ 3) : syncArgsOk c a = true ↔ ArgsMatch c a := by
  have hm : ArgsMatch c a ↔ a.th = true ∧ a.rv = true ∧ courantOk c a = true ∧ (a.ambient = if c.chem = true then 6 else 0) ∧
      (a.diss = true ↔ c.turbAdve = true ∨ c.turbCond = true ∨ c.turbCoal = true) := by
    rw [courantOk_iff c a hd]
    exact ⟨fun h => ⟨h.th, h.rv, h.courants, h.gases, h.diss⟩, fun h => ⟨h.1, h.2.1, h.2.2.1, h.2.2.2.1, h.2.2.2.2⟩⟩
  rw [hm]
  unfold syncArgsOk
  cases a.th <;> cases a.rv <;> cases courantOk c a <;> cases c.chem <;> cases a.diss <;> cases c.turbAdve <;> cases c.turbCond <;>
    cases c.turbCoal <;> simp

/-- sync_in succeeds exactly after init, with no step pending and with matching arguments; it then opens step_cond -/
theorem syncIn_iff (c : Cfg) (a : SyncArgs) (s : St) (hd : c.nDims ≤ 3) :
    ((syncIn c a s).ok = true ↔ s.init = true ∧ s.async = false ∧ ArgsMatch c a) ∧
    ((syncIn c a s).ok = true → (syncIn c a s).st.cond = true) ∧
    ((syncIn c a s).ok = false → (syncIn c a s).st = s) := by
  rw [← syncArgsOk_iff c a hd]
  unfold syncIn
  cases s.init <;> cases s.async <;> cases syncArgsOk c a <;> simp

/-- step_cond succeeds exactly after sync_in, when turbulence in condensation was enabled at construction if asked for, and
the time step is changed only if that was enabled at construction -/
theorem stepCond_iff (c : Cfg) (o : Opts) (s : St) :
    ((stepCond c o s).ok = true ↔ s.cond = true ∧ (o.turbCond = true → c.turbCond = true) ∧
      (o.dtPos = true → c.variableDt = true)) ∧
    ((stepCond c o s).ok = true → (stepCond c o s).st.async = true ∧ (stepCond c o s).st.cond = false) := by
  unfold stepCond
  cases s.cond <;> cases o.turbCond <;> cases c.turbCond <;> cases o.dtPos <;> cases c.variableDt <;> simp

/-- every process requested at run time was enabled at construction -/
structure OptsMatch (c : Cfg) (o : Opts) : Prop where
  chem : o.chemDsl = true ∨ o.chemDsc = true ∨ o.chemRct = true → c.chem = true
  coal : o.coal = true → c.coal = true
  sedi : o.sedi = true → c.sedi = true
  subs : o.subs = true → c.subs = true
  turbAdve : o.turbAdve = true → c.turbAdve = true ∧ 1 ≤ c.nDims
  dt : o.dtPos = true → c.variableDt = true
  src : o.src = true → c.srcBoxNull = true ∨ c.srcOff = false
  rlx : o.rlx = true → c.rlx = true

theorem refuse_iff (x y : Bool) : (!(x && !y)) = true ↔ (x = true → y = true) := by cases x <;> cases y <;> simp
theorem refuse_iff' (x : Bool) (n : ℕ) : (!(x && decide (n = 0))) = true ↔ (x = true → 1 ≤ n) := by
  cases x <;> simp; omega

/-- step_async succeeds exactly when a step is pending and the options match; it then ends the step -/
theorem stepAsync_iff (c : Cfg) (o : Opts) (s : St) :
    ((stepAsync c o s).ok = true ↔ s.async = true ∧ OptsMatch c o) ∧
    ((stepAsync c o s).ok = true → (stepAsync c o s).st.async = false) := by
  have hm : OptsMatch c o ↔ asyncOptsOk c o = true ∧ (o.dtPos = true → c.variableDt = true) ∧ asyncLateOk c o = true := by
    have h1 : asyncOptsOk c o = true ↔ (o.chemDsl = true ∨ o.chemDsc = true ∨ o.chemRct = true → c.chem = true) ∧
        (o.coal = true → c.coal = true) ∧ (o.sedi = true → c.sedi = true) ∧ (o.subs = true → c.subs = true) ∧
        (o.turbAdve = true → c.turbAdve = true ∧ 1 ≤ c.nDims) := by
      unfold asyncOptsOk
      simp only [Bool.and_eq_true, refuse_iff, refuse_iff', Bool.or_eq_true, and_assoc, or_assoc]
      constructor
      · rintro ⟨h1, h2, h3, h4, h5, h6⟩
        exact ⟨h1, h2, h3, h4, fun h => ⟨h5 h, h6 h⟩⟩
      · rintro ⟨h1, h2, h3, h4, h5⟩
        exact ⟨h1, h2, h3, h4, fun h => (h5 h).1, fun h => (h5 h).2⟩
    have h2 : asyncLateOk c o = true ↔ (o.src = true → c.srcBoxNull = true ∨ c.srcOff = false) ∧ (o.rlx = true → c.rlx = true) := by
      cases h1 : o.src <;> cases h2 : c.srcBoxNull <;> cases h3 : c.srcOff <;> cases h4 : o.rlx <;> cases h5 : c.rlx <;>
        simp [asyncLateOk, h1, h2, h3, h4, h5]
    rw [h1, h2]
    exact ⟨fun h => ⟨⟨h.chem, h.coal, h.sedi, h.subs, h.turbAdve⟩, h.dt, h.src, h.rlx⟩,
      fun h => ⟨h.1.1, h.1.2.1, h.1.2.2.1, h.1.2.2.2.1, h.1.2.2.2.2, h.2.1, h.2.2.1, h.2.2.2⟩⟩
  rw [hm]
  unfold stepAsync
  cases s.async <;> cases asyncOptsOk c o <;> cases asyncLateOk c o <;> cases o.dtPos <;> cases c.variableDt <;> simp

/-- a 2D run with chemistry and turbulent advection: matching arguments exist, and are refused if one more array is passed -/
example : let c : Cfg := ⟨2, true, true, true, false, true, false, false, true, true, true, false⟩
    ArgsMatch c ⟨true, true, true, false, true, true, 6⟩ ∧ ¬ ArgsMatch c ⟨true, true, true, true, true, true, 6⟩ := by
  refine ⟨⟨rfl, rfl, Or.inr ⟨by decide, ⟨by decide, by decide, by decide⟩⟩, rfl, by decide⟩, fun h => ?_⟩
  rcases h.courants with h | ⟨_, h⟩
  · exact absurd h.1 (by decide)
  · exact absurd (h.y.1 rfl) (by decide)

/-- options that match, and one that does not -/
example : let c : Cfg := ⟨2, false, true, true, false, false, false, false, false, true, true, false⟩
    OptsMatch c { noneOpts with adve := true, sedi := true, coal := true } ∧ ¬ OptsMatch c { noneOpts with subs := true } := by
  refine ⟨⟨by decide, by decide, by decide, by decide, by decide, by decide, by decide, by decide⟩, fun h => ?_⟩
  exact absurd (h.subs rfl) (by decide)

end LCP.Step
