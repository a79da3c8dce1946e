import Verif.Step.SkeletonLemmas
import Mathlib.Tactic.Cases
/-
C89: diagnostic calls do not influence the simulation, wherever they are placed, except for two
kinds of calls in some places.  C90: what a diagnostic answers does not depend on the
diagnostics called before.
-/
namespace LCP.Skel
variable {V : Type} (F : Fns V) (c : Cfg)

/-! ### specification: where diagnostics may be placed

`fresh` : `T, p, RH` are those of the current `th, rv`: after `init` and after `step_async`.
`dT` : `diag_pressure`, `diag_temperature` or `diag_RH` was called while they were not.
`dV` : `diag_precip_rate` or `diag_precip_rate_ice_mass` was called.
`step_cond` must not run with either mark; `step_async` removes both. -/
structure Track where
  fresh : Bool
  dT : Bool
  dV : Bool
  /-- `sync_in` was called and `step_cond` not yet -/
  nc : Bool
  /-- `step_cond` was called and `step_async` not yet -/
  na : Bool

/-- After `init`. -/
def Track.start : Track := ⟨true, false, false, false, false⟩

/-- `none`: a call in a place where the theorem says nothing. -/
def place (c : Cfg) : Call V → Track → Option Track
  | .syncIn bad _, g => some (if g.na || bad then g else { g with fresh := false, nc := true })
  | .stepCond o, g =>
    if !g.nc || (o.turbCond && !c.turbCondSw) then some g  -- refused
    else if g.dT || g.dV then none
    else some { g with fresh := false, nc := false
                       na := g.na || !((o.chemDsl || o.chemDsc || o.chemRct) && !c.chem) }
  | .stepAsync o, g =>
    if !g.na then some g  -- refused
    else if asyncRefused c o then some { g with na := false }
    else if (srcRuns c o && c.srcOff) || (o.rlx && !c.rlxSw) then none  -- throws halfway
    else if g.dV && !(o.sedi || o.coal || o.cond) then none
    else some ⟨true, false, false, g.nc, false⟩
  | .diag (.tpr _), g => some (if g.fresh then g else { g with dT := true })
  | .diag .precip, g => some { g with dV := true }
  | .diag .precipIce, g => some (if c.ice then { g with dV := true } else g)
  | .diag _, g => some g

def placeAll (c : Cfg) : List (Call V) → Track → Option Track
  | [], g => some g
  | k :: ks, g => (place c k g).bind (placeAll c ks)

def Call.isDiag : Call V → Bool
  | .diag _ => true
  | _ => false

/-- The answers of the calls that are not diagnostics. -/
def answers (ks : List (Call V)) (outs : List (Out V)) : List (Out V) :=
  ((ks.zip outs).filter fun p => !p.1.isDiag).map Prod.snd

/-! ### proof -/

structure Inv (g : Track) (s t : St V) : Prop where
  rel : Rel g.dT g.dV s t
  nc : s.sim.needCond = g.nc
  na : s.sim.needAsync = g.na
  fresh : g.fresh = true → g.dT = false ∧ s.sim.tpr = F.tpr s.sim.air

theorem count_sim (s : St V) (h : s.sim.sorted = true) : (hskpngCount F s).sim = s.sim := by
  unfold hskpngCount; rw [sort_id F s h]

/-- A diagnostic call on one side only. -/
theorem diag_step (hT : (c.thDry || c.constP) = true) (d : Diag) (g g' : Track) (s t : St V) (h : Inv F g s t)
    (hp : place (V := V) c (.diag d) g = some g') : Inv F g' (diag F c d s).1 t := by
  have hsort : hskpngSort F s = s := sort_id F s h.rel.sortedL
  have same : ∀ s' : St V, s'.sim = s.sim → Inv F g s' t := by
    intro s' e
    obtain ⟨⟨r1, r2, r3, r4, r5, r6, r7, r8, r9⟩, i2, i3, i4⟩ := h
    rw [← e] at r1 r2 r3 r5 r6 r7 r8 r9 i2 i3 i4
    exact ⟨⟨r1, r2, r3, r4, r5, r6, r7, r8, r9⟩, i2, i3, i4⟩
  have vtcase : ∀ s' : St V, s'.sim = { s.sim with vt := vtNew F c s.sim } →
      Inv F { g with dV := true } s' t := by
    intro s' e
    obtain ⟨⟨r1, r2, r3, r4, r5, r6, r7, r8, r9⟩, i2, i3, i4⟩ := h
    exact ⟨⟨by rw [e]; exact r1, by rw [e]; exact r2, by rw [e]; exact r3, r4, by rw [e]; exact r5,
      by rw [e]; exact r6, by rw [e]; exact r7, by rw [e]; exact r8, fun h => by simp at h⟩,
      by rw [e]; exact i2, by rw [e]; exact i3, by rw [e]; exact i4⟩
  cases d with
  | tpr k =>
    simp only [place, Option.some.injEq] at hp
    have e : tprNew F c s.sim = F.tpr s.sim.air := by simp [tprNew, hT]
    by_cases hf : g.fresh = true
    · simp only [hf, if_true] at hp
      subst hp
      apply same
      obtain ⟨-, h2⟩ := h.fresh hf
      simp only [diag, hskpngTpr]
      rw [e, ← h2]
    · simp only [hf, if_false, Bool.false_eq_true] at hp
      subst hp
      obtain ⟨⟨r1, r2, r3, r4, r5, r6, r7, r8, r9⟩, i2, i3, i4⟩ := h
      exact ⟨⟨r1, r2, r3, r4, r5, r6, r7, fun h => by simp at h, r9⟩, i2, i3, fun h => by simp at h⟩
  | precip =>
    simp only [place, Option.some.injEq] at hp
    subst hp
    exact vtcase _ rfl
  | precipIce =>
    simp only [place, Option.some.injEq] at hp
    cases hi : c.ice
    · simp only [hi] at hp
      subst hp
      simp only [diag, guard_, hi]
      exact h
    · simp only [hi, if_true] at hp
      subst hp
      apply vtcase
      have hs : (setVt (vtNew F c) s).sim.sorted = true := h.rel.sortedL
      simp only [diag, guard_, hi, if_true, momsSel, sort_id F _ hs]
      rfl
  | selIce k =>
    simp only [place, Option.some.injEq] at hp
    subst hp
    cases hi : c.ice
    · simp only [diag, guard_, hi]; exact h
    · apply same; simp [diag, guard_, hi, momsSel, hsort]
  | consIce k =>
    simp only [place, Option.some.injEq] at hp
    subst hp
    cases hi : c.ice
    · simp only [diag, guard_, hi]; exact h
    · apply same; simp [diag, guard_, hi, momsCons, hsort]
  | momIce k =>
    simp only [place, Option.some.injEq] at hp
    subst hp
    cases hi : c.ice
    · simp only [diag, guard_, hi]; exact h
    · apply same; simp [diag, guard_, hi, momsCalc]
  | chem k =>
    simp only [place, Option.some.injEq] at hp
    subst hp
    cases hi : c.chem
    · simp only [diag, guard_, hi]; exact h
    · apply same; simp [diag, guard_, hi, momsCalc]
  | velDiv =>
    simp only [place, Option.some.injEq] at hp
    subst hp
    apply same; simp only [diag]; split <;> rfl
  | outbuf =>
    simp only [place, Option.some.injEq] at hp
    subst hp
    exact same _ (count_sim F s h.rel.sortedL)
  | massDens k =>
    simp only [place, Option.some.injEq] at hp
    subst hp
    exact same _ (count_sim F s h.rel.sortedL)
  | sdConc => simp only [place, Option.some.injEq] at hp; subst hp; apply same; simp [diag, hsort]
  | maxRw => simp only [place, Option.some.injEq] at hp; subst hp; apply same; simp [diag, hsort]
  | sel k => simp only [place, Option.some.injEq] at hp; subst hp; apply same; simp [diag, momsSel, hsort]
  | cons k => simp only [place, Option.some.injEq] at hp; subst hp; apply same; simp [diag, momsCons, hsort]
  | mom k => simp only [place, Option.some.injEq] at hp; subst hp; exact same _ rfl
  | puddle => simp only [place, Option.some.injEq] at hp; subst hp; exact h
  | attr k => simp only [place, Option.some.injEq] at hp; subst hp; exact h

theorem Rel.of_sim {s t : St V} (e : s.sim = t.sim) (hs : t.sim.sorted = true) (a b : Bool) : Rel a b s t :=
  ⟨by rw [e], by rw [e], by rw [e]; exact hs, hs, by rw [e], by rw [e], by rw [e], fun _ => by rw [e],
    fun _ => by rw [e]⟩

/-- A call that is not a diagnostic, on both sides. -/
theorem call_step (hT : (c.thDry || c.constP) = true) (hV : VtFull F c) (k : Call V) (hk : k.isDiag = false)
    (g g' : Track) (s t : St V) (h : Inv F g s t) (hp : place c k g = some g') :
    Inv F g' (exec F c k s).1 (exec F c k t).1 ∧ (exec F c k s).2 = (exec F c k t).2 := by
  cases k with
  | diag d => simp [Call.isDiag] at hk
  | syncIn bad x =>
    simp only [place, Option.some.injEq] at hp
    simp only [exec, syncIn]
    rw [← h.rel.needAsync, h.na]
    split
    · rename_i hb; rw [if_pos hb] at hp; subst hp; exact ⟨h, rfl⟩
    · rename_i hb
      rw [if_neg hb] at hp
      subst hp
      obtain ⟨⟨r1, r2, r3, r4, r5, r6, r7, r8, r9⟩, i2, i3, i4⟩ := h
      exact ⟨⟨⟨by simp [resetNf, r1], r2, r3, r4, by simp [resetNf, r5], rfl, r7, r8, r9⟩, rfl, i3,
        fun h => by simp at h⟩, rfl⟩
  | stepCond o =>
    simp only [place] at hp
    simp only [exec]
    by_cases hr : (!g.nc || (o.turbCond && !c.turbCondSw)) = true
    · rw [if_pos hr] at hp
      obtain rfl : g = g' := by simpa using hp
      have e : ∀ x : St V, x.sim.needCond = g.nc → stepCond F c o x = (x, .threw) := by
        intro x hx
        unfold stepCond
        rw [hx]
        cases hg : g.nc
        · simp
        · rw [hg] at hr
          simp only [Bool.not_true, Bool.false_or] at hr
          simp [hr]
      rw [e s h.nc, e t (h.rel.needCond.symm.trans h.nc)]
      exact ⟨h, rfl⟩
    · rw [if_neg hr] at hp
      by_cases hd : (g.dT || g.dV) = true
      · rw [if_pos hd] at hp; simp at hp
      · rw [if_neg hd] at hp
        simp only [Bool.or_eq_true, not_or, Bool.not_eq_true] at hd
        have hp := Option.some.inj hp
        have e : s.sim = t.sim := by
          have := h.rel
          rw [hd.1, hd.2] at this
          exact this.sim_eq
        simp only [Bool.or_eq_true, not_or, Bool.not_eq_true, Bool.not_eq_false'] at hr
        obtain ⟨q1, q2⟩ := stepCond_rel F c o s t e
        obtain ⟨f1, f2, f3⟩ := stepCond_flags F c o s (h.nc.trans hr.1) hr.2 h.rel.sortedL
        obtain ⟨f1', -, -⟩ := stepCond_flags F c o t (h.rel.needCond.symm.trans (h.nc.trans hr.1)) hr.2 h.rel.sortedR
        refine ⟨⟨Rel.of_sim q1 f1' _ _, ?_, ?_, ?_⟩, q2⟩
        · rw [← hp]; exact f2
        · rw [← hp, f3, h.na]
          cases g.na <;> cases hx : ((o.chemDsl || o.chemDsc || o.chemRct) && !c.chem) <;> simp
        · rw [← hp]; intro hh; simp at hh
  | stepAsync o =>
    simp only [place] at hp
    simp only [exec, stepAsync]
    rw [← h.rel.needAsync, h.na]
    cases hna : g.na
    · simp only [hna, Bool.not_false, if_true] at hp ⊢
      obtain rfl : g = g' := by simpa using hp
      exact ⟨h, trivial⟩
    · simp only [hna, Bool.not_true, Bool.false_eq_true, if_false] at hp ⊢
      have h' : Rel g.dT g.dV { s with sim := { s.sim with needAsync := false } }
          { t with sim := { t.sim with needAsync := false } } := by
        obtain ⟨⟨r1, r2, r3, r4, r5, r6, r7, r8, r9⟩, i2, i3, i4⟩ := h
        exact ⟨r1, r2, r3, r4, r5, r6, rfl, r8, r9⟩
      by_cases hr : asyncRefused c o = true
      · rw [if_pos hr] at hp
        have hp := Option.some.inj hp
        rw [if_pos hr, if_pos hr, ← hp]
        exact ⟨⟨h', h.nc, rfl, h.fresh⟩, rfl⟩
      · rw [if_neg hr] at hp
        rw [if_neg hr, if_neg hr]
        by_cases hl : ((srcRuns c o && c.srcOff) || (o.rlx && !c.rlxSw)) = true
        · rw [if_pos hl] at hp; simp at hp
        · rw [if_neg hl] at hp
          simp only [Bool.or_eq_true, not_or] at hl
          by_cases hv : (g.dV && !(o.sedi || o.coal || o.cond)) = true
          · rw [if_pos hv] at hp; simp at hp
          · rw [if_neg hv] at hp
            have hp := Option.some.inj hp
            rw [if_neg hl.1, if_neg hl.2, if_neg hl.1, if_neg hl.2]
            have hd : (o.sedi || o.coal || o.cond) = true ∨ g.dV = false := by
              cases hx : (o.sedi || o.coal || o.cond) <;> cases hy : g.dV <;> simp_all
            have e1 := asyncHead_rel F c hT hV o g.dT g.dV _ _ h' hd
            have e2 : (asyncTail F o (when_ o.rlx (rlx F) (when_ (srcRuns c o) (src F o) (asyncHead F c o
                { s with sim := { s.sim with needAsync := false } })))).sim =
              (asyncTail F o (when_ o.rlx (rlx F) (when_ (srcRuns c o) (src F o) (asyncHead F c o
                { t with sim := { t.sim with needAsync := false } })))).sim :=
              resp_asyncTail F o _ _ ((resp_rlx F).when _ _ _ ((resp_src F o).when _ _ _ e1))
            have fs : Flags (src F o) := fun _ => ⟨rfl, rfl⟩
            have ks : Keeps (src F o) := fun _ => ⟨rfl, rfl⟩
            have fl := ((flags_asyncTail F o).comp (((flags_rlx F).when o.rlx).comp ((fs.when (srcRuns c o)).comp
              (flags_asyncHead F c o)))) { s with sim := { s.sim with needAsync := false } }
            have kp := ((keeps_asyncTail F o).comp (((keeps_rlx F).when o.rlx).comp (ks.when (srcRuns c o))))
              (asyncHead F c o { s with sim := { s.sim with needAsync := false } })
            have fr := asyncHead_fresh F c o { s with sim := { s.sim with needAsync := false } } hT
            rw [← hp]
            refine ⟨⟨Rel.of_sim e2 (asyncTail_sorted F o _) _ _, ?_, ?_, ?_⟩, rfl⟩
            · exact fl.1.trans h.nc
            · exact fl.2
            · intro _
              exact ⟨rfl, kp.2.trans (fr.trans (congrArg F.tpr kp.1.symm))⟩

theorem run_inv (hT : (c.thDry || c.constP) = true) (hV : VtFull F c) (ks : List (Call V)) :
    ∀ (g g' : Track) (s t : St V), Inv F g s t → placeAll c ks g = some g' →
      Inv F g' (run F c ks s).1 (run F c (ks.filter fun k => !k.isDiag) t).1 ∧
      answers ks (run F c ks s).2 = (run F c (ks.filter fun k => !k.isDiag) t).2 := by
  induction ks with
  | nil =>
    intro g g' s t h hp
    obtain rfl : g = g' := by simpa [placeAll] using hp
    exact ⟨h, rfl⟩
  | cons k ks ih =>
    intro g g' s t h hp
    simp only [placeAll, Option.bind_eq_some_iff] at hp
    obtain ⟨g1, hp1, hp2⟩ := hp
    cases hk : k.isDiag
    · obtain ⟨i1, i2⟩ := call_step F c hT hV k hk g g1 s t h hp1
      obtain ⟨j1, j2⟩ := ih g1 g' _ _ i1 hp2
      simp only [List.filter_cons, hk, Bool.not_false, if_true, run]
      refine ⟨j1, ?_⟩
      simp only [answers] at j2
      simp only [answers, List.zip_cons_cons, List.filter_cons, hk, Bool.not_false, if_true, List.map_cons, i2, j2]
    · cases k with
      | diag d =>
        have i1 := diag_step F c hT d g g1 s t h hp1
        obtain ⟨j1, j2⟩ := ih g1 g' _ _ i1 hp2
        simp only [List.filter_cons, hk, Bool.not_true, Bool.false_eq_true, if_false, run]
        refine ⟨j1, ?_⟩
        simp only [answers] at j2
        simp only [answers, List.zip_cons_cons, List.filter_cons, hk, Bool.not_true, Bool.false_eq_true, if_false]
        exact j2
      | _ => simp [Call.isDiag] at hk

theorem init_inv (hT : (c.thDry || c.constP) = true) (x : V) (g : St V) :
    Inv F Track.start (init F c x g) (init F c x g) := by
  have hs : (init F c x g).sim.sorted = true := by
    simp only [init, hskpngCount, hskpngSort]
    split
    · assumption
    · rfl
  refine ⟨Rel.of_sim rfl hs _ _, ?_, ?_, ?_⟩
  · simp [init, hskpngCount, hskpngSort, setRest, hskpngTpr, Track.start]
  · simp [init, hskpngCount, hskpngSort, setRest, hskpngTpr, Track.start]
  · intro _
    exact ⟨rfl, by simp [init, hskpngCount, hskpngSort, setRest, hskpngTpr, tprNew, hT]⟩

/-! ### C89 -/

/-- **C89.**  Take any history of calls after `init` in which the diagnostics are placed as
`placeAll` says: anything anywhere, except that a temperature, pressure or humidity diagnostic
called while `T, p, RH` are out of date, and a precipitation-rate diagnostic, must be followed
by `step_async` before the next accepted `step_cond`.  Then dropping all diagnostics changes
nothing: the calls that remain give the same answers (arrays handed back, exceptions), and
afterwards the air, the order of the droplets, all droplet attributes and the random generator
are the same; `T, p, RH` and the terminal velocities too unless marked. -/
theorem diagnostics_do_not_interfere_partial (hT : (c.thDry || c.constP) = true) (hV : VtFull F c) (x : V) (g : St V)
    (ks : List (Call V)) (m : Track) (hp : placeAll c ks Track.start = some m) :
    let a := run F c ks (init F c x g)
    let b := run F c (ks.filter fun k => !k.isDiag) (init F c x g)
    answers ks a.2 = b.2 ∧ a.1.sim.air = b.1.sim.air ∧ a.1.sim.rest = b.1.sim.rest ∧
      a.1.sim.order = b.1.sim.order ∧ a.1.sim.needCond = b.1.sim.needCond ∧
      a.1.sim.needAsync = b.1.sim.needAsync ∧
      (m.dT = false → a.1.sim.tpr = b.1.sim.tpr) ∧ (m.dV = false → a.1.sim.vt = b.1.sim.vt) := by
  obtain ⟨h1, h2⟩ := run_inv F c hT hV ks Track.start m _ _ (init_inv F c hT x g) hp
  exact ⟨h2, h1.rel.air, h1.rel.rest, h1.rel.order, h1.rel.needCond, h1.rel.needAsync, h1.rel.tpr, h1.rel.vt⟩

/-! #### diagnostics that may be called anywhere -/

/-- All but those that recompute `T, p, RH` or the terminal velocities. -/
def Diag.quiet : Diag → Bool
  | .tpr _ => false
  | .precip => false
  | .precipIce => false
  | _ => true

/-- A step that throws halfway (source or relaxation requested but switched off). -/
def halfway (c : Cfg) (o : Opts V) : Bool := (srcRuns c o && c.srcOff) || (o.rlx && !c.rlxSw)

theorem quiet_sim (d : Diag) (hd : d.quiet = true) (s : St V) (hs : s.sim.sorted = true) :
    (diag F c d s).1.sim = s.sim := by
  have hsort : hskpngSort F s = s := sort_id F s hs
  have hc : (hskpngCount F s).sim = s.sim := count_sim F s hs
  cases d with
  | tpr k => simp [Diag.quiet] at hd
  | precip => simp [Diag.quiet] at hd
  | precipIce => simp [Diag.quiet] at hd
  | outbuf => exact hc
  | massDens k => exact hc
  | velDiv => simp only [diag]; split <;> rfl
  | selIce k => cases hi : c.ice <;> simp [diag, guard_, hi, momsSel, hsort]
  | consIce k => cases hi : c.ice <;> simp [diag, guard_, hi, momsCons, hsort]
  | momIce k => cases hi : c.ice <;> simp [diag, guard_, hi, momsCalc]
  | chem k => cases hi : c.chem <;> simp [diag, guard_, hi, momsCalc]
  | sdConc => simp [diag, hsort]
  | maxRw => simp [diag, hsort]
  | sel k => simp [diag, momsSel, hsort]
  | cons k => simp [diag, momsCons, hsort]
  | mom k => rfl
  | puddle => rfl
  | attr k => rfl

theorem resp_asyncHead (o : Opts V) : Resp (asyncHead F c o) := by
  intro s t h
  unfold asyncHead
  refine resp_asyncMid F o _ _ ?_
  simp only [when_, setVt, hskpngTpr, setRest, resetNf]
  split <;> split <;> simp [h]

theorem exec_sim (k : Call V) (hk : k.isDiag = false) (hh : ∀ o, k = .stepAsync o → halfway c o = false)
    (s t : St V) (e : s.sim = t.sim) (hs : t.sim.sorted = true) :
    (exec F c k s).1.sim = (exec F c k t).1.sim ∧ (exec F c k t).1.sim.sorted = true ∧
      (exec F c k s).2 = (exec F c k t).2 := by
  cases k with
  | diag d => simp [Call.isDiag] at hk
  | syncIn bad x =>
    simp only [exec, syncIn, e]
    split
    · exact ⟨e, hs, rfl⟩
    · simp only [resetNf, e]; exact ⟨trivial, hs, trivial⟩
  | stepCond o =>
    obtain ⟨q1, q2⟩ := stepCond_rel F c o s t e
    refine ⟨q1, ?_, q2⟩
    simp only [exec]
    by_cases h1 : t.sim.needCond = true
    · by_cases h2 : (o.turbCond && !c.turbCondSw) = true
      · unfold stepCond; simp only [h1, h2, Bool.not_true, Bool.false_eq_true, if_false, if_true]; exact hs
      · exact (stepCond_flags F c o t h1 (by simpa using h2) hs).1
    · unfold stepCond; simp only [h1, Bool.not_false, if_true]; exact hs
  | stepAsync o =>
    have hl := hh o rfl
    simp only [halfway, Bool.or_eq_false_iff] at hl
    simp only [exec, stepAsync, e]
    split
    · exact ⟨e, hs, rfl⟩
    · split
      · exact ⟨rfl, hs, rfl⟩
      · have e1 := resp_asyncHead F c o { s with sim := { t.sim with needAsync := false } }
          { t with sim := { t.sim with needAsync := false } } rfl
        rw [if_neg (by simp [hl.1]), if_neg (by simp [hl.2]), if_neg (by simp [hl.1]), if_neg (by simp [hl.2])]
        exact ⟨resp_asyncTail F o _ _ ((resp_rlx F).when _ _ _ ((resp_src F o).when _ _ _ e1)),
          asyncTail_sorted F o _, rfl⟩

/-- **C89.**  Diagnostics other than pressure, temperature, humidity and precipitation rate may
be called anywhere, in any number: dropping them all leaves every other answer and the whole
state of the simulation unchanged, for all options of the constructor. -/
theorem quiet_diagnostics_never_interfere (x : V) (g : St V) (ks : List (Call V))
    (hq : ∀ d, Call.diag d ∈ ks → d.quiet = true) (hh : ∀ o, Call.stepAsync o ∈ ks → halfway c o = false) :
    let a := run F c ks (init F c x g)
    let b := run F c (ks.filter fun k => !k.isDiag) (init F c x g)
    answers ks a.2 = b.2 ∧ a.1.sim = b.1.sim := by
  have hs : (init F c x g).sim.sorted = true := by
    simp only [init, hskpngCount, hskpngSort]
    split
    · assumption
    · rfl
  have key : ∀ (ks : List (Call V)), (∀ d, Call.diag d ∈ ks → d.quiet = true) →
      (∀ o, Call.stepAsync o ∈ ks → halfway c o = false) → ∀ s t : St V, s.sim = t.sim → t.sim.sorted = true →
      answers ks (run F c ks s).2 = (run F c (ks.filter fun k => !k.isDiag) t).2 ∧
        (run F c ks s).1.sim = (run F c (ks.filter fun k => !k.isDiag) t).1.sim := by
    intro ks
    induction ks with
    | nil => intro _ _ s t e _; exact ⟨rfl, e⟩
    | cons k ks ih =>
      intro hq hh s t e hs
      have ih := ih (fun d hd => hq d (List.mem_cons_of_mem _ hd)) (fun o ho => hh o (List.mem_cons_of_mem _ ho))
      cases hk : k.isDiag
      · obtain ⟨i1, i2, i3⟩ := exec_sim F c k hk (fun o ho => hh o (ho ▸ List.mem_cons_self)) s t e hs
        obtain ⟨j1, j2⟩ := ih _ _ i1 i2
        simp only [List.filter_cons, hk, Bool.not_false, if_true, run]
        refine ⟨?_, j2⟩
        simp only [answers] at j1
        simp only [answers, List.zip_cons_cons, List.filter_cons, hk, Bool.not_false, if_true, List.map_cons, i3, j1]
      · cases k with
        | diag d =>
          have i1 := quiet_sim F c d (hq d List.mem_cons_self) s (e ▸ hs)
          obtain ⟨j1, j2⟩ := ih _ t (i1.trans e) hs
          simp only [List.filter_cons, hk, Bool.not_true, Bool.false_eq_true, if_false, run]
          refine ⟨?_, j2⟩
          simp only [answers] at j1
          simp only [answers, List.zip_cons_cons, List.filter_cons, hk, Bool.not_true, Bool.false_eq_true, if_false]
          exact j1
        | _ => simp [Call.isDiag] at hk
  exact key ks hq hh _ _ rfl hs

/-! ### C90 -/

/-- A report: select, narrow any number of times, take a moment, read the buffer. -/
def report (k : ℕ) (cs : List ℕ) (j : ℕ) : List (Call V) :=
  .diag (.sel k) :: cs.map (fun i => .diag (.cons i)) ++ [.diag (.mom j), .diag .outbuf]

/-- What the user reads from the buffer at the end of a sequence of calls. -/
def lastAnswer (ks : List (Call V)) (s : St V) : Option (Out V) := (run F c ks s).2.getLast?

/-- **Specification.**  What the report says: the moment of the selection narrowed by the
criteria in turn, over the current droplets. -/
def reportSpec (k : ℕ) (cs : List ℕ) (j : ℕ) (x : Sim V) : V :=
  F.outbuf (F.keysOf x.order)
    (F.momCalc j x (some (cs.foldl (fun n i => F.selCons i x (some n)) (F.selNew k x))))

theorem run_append (a b : List (Call V)) (s : St V) :
    run F c (a ++ b) s = ((run F c b (run F c a s).1).1, (run F c a s).2 ++ (run F c b (run F c a s).1).2) := by
  induction a generalizing s with
  | nil => rfl
  | cons k a ih => simp only [List.cons_append, run, ih]

theorem run_cons_sel (cs : List ℕ) : ∀ (s : St V) (n : V), s.sim.sorted = true → s.aux.nf = some n →
    let r := (run F c (cs.map fun i => .diag (.cons i)) s).1
    r.sim = s.sim ∧ r.aux.nf = some (cs.foldl (fun n i => F.selCons i s.sim (some n)) n) := by
  induction cs with
  | nil => intro s n _ h; exact ⟨rfl, h⟩
  | cons i cs ih =>
    intro s n hs h
    simp only [List.map_cons, run, exec, diag, List.foldl_cons]
    have e : momsCons F i s = { s with aux := { s.aux with nf := some (F.selCons i s.sim s.aux.nf), sel := true } } := by
      simp only [momsCons, sort_id F s hs]
    obtain ⟨h1, h2⟩ := ih (momsCons F i s) (F.selCons i s.sim (some n)) (by rw [e]; exact hs) (by rw [e, ← h])
    rw [e] at h1 h2 ⊢
    exact ⟨h1, h2⟩

/-- **C90.**  A report says what the specification says, whatever the state of the scratch and
diagnostic arrays: it is a function of the simulated state. -/
theorem report_is_spec (k : ℕ) (cs : List ℕ) (j : ℕ) (s : St V) (hs : s.sim.sorted = true) :
    lastAnswer F c (report k cs j) s = some (.ok [reportSpec F k cs j s.sim]) := by
  have e : momsSel F k s = { s with aux := { s.aux with nf := some (F.selNew k s.sim), sel := true } } := by
    simp only [momsSel, sort_id F s hs]
  obtain ⟨h1, h2⟩ := run_cons_sel F c cs (momsSel F k s) (F.selNew k s.sim) (by rw [e]; exact hs) (by rw [e])
  have h3 : (momsSel F k s).sim = s.sim := by rw [e]
  rw [h3] at h1 h2
  simp only [lastAnswer, report, List.cons_append, run, exec, diag, run_append, momsCalc, h1, h2, reportSpec]
  rw [← List.cons_append, List.getLast?_append]; rfl

/-- **C90.**  Diagnostics called before a report do not change what it says. -/
theorem report_ignores_earlier_diagnostics (k : ℕ) (cs : List ℕ) (j : ℕ) (ds : List Diag)
    (hq : ∀ d ∈ ds, d.quiet = true) (s : St V) (hs : s.sim.sorted = true) :
    lastAnswer F c (ds.map Call.diag ++ report k cs j) s = lastAnswer F c (report k cs j) s := by
  have key : ∀ (ds : List Diag), (∀ d ∈ ds, d.quiet = true) → ∀ s : St V, s.sim.sorted = true →
      (run F c (ds.map Call.diag) s).1.sim = s.sim := by
    intro ds
    induction ds with
    | nil => intro _ s _; rfl
    | cons d ds ih =>
      intro hq s hs
      have i1 := quiet_sim F c d (hq d List.mem_cons_self) s hs
      simp only [List.map_cons, run, exec]
      rw [ih (fun d hd => hq d (List.mem_cons_of_mem _ hd)) _ (i1 ▸ hs), i1]
  have e := key ds hq s hs
  have r1 := report_is_spec F c k cs j s hs
  have r2 := report_is_spec F c k cs j (run F c (ds.map Call.diag) s).1 (e ▸ hs)
  rw [e] at r2
  rw [r1, ← r2]
  simp only [lastAnswer, run_append]
  rw [List.getLast?_append]
  cases h : (run F c (report k cs j) (run F c (ds.map Call.diag) s).1).2.getLast? with
  | none => simp [lastAnswer, h] at r2
  | some v => rfl

/-- **C90.**  After a moment the buffer may be read again: the second reading is the first. -/
theorem outbuf_twice_after_moment (j : ℕ) (s : St V) (hs : s.sim.sorted = true) :
    (run F c [.diag (.mom j), .diag .outbuf, .diag .outbuf] s).2 =
      [.ok [], .ok [F.outbuf (F.keysOf s.sim.order) (F.momCalc j s.sim s.aux.nf)],
       .ok [F.outbuf (F.keysOf s.sim.order) (F.momCalc j s.sim s.aux.nf)]] := by
  have h : ∀ x : St V, x.sim = s.sim → (hskpngCount F x).aux.keys = F.keysOf s.sim.order ∧
      (hskpngCount F x).aux.mom = x.aux.mom := by
    intro x hx
    have : hskpngSort F x = x := sort_id F x (hx ▸ hs)
    simp only [hskpngCount, this, hx]
    exact ⟨trivial, trivial⟩
  obtain ⟨h1, h2⟩ := h (momsCalc F j s) rfl
  simp only [run, exec, diag, h1, h2]
  rfl

/-- **C90.**  After `init` or a completed step the droplets are in order, so that the theorems
above apply. -/
theorem sorted_after_init_and_steps (x : V) (g : St V) (ks : List (Call V))
    (hh : ∀ o, Call.stepAsync o ∈ ks → halfway c o = false) :
    (run F c ks (init F c x g)).1.sim.sorted = true := by
  have hs : (init F c x g).sim.sorted = true := by
    simp only [init, hskpngCount, hskpngSort]
    split
    · assumption
    · rfl
  have hd : ∀ (d : Diag) (s : St V), s.sim.sorted = true → (diag F c d s).1.sim.sorted = true := by
    intro d s hs
    have hsort : hskpngSort F s = s := sort_id F s hs
    by_cases hq : d.quiet = true
    · rw [quiet_sim F c d hq s hs]; exact hs
    · cases d with
      | tpr k => exact hs
      | precip => exact hs
      | precipIce =>
        cases hi : c.ice
        · simp only [diag, guard_, hi]; exact hs
        · have hs' : (setVt (vtNew F c) s).sim.sorted = true := hs
          simp only [diag, guard_, hi, if_true, momsSel, sort_id F _ hs']; exact hs
      | _ => simp [Diag.quiet] at hq
  generalize init F c x g = s at hs
  induction ks generalizing s with
  | nil => exact hs
  | cons k ks ih =>
    refine ih (fun o ho => hh o (List.mem_cons_of_mem _ ho)) _ ?_
    cases hk : k.isDiag
    · exact (exec_sim F c k hk (fun o ho => hh o (ho ▸ List.mem_cons_self)) s s rfl hs).2.1
    · cases k with
      | diag d => exact hd d s hs
      | _ => simp [Call.isDiag] at hk

end LCP.Skel
