import Verif.Step.Skeleton
/-
Lemmas about the data flow: every block of a step is a function of the `Sim` part of the
state, whatever the diagnostic arrays and the temporary arrays contain.
-/
namespace LCP.Skel
variable {V : Type} (F : Fns V) (c : Cfg)

theorem loop_rel (f : ℕ → St V → St V) (R : ℕ → St V → St V → Prop) (n : ℕ) (s t : St V)
    (h0 : R 0 s t) (hs : ∀ i a b, i < n → R i a b → R (i + 1) (f i a) (f i b)) :
    R n (loop f n s) (loop f n t) := by
  induction n with
  | zero => exact h0
  | succ n ih =>
    exact hs n _ _ (Nat.lt_succ_self n) (ih fun i a b hi => hs i a b (Nat.lt_succ_of_lt hi))

/-- `f` computes the new `Sim` part from the old one only. -/
def Resp (f : St V → St V) : Prop := ∀ s t, s.sim = t.sim → (f s).sim = (f t).sim

theorem Resp.comp {f g : St V → St V} (hg : Resp g) (hf : Resp f) : Resp (fun s => g (f s)) :=
  fun s t h => hg _ _ (hf s t h)

theorem Resp.when {f : St V → St V} (b : Bool) (hf : Resp f) : Resp (when_ b f) := by
  intro s t h; cases b
  · exact h
  · exact hf s t h

theorem Resp.ite {f g : St V → St V} (b : Bool) (hf : Resp f) (hg : Resp g) :
    Resp (fun s => if b then f s else g s) := by
  intro s t h; cases b
  · exact hg s t h
  · exact hf s t h

theorem Resp.loop {f : ℕ → St V → St V} (n : ℕ) (hf : ∀ i, Resp (f i)) : Resp (loop f n) := by
  intro s t h
  exact loop_rel f (fun _ a b => a.sim = b.sim) n s t h fun i a b _ hab => hf i a b hab

theorem resp_sort : Resp (hskpngSort F) := by
  intro s t h; unfold hskpngSort; rw [h]; split
  · exact h
  · simp

theorem resp_setRest (f : Sim V → V) : Resp (setRest f) := by
  intro s t h; simp [setRest, h]
theorem resp_setAir (f : Sim V → V) : Resp (setAir f) := by
  intro s t h; simp [setAir, h]
theorem resp_setVt (f : Sim V → V) : Resp (setVt f) := by
  intro s t h; simp [setVt, h]
theorem resp_tpr : Resp (hskpngTpr F c) := by
  intro s t h; simp [hskpngTpr, h]
theorem resp_count : Resp (hskpngCount F) := resp_sort F

theorem perCellStep_rel (o : Opts V) (n i : ℕ) (s t : St V)
    (h : s.sim = t.sim ∧ s.scr.lam = t.scr.lam ∧
      (0 < i → s.scr.rwm = t.scr.rwm ∧ (c.ice = true → s.scr.iceM = t.scr.iceM))) :
    (perCellStep F c o n i s).sim = (perCellStep F c o n i t).sim ∧
    (perCellStep F c o n i s).scr.lam = (perCellStep F c o n i t).scr.lam ∧
    (i + 1 < n → (perCellStep F c o n i s).scr.rwm = (perCellStep F c o n i t).scr.rwm ∧
      (c.ice = true → (perCellStep F c o n i s).scr.iceM = (perCellStep F c o n i t).scr.iceM)) := by
  obtain ⟨⟨air, tpr, vt, ord, sorted, rest, nc, na⟩, scr, aux⟩ := s
  obtain ⟨sim', scr', aux'⟩ := t
  obtain ⟨h1, h2, h3⟩ := h
  simp only at h1 h2 h3
  subst h1
  unfold perCellStep saveLiq condCell iceDep updThRv
  by_cases h0 : i = 0
  · subst h0
    by_cases hn : 0 + 1 < n <;> cases hi : c.ice <;> cases sorted <;> cases ht : o.turbCond <;>
      simp [hn, h2, hskpngSort, momsSel, momsCalc, when_, setRest, setAir, hskpngTpr, tprNew]
  · obtain ⟨h3, h4⟩ := h3 (Nat.pos_of_ne_zero h0)
    by_cases hn : i + 1 < n <;> cases hi : c.ice <;> cases sorted <;> cases ht : o.turbCond <;>
      simp [hn, h0, h2, h3, h4, hi, hskpngSort, momsSel, momsCalc, when_, setRest, setAir, hskpngTpr, tprNew]

theorem perCell_loop (o : Opts V) (n m : ℕ) (hm : m ≤ n) (s t : St V) (h : s.sim = t.sim)
    (hl : s.scr.lam = t.scr.lam) :
    (loop (perCellStep F c o n) m s).sim = (loop (perCellStep F c o n) m t).sim := by
  refine (loop_rel (perCellStep F c o n) (fun i s t => s.sim = t.sim ∧ s.scr.lam = t.scr.lam ∧
      (0 < i → i < n → s.scr.rwm = t.scr.rwm ∧ (c.ice = true → s.scr.iceM = t.scr.iceM))) m s t
      ⟨h, hl, fun h => absurd h (Nat.lt_irrefl 0)⟩ ?_).1
  intro i a b hi hab
  obtain ⟨h1, h2, h3⟩ := perCellStep_rel F c o n i a b
    ⟨hab.1, hab.2.1, fun h0 => hab.2.2 h0 (Nat.lt_of_lt_of_le hi hm)⟩
  exact ⟨h1, h2, fun _ h => h3 h⟩

theorem perParticleStep_rel (o : Opts V) (i : ℕ) (s t : St V)
    (h : s.sim = t.sim ∧ s.scr.lam = t.scr.lam ∧ s.scr.pp = t.scr.pp ∧
      (c.mix = false → s.scr.drw = t.scr.drw ∧ (c.ice = true → s.scr.dIce = t.scr.dIce))) :
    (perParticleStep F c o i s).sim = (perParticleStep F c o i t).sim ∧
    (perParticleStep F c o i s).scr.lam = (perParticleStep F c o i t).scr.lam ∧
    (perParticleStep F c o i s).scr.pp = (perParticleStep F c o i t).scr.pp ∧
    (c.mix = false → (perParticleStep F c o i s).scr.drw = (perParticleStep F c o i t).scr.drw ∧
      (c.ice = true → (perParticleStep F c o i s).scr.dIce = (perParticleStep F c o i t).scr.dIce)) := by
  obtain ⟨h1, h2, h3, h4⟩ := h
  unfold perParticleStep
  cases hm : c.mix <;> cases ht : o.turbCond
  case false.false =>
    obtain ⟨h4, h5⟩ := h4 hm
    simp [when_, setRest, h1, h2, h3, h4]
    exact h5
  case false.true =>
    obtain ⟨h4, h5⟩ := h4 hm
    simp [when_, setRest, h1, h2, h3, h4]
    exact h5
  all_goals simp [when_, setRest, updPstate, h1, h2, h3]

/-- What the per-particle branch keeps equal: the `Sim` part and the arrays it fills. -/
def PP (s t : St V) : Prop := s.sim = t.sim ∧ s.scr.lam = t.scr.lam ∧ s.scr.pp = t.scr.pp ∧
      (c.mix = false → s.scr.drw = t.scr.drw ∧ (c.ice = true → s.scr.dIce = t.scr.dIce))

theorem ppHead_rel (s t : St V) (h1 : s.sim = t.sim) (h2 : s.scr.lam = t.scr.lam) :
    PP c (ppHead F c s) (ppHead F c t) := by
  obtain ⟨⟨air, tpr, vt, ord, sorted, rest, nc, na⟩, scr, aux⟩ := s
  obtain ⟨sim', scr', aux'⟩ := t
  simp only at h1 h2
  subst h1
  cases hm : c.mix <;> cases hi : c.ice <;> cases sorted <;>
    simp [PP, ppHead, hm, hi, h2, saveLiq, momsSel, momsCalc, hskpngSort, resetNf]

theorem ppSteps_rel (o : Opts V) (s t : St V) (h : PP c s t) :
    PP c (ppSteps F c o s) (ppSteps F c o t) := by
  have h' := h
  obtain ⟨h1, h2, h3, h4⟩ := h
  unfold ppSteps
  cases hA : c.adaptive
  · simp only [Bool.false_eq_true, if_false]
    rw [h1]
    exact loop_rel (perParticleStep F c o) (fun _ s t => PP c s t)
        (F.nCond t.sim.rest) s t h' (fun i a b _ => perParticleStep_rel F c o i a b)
  · simp only [if_true]
    refine ⟨?_, ?_, ?_, ?_⟩
    · simp [setRest, h1, h2, h3]
    · simpa [setRest] using h2
    · simpa [setRest] using h3
    · simpa [setRest] using h4

theorem ppTail_rel (s t : St V) (h : PP c s t) : (ppTail F c s).sim = (ppTail F c t).sim := by
  obtain ⟨h1, -, -, h4⟩ := h
  cases hm : c.mix
  · obtain ⟨h6, h5⟩ := h4 hm; clear h4
    obtain ⟨⟨air, tpr, vt, ord, sorted, rest, nc, na⟩, scr, aux⟩ := s
    obtain ⟨sim', scr', aux'⟩ := t
    simp only at h1 h6 h5
    subst h1
    cases hi : c.ice
    · cases sorted <;>
        simp [ppTail, hm, calcChange, updThRv, hi, h6, resetNf, momsSel, momsCalc, hskpngSort, setAir]
    · have h7 := h5 hi
      cases sorted <;>
        simp [ppTail, hm, calcChange, updThRv, hi, h6, h7, resetNf, momsSel, momsCalc, hskpngSort, setAir]
  · simp [ppTail, hm, resetNf, setAir, h1]

theorem perParticle_rel (o : Opts V) (s t : St V) (h1 : s.sim = t.sim) (h2 : s.scr.lam = t.scr.lam) :
    (perParticle F c o s).sim = (perParticle F c o t).sim :=
  ppTail_rel F c _ _ (ppSteps_rel F c o _ _ (ppHead_rel F c s t h1 h2))

theorem resp_condBlock (o : Opts V) : Resp (condBlock F c o) := by
  intro s t h
  unfold condBlock
  refine resp_setRest _ _ _ ?_
  have h1 : (hskpngSort F s).sim = (hskpngSort F t).sim := resp_sort F s t h
  dsimp only
  rw [h1]
  split
  · exact perParticle_rel F c o _ _ rfl rfl
  · exact perCell_loop F c o _ _ (Nat.le_refl _) _ _ rfl rfl

theorem resp_iceNuclMelt (o : Opts V) : Resp (iceNuclMelt F o) := by
  intro s t h
  obtain ⟨⟨air, tpr, vt, ord, sorted, rest, nc, na⟩, scr, aux⟩ := s
  obtain ⟨sim', scr', aux'⟩ := t
  simp only at h
  subst h
  cases sorted <;> simp [iceNuclMelt, momsSel, momsCalc, hskpngSort, setAir, setRest]

theorem chemHenry_rel (o : Opts V) (s t : St V) (h : s.sim = t.sim) (h2 : s.scr.chemV = t.scr.chemV) :
    (chemHenry F o s).sim = (chemHenry F o t).sim ∧ (chemHenry F o s).scr.chemV = (chemHenry F o t).scr.chemV := by
  unfold chemHenry
  refine loop_rel _ (fun _ s t => s.sim = t.sim ∧ s.scr.chemV = t.scr.chemV) 6 _ _
    ⟨resp_sort F s t h, ?_⟩ ?_
  · unfold hskpngSort; rw [h]; split <;> exact h2
  · rintro i a b - ⟨g1, g2⟩
    simp [henryOne, setRest, g1, g2]

theorem resp_chemStep (o : Opts V) (i : ℕ) : Resp (chemStep F o i) := by
  intro s t h
  unfold chemStep
  refine resp_setRest _ _ _ ?_
  have key : ∀ a b : St V, a.sim = b.sim → a.scr.chemV = b.scr.chemV →
      (setRest F.chemClean (chemHenry F o (setRest (F.chemSstp i) a))).sim =
        (setRest F.chemClean (chemHenry F o (setRest (F.chemSstp i) b))).sim ∧
      (setRest F.chemClean (chemHenry F o (setRest (F.chemSstp i) a))).scr.chemV =
        (setRest F.chemClean (chemHenry F o (setRest (F.chemSstp i) b))).scr.chemV := by
    intro a b g1 g2
    have := chemHenry_rel F o (setRest (F.chemSstp i) a) (setRest (F.chemSstp i) b)
      (by simp [setRest, g1]) (by simpa [setRest] using g2)
    exact ⟨by simp [setRest] at this ⊢; simp [this.1], by simpa [setRest] using this.2⟩
  have h2 : ({ s with scr := { s.scr with chemV := F.chemAnte s.sim } } : St V).scr.chemV =
      ({ t with scr := { t.scr with chemV := F.chemAnte t.sim } } : St V).scr.chemV := by simp [h]
  have k := key { s with scr := { s.scr with chemV := F.chemAnte s.sim } }
    { t with scr := { t.scr with chemV := F.chemAnte t.sim } } h h2
  have fin : ∀ a b : St V, a.sim = b.sim → a.scr.chemV = b.scr.chemV →
      (let s := if o.chemDsc then setRest F.chemClean (setRest (fun x => F.chemDissoc x a.scr.chemV) a) else a
       let s := if o.chemRct then setRest F.chemClean (setRest (fun x => F.chemReact o x s.scr.chemV) s) else s
       s).sim =
      (let s := if o.chemDsc then setRest F.chemClean (setRest (fun x => F.chemDissoc x b.scr.chemV) b) else b
       let s := if o.chemRct then setRest F.chemClean (setRest (fun x => F.chemReact o x s.scr.chemV) s) else s
       s).sim := by
    intro a b g1 g2
    cases o.chemDsc <;> cases o.chemRct <;> simp [setRest, g1, g2]
  cases hd : o.chemDsl
  · exact fin _ _ h h2
  · exact fin _ _ k.1 k.2

/-- The answer and the `Sim` part left by `step_cond` depend on the `Sim` part only. -/
theorem stepCond_rel (o : Opts V) (s t : St V) (h : s.sim = t.sim) :
    (stepCond F c o s).1.sim = (stepCond F c o t).1.sim ∧ (stepCond F c o s).2 = (stepCond F c o t).2 := by
  unfold stepCond
  rw [h]
  split
  · exact ⟨h, rfl⟩
  split
  · exact ⟨h, rfl⟩
  have h1 : ∀ a b : St V, a.sim = b.sim →
      (when_ o.cond (condBlock F c o) (when_ (c.ice && o.iceNucl) (iceNuclMelt F o)
        (when_ c.incloud (setRest F.incloud) (setRest (fun x => F.adjust o x.rest) a)))).sim =
      (when_ o.cond (condBlock F c o) (when_ (c.ice && o.iceNucl) (iceNuclMelt F o)
        (when_ c.incloud (setRest F.incloud) (setRest (fun x => F.adjust o x.rest) b)))).sim :=
    fun a b g => (resp_condBlock F c o).when _ _ _ ((resp_iceNuclMelt F o).when _ _ _
      ((resp_setRest _).when _ _ _ (resp_setRest _ _ _ g)))
  have h2 := h1 { s with sim := { t.sim with needCond := false } } { t with sim := { t.sim with needCond := false } } rfl
  dsimp only
  split
  · exact ⟨h2, rfl⟩
  · generalize when_ o.cond (condBlock F c o) (when_ (c.ice && o.iceNucl) (iceNuclMelt F o)
        (when_ c.incloud (setRest F.incloud) (setRest (fun x => F.adjust o x.rest)
          { s with sim := { t.sim with needCond := false } }))) = a at h2 ⊢
    generalize when_ o.cond (condBlock F c o) (when_ (c.ice && o.iceNucl) (iceNuclMelt F o)
        (when_ c.incloud (setRest F.incloud) (setRest (fun x => F.adjust o x.rest)
          { t with sim := { t.sim with needCond := false } }))) = b at h2 ⊢
    have h3 : (if o.chemDsl || o.chemDsc || o.chemRct then loop (chemStep F o) (F.nChem a.sim.rest) a else a).sim =
        (if o.chemDsl || o.chemDsc || o.chemRct then loop (chemStep F o) (F.nChem b.sim.rest) b else b).sim := by
      rw [h2]; split
      · exact Resp.loop _ (resp_chemStep F o) _ _ h2
      · exact h2
    rw [h3]
    exact ⟨rfl, rfl⟩

/-! ### step_async -/

theorem resp_coalStep (o : Opts V) (n i : ℕ) : Resp (coalStep F o n i) := by
  intro s t h
  have e : ∀ a : St V, hskpngSort F (hskpngShuffle F a) = hskpngShuffle F a := fun a => rfl
  unfold coalStep hskpngCount
  simp only [e]
  by_cases hi : i + 1 = n <;> simp [hi, hskpngShuffle, setVt, h]

theorem resp_coalBlock (o : Opts V) : Resp (coalBlock F o) := by
  intro s t h
  unfold coalBlock
  refine resp_setRest _ _ _ (resp_setRest _ _ _ ?_)
  rw [h]
  exact Resp.loop _ (resp_coalStep F o _) _ _ h

theorem resp_turbDotSs : Resp (turbDotSs F) := by
  intro s t h
  obtain ⟨⟨air, tpr, vt, ord, sorted, rest, nc, na⟩, scr, aux⟩ := s
  obtain ⟨sim', scr', aux'⟩ := t
  simp only at h
  subst h
  cases sorted <;> simp [turbDotSs, momsSel, momsCalc, hskpngSort, resetNf]

theorem resp_adve : Resp (adve F) := by intro s t h; simp [adve, h]
theorem resp_src (o : Opts V) : Resp (src F o) := by intro s t h; simp [src, h]
theorem resp_mpi : Resp (mpi F) := by intro s t h; simp [mpi, h]

theorem resp_rlxBin (i : ℕ) : Resp (rlxBin F i) := by
  intro s t h
  obtain ⟨⟨air, tpr, vt, ord, sorted, rest, nc, na⟩, scr, aux⟩ := s
  obtain ⟨sim', scr', aux'⟩ := t
  simp only at h
  subst h
  cases sorted <;> simp [rlxBin, momsSel, momsCons, momsCalc, hskpngSort, resetNf]

theorem resp_rlx : Resp (rlx F) := by
  intro s t h
  unfold rlx
  rw [h]
  split
  · simp [Resp.loop _ (resp_rlxBin F) s t h]
  · exact h

theorem resp_postCopy (o : Opts V) : Resp (postCopy F o) := by
  intro s t h
  unfold postCopy
  exact resp_count F _ _ (by simp [h])

theorem resp_asyncTail (o : Opts V) : Resp (asyncTail F o) := by
  intro s t h
  unfold asyncTail
  exact resp_postCopy F o _ _ ((resp_mpi F).when _ _ _ (resp_setRest _ _ _ (resp_setRest _ _ _ h)))

/-- The part of `step_async` after terminal velocities and up to the source. -/
theorem resp_asyncMid (o : Opts V) : Resp (fun s : St V =>
  let s := when_ o.coal (coalBlock F o) s
  let s := when_ (o.turbAdve || o.turbCond) (setRest F.tke) s
  let s := when_ (o.turbAdve || o.turbCond) (setRest (F.turbVel o)) s
  let s := when_ o.turbCond (turbDotSs F) s
  let s := when_ o.adve (adve F) s
  let s := setRest F.scheme s
  let s := when_ o.turbAdve (setRest F.turbAdve) s
  let s := when_ o.sedi (setRest F.sedi) s
  when_ o.subs (setRest F.subs) s) := by
  intro s t h
  exact (resp_setRest _).when _ _ _ ((resp_setRest _).when _ _ _ ((resp_setRest _).when _ _ _
    (resp_setRest _ _ _ ((resp_adve F).when _ _ _ ((resp_turbDotSs F).when _ _ _
      ((resp_setRest _).when _ _ _ ((resp_setRest _).when _ _ _ ((resp_coalBlock F o).when _ _ _ h))))))))

/-- With ice, or when no droplet is without water, the velocities computed at the start of
`step_async` do not depend on the old ones. -/
def VtFull : Prop := c.ice = true ∨ ∀ x a b, F.vtWater x a = F.vtWater x b

theorem vtNew_eq (hV : VtFull F c) (x y : Sim V) (h : { x with vt := F.allCells } = ({ y with vt := F.allCells } : Sim V)) :
    vtNew F c x = vtNew F c y := by
  unfold vtNew
  rw [h]
  rcases hV with hi | hw
  · simp [hi]
  · split
    · rfl
    · exact hw _ _ _

/-- States that a diagnostic call may have made different: temperatures when `dT`, terminal
velocities when `dV`. -/
structure Rel (dT dV : Bool) (s t : St V) : Prop where
  air : s.sim.air = t.sim.air
  order : s.sim.order = t.sim.order
  sortedL : s.sim.sorted = true
  sortedR : t.sim.sorted = true
  rest : s.sim.rest = t.sim.rest
  needCond : s.sim.needCond = t.sim.needCond
  needAsync : s.sim.needAsync = t.sim.needAsync
  tpr : dT = false → s.sim.tpr = t.sim.tpr
  vt : dV = false → s.sim.vt = t.sim.vt

theorem sim_ext {x y : Sim V} (h1 : x.air = y.air) (h2 : x.tpr = y.tpr) (h3 : x.vt = y.vt) (h4 : x.order = y.order)
    (h5 : x.sorted = y.sorted) (h6 : x.rest = y.rest) (h7 : x.needCond = y.needCond) (h8 : x.needAsync = y.needAsync) :
    x = y := by
  cases x; cases y; simp_all

theorem Rel.sim_eq {s t : St V} (h : Rel false false s t) : s.sim = t.sim :=
  sim_ext h.air (h.tpr rfl) (h.vt rfl) h.order (h.sortedL.trans h.sortedR.symm) h.rest h.needCond h.needAsync

theorem asyncHead_rel (hT : (c.thDry || c.constP) = true) (hV : VtFull F c) (o : Opts V) (dT dV : Bool)
    (s t : St V) (h : Rel dT dV s t) (hd : (o.sedi || o.coal || o.cond) = true ∨ dV = false) :
    (asyncHead F c o s).sim = (asyncHead F c o t).sim := by
  unfold asyncHead
  refine resp_asyncMid F o _ _ ?_
  have key : ∀ a b : St V, Rel dT dV a b →
      (when_ (o.sedi || o.coal || o.cond) (setVt (vtNew F c)) (hskpngTpr F c a)).sim =
      (when_ (o.sedi || o.coal || o.cond) (setVt (vtNew F c)) (hskpngTpr F c b)).sim := by
    intro a b g
    have e : (hskpngTpr F c a).sim.tpr = (hskpngTpr F c b).sim.tpr := by
      simp [hskpngTpr, tprNew, hT, g.air]
    have e2 : { (hskpngTpr F c a).sim with vt := F.allCells } = ({ (hskpngTpr F c b).sim with vt := F.allCells } : Sim V) :=
      sim_ext g.air e rfl g.order (g.sortedL.trans g.sortedR.symm) g.rest g.needCond g.needAsync
    cases hb : (o.sedi || o.coal || o.cond)
    · have hd : dV = false := by simpa [hb] using hd
      exact sim_ext g.air e (g.vt hd) g.order (g.sortedL.trans g.sortedR.symm) g.rest g.needCond g.needAsync
    · exact sim_ext g.air e (vtNew_eq F c hV _ _ e2) g.order (g.sortedL.trans g.sortedR.symm) g.rest g.needCond
        g.needAsync
  refine key _ _ ?_
  have g : ∀ f : V → V, ∀ a b : St V, Rel dT dV a b →
      Rel dT dV (setRest (fun x => f x.rest) a) (setRest (fun x => f x.rest) b) := by
    intro f a b g
    exact ⟨g.air, g.order, g.sortedL, g.sortedR, by simp [setRest, g.rest], g.needCond, g.needAsync, g.tpr, g.vt⟩
  have g1 := g (F.adjust o) (resetNf s) (resetNf t)
    ⟨h.air, h.order, h.sortedL, h.sortedR, h.rest, h.needCond, h.needAsync, h.tpr, h.vt⟩
  cases hc : o.chemDsl
  · exact g1
  · exact g _ _ _ g1

/-! What `step_async` leaves: sorted droplets and an up-to-date temperature. -/

/-- `f` leaves `air` and `tpr` alone. -/
def Keeps (f : St V → St V) : Prop := ∀ s, (f s).sim.air = s.sim.air ∧ (f s).sim.tpr = s.sim.tpr

theorem Keeps.comp {f g : St V → St V} (hg : Keeps g) (hf : Keeps f) : Keeps (fun s => g (f s)) :=
  fun s => ⟨(hg _).1.trans (hf s).1, (hg _).2.trans (hf s).2⟩
theorem Keeps.when {f : St V → St V} (b : Bool) (hf : Keeps f) : Keeps (when_ b f) := by
  intro s; cases b
  · exact ⟨rfl, rfl⟩
  · exact hf s
theorem Keeps.loop {f : ℕ → St V → St V} (n : ℕ) (hf : ∀ i, Keeps (f i)) : Keeps (loop f n) := by
  intro s
  induction n with
  | zero => exact ⟨rfl, rfl⟩
  | succ n ih => exact ⟨(hf n _).1.trans ih.1, (hf n _).2.trans ih.2⟩
theorem keeps_setRest (f : Sim V → V) : Keeps (setRest f) := fun _ => ⟨rfl, rfl⟩
theorem keeps_setVt (f : Sim V → V) : Keeps (setVt f) := fun _ => ⟨rfl, rfl⟩
theorem keeps_sort : Keeps (hskpngSort F) := by
  intro s; unfold hskpngSort; split <;> exact ⟨rfl, rfl⟩
theorem keeps_coalStep (o : Opts V) (n i : ℕ) : Keeps (coalStep F o n i) := by
  intro s
  unfold coalStep
  dsimp only
  split <;> exact ⟨rfl, rfl⟩
theorem keeps_coalBlock (o : Opts V) : Keeps (coalBlock F o) :=
  fun s => (Keeps.loop _ (keeps_coalStep F o _) s)
theorem keeps_turbDotSs : Keeps (turbDotSs F) := fun s => keeps_sort F s
theorem keeps_rlxBin (i : ℕ) : Keeps (rlxBin F i) := by
  intro s
  have h : ∀ a : St V, ((hskpngSort F a).sim.air = a.sim.air ∧ (hskpngSort F a).sim.tpr = a.sim.tpr) := keeps_sort F
  have h1 : Keeps (momsSel F (2 * i)) := keeps_sort F
  have h2 : Keeps (momsCons F (2 * i + 1)) := keeps_sort F
  exact ⟨(h2 _).1.trans (h1 s).1, (h2 _).2.trans (h1 s).2⟩
theorem keeps_rlx : Keeps (rlx F) := by
  intro s
  unfold rlx
  split
  · exact Keeps.loop _ (keeps_rlxBin F) s
  · exact ⟨rfl, rfl⟩
theorem keeps_postCopy (o : Opts V) : Keeps (postCopy F o) := by
  intro s
  unfold postCopy
  exact keeps_sort F _
theorem keeps_asyncTail (o : Opts V) : Keeps (asyncTail F o) := by
  intro s
  have h1 : Keeps (when_ (o.adve || o.turbAdve) (mpi F)) := Keeps.when _ fun _ => ⟨rfl, rfl⟩
  exact ⟨(keeps_postCopy F o _).1.trans (h1 _).1, (keeps_postCopy F o _).2.trans (h1 _).2⟩
theorem asyncTail_sorted (o : Opts V) (s : St V) : (asyncTail F o s).sim.sorted = true := by
  unfold asyncTail postCopy hskpngCount hskpngSort
  simp

theorem asyncHead_fresh (o : Opts V) (s : St V) (hT : (c.thDry || c.constP) = true) :
    (asyncHead F c o s).sim.tpr = F.tpr (asyncHead F c o s).sim.air := by
  have K : Keeps (fun s : St V =>
      let s := when_ (o.sedi || o.coal || o.cond) (setVt (vtNew F c)) s
      let s := when_ o.coal (coalBlock F o) s
      let s := when_ (o.turbAdve || o.turbCond) (setRest F.tke) s
      let s := when_ (o.turbAdve || o.turbCond) (setRest (F.turbVel o)) s
      let s := when_ o.turbCond (turbDotSs F) s
      let s := when_ o.adve (adve F) s
      let s := setRest F.scheme s
      let s := when_ o.turbAdve (setRest F.turbAdve) s
      let s := when_ o.sedi (setRest F.sedi) s
      when_ o.subs (setRest F.subs) s) := by
    have ka : Keeps (adve F) := fun _ => ⟨rfl, rfl⟩
    exact ((keeps_setRest _).when _).comp (((keeps_setRest _).when _).comp (((keeps_setRest _).when _).comp
      ((keeps_setRest _).comp ((ka.when _).comp (((keeps_turbDotSs F).when _).comp (((keeps_setRest _).when _).comp
        (((keeps_setRest _).when _).comp (((keeps_coalBlock F o).when _).comp ((keeps_setVt _).when _)))))))))
  unfold asyncHead
  have k := K (hskpngTpr F c (when_ o.chemDsl (setRest (fun x => F.saveChem x.rest))
    (setRest (fun x => F.adjust o x.rest) (resetNf s))))
  refine k.2.trans ?_
  refine Eq.trans ?_ (congrArg F.tpr k.1.symm)
  simp [hskpngTpr, tprNew, hT]

/-! ### flags -/

/-- `f` leaves the two flags of the order of calls alone. -/
def Flags (f : St V → St V) : Prop := ∀ s, (f s).sim.needCond = s.sim.needCond ∧ (f s).sim.needAsync = s.sim.needAsync
/-- `f` does not unsort. -/
def Sorts (f : St V → St V) : Prop := ∀ s, s.sim.sorted = true → (f s).sim.sorted = true

theorem Flags.comp {f g : St V → St V} (hg : Flags g) (hf : Flags f) : Flags (fun s => g (f s)) :=
  fun s => ⟨(hg _).1.trans (hf s).1, (hg _).2.trans (hf s).2⟩
theorem Flags.when {f : St V → St V} (b : Bool) (hf : Flags f) : Flags (when_ b f) := by
  intro s; cases b
  · exact ⟨rfl, rfl⟩
  · exact hf s
theorem Flags.loop {f : ℕ → St V → St V} (n : ℕ) (hf : ∀ i, Flags (f i)) : Flags (loop f n) := by
  intro s
  induction n with
  | zero => exact ⟨rfl, rfl⟩
  | succ n ih => exact ⟨(hf n _).1.trans ih.1, (hf n _).2.trans ih.2⟩
theorem Sorts.comp {f g : St V → St V} (hg : Sorts g) (hf : Sorts f) : Sorts (fun s => g (f s)) :=
  fun s h => hg _ (hf s h)
theorem Sorts.when {f : St V → St V} (b : Bool) (hf : Sorts f) : Sorts (when_ b f) := by
  intro s h; cases b
  · exact h
  · exact hf s h
theorem Sorts.loop {f : ℕ → St V → St V} (n : ℕ) (hf : ∀ i, Sorts (f i)) : Sorts (loop f n) := by
  intro s h
  induction n with
  | zero => exact h
  | succ n ih => exact hf n _ ih

theorem flags_sort : Flags (hskpngSort F) := by
  intro s; unfold hskpngSort; split <;> exact ⟨rfl, rfl⟩
theorem sorts_sort : Sorts (hskpngSort F) := by
  intro s h; unfold hskpngSort; simp [h]
theorem sort_id (s : St V) (h : s.sim.sorted = true) : hskpngSort F s = s := by
  unfold hskpngSort; simp [h]
theorem flags_setRest (f : Sim V → V) : Flags (setRest f) := fun _ => ⟨rfl, rfl⟩
theorem sorts_setRest (f : Sim V → V) : Sorts (setRest f) := fun _ h => h

theorem saveLiq_flags : Flags (saveLiq F c) ∧ Sorts (saveLiq F c) := by
  constructor
  · intro s
    obtain ⟨⟨air, tpr, vt, ord, sorted, rest, nc, na⟩, scr, aux⟩ := s
    cases hi : c.ice <;> cases sorted <;> simp [saveLiq, hi, hskpngSort, momsSel, momsCalc]
  · intro s h
    cases hi : c.ice <;> simp [saveLiq, hi, hskpngSort, momsSel, momsCalc, h]

theorem perCellStep_flags (o : Opts V) (n i : ℕ) :
    Flags (perCellStep F c o n i) ∧ Sorts (perCellStep F c o n i) := by
  have hcond : Flags (condCell F o i n) ∧ Sorts (condCell F o i n) := by
    constructor
    · intro s
      obtain ⟨⟨air, tpr, vt, ord, sorted, rest, nc, na⟩, scr, aux⟩ := s
      by_cases h0 : i = 0 <;> by_cases hn : i + 1 < n <;> cases sorted <;>
        simp [condCell, h0, hn, hskpngSort, momsSel, momsCalc, setRest] <;> split <;> simp
    · intro s h
      by_cases h0 : i = 0 <;> by_cases hn : i + 1 < n <;>
        simp [condCell, h0, hn, hskpngSort, momsSel, momsCalc, setRest, h] <;> split <;> simp
  have hdep : Flags (iceDep F o i n) ∧ Sorts (iceDep F o i n) := by
    constructor
    · intro s
      obtain ⟨⟨air, tpr, vt, ord, sorted, rest, nc, na⟩, scr, aux⟩ := s
      by_cases h0 : i = 0 <;> by_cases hn : i + 1 < n <;> cases sorted <;>
        simp [iceDep, h0, hn, hskpngSort, momsSel, momsCalc, setRest] <;> split <;> simp
    · intro s h
      by_cases h0 : i = 0 <;> by_cases hn : i + 1 < n <;>
        simp [iceDep, h0, hn, hskpngSort, momsSel, momsCalc, setRest, h] <;> split <;> simp
  have hup : Flags (updThRv F c) ∧ Sorts (updThRv F c) := by
    constructor
    · intro s; unfold updThRv; split <;> exact ⟨rfl, rfl⟩
    · intro s h; unfold updThRv; split <;> exact h
  have hsv : Flags (fun s : St V => if i = 0 then saveLiq F c s else s) ∧
      Sorts (fun s : St V => if i = 0 then saveLiq F c s else s) := by
    by_cases h0 : i = 0
    · simp only [h0, if_true]; exact saveLiq_flags F c
    · simp only [h0, if_false]; exact ⟨fun _ => ⟨rfl, rfl⟩, fun _ h => h⟩
  have ht : Flags (hskpngTpr F c) := fun _ => ⟨rfl, rfl⟩
  have ht' : Sorts (hskpngTpr F c) := fun _ h => h
  have hp : Flags (fun s : St V => { s with sim := { s.sim with air := F.percellAir i s.sim, rest := F.percellRest i s.sim } }) :=
    fun _ => ⟨rfl, rfl⟩
  have hp' : Sorts (fun s : St V => { s with sim := { s.sim with air := F.percellAir i s.sim, rest := F.percellRest i s.sim } }) :=
    fun _ h => h
  exact ⟨hup.1.comp ((hdep.1.when _).comp (hcond.1.comp (hsv.1.comp (ht.comp (((flags_setRest _).when _).comp hp))))),
    hup.2.comp ((hdep.2.when _).comp (hcond.2.comp (hsv.2.comp (ht'.comp (((sorts_setRest _).when _).comp hp')))))⟩

theorem perParticle_flags (o : Opts V) : Flags (perParticle F c o) ∧ Sorts (perParticle F c o) := by
  have h1 : Flags (ppHead F c) ∧ Sorts (ppHead F c) := by
    constructor
    · intro s; unfold ppHead; cases hm : c.mix
      · exact (saveLiq_flags F c).1 s
      · exact ⟨rfl, rfl⟩
    · intro s h; unfold ppHead; cases hm : c.mix
      · exact (saveLiq_flags F c).2 s h
      · exact h
  have hst : ∀ i, Flags (perParticleStep F c o i) ∧ Sorts (perParticleStep F c o i) := by
    intro i
    constructor
    · intro s; unfold perParticleStep
      cases c.mix <;> cases o.turbCond <;> exact ⟨rfl, rfl⟩
    · intro s h; unfold perParticleStep
      cases c.mix <;> cases o.turbCond <;> exact h
  have h2 : Flags (ppSteps F c o) ∧ Sorts (ppSteps F c o) := by
    constructor
    · intro s; unfold ppSteps; split
      · exact ⟨rfl, rfl⟩
      · exact Flags.loop _ (fun i => (hst i).1) s
    · intro s h; unfold ppSteps; split
      · exact h
      · exact Sorts.loop _ (fun i => (hst i).2) s h
  have h3 : Flags (ppTail F c) ∧ Sorts (ppTail F c) := by
    constructor
    · intro s
      obtain ⟨⟨air, tpr, vt, ord, sorted, rest, nc, na⟩, scr, aux⟩ := s
      cases hm : c.mix <;> cases hi : c.ice <;> cases sorted <;>
        simp [ppTail, hm, hi, calcChange, updThRv, momsSel, momsCalc, hskpngSort, resetNf, setAir]
    · intro s h
      cases hm : c.mix <;> cases hi : c.ice <;>
        simp [ppTail, hm, hi, calcChange, updThRv, momsSel, momsCalc, hskpngSort, resetNf, setAir, h]
  exact ⟨h3.1.comp (h2.1.comp h1.1), h3.2.comp (h2.2.comp h1.2)⟩

theorem condBlock_flags (o : Opts V) : Flags (condBlock F c o) ∧ Sorts (condBlock F c o) := by
  constructor
  · intro s
    have h1 := flags_sort F s
    unfold condBlock
    dsimp only
    split
    · exact ⟨((perParticle_flags F c o).1 _).1.trans h1.1, ((perParticle_flags F c o).1 _).2.trans h1.2⟩
    · exact ⟨(Flags.loop _ (fun i => (perCellStep_flags F c o _ i).1) _).1.trans h1.1,
        (Flags.loop _ (fun i => (perCellStep_flags F c o _ i).1) _).2.trans h1.2⟩
  · intro s h
    have h1 := sorts_sort F s h
    unfold condBlock
    dsimp only
    split
    · exact (perParticle_flags F c o).2 _ h1
    · exact Sorts.loop _ (fun i => (perCellStep_flags F c o _ i).2) _ h1

theorem iceNuclMelt_flags (o : Opts V) : Flags (iceNuclMelt F o) ∧ Sorts (iceNuclMelt F o) := by
  constructor
  · intro s
    obtain ⟨⟨air, tpr, vt, ord, sorted, rest, nc, na⟩, scr, aux⟩ := s
    cases sorted <;> simp [iceNuclMelt, momsSel, momsCalc, hskpngSort, setAir, setRest]
  · intro s h
    simp [iceNuclMelt, momsSel, momsCalc, hskpngSort, setAir, setRest, h]

theorem chemStep_flags (o : Opts V) (i : ℕ) : Flags (chemStep F o i) ∧ Sorts (chemStep F o i) := by
  have h1 : ∀ i, Flags (henryOne F o i) := fun _ _ => ⟨rfl, rfl⟩
  have h2 : ∀ i, Sorts (henryOne F o i) := fun _ _ h => h
  have hh : Flags (chemHenry F o) ∧ Sorts (chemHenry F o) :=
    ⟨(Flags.loop 6 h1).comp (flags_sort F), (Sorts.loop 6 h2).comp (sorts_sort F)⟩
  have a1 : Flags (fun s : St V => if o.chemDsl then setRest F.chemClean (chemHenry F o (setRest (F.chemSstp i) s)) else s) := by
    cases o.chemDsl
    · exact fun _ => ⟨rfl, rfl⟩
    · exact (flags_setRest _).comp (hh.1.comp (flags_setRest _))
  have a2 : Sorts (fun s : St V => if o.chemDsl then setRest F.chemClean (chemHenry F o (setRest (F.chemSstp i) s)) else s) := by
    cases o.chemDsl
    · exact fun _ h => h
    · exact (sorts_setRest _).comp (hh.2.comp (sorts_setRest _))
  have b1 : Flags (fun s : St V => if o.chemDsc then setRest F.chemClean (setRest (fun x => F.chemDissoc x s.scr.chemV) s) else s) := by
    cases o.chemDsc <;> exact fun _ => ⟨rfl, rfl⟩
  have b2 : Sorts (fun s : St V => if o.chemDsc then setRest F.chemClean (setRest (fun x => F.chemDissoc x s.scr.chemV) s) else s) := by
    cases o.chemDsc <;> exact fun _ h => h
  have c1 : Flags (fun s : St V => if o.chemRct then setRest F.chemClean (setRest (fun x => F.chemReact o x s.scr.chemV) s) else s) := by
    cases o.chemRct <;> exact fun _ => ⟨rfl, rfl⟩
  have c2 : Sorts (fun s : St V => if o.chemRct then setRest F.chemClean (setRest (fun x => F.chemReact o x s.scr.chemV) s) else s) := by
    cases o.chemRct <;> exact fun _ h => h
  have d1 : Flags (fun s : St V => { s with scr := { s.scr with chemV := F.chemAnte s.sim } }) := fun _ => ⟨rfl, rfl⟩
  have d2 : Sorts (fun s : St V => { s with scr := { s.scr with chemV := F.chemAnte s.sim } }) := fun _ h => h
  exact ⟨(flags_setRest _).comp (c1.comp (b1.comp (a1.comp d1))), (sorts_setRest _).comp (c2.comp (b2.comp (a2.comp d2)))⟩

theorem condPre_flags (o : Opts V) : Flags (fun s : St V =>
    when_ o.cond (condBlock F c o) (when_ (c.ice && o.iceNucl) (iceNuclMelt F o)
        (when_ c.incloud (setRest F.incloud) (setRest (fun x => F.adjust o x.rest) s)))) ∧
    Sorts (fun s : St V =>
    when_ o.cond (condBlock F c o) (when_ (c.ice && o.iceNucl) (iceNuclMelt F o)
        (when_ c.incloud (setRest F.incloud) (setRest (fun x => F.adjust o x.rest) s)))) :=
  ⟨((condBlock_flags F c o).1.when _).comp (((iceNuclMelt_flags F o).1.when _).comp
      (((flags_setRest _).when _).comp (flags_setRest _))),
   ((condBlock_flags F c o).2.when _).comp (((iceNuclMelt_flags F o).2.when _).comp
      (((sorts_setRest _).when _).comp (sorts_setRest _)))⟩

/-- `step_cond` when it gets past its own checks. -/
theorem stepCond_flags (o : Opts V) (s : St V) (hn : s.sim.needCond = true)
    (ht : (o.turbCond && !c.turbCondSw) = false) (hs : s.sim.sorted = true) :
    (stepCond F c o s).1.sim.sorted = true ∧ (stepCond F c o s).1.sim.needCond = false ∧
    (stepCond F c o s).1.sim.needAsync =
      (if (o.chemDsl || o.chemDsc || o.chemRct) && !c.chem then s.sim.needAsync else true) := by
  have P := condPre_flags F c o
  have p1 := P.1 { s with sim := { s.sim with needCond := false } }
  have p2 := P.2 { s with sim := { s.sim with needCond := false } } hs
  unfold stepCond
  simp only [hn, ht, Bool.not_true, Bool.false_eq_true, if_false]
  split
  · exact ⟨p2, p1.1, p1.2⟩
  · split
    · exact ⟨Sorts.loop _ (fun i => (chemStep_flags F o i).2) _ p2,
        (Flags.loop _ (fun i => (chemStep_flags F o i).1) _).1.trans p1.1, rfl⟩
    · exact ⟨p2, p1.1, rfl⟩

theorem flags_turbDotSs : Flags (turbDotSs F) := fun s => flags_sort F s
theorem flags_coalBlock (o : Opts V) : Flags (coalBlock F o) := by
  intro s
  refine Flags.loop _ (fun i s => ?_) s
  unfold coalStep; dsimp only; split <;> exact ⟨rfl, rfl⟩
theorem flags_rlx : Flags (rlx F) := by
  intro s
  unfold rlx
  split
  · refine Flags.loop _ (fun i s => ?_) s
    have h1 : Flags (momsSel F (2 * i)) := flags_sort F
    have h2 : Flags (momsCons F (2 * i + 1)) := flags_sort F
    exact ⟨(h2 _).1.trans (h1 s).1, (h2 _).2.trans (h1 s).2⟩
  · exact ⟨rfl, rfl⟩
theorem flags_asyncHead (o : Opts V) : Flags (asyncHead F c o) := by
  have ka : Flags (adve F) := fun _ => ⟨rfl, rfl⟩
  have kv : Flags (setVt (vtNew F c)) := fun _ => ⟨rfl, rfl⟩
  have kt : Flags (hskpngTpr F c) := fun _ => ⟨rfl, rfl⟩
  have kr : Flags (resetNf (V := V)) := fun _ => ⟨rfl, rfl⟩
  exact ((flags_setRest _).when _).comp (((flags_setRest _).when _).comp (((flags_setRest _).when _).comp
      ((flags_setRest _).comp ((ka.when _).comp (((flags_turbDotSs F).when _).comp (((flags_setRest _).when _).comp
        (((flags_setRest _).when _).comp (((flags_coalBlock F o).when _).comp ((kv.when _).comp (kt.comp
          (((flags_setRest _).when _).comp ((flags_setRest _).comp kr))))))))))))
theorem flags_asyncTail (o : Opts V) : Flags (asyncTail F o) := by
  intro s
  have h1 : Flags (when_ (o.adve || o.turbAdve) (mpi F)) := Flags.when _ fun _ => ⟨rfl, rfl⟩
  have h2 : Flags (postCopy F o) := by
    intro s; unfold postCopy; exact flags_sort F _
  exact ⟨(h2 _).1.trans (h1 _).1, (h2 _).2.trans (h1 _).2⟩

end LCP.Skel
