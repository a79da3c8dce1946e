import Verif.Mpi.Props

/-!
# C112, C113: concrete runs, and where the full claims fail
-/
set_option linter.unusedSimpArgs false

namespace LCP.Mpi
open LCP.E2L LCP.Grid
open LCP.Distmem hiding lft_rgt rgt_lft

/-! ### The hypotheses are met -/

/-- two processes, a periodic domain of 2 + 2 cells (1D), halo of 2; Courant numbers equal the number of the call in the whole domain, and are
undefined (-7) in the halo of the arrays passed by the user; super-droplets move by the Courant number found in the right halo -/
noncomputable def cfgEx : Cfg 1 where
  open_ := false
  dims := fun _ => ⟨2, 0, 0⟩
  h := 2
  x0 := fun _ => 0
  x1 := fun _ => 2
  nv := 1
  jx := 0
  nSdMax := fun _ => 10
  user := fun _ k => some (fun _ q => if 2 ≤ q ∧ q ≤ 4 then (k : ℝ) else -7)
  dyn := fun _ _ C P => ⟨P.n, fun j => (P.v j).map (· + C .x 5)⟩
  adve := fun _ => true

noncomputable def exD : Law 1 := fun _ _ C l => l.map (fun s => { s with x := s.x + C .x 5 })

def exF : ℕ → Comp → ℤ → ℕ → ℝ := fun k _ _ _ => k

noncomputable def exS : Fin 2 → List Sd := ![[⟨3, 1/2, fun _ => 0⟩, ⟨5, 3/2, fun _ => 0⟩], []]

noncomputable def exM (l : List Sd) : Mem where
  lftX1 := 0
  rgtX0 := 0
  cour := fun _ _ => -1
  n := l.map Sd.n
  v := fun j => l.map (comp cfgEx j)
  nPart := l.length
  nPartOld := 0
  lftId := []
  rgtId := []
  outN := []
  outR := []
  inN := []
  inR := []
  nCopied := 0
  cap := 4
  err := false

noncomputable def exW : World 1 := fun r => exM (exS r)
noncomputable def exR : Fin 2 → Rank := fun r => ⟨0, 2, exS r, 4, 10, false, false⟩

theorem cfgEx_same : cfgEx.SameDims ∧ cfgEx.SameCols ∧ Wide cfgEx :=
  ⟨fun _ => rfl, fun _ => ⟨rfl, rfl⟩, fun _ => by simp [cfgEx, Dims.Layout], fun _ => by simp [cfgEx]⟩

theorem cfgEx_comps (r : Fin 2) : comps (cfgEx.dims r) = [.x] := by simp [comps, cfgEx, Dims.nDims, m1]

theorem ex_follows : Follows cfgEx exD := by
  intro r k C P l h1 h2
  refine ⟨by simp [cfgEx, exD, h1, Function.comp_def], fun j hj => ?_⟩
  have hj0 : j = 0 := by simp [cfgEx] at hj; exact hj
  subst hj0
  have := h2 0 hj
  show (P.v 0).map _ = _
  rw [this, exD, List.map_map, List.map_map]
  rfl

theorem ex_reads : ReadsStored cfgEx exD := by
  intro r k C C' l h
  have := h .x (by rw [cfgEx_comps]; simp) 5 (by simp [cfgEx, nCols, colLen, Dims.nDims, m1])
  simp [exD, this]

theorem ex_begins : Begins cfgEx exW exR := by
  refine ⟨fun _ => rfl, fun _ => rfl, fun _ => rfl, fun _ => rfl, fun _ => by simp [exR, Cfg.linkL, cfgEx], fun _ => by simp [exR, Cfg.linkR, cfgEx],
    fun _ => ⟨rfl, rfl, fun _ _ => rfl⟩, fun _ => rfl⟩

theorem ex_parts (k : ℕ) : PartsOf cfgEx (exF k) ![0, 2] (fun _ _ q => if 2 ≤ q ∧ q ≤ 4 then (k : ℝ) else -7) := by
  refine ⟨fun r co hco i hi t ht => ?_, fun _ _ _ _ _ => rfl⟩
  rw [cfgEx_comps] at hco
  have hco : co = .x := by simpa using hco
  subst hco
  have ht : t = 0 := by simp [cfgEx, colLen, Dims.nDims, m1] at ht; exact ht
  have hi : i < 3 := by simpa [cfgEx, ownCols] using hi
  subst ht
  have : colLen (cfgEx.dims r) .x = 1 := by simp [cfgEx, colLen, Dims.nDims, m1]
  rw [this]
  have : cfgEx.h = 2 := rfl
  rw [this]
  rw [if_pos (by omega)]
  rfl

/-- all hypotheses of `mpi_run_partial`, `mpi_courants_partial` and `mpi_budget_partial` at once -/
example {ρ u} (K : ℕ) (hρ : Run (start (prog cfgEx K) exW) ρ u) :
    ∃ σ t, DueRun u σ t ∧ Final t ∧ Outcome cfgEx (fun r => (t.loc r).mem) (specRun (fun _ => true) exD (fun k => window cfgEx ![0, 2] (exF k)) K exR) :=
  mpi_courants_partial (c := cfgEx) (by omega) cfgEx_same.1 cfgEx_same.2.1 cfgEx_same.2.2 (fun _ _ => rfl) (by simp [cfgEx]) (fun _ => by norm_num [cfgEx]) ex_follows ex_reads
    ex_begins rfl (fun _ _ => rfl) ex_parts K hρ

example (C : Comp → ℕ → ℝ) (r k l) : ((exD r k C l).map (fun s => s.n * (1 : ℝ))).sum = (l.map (fun s => s.n * (1 : ℝ))).sum + 0 := by
  simp [exD, Function.comp_def]

/-- in the first step everything moves by 1 (the Courant number of that step); the second super-droplet goes to the other process -/
example : ∃ st', specRun (fun _ => true) exD (fun k => window cfgEx ![0, 2] (exF k)) 1 exR = some st' ∧
    (st' 0).sds = [⟨3, 3/2, fun _ => 0⟩] ∧ (st' 1).sds = [⟨5, 1/2, fun _ => 0⟩] := by
  obtain ⟨B, hB⟩ : ∃ B, B = advance exD 0 (window cfgEx ![0, 2] (exF (0 + 1))) exR := ⟨_, rfl⟩
  have b0 : B 0 = ⟨0, 2, [⟨3, 3/2, fun _ => 0⟩, ⟨5, 5/2, fun _ => 0⟩], 4, 10, false, false⟩ := by
    rw [hB]; norm_num [advance, exD, exR, exS, window, exF]
  have b1 : B 1 = ⟨0, 2, [], 4, 10, false, false⟩ := by
    rw [hB]; norm_num [advance, exD, exR, exS, window, exF]
  have a1 : rgtRank (0 : Fin 2) = 1 := by decide
  have a2 : lftRank (0 : Fin 2) = 1 := by decide
  have a3 : rgtRank (1 : Fin 2) = 0 := by decide
  have a4 : lftRank (1 : Fin 2) = 0 := by decide
  have l0 : (B 0).lft = [] := by rw [b0]; norm_num [Rank.lft, List.filter_cons]
  have r0 : (B 0).rgt = [⟨5, 5/2, fun _ => 0⟩] := by rw [b0]; norm_num [Rank.rgt, List.filter_cons]
  have l1 : (B 1).lft = [] := by rw [b1]; rfl
  have r1 : (B 1).rgt = [] := by rw [b1]; rfl
  have f1 : fromRgt B 0 = [] := by unfold fromRgt; rw [a1, l1]; simp
  have f2 : fromLft B 0 = [] := by unfold fromLft; rw [a2, r1]; simp
  have f3 : fromRgt B 1 = [] := by unfold fromRgt; rw [a3, l0]; simp
  have f4 : fromLft B 1 = [⟨5, 1/2, fun _ => 0⟩] := by
    unfold fromLft; rw [a4, r0, b1, b0]; norm_num [away, remote]
  have c0 : (B 0).cap' = 4 := by unfold Rank.cap'; rw [l0, r0, b0]; simp
  have c1 : (B 1).cap' = 4 := by unfold Rank.cap'; rw [l1, r1, b1]; simp
  refine ⟨fun r => { B r with
    sds := ((B r).flagged ++ fromRgt B r ++ fromLft B r).filter (fun s => decide (s.n ≠ 0))
    cap := (B r).cap' }, ?_, ?_, ?_⟩
  · show (some exR).bind (specStep (fun _ => true) exD (fun k => window cfgEx ![0, 2] (exF k)) 0) = _
    rw [Option.bind_some, specStep, if_pos rfl, ← hB, exchange, if_pos]
    intro r
    fin_cases r
    · show (fromRgt B 0).length ≤ (B 0).cap' ∧ (fromLft B 0).length ≤ (B 0).cap' ∧ (B 0).sds.length + (fromRgt B 0).length + (fromLft B 0).length ≤ (B 0).nSdMax
      rw [f1, f2, c0, b0]; simp
    · show (fromRgt B 1).length ≤ (B 1).cap' ∧ (fromLft B 1).length ≤ (B 1).cap' ∧ (B 1).sds.length + (fromRgt B 1).length + (fromLft B 1).length ≤ (B 1).nSdMax
      rw [f3, f4, c1, b1]; simp
  · show ((B 0).flagged ++ fromRgt B 0 ++ fromLft B 0).filter _ = _
    rw [f1, f2, b0]; norm_num [Rank.flagged, List.filter_cons]
  · show ((B 1).flagged ++ fromRgt B 1 ++ fromLft B 1).filter _ = _
    rw [f3, f4, b1]; norm_num [Rank.flagged, List.filter_cons]

/-! ### Where the full claims fail -/

/-- **C113, negation** subdomains narrower than the halo: what is sent to the right as the part of the neighbour's halo that lies beyond this process is its own
halo, which may not have arrived yet.  Two processes of one cell each; the field is 1 everywhere, halos of the arrays passed contain -7; there
is a schedule after which, with everything delivered and both processes done with `init`, a Courant number is -7. -/
theorem narrow : ∃ (c : Cfg 1), c.open_ = false ∧ c.h = 2 ∧ (∀ r, c.dims r = ⟨1, 0, 0⟩) ∧
    (∀ r, c.user r 0 = some (fun _ q => if 2 ≤ q ∧ q ≤ 3 then 1 else -7)) ∧
    PartsOf c (fun _ _ _ => 1) ![0, 1] (fun _ _ q => if 2 ≤ q ∧ q ≤ 3 then 1 else -7) ∧
    ∀ W : World 1, ∃ σ t, DueRun (start (prog c 0) W) σ t ∧ Final t ∧ ∃ r, ∃ q < 6, (t.loc r).mem.cour .x q = -7 := by
  refine ⟨{ cfgEx with dims := fun _ => ⟨1, 0, 0⟩, user := fun _ _ => some (fun _ q => if 2 ≤ q ∧ q ≤ 3 then 1 else -7) }, rfl, rfl, fun _ => rfl, fun _ => rfl, ?_, ?_⟩
  · refine ⟨fun r co hco i hi t ht => ?_, fun _ _ _ _ _ => rfl⟩
    have hco : co = .x := by simpa [comps, Dims.nDims, m1] using hco
    subst hco
    have ht : t = 0 := by simp [colLen, Dims.nDims, m1] at ht; exact ht
    have hi : i < 2 := by simpa [ownCols] using hi
    subst ht
    simp only [colLen, Dims.nDims, m1, cfgEx]
    norm_num
    omega
  · intro W
    obtain ⟨σ, hσ⟩ := seg_prog (c := { cfgEx with dims := fun _ => ⟨1, 0, 0⟩, user := fun _ _ => some (fun _ q => if 2 ≤ q ∧ q ≤ 3 then 1 else -7) })
      (by omega) (fun _ => rfl) 0 W
    refine ⟨σ, _, hσ, start_final _, 0, 0, by omega, ?_⟩
    norm_num [start, bulkRun, bulkSteps, bulkDom, bulkCour, bulkLeft, bulkRight, comps, Dims.nDims, cfgEx, Cfg.linkL, Cfg.linkR, wrCour, rdCour, syncCour,
      rgtInternal, lftInternal, haloLen, haloX, rgtHalo, nCols, colLen, Dims.nCell, m1, compId, List.getD]

/-- two processes -/
private def two (l0 l1 : Loc (Fin 2) ℕ Req Pay Mem) : State (Fin 2) ℕ Req Pay Mem := { loc := fun r => if r = 0 then l0 else l1, net := fun _ => [] }

private theorem two_upd0 (l0 l1 l' : Loc (Fin 2) ℕ Req Pay Mem) : Function.update (two l0 l1).loc 0 l' = (two l' l1).loc := by
  funext r; fin_cases r <;> simp [two]
private theorem two_upd1 (l0 l1 l' : Loc (Fin 2) ℕ Req Pay Mem) : Function.update (two l0 l1).loc 1 l' = (two l0 l').loc := by
  funext r; fin_cases r <;> simp [two]

private theorem run0 {l0 l1 l' : Loc (Fin 2) ℕ Req Pay Mem} (h : LRun l0 l') : Reach (two l0 l1) (two l' l1) := by
  have := LRun.reach (s := two l0 l1) (r := 0) (l' := l') h
  rw [two_upd0] at this; exact this
private theorem run1 {l0 l1 l' : Loc (Fin 2) ℕ Req Pay Mem} (h : LRun l1 l') : Reach (two l0 l1) (two l0 l') := by
  have := LRun.reach (s := two l0 l1) (r := 1) (l' := l') h
  rw [two_upd1] at this; exact this

private theorem qf_one {α : Type} (c : Fin 2 × ℕ) (a : α) : qf [(c, a)] = Function.update (fun _ => []) c [a] := by
  have := qf_push ([] : List ((Fin 2 × ℕ) × α)) c a
  rw [qf_nil] at this
  simpa using this.symm

/-- a message from a process with one open send to one with one open receive -/
private theorem transfer (a b : Fin 2) (hab : a ≠ b) (s : State (Fin 2) ℕ Req Pay Mem) (t : ℕ) {p M q rd i p' M' o' q' wr}
    (hn : s.net = fun _ => []) (h1 : s.loc a = mkLoc p M [((b, t), .user q rd)] i) (h2 : s.loc b = mkLoc p' M' o' [((a, t), (q', wr))]) :
    Reach s { s with loc := Function.update (Function.update s.loc a (mkLoc p M [] i)) b (mkLoc p' (wr (rd M) M') o' []) } := by
  obtain ⟨loc, net⟩ := s
  simp only at hn h1 h2
  subst hn
  have k1 : LStep (mkLoc p M [((b, t), .user q rd)] i) (.c b t q) (mkLoc p M [((b, t), .lib (rd M))] i) := by
    have := LStep.cap (l := mkLoc p M [((b, t), .user q rd)] i) (b := b) (t := t) (q := q) (z := [.lib (rd M)]) (by simp [mkLoc, qf, capQ])
    simpa [mkLoc, qf_one] using this
  have k2 : LStep (mkLoc p M [((b, t), .lib (rd M))] i) (.s b t (rd M)) (mkLoc p M [] i) := by
    have := LStep.snd (l := mkLoc p M [((b, t), .lib (rd M))] i) (b := b) (t := t) (p := rd M) (z := []) (by simp [mkLoc, qf])
    have e : Function.update (Function.update (fun _ : Fin 2 × ℕ => ([] : List (Msg Req Pay Mem))) (b, t) [.lib (rd M)]) (b, t) [] = fun _ => [] := by
      rw [Function.update_idem]; exact Function.update_eq_self (b, t) (fun _ => [])
    simpa [mkLoc, qf_one, e, qf_nil] using this
  have k3 : LStep (mkLoc p' M' o' [((a, t), (q', wr))]) (.d a t (rd M)) (mkLoc p' (wr (rd M) M') o' []) := by
    have := LStep.dlv (l := mkLoc p' M' o' [((a, t), (q', wr))]) (a := a) (t := t) (p := rd M) (q := q') (wr := wr) (z := []) (by simp [mkLoc, qf])
    have e : Function.update (Function.update (fun _ : Fin 2 × ℕ => ([] : List (Req × (Pay → Mem → Mem)))) (a, t) [(q', wr)]) (a, t) [] = fun _ => [] := by
      rw [Function.update_idem]; exact Function.update_eq_self (a, t) (fun _ => [])
    simpa [mkLoc, qf_one, e, qf_nil] using this
  have hba : b ≠ a := fun h => hab h.symm
  refine (Reach.one (α := .cap a b t q) ?_ (Step.cap (l' := mkLoc p M [((b, t), .lib (rd M))] i) (by show LStep (loc a) _ _; rw [h1]; exact k1))).trans
    ((Reach.one (α := .snd a b t) trivial (Step.snd (p := rd M) (l' := mkLoc p M [] i) (by simp only [Function.update_self]; exact k2))).trans
      ((Reach.one (α := .dlv a b t) trivial (Step.dlv (p := rd M) (z := []) (l' := mkLoc p' (wr (rd M) M') o' []) (by simp) (by
        simp only [Function.update_of_ne hba]
        rw [h2]; exact k3))).trans (Reach.of_eq ?_ ?_)))
  · show pos q ((loc a).out (b, t)) + ([] : List Pay).length < ((loc b).inn (a, t)).length
    rw [h1, h2]; simp [mkLoc, qf, pos]
  · simp
  · simp only
    funext ch
    by_cases h : ch = (a, b, t) <;> simp [h, Function.update_apply]

/-- two processes with open ends, 2 + 2 cells (1D), halo of 2; the Courant numbers passed are equal to the number of the call; no advection -/
noncomputable def offC : Cfg 1 := { cfgEx with open_ := true, user := fun _ k => some (fun _ _ => (k : ℝ)), adve := fun _ => false }

/-- **C113, negation** steps without advection: the requests of the Courant numbers sent are never waited for, and nothing else holds a process back
until its message has been taken; the next `sync_in` then overwrites what is being sent.  There is a schedule in which a process finishes its
first step having computed it (call number 1) with the Courant numbers of the second step (call number 2) in its right halo. -/
theorem late_send (W : World 1) : Wide offC ∧ offC.SameDims ∧ offC.SameCols ∧ (∀ r k, offC.user r k = some (fun _ _ => (k : ℝ))) ∧
    ∃ σ u, DueRun (start (prog offC 2) W) σ u ∧ (u.loc 0).prog = stepsProg offC 0 1 1 ∧ (u.loc 0).mem.cour .x 5 = 2 := by
  refine ⟨⟨fun _ => by simp [offC, cfgEx, Dims.Layout], fun _ => by simp [offC, cfgEx]⟩, fun _ => rfl, fun _ => ⟨rfl, rfl⟩, fun _ _ => rfl, ?_⟩
  have hm : 0 < 1 := by omega
  obtain ⟨W0, hW0⟩ : ∃ W0, W0 = bulkDom offC (bulkCour offC (fun r => syncCour offC 0 r (W r))) := ⟨_, rfl⟩
  have r0 : Reach (start (prog offC 2) W) (start (fun r => stepsProg offC r 0 2) W0) := by
    have e : prog offC 2 = fun r => Instr.loc (syncCour offC 0 r) :: (courProg offC 0 r ++ (domProg offC r ++ stepsProg offC r 0 2)) := by
      funext r; simp [prog, initProg]
    rw [e, hW0]
    refine (seg_loc (fun r => syncCour offC 0 r) _ W).trans ?_
    refine (seg_cour hm (fun _ => rfl) 0 _ _).trans ?_
    exact seg_dom hm offC _ _
  have e2 : start (fun r => stepsProg offC r 0 2) W0 = two (mkLoc (stepsProg offC 0 0 2) (W0 0) [] []) (mkLoc (stepsProg offC 1 0 2) (W0 1) [] []) := by
    rw [start_eq]; unfold mk two
    congr 1
    funext r; fin_cases r <;> rfl
  rw [e2] at r0
  have c0 : ∀ k, courProg offC k 0 = [Instr.isend (.cour k false 0 true) 1 12331 (rdCour .x 2 2), .irecv (.cour k true 0 false) 1 24662 (wrCour .x 5 2),
      .wait (.cour k true 0 false)] := by
    intro k
    have a1 : rgtRank (0 : Fin 2) = 1 := by decide
    simp [courProg, courRight, courLeft, offC, cfgEx, comps, Dims.nDims, m1, Cfg.linkL, Cfg.linkR, compId, ctag, rgtInternal, Dims.nCell, haloLen, haloX, rgtHalo,
      nCols, colLen, a1]
  have c1 : ∀ k, courProg offC k 1 = [Instr.irecv (.cour k false 0 false) 0 12331 (wrCour .x 0 2), .wait (.cour k false 0 false),
      .isend (.cour k true 0 true) 0 24662 (rdCour .x 3 2)] := by
    intro k
    have a1 : lftRank (1 : Fin 2) = 0 := by decide
    simp [courProg, courRight, courLeft, offC, cfgEx, comps, Dims.nDims, m1, Cfg.linkL, Cfg.linkR, compId, ctag, rgtInternal, lftInternal, Dims.nCell, haloLen, haloX, rgtHalo,
      nCols, colLen, a1]
  have p0 : stepsProg offC 0 0 2 = .loc (syncCour offC 1 0) :: .isend (.cour 1 false 0 true) 1 12331 (rdCour .x 2 2) ::
      .irecv (.cour 1 true 0 false) 1 24662 (wrCour .x 5 2) :: .wait (.cour 1 true 0 false) :: .loc (dynM offC 0 0) :: .loc (bcndM offC 0) ::
      .loc (postM offC) :: stepsProg offC 0 1 1 := by
    simp only [stepsProg, stepProg, c0]; rfl
  have p1 : stepsProg offC 1 0 2 = .loc (syncCour offC 1 1) :: .irecv (.cour 1 false 0 false) 0 12331 (wrCour .x 0 2) :: .wait (.cour 1 false 0 false) ::
      .isend (.cour 1 true 0 true) 0 24662 (rdCour .x 3 2) :: .loc (dynM offC 0 1) :: .loc (bcndM offC 1) :: .loc (postM offC) ::
      .loc (syncCour offC 2 1) :: (courProg offC 2 1 ++ [.loc (dynM offC 1 1), .loc (bcndM offC 1), .loc (postM offC)]) := by
    simp only [stepsProg, stepProg, c1]; rfl
  rw [p0, p1] at r0
  -- both processes begin the step; the first message goes to the right
  have r1 := r0.trans ((run0 (.loc (.isend .refl))).trans (run1 (.loc (.irecv .refl))))
  have r2 := r1.trans (transfer 0 1 (by decide) _ 12331 rfl rfl rfl)
  rw [two_upd0, two_upd1] at r2
  -- the second process goes on to its next step, while its message has not been read yet
  have r3 := r2.trans (run1 (.wait (.isend (.loc (.loc (.loc (.loc .refl))))) (by simp) (by simp)))
  -- the first process asks for the message
  have r4 := r3.trans ((run0 (.irecv .refl)).trans (transfer 1 0 (by decide) _ 24662 rfl rfl rfl))
  rw [two_upd1, two_upd0] at r4
  have r5 := r4.trans (run0 (.wait (.loc (.loc (.loc .refl))) (by simp) (by simp)))
  obtain ⟨σ, hσ⟩ := r5
  refine ⟨σ, _, hσ, rfl, ?_⟩
  simp only [two, mkLoc, if_true, postM, bcndM, dynM, wrCour, rdCour]
  simp [List.getD, syncCour, offC]

end LCP.Mpi
