import Verif.Mpi.Canon

/-!
# One complete schedule of the exchange of super-droplets
-/
set_option linter.unusedSimpArgs false

namespace LCP.Mpi
open LCP.E2L LCP.Grid LCP.Distmem

variable {m : ℕ}

/-- what remains after the messages to the left are posted -/
noncomputable def exA (c : Cfg m) (r : Fin (m + 1)) : List (I m) :=
  (if c.linkR r then [Instr.wait .recvN, .loc getCount, .loc unpackN] else []) ++
  (if c.linkR r then (if c.linkL r then [Instr.wait .sendN] else []) ++
    [.loc packNR, .loc (remoteR c r), .wait .recvR, .loc (unpackR c r), .isend .sendN (rgtRank r) 2 rdN] else []) ++
  (if c.linkL r then [Instr.irecv .recvN (lftRank r) 2 wrN] else []) ++
  (if c.linkR r then (if c.linkL r then [Instr.wait .sendR] else []) ++ [.loc (packRR c)] else [])

/-- what remains after the multiplicities are sent to the right -/
noncomputable def exB (c : Cfg m) (r : Fin (m + 1)) : List (I m) :=
  (if c.linkL r then [Instr.wait .recvN, .loc getCount, .loc unpackN] else []) ++
  (if c.linkR r then [Instr.isend .sendR (rgtRank r) 3 rdR] else []) ++
  (if c.linkL r then [Instr.irecv .recvR (lftRank r) 3 wrR] else []) ++
  (if c.linkL r then [Instr.loc flagL] else []) ++
  (if c.linkR r then [Instr.loc flagR] else [])

/-- what remains after all messages are posted -/
noncomputable def exC (c : Cfg m) (r : Fin (m + 1)) : List (I m) :=
  (if c.linkL r then [Instr.wait .recvR, .loc (unpackR c r)] else []) ++ [.loc (resizeM c r), .wait .sendN, .wait .sendR]

theorem seg_exch (hm : 0 < m) (c : Cfg m) (rest : Fin (m + 1) → List (I m)) (W : World m) :
    Reach (start (fun r => exchProg c r ++ rest r) W) (start rest (bulkExch c W)) := by
  rw [start_eq, start_eq]
  have p1 := phaseQ (R := Fin (m + 1)) (p := fun r => exchProg c r ++ rest r) (m := W) (o := fun _ => []) (i := fun _ => [])
    (p' := fun r => exA c r ++ (exB c r ++ (exC c r ++ rest r))) (m' := fun r => ex1 c r (W r))
    (o' := fun r => if c.linkL r then [((lftRank r, 0), .user .sendN rdN), ((lftRank r, 1), .user .sendR rdR)] else [])
    (i' := fun r => if c.linkR r then [((rgtRank r, 0), (.recvN, wrN)), ((rgtRank r, 1), (.recvR, wrR))] else [])
    (fun r => by
      have := link_some c r
      cases hl : c.linkL r <;> cases hr : c.linkR r
      · simp [hl, hr] at this
      · simp only [exchProg, exA, exB, exC, ex1, hl, hr, Bool.not_true, Bool.not_false, Bool.and_true, Bool.and_false, Bool.false_eq_true,
          if_true, if_false, List.nil_append, List.append_nil, List.cons_append, List.append_assoc]
        exact .irecv (.irecv .refl)
      · simp only [exchProg, exA, exB, exC, ex1, hl, hr, Bool.not_true, Bool.not_false, Bool.and_true, Bool.and_false, Bool.false_eq_true,
          if_true, if_false, List.nil_append, List.append_nil, List.cons_append, List.append_assoc]
        exact .loc (.isend (.loc (.loc (.isend .refl))))
      · simp only [exchProg, exA, exB, exC, ex1, hl, hr, Bool.not_true, Bool.not_false, Bool.and_true, Bool.and_false, Bool.false_eq_true,
          if_true, if_false, List.nil_append, List.append_nil, List.cons_append, List.append_assoc]
        exact .loc (.isend (.irecv (.loc (.loc (.isend (.irecv .refl)))))))
  refine p1.trans ?_
  have c1 := channelQ (p := fun r => exA c r ++ (exB c r ++ (exC c r ++ rest r))) (m := fun r => ex1 c r (W r))
    (o := fun r => if c.linkL r then [((lftRank r, 0), .user .sendN rdN), ((lftRank r, 1), .user .sendR rdR)] else [])
    (i := fun r => if c.linkR r then [((rgtRank r, 0), (.recvN, wrN)), ((rgtRank r, 1), (.recvR, wrR))] else [])
    lftRank rgtRank lft_rgt rgt_lft 0 c.linkL (fun _ => .sendN) (fun _ => rdN) (fun _ => .recvN) (fun _ => wrN)
    (fun r => by cases hs : c.linkL r <;> simp [qf]) (fun r => by rw [linkL_rgt hm]; cases hs : c.linkR r <;> simp [qf])
  refine c1.trans ?_
  have f1 : (fun r => List.filter (fun x => decide (x.1 ≠ (lftRank r, 0))) (if c.linkL r then
      [((lftRank r, 0), Msg.user Req.sendN rdN), ((lftRank r, 1), .user .sendR rdR)] else []))
      = fun r => if c.linkL r then [((lftRank r, 1), Msg.user Req.sendR rdR)] else [] := by
    funext r; cases c.linkL r <;> simp
  have f2 : (fun r => List.filter (fun x => decide (x.1 ≠ (rgtRank r, 0))) (if c.linkR r then
      [((rgtRank r, 0), (Req.recvN, wrN)), ((rgtRank r, 1), (.recvR, wrR))] else []))
      = fun r => if c.linkR r then [((rgtRank r, 1), (Req.recvR, wrR))] else [] := by
    funext r; cases c.linkR r <;> simp
  rw [f1, f2]
  have c2 := channelQ (p := fun r => exA c r ++ (exB c r ++ (exC c r ++ rest r)))
    (m := fun r => if c.linkL (rgtRank r) then wrN (rdN (ex1 c (rgtRank r) (W (rgtRank r)))) (ex1 c r (W r)) else ex1 c r (W r))
    (o := fun r => if c.linkL r then [((lftRank r, 1), .user .sendR rdR)] else [])
    (i := fun r => if c.linkR r then [((rgtRank r, 1), (.recvR, wrR))] else [])
    lftRank rgtRank lft_rgt rgt_lft 1 c.linkL (fun _ => .sendR) (fun _ => rdR) (fun _ => .recvR) (fun _ => wrR)
    (fun r => by cases hs : c.linkL r <;> simp [qf]) (fun r => by rw [linkL_rgt hm]; cases hs : c.linkR r <;> simp [qf])
  refine c2.trans ?_
  have f3 : (fun r => List.filter (fun x => decide (x.1 ≠ (lftRank r, 1))) (if c.linkL r then
      [((lftRank r, 1), Msg.user Req.sendR rdR)] else [])) = fun r => [] := by
    funext r; cases c.linkL r <;> simp
  have f4 : (fun r => List.filter (fun x => decide (x.1 ≠ (rgtRank r, 1))) (if c.linkR r then
      [((rgtRank r, 1), (Req.recvR, wrR))] else [])) = fun r => [] := by
    funext r; cases c.linkR r <;> simp
  rw [f3, f4]
  obtain ⟨W1, hW1⟩ : ∃ W1 : World m, W1 = fun r => ex1 c r (W r) := ⟨_, rfl⟩
  have m2 : (fun r => if c.linkL (rgtRank r) then wrR (rdR ((fun r => if c.linkL (rgtRank r) then
      wrN (rdN (ex1 c (rgtRank r) (W (rgtRank r)))) (ex1 c r (W r)) else ex1 c r (W r)) (rgtRank r)))
        ((fun r => if c.linkL (rgtRank r) then wrN (rdN (ex1 c (rgtRank r) (W (rgtRank r)))) (ex1 c r (W r)) else ex1 c r (W r)) r)
      else (fun r => if c.linkL (rgtRank r) then wrN (rdN (ex1 c (rgtRank r) (W (rgtRank r)))) (ex1 c r (W r)) else ex1 c r (W r)) r)
      = fun r => if c.linkR r then { W1 r with inN := (W1 (rgtRank r)).outN, inR := (W1 (rgtRank r)).outR } else W1 r := by
    funext r
    subst hW1
    simp only [linkL_rgt hm]
    cases c.linkR r <;> cases c.linkR (rgtRank r) <;> rfl
  rw [m2]
  have p2 := phaseQ (R := Fin (m + 1)) (p := fun r => exA c r ++ (exB c r ++ (exC c r ++ rest r)))
    (m := fun r => if c.linkR r then { W1 r with inN := (W1 (rgtRank r)).outN, inR := (W1 (rgtRank r)).outR } else W1 r)
    (o := fun _ => []) (i := fun _ => [])
    (p' := fun r => exB c r ++ (exC c r ++ rest r)) (m' := fun r => ex2 c r W1)
    (o' := fun r => if c.linkR r then [((rgtRank r, 2), .user .sendN rdN)] else [])
    (i' := fun r => if c.linkL r then [((lftRank r, 2), (.recvN, wrN))] else [])
    (fun r => by
      cases hl : c.linkL r <;> cases hr : c.linkR r <;>
        simp only [exA, ex2, hl, hr, Bool.false_eq_true, if_true, if_false, List.nil_append, List.append_nil, List.cons_append, List.append_assoc]
      · exact .refl
      · exact .wait (.loc (.loc (.loc (.loc (.wait (.loc (.isend (.loc .refl))) (by simp) (by simp)))))) (by simp) (by simp)
      · exact .irecv .refl
      · exact .wait (.loc (.loc (.wait (.loc (.loc (.wait (.loc (.isend (.irecv (.wait (.loc .refl) (by simp) (by simp))))) (by simp) (by simp))))
          (by simp) (by simp)))) (by simp) (by simp))
  refine p2.trans ?_
  have c3 := channelQ (p := fun r => exB c r ++ (exC c r ++ rest r)) (m := fun r => ex2 c r W1)
    (o := fun r => if c.linkR r then [((rgtRank r, 2), .user .sendN rdN)] else [])
    (i := fun r => if c.linkL r then [((lftRank r, 2), (.recvN, wrN))] else [])
    rgtRank lftRank rgt_lft lft_rgt 2 c.linkR (fun _ => .sendN) (fun _ => rdN) (fun _ => .recvN) (fun _ => wrN)
    (fun r => by cases hs : c.linkR r <;> simp [qf]) (fun r => by rw [linkR_lft hm]; cases hs : c.linkL r <;> simp [qf])
  refine c3.trans ?_
  have f5 : (fun r => List.filter (fun x => decide (x.1 ≠ (rgtRank r, 2))) (if c.linkR r then
      [((rgtRank r, 2), Msg.user Req.sendN rdN)] else [])) = fun r => [] := by
    funext r; cases c.linkR r <;> simp
  have f6 : (fun r => List.filter (fun x => decide (x.1 ≠ (lftRank r, 2))) (if c.linkL r then
      [((lftRank r, 2), (Req.recvN, wrN))] else [])) = fun r => [] := by
    funext r; cases c.linkL r <;> simp
  rw [f5, f6]
  obtain ⟨W2, hW2⟩ : ∃ W2 : World m, W2 = fun r => ex2 c r W1 := ⟨_, rfl⟩
  have m3 : (fun r => if c.linkR (lftRank r) then wrN (rdN (ex2 c (lftRank r) W1)) (ex2 c r W1) else ex2 c r W1)
      = fun r => if c.linkL r then { W2 r with inN := (W2 (lftRank r)).outN } else W2 r := by
    funext r
    subst hW2
    simp only [linkR_lft hm]
    cases c.linkL r <;> rfl
  rw [m3]
  obtain ⟨V, hV⟩ : ∃ V : World m, V = fun r =>
      let M1 := if c.linkL r then unpackN (getCount { W2 r with inN := (W2 (lftRank r)).outN }) else W2 r
      let M2 := if c.linkL r then flagL M1 else M1
      if c.linkR r then flagR M2 else M2 := ⟨_, rfl⟩
  have p3 := phaseQ (R := Fin (m + 1)) (p := fun r => exB c r ++ (exC c r ++ rest r))
    (m := fun r => if c.linkL r then { W2 r with inN := (W2 (lftRank r)).outN } else W2 r)
    (o := fun _ => []) (i := fun _ => [])
    (p' := fun r => exC c r ++ rest r)
    (m' := V)
    (o' := fun r => if c.linkR r then [((rgtRank r, 3), .user .sendR rdR)] else [])
    (i' := fun r => if c.linkL r then [((lftRank r, 3), (.recvR, wrR))] else [])
    (fun r => by
      rw [hV]
      cases hl : c.linkL r <;> cases hr : c.linkR r <;>
        simp only [exB, hl, hr, Bool.false_eq_true, if_true, if_false, List.nil_append, List.append_nil, List.cons_append, List.append_assoc]
      · exact .refl
      · exact .isend (.loc .refl)
      · exact .wait (.loc (.loc (.irecv (.loc .refl)))) (by simp) (by simp)
      · exact .wait (.loc (.loc (.isend (.irecv (.loc (.loc .refl)))))) (by simp) (by simp))
  refine p3.trans ?_
  have c4 := channelQ (p := fun r => exC c r ++ rest r)
    (m := V)
    (o := fun r => if c.linkR r then [((rgtRank r, 3), .user .sendR rdR)] else [])
    (i := fun r => if c.linkL r then [((lftRank r, 3), (.recvR, wrR))] else [])
    rgtRank lftRank rgt_lft lft_rgt 3 c.linkR (fun _ => .sendR) (fun _ => rdR) (fun _ => .recvR) (fun _ => wrR)
    (fun r => by cases hs : c.linkR r <;> simp [qf]) (fun r => by rw [linkR_lft hm]; cases hs : c.linkL r <;> simp [qf])
  refine c4.trans ?_
  have f7 : (fun r => List.filter (fun x => decide (x.1 ≠ (rgtRank r, 3))) (if c.linkR r then
      [((rgtRank r, 3), Msg.user Req.sendR rdR)] else [])) = fun r => [] := by
    funext r; cases c.linkR r <;> simp
  have f8 : (fun r => List.filter (fun x => decide (x.1 ≠ (lftRank r, 3))) (if c.linkL r then
      [((lftRank r, 3), (Req.recvR, wrR))] else [])) = fun r => [] := by
    funext r; cases c.linkL r <;> simp
  rw [f7, f8]
  refine phaseQ (fun r => ?_)
  have out : ∀ r, (V r).outR = (W2 r).outR := by
    intro r
    have u : ∀ M : Mem, (unpackN M).outR = M.outR := by intro M; unfold unpackN; dsimp only; split <;> rfl
    rw [hV]
    cases hl : c.linkL r <;> cases hr : c.linkR r <;> simp only [hl, hr, Bool.false_eq_true, if_true, if_false]
    · rfl
    · exact u _
    · exact u _
  have eb : bulkExch c W r = ex3 c r W2 := by rw [hW2, hW1]; rfl
  rw [eb]
  have ev : ex3 c r W2 = resizeM c r (if c.linkL r then unpackR c r { V r with inR := (V (lftRank r)).outR } else V r) := by
    rw [out, hV]; rfl
  rw [ev]
  simp only [linkR_lft hm]
  cases hl : c.linkL r <;>
    simp only [exC, hl, Bool.false_eq_true, if_true, if_false, List.nil_append, List.append_nil, List.cons_append]
  · exact .loc (.wait (.wait .refl (by simp) (by simp)) (by simp) (by simp))
  · exact .wait (.loc (.loc (.wait (.wait .refl (by simp) (by simp)) (by simp) (by simp)))) (by simp) (by simp)

theorem seg_step (hm : 0 < m) {c : Cfg m} (hd : c.SameDims) (k : ℕ) (rest : Fin (m + 1) → List (I m)) (W : World m) :
    Reach (start (fun r => stepProg c k r ++ rest r) W) (start rest (bulkStep c k W)) := by
  simp only [stepProg, List.append_assoc, List.cons_append, List.nil_append]
  refine (seg_loc (fun r => syncCour c (k + 1) r) _ W).trans ?_
  refine (seg_cour hm hd (k + 1) _ _).trans ?_
  refine (seg_loc (fun r => dynM c k r) _ _).trans ?_
  refine (seg_loc (fun r => bcndM c r) _ _).trans ?_
  by_cases ha : c.adve k = true
  · simp only [ha, if_true]
    refine (seg_exch hm c _ _).trans ?_
    refine (seg_loc (fun _ => postM c) _ _).trans ?_
    simp only [bulkStep, ha, if_true]
    exact Reach.refl _
  · simp only [ha, Bool.false_eq_true, if_false, List.nil_append]
    refine (seg_loc (fun _ => postM c) _ _).trans ?_
    simp only [bulkStep, ha, Bool.false_eq_true, if_false]
    exact Reach.refl _

theorem seg_steps (hm : 0 < m) {c : Cfg m} (hd : c.SameDims) (k j : ℕ) (rest : Fin (m + 1) → List (I m)) (W : World m) :
    Reach (start (fun r => stepsProg c r k j ++ rest r) W) (start rest (bulkSteps c k j W)) := by
  induction j generalizing k W with
  | zero => exact Reach.refl _
  | succ j ih =>
    simp only [stepsProg, List.append_assoc, bulkSteps]
    exact (seg_step hm hd k _ W).trans (ih (k + 1) _)

/-- there is a schedule, even without buffering, in which all processes run to the end; this is what it computes -/
theorem seg_prog (hm : 0 < m) {c : Cfg m} (hd : c.SameDims) (K : ℕ) (W : World m) :
    Reach (start (prog c K) W) (start (fun _ => []) (bulkRun c K W)) := by
  have e : prog c K = fun r => Instr.loc (syncCour c 0 r) :: (courProg c 0 r ++ (domProg c r ++ (stepsProg c r 0 K ++ []))) := by
    funext r; simp [prog, initProg]
  rw [e]
  refine (seg_loc (fun r => syncCour c 0 r) _ W).trans ?_
  refine (seg_cour hm hd 0 _ _).trans ?_
  refine (seg_dom hm c _ _).trans ?_
  exact seg_steps hm hd 0 K (fun _ => []) _

theorem start_final (W : World m) : Final (start (fun _ : Fin (m + 1) => ([] : List (I m))) W) := by
  refine ⟨fun r => ⟨rfl, fun _ => rfl, fun _ => rfl⟩, fun _ => rfl⟩

end LCP.Mpi
