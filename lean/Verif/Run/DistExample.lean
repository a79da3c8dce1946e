import Verif.Run.DistInside
import Verif.Run.Example

/-! # A run on two subdomains: in each, one droplet reaches the ground and one crosses to the neighbour (the right-hand one through the periodic edge) -/
namespace LCP.Run
open LCP LCP.Common

noncomputable def exD : DCfg 1 := { base := exCfg, x0 := fun _ => 0, x1 := fun _ => 10, nSdMax := fun _ => 5 }

/-- sedimentation and a turbulent velocity of 4 m/s in x -/
noncomputable def exMoveT : MoveIn := { exMove with o := ⟨false, true, true, false⟩, u := fun _ => ⟨4, 0, 0⟩ }

theorem exMovedT {c m : St} (h : Moved exMove c m) : Moved exMoveT c { m with sd := fun i => { m.sd i with x := (m.sd i).x + 4 } } := by
  refine ⟨h.1, h.2.1, fun i hi => ?_⟩
  obtain ⟨st', p, e, em⟩ := h.2.2 i hi
  unfold Adve.transport at e
  cases hc : Adve.cellOf exMove.d exMove.b (c.sd i).pos with
  | none => rw [hc] at e; simp [exMove] at e
  | some q =>
    have e2 : Adve.transport exMoveT.init exMoveT.hs exMoveT.d exMoveT.b exMoveT.o exMoveT.dt (c.sd i).vt (exMoveT.u i) exMoveT.wLS exMoveT.st (c.sd i).pos =
        some ({ exMoveT.st with scheme := exMoveT.init }, Adve.sedi exMoveT.dt (c.sd i).vt (Adve.turbAdve exMoveT.d exMoveT.dt (exMoveT.u i) (c.sd i).pos)) := by
      unfold Adve.transport
      rw [show Adve.cellOf exMoveT.d exMoveT.b (c.sd i).pos = some q from hc]
      simp [exMoveT]
    refine ⟨_, _, e2, ?_⟩
    rw [hc] at e
    simp [exMove, Adve.sedi] at e
    obtain ⟨-, e⟩ := e
    simp only [em, ← e]
    simp [exMoveT, exMove, Adve.sedi, Adve.turbAdve, Drop.pos, Grid.Dims.nDims, Grid.m1]

theorem exDRun : ∃ (s : ℕ → Fin 2 → St) (cap : ℕ → Fin 2 → ℕ) (t : ℕ → Fin 2 → Trace), DHistory exD 1 s cap t ∧ (∀ r, s 0 r = exSt) ∧
    (∀ r, (s 1 r).puddle .prtclNum = 1000 ∧ (s 1 r).N = 1 ∧ ((s 1 r).sd 0).n = 1001 ∧ ((s 1 r).sd 0).x = 1) ∧
    (∀ r, ∀ i < (t 0 r).atWalls.N, NearD exD r ((t 0 r).atWalls.sd i)) ∧ SmallSteps exD 4 (t 0) ∧ (∀ r, (t 0 r).new.k = 0) ∧ (∀ r, Exact exCfg (t 0 r)) := by
  obtain ⟨q, c, m0, hsort, hq, hcs, hmove0, mN0, mp0, mz0⟩ := exMoved 1 (.percell false) trivial
  obtain ⟨m, hm⟩ : ∃ m : St, m = { m0 with sd := fun i => { m0.sd i with x := (m0.sd i).x + 4 } } := ⟨_, rfl⟩
  have hmove : Moved exMoveT c m := by rw [hm]; exact exMovedT hmove0
  have mN : m.N = 2 := by rw [hm]; exact mN0
  have mp : m.puddle = fun _ => 0 := by rw [hm]; exact mp0
  have mz : ∀ i < 2, (m.sd i).n = 1000 + i ∧ (m.sd i).x = (if i = 0 then 6 else 11) ∧ (m.sd i).z = if i = 0 then -15 else 4 := by
    intro i hi
    obtain ⟨a1, a2, a3⟩ := mz0 i hi
    rw [hm]
    refine ⟨a1, ?_, ?_⟩
    · show (m0.sd i).x + 4 = _
      rw [a2]; split_ifs <;> norm_num
    · show (m0.sd i).z = _
      rw [a3]; split_ifs <;> norm_num
  obtain ⟨w, hw⟩ : ∃ w : New, w = ⟨0, exDrop⟩ := ⟨_, rfl⟩
  obtain ⟨tr, htr⟩ : ∃ tr : Trace, tr = { a := exSt, fields := exFields, how := .percell false, cond := q, inc := fun _ => 0, vt := fun _ => 0, c := c, m := m, new := w, rcyc := none } := ⟨_, rfl⟩
  have aw : tr.atWalls.N = 2 ∧ ∀ i < 2, tr.atWalls.sd i = m.sd i := by
    rw [htr]
    refine ⟨?_, fun i hi => ?_⟩
    · show m.N + w.k = 2; rw [mN, hw]; rfl
    · show (if i < m.N then m.sd i else _) = _
      rw [if_pos (by omega)]
  have hts : ∀ r, TimeStep (exD.cfg r) tr := by
    intro r
    rw [htr]
    exact ⟨hsort, trivial, hq, hcs, ⟨exMoveT, hmove⟩, fun a ha => by cases ha⟩
  have awp : tr.atWalls.puddle = fun _ => 0 := by rw [htr]; exact mp
  have n0 := aw.2 0 (by norm_num)
  have n1 := aw.2 1 (by norm_num)
  obtain ⟨z0n, z0x, z0z⟩ := mz 0 (by norm_num)
  obtain ⟨z1n, z1x, z1z⟩ := mz 1 (by norm_num)
  norm_num at z0x z0z z1x z1z
  have bw : ∀ r, (bcndRun (exD.cfg r).bcnd tr.atWalls).puddle .prtclNum = 1000 ∧ (bcndRun (exD.cfg r).bcnd tr.atWalls).N = 2 ∧
      ((bcndRun (exD.cfg r).bcnd tr.atWalls).sd 0).n = 0 ∧ ((bcndRun (exD.cfg r).bcnd tr.atWalls).sd 1).n = 1001 ∧
      ((bcndRun (exD.cfg r).bcnd tr.atWalls).sd 0).x = 6 ∧ ((bcndRun (exD.cfg r).bcnd tr.atWalls).sd 1).x = 11 := by
    intro r
    refine ⟨?_, ?_, ?_, ?_, ?_, ?_⟩
    · norm_num [bcndRun, Bcnd.bcnd, Bcnd.bcndZ, Bcnd.bcndY, Bcnd.bcndX, exD, DCfg.cfg, DCfg.edges, exCfg, Bcnd.flagIf, Bcnd.puddleAdd, toBcnd, aw.1, Finset.sum_range_succ, n0, n1, z0n, z0z, z1z, z1n, awp]
    · rw [show (bcndRun (exD.cfg r).bcnd tr.atWalls).N = tr.atWalls.N from (bcnd_n_le (exD.cfg r).bcnd (toBcnd tr.atWalls) 0).2, aw.1]
    · norm_num [bcndRun, Bcnd.bcnd, Bcnd.bcndZ, Bcnd.bcndY, Bcnd.bcndX, exD, DCfg.cfg, DCfg.edges, exCfg, Bcnd.flagIf, toBcnd, n0, z0n, z0z]
    · norm_num [bcndRun, Bcnd.bcnd, Bcnd.bcndZ, Bcnd.bcndY, Bcnd.bcndX, exD, DCfg.cfg, DCfg.edges, exCfg, Bcnd.flagIf, toBcnd, n1, z1n, z1z]
    · show (Bcnd.bcnd (exD.cfg r).bcnd (toBcnd tr.atWalls)).x 0 = 6
      rw [bcnd_dist_x (l := (exD.edges r).1) (r := (exD.edges r).2) rfl]
      show (tr.atWalls.sd 0).x = 6
      rw [n0, z0x]
    · show (Bcnd.bcnd (exD.cfg r).bcnd (toBcnd tr.atWalls)).x 1 = 11
      rw [bcnd_dist_x (l := (exD.edges r).1) (r := (exD.edges r).2) rfl]
      show (tr.atWalls.sd 1).x = 11
      rw [n1, z1x]
  obtain ⟨st, hst⟩ : ∃ st, st = atExchange exD (fun _ => 3) (fun _ => tr) := ⟨_, rfl⟩
  have sds : ∀ r, (st r).sds = [((bcndRun (exD.cfg r).bcnd tr.atWalls).sd 0).toSd, ((bcndRun (exD.cfg r).bcnd tr.atWalls).sd 1).toSd] := by
    intro r
    rw [hst]
    show (List.range (bcndRun (exD.cfg r).bcnd tr.atWalls).N).map _ = _
    rw [(bw r).2.1]
    rfl
  have misc : ∀ r, (st r).x0 = 0 ∧ (st r).x1 = 10 ∧ (st r).cap = 3 ∧ (st r).nSdMax = 5 ∧ (st r).openL = false ∧ (st r).openR = false := by
    intro r
    rw [hst]
    refine ⟨rfl, rfl, rfl, rfl, ?_, ?_⟩ <;> rfl
  have hl : ∀ r, (st r).lft = [] := by
    intro r
    unfold Distmem.Rank.lft
    rw [sds r, (misc r).1]
    norm_num [Drop.toSd, (bw r).2.2.2.2.1, (bw r).2.2.2.2.2, List.filter_cons]
  have hr : ∀ r, (st r).rgt = [((bcndRun (exD.cfg r).bcnd tr.atWalls).sd 1).toSd] := by
    intro r
    unfold Distmem.Rank.rgt
    rw [sds r, (misc r).2.1]
    norm_num [Drop.toSd, (bw r).2.2.2.2.1, (bw r).2.2.2.2.2, List.filter_cons]
  have fR : ∀ r, Distmem.fromRgt st r = [] := by
    intro r; unfold Distmem.fromRgt; rw [hl]; simp
  have fL : ∀ r, Distmem.fromLft st r = [Distmem.away 0 10 (Distmem.remote 10 0 ((bcndRun (exD.cfg (Distmem.lftRank r)).bcnd tr.atWalls).sd 1).toSd)] := by
    intro r; unfold Distmem.fromLft
    rw [hr, (misc r).2.2.2.2.1, (misc r).1, (misc r).2.1, (misc (Distmem.lftRank r)).2.1]; simp
  have hcap : ∀ r, (st r).cap' = 3 := by
    intro r; unfold Distmem.Rank.cap'; rw [hl, hr, (misc r).2.2.1]; simp
  obtain ⟨R, hR⟩ : ∃ R, Distmem.exchange st = some R := by
    unfold Distmem.exchange
    rw [if_pos]
    · exact ⟨_, rfl⟩
    · intro r
      rw [fR, fL, hcap, sds, (misc r).2.2.2.1]
      simp
  have Rs : ∀ r, (R r).sds = [Distmem.away 0 10 (Distmem.remote 10 0 ((bcndRun (exD.cfg (Distmem.lftRank r)).bcnd tr.atWalls).sd 1).toSd)] := by
    intro r
    have h := hR
    unfold Distmem.exchange at h
    split at h
    swap
    · cases h
    have h := Option.some.inj h
    rw [← h]
    show ((st r).flagged ++ Distmem.fromRgt st r ++ Distmem.fromLft st r).filter _ = _
    unfold Distmem.Rank.flagged
    rw [fR, fL, sds, (misc r).1, (misc r).2.1]
    simp only [List.map_cons, List.map_nil]
    rw [if_neg (by simp [Drop.toSd, (bw r).2.2.2.2.1]; norm_num), if_pos (by simp [Drop.toSd, (bw r).2.2.2.2.2]; norm_num)]
    simp [Drop.toSd, (bw r).2.2.1, Distmem.away, Distmem.remote, (bw _).2.2.2.1]
  refine ⟨fun k r => if k = 0 then exSt else ofRank (bcndRun (exD.cfg r).bcnd tr.atWalls).puddle (R r), fun k r => if k = 0 then 3 else (R r).cap, fun _ _ => tr, ?_,
    fun _ => rfl, ?_, ?_, ?_, ?_, ?_⟩
  · intro k hk
    obtain rfl : k = 0 := by omega
    refine ⟨fun r => by rw [htr]; rfl, hts, fun r => by rw [htr], R, ?_, fun r => ⟨rfl, rfl⟩⟩
    rw [← hR, hst]; rfl
  · intro r
    have e : (ofRank (bcndRun (exD.cfg r).bcnd tr.atWalls).puddle (R r)).sd 0 = ofSd ((R r).sds.getD 0 ⟨0, 0, fun _ => 0⟩) := rfl
    refine ⟨(bw r).1, ?_, ?_, ?_⟩
    · show (R r).sds.length = 1
      rw [Rs r]; rfl
    · show ((ofRank (bcndRun (exD.cfg r).bcnd tr.atWalls).puddle (R r)).sd 0).n = 1001
      rw [e, Rs r]; exact (bw _).2.2.2.1
    · show ((ofRank (bcndRun (exD.cfg r).bcnd tr.atWalls).puddle (R r)).sd 0).x = 1
      rw [e, Rs r]
      simp only [List.getD_cons_zero, ofSd, Distmem.away, Distmem.remote, Drop.toSd, (bw _).2.2.2.2.2]
      norm_num
  · intro r i hi
    have hi : i < 2 := by rw [← aw.1]; exact hi
    refine ⟨?_, fun h => by simp [exD, exCfg] at h, fun _ h => by simp [exD, exCfg] at h⟩
    show (exD.x0 r - exD.width (Distmem.lftRank r) : ℝ) ≤ (tr.atWalls.sd i).x ∧ (tr.atWalls.sd i).x < exD.x1 r + exD.width (Distmem.rgtRank r)
    rw [aw.2 i hi, (mz i hi).2.1]
    simp only [exD, DCfg.width]
    split_ifs <;> norm_num
  · have hc2 : c.N = 2 := by rw [← hmove.1]; exact mN
    have hcx : ∀ i < c.N, (c.sd i).x = (m.sd i).x - 4 ∧ (c.sd i).z = (m.sd i).z + if i = 0 then 20 else 1 := by
      intro i hi
      have hi2 : i < 2 := by rw [← hc2]; exact hi
      -- from the coalescence: positions are those of the beginning
      obtain ⟨s', e, -, -, -, pos, -⟩ := how_ok exCfg.cond (.percell false) (toCond exFields exSt) hsort (by norm_num [exCfg]) (fun i hi => (exSt_good i hi).rw2) trivial
      rw [hq] at e
      obtain rfl : q = s' := by simpa using e
      have gb : AllGood (ofCond q (fun _ => 0) (fun _ => 0) exSt) := fun i hi => ⟨(exSt_good i hi).n, pos i hi, (exSt_good i hi).rd3⟩
      have co := (coalSteps_ok hcs gb).2.2.2.2.2.2 i (by show i < 2; exact hi2)
      have ex : (c.sd i).x = if i = 0 then 2 else 7 := co.2.1
      have ez : (c.sd i).z = 5 := co.2.2.2
      rw [ex, ez, (mz i hi2).2.1, (mz i hi2).2.2]
      split_ifs <;> norm_num
    refine ⟨fun r i hi => ?_, fun r i hi h => by simp [exD, exCfg] at h, fun r i hi _ => ?_, fun r i hi => ?_⟩
    · show |(tr.m.sd i).x - (tr.c.sd i).x| ≤ 4
      have hi : i < c.N := by rw [htr] at hi; exact hi
      rw [show tr.m = m by rw [htr], show tr.c = c by rw [htr], (hcx i hi).1]
      norm_num
    · have hi : i < c.N := by rw [htr] at hi; exact hi
      show (tr.c.sd i).z - _ ≤ (tr.m.sd i).z
      rw [show tr.m = m by rw [htr], show tr.c = c by rw [htr], (hcx i hi).2]
      simp only [exD, exCfg]
      split_ifs <;> linarith
    · have hi : i < w.k := by rw [htr] at hi; exact hi
      rw [hw] at hi; exact absurd hi (by simp)
  · intro r
    show tr.new.k = 0
    rw [htr]; show w.k = 0; rw [hw]
  · intro r
    show Exact exCfg tr
    rw [htr]
    refine ⟨⟨rfl, Or.inl rfl⟩, fun c _ => ?_⟩
    show Cond.airMass exFields (exFields.d.rhod c) c ≠ 0
    norm_num [Cond.airMass, exFields]

/-- the hypotheses of the theorems on runs with distributed memory are met by it -/
example : ∃ (s : ℕ → Fin 2 → St) (cap : ℕ → Fin 2 → ℕ) (t : ℕ → Fin 2 → Trace), DHistory exD 1 s cap t ∧ (∀ r, (s 1 r).puddle .prtclNum = 1000 ∧ ((s 1 r).sd 0).x = 1) ∧
    ∑ r, (dryVolume (s 1 r) + (s 1 r).puddle .dryVol) + ∑ k ∈ Finset.range 1, gone exD (t k) (fun d => 4 / 3 * Real.pi * d.rd3) =
      ∑ r, (dryVolume (s 0 r) + (s 0 r).puddle .dryVol) + ∑ k ∈ Finset.range 1, ∑ r, newDry (t k r).new ∧
    (∀ r, ∀ i < (s 1 r).N, 1 ≤ ((s 1 r).sd i).n ∧ InsideD exD r ((s 1 r).sd i)) ∧
    rho_w * (∑ r, (waterVolume (s 1 r) + (s 1 r).puddle .liqVol) + ∑ k ∈ Finset.range 1, gone exD (t k) (fun d => 4 / 3 * Real.pi * √d.rw2 ^ 3)) =
      rho_w * (∑ r, (waterVolume (s 0 r) + (s 0 r).puddle .liqVol) + ∑ k ∈ Finset.range 1, ∑ r, newWater (t k r).new) +
      ∑ k ∈ Finset.range 1, ∑ r, (vapourMass (t k r).fields - vapourMass { (t k r).fields with rv := (t k r).cond.rv }) := by
  obtain ⟨s, cap, t, H, s0, f, near, small, nk, ex⟩ := exDRun
  have hg : ∀ r, AllGood (s 0 r) := fun r => by rw [s0 r]; exact exSt_good
  have hw : ∀ k < 1, ∀ r, ∀ i < (t k r).new.k, Good ((t k r).new.sd i) := by
    intro k hk r i hi
    obtain rfl : k = 0 := by omega
    rw [nk r] at hi; omega
  have hn : 0 < exD.base.cond.sstp := by norm_num [exD, exCfg]
  have hd : exD.base.bcnd.nDims ≠ 0 := by norm_num [exD, exCfg]
  have hx : ∀ r, exD.x0 r ≤ exD.x1 r := by intro r; norm_num [exD]
  have hz : exD.base.bcnd.z0 ≤ exD.base.bcnd.z1 := by norm_num [exD, exCfg]
  have k0 : ∀ (P : ℕ → Prop), P 0 → ∀ k < 1, P k := fun P h k hk => by obtain rfl : k = 0 := by omega
                                                                       exact h
  refine ⟨s, cap, t, H, fun r => ⟨(f r).1, (f r).2.2.2⟩, drun_dry H hd hx hz hn hg hw, ?_, drun_water H hd hx hz hn hg hw (k0 _ ex)⟩
  exact drun_inside_partial H hd ⟨fun h => by simp [exD, exCfg] at h, fun _ => by norm_num [exD, exCfg]⟩ (k0 _ near) 1 (by norm_num) le_rfl

/-- and the one on displacements -/
example : ∃ (s : ℕ → Fin 2 → St) (cap : ℕ → Fin 2 → ℕ) (t : ℕ → Fin 2 → Trace), DHistory exD 1 s cap t ∧ ∀ r, ∀ i < (s 1 r).N, InsideD exD r ((s 1 r).sd i) := by
  obtain ⟨s, cap, t, H, s0, f, near, small, nk, ex⟩ := exDRun
  refine ⟨s, cap, t, H, drun_inside_of_displacements H (by norm_num [exD, exCfg]) ⟨fun h => by simp [exD, exCfg] at h, fun _ => by norm_num [exD, exCfg]⟩
    (by norm_num [exD, exCfg]) (fun r => by rw [s0 r]; exact exSt_good) ?_ 4 (fun r => by norm_num [exD, DCfg.width]) (fun r => by norm_num [exD, DCfg.width]) ?_ ?_ 1 le_rfl⟩
  · intro k hk r i hi
    obtain rfl : k = 0 := by omega
    rw [nk r] at hi; omega
  · intro k hk
    obtain rfl : k = 0 := by omega
    exact small
  · intro r i hi
    rw [s0 r] at hi ⊢
    have hi : i < 2 := hi
    refine ⟨?_, fun h => by simp [exD, exCfg] at h, fun _ => ?_⟩
    · show (0:ℝ) ≤ (if i = 0 then 2 else 7) ∧ (if i = 0 then 2 else 7 : ℝ) < 10
      split_ifs <;> norm_num
    · show (0:ℝ) ≤ 5 ∧ (5:ℝ) < 10
      norm_num

end LCP.Run
