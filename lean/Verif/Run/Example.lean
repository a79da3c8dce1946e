import Verif.Run.Inside

/-! # A concrete run: two droplets in two cells of a 2D domain, condensation, one coalescence sub-step, sedimentation; one of the droplets reaches the ground -/
namespace LCP.Run
open LCP LCP.Common

noncomputable def exCfg : Cfg :=
  { coal := ⟨0, false, false, false⟩
    bcnd := { nDims := 2, x0 := 0, x1 := 10, y0 := 0, y1 := 0, z0 := 0, z1 := 10, openSide := false, periodicTopBot := false, dist := none, ice := false, chem := false }
    cond := { num := Cond.numDbl, sstp := 1, dt := 1, RHmax := 44, turb := false, ice := false, varRho := true, tpr := {} } }

noncomputable def exDrop (i : ℕ) : Drop :=
  { n := 1000 + i, rw2 := 25e-12, rd3 := 1e-24, vt := 0, kpa := 0.6, chem := fun _ => 0, inc := 0, rc2 := 0, x := if i = 0 then 2 else 7, y := 0, z := 5 }

noncomputable def exSt : St := { N := 2, sd := exDrop, puddle := fun _ => 0 }

noncomputable def exFields : Cond.St :=
  { d := { N := 0, n := fun _ => 0, ijk := fun i => i, sid := [0, 1], nf := none, nCell := 2, nDims := 2,
           dv := fun _ => 50, rhod := fun _ => 1.1, countN := 0, countIjk := fun _ => 0, countMom := fun _ => 7 }
    rv := fun _ => 0.012, th := fun _ => 300, p := fun _ => 1e5, T := fun _ => 290, RH := fun _ => 0, RHi := fun _ => 0, eta := fun _ => 0
    lamD := fun _ => 0, lamK := fun _ => 0, tRv := fun _ => 0.01, tTh := fun _ => 299, tRh := fun _ => 1
    rw2 := fun _ => 0, rd3 := fun _ => 0, kpa := fun _ => 0, vt := fun _ => 0, iceA := fun _ => 0, iceC := fun _ => 0, iceRho := fun _ => 0
    ssp := fun _ => 0, dotSsp := fun _ => 0, drw := fun _ => 5, rwM := fun _ => 6, dIce := fun _ => 7, iceM := fun _ => 8 }

noncomputable def exCoal (v : ℝ) : CoalIn :=
  { dt := 1, dv := fun _ => 50, ker := fun _ _ _ => 1, ijk := fun i => i, sid := [0, 1], constMulti := false, col := fun _ => 0.5, inc := false
    σ := { coll := [0], chem := fun _ => [0], kappa := [0], incloud := [0], rc2 := [0] }
    vt := fun i => if i = 0 then 20 else v, rc2 := fun _ => -1 }

noncomputable def exMove : MoveIn :=
  { init := .euler, hs := 0, d := ⟨2, 0, 1⟩, b := ⟨5, 1, 10, 0, 10, 0, 1, 0, 10⟩, o := ⟨false, false, true, false⟩, dt := 1
    u := fun _ => ⟨0, 0, 0⟩, wLS := fun _ => 0, st := ⟨.euler, ⟨fun _ => 0, fun _ => 0, fun _ => 0⟩⟩ }

theorem exCoal_ok (v : ℝ) : (exCoal v).Ok 2 := by
  refine ⟨⟨by show [0, 1].Perm (List.range 2); decide, by show ([0, 1].map fun i => i).Pairwise (· ≤ ·); decide⟩, ?_⟩
  constructor <;> intros <;> (show [0].Perm (List.range (2 - 1)); decide)

theorem exSt_good : AllGood exSt := by
  intro i hi
  have hi : i < 2 := hi
  refine ⟨?_, ?_, ?_⟩
  · show 1000 + i < 2 ^ 64
    have : (1002 : ℕ) < 2 ^ 64 := by norm_num
    omega
  · show (0:ℝ) ≤ 25e-12; norm_num
  · show (0:ℝ) ≤ 1e-24; norm_num

/-- condensation, coalescence and sedimentation in the first step; terminal velocities 20 and `v` m/s -/
theorem exMoved (v : ℝ) (h : How) (hk : h.Ok exCfg.cond 2) : ∃ (q : Cond.St) (c m : St), Cond.Sorted (toCond exFields exSt).d ∧ h.run exCfg.cond (toCond exFields exSt) = some q ∧
    CoalSteps exCfg.coal (ofCond q (fun _ => 0) (fun _ => 0) exSt) c ∧ Moved exMove c m ∧ m.N = 2 ∧ m.puddle = (fun _ => 0) ∧
    ∀ i < 2, (m.sd i).n = 1000 + i ∧ (m.sd i).x = (if i = 0 then 2 else 7) ∧ (m.sd i).z = if i = 0 then -15 else 5 - v := by
  have hsort : Cond.Sorted (toCond exFields exSt).d := by
    refine ⟨⟨by show [0, 1].Perm (List.range 2); decide, by show ([0, 1].map fun i => i).Pairwise (· ≤ ·); decide⟩, ?_⟩
    intro i hi
    exact hi
  obtain ⟨q, hq, -, -, -, pos, -⟩ := how_ok exCfg.cond h (toCond exFields exSt) hsort (by norm_num [exCfg]) (fun i hi => (exSt_good i hi).rw2) hk
  obtain ⟨b, hb⟩ : ∃ b, b = ofCond q (fun _ => 0) (fun _ => 0) exSt := ⟨_, rfl⟩
  have gb : AllGood b := by
    rw [hb]
    intro i hi
    exact ⟨(exSt_good i hi).n, pos i hi, (exSt_good i hi).rd3⟩
  have bN : b.N = 2 := by rw [hb]; rfl
  obtain ⟨c, hc⟩ : ∃ c, coalOnce exCfg.coal (exCoal v) b = some c := by
    unfold coalOnce Coal.coal
    rw [show ((exCoal v).env b.N).N = 2 from bN]
    simp
  have ok : (exCoal v).Ok b.N := by rw [bN]; exact exCoal_ok v
  obtain ⟨c1, c2, -⟩ := coalOnce_ok ok gb hc
  -- no pairs: every droplet is alone in its cell
  have csd : ∀ i < 2, c.sd i = { b.sd i with vt := (exCoal v).vt i, rc2 := -1 } := by
    intro i hi
    have h := hc
    unfold coalOnce at h
    rw [Option.map_eq_some_iff] at h
    obtain ⟨r, hr, e⟩ := h
    rw [← e]
    have hi' : i < ((exCoal v).env b.N).N := by show i < b.N; omega
    rcases Coal.coal_each ok.1 ok.2 hr i hi' with h | ⟨j, -, hne, hcell, -⟩
    · show ({ b.sd i with toSD := { r.sd i with vt := (exCoal v).vt i, rc2 := (exCoal v).rc2 i } } : Drop) = _
      rw [h]
      rfl
    · exact absurd hcell hne
  have cn : ∀ i < 2, (c.sd i).n = 1000 + i ∧ (c.sd i).x = (if i = 0 then 2 else 7) ∧ (c.sd i).z = 5 ∧ (c.sd i).vt = if i = 0 then 20 else v := by
    intro i hi
    rw [csd i hi, hb]
    exact ⟨rfl, rfl, rfl, rfl⟩
  obtain ⟨m, hm⟩ : ∃ m : St, m = { c with sd := fun i => { c.sd i with z := (c.sd i).z - (c.sd i).vt } } := ⟨_, rfl⟩
  have mN : m.N = 2 := by rw [hm]; show c.N = 2; rw [c1, bN]
  have mz : ∀ i < 2, (m.sd i).n = 1000 + i ∧ (m.sd i).x = (if i = 0 then 2 else 7) ∧ (m.sd i).z = if i = 0 then -15 else 5 - v := by
    intro i hi
    obtain ⟨a1, a2, a3, a4⟩ := cn i hi
    rw [hm]
    refine ⟨a1, a2, ?_⟩
    show (c.sd i).z - (c.sd i).vt = _
    rw [a3, a4]
    split_ifs <;> norm_num
  have hmove : Moved exMove c m := by
    refine ⟨by rw [hm], by rw [hm], fun i hi => ?_⟩
    have hi : i < 2 := by rw [c1, bN] at hi; exact hi
    obtain ⟨a1, a2, a3, a4⟩ := cn i hi
    have hcell : ∃ q, Adve.cellOf exMove.d exMove.b (c.sd i).pos = some q := by
      have ep : (c.sd i).pos = ⟨(c.sd i).x, (c.sd i).y, (c.sd i).z⟩ := rfl
      obtain ⟨i', j', k', -, e⟩ := Adve.cellOf_spec (d := exMove.d) (b := exMove.b) (X := 2) (p := (c.sd i).pos)
        ⟨Or.inl ⟨by norm_num [exMove], rfl, by norm_num [exMove]⟩, by norm_num [exMove], by norm_num [exMove], by norm_num [exMove],
          by norm_num [exMove], fun _ => by norm_num [exMove], by norm_num [exMove]⟩ (by norm_num [exMove]) (by
          rw [ep, a2, a3]
          refine ⟨?_, ?_, fun h => absurd rfl h, ?_, ?_⟩
          · show (0:ℝ) ≤ if i = 0 then 2 else 7
            split_ifs <;> norm_num
          · show (if i = 0 then 2 else 7 : ℝ) < (2 : ℕ) * 5
            split_ifs <;> norm_num
          · show (0:ℝ) ≤ 5; norm_num
          · show (5:ℝ) < (1:ℕ) * 10; norm_num)
      exact ⟨_, e⟩
    obtain ⟨q', hq'⟩ := hcell
    have hq2 : Adve.transport exMove.init exMove.hs exMove.d exMove.b exMove.o exMove.dt (c.sd i).vt (exMove.u i) exMove.wLS exMove.st (c.sd i).pos =
        some ({ exMove.st with scheme := exMove.init }, Adve.sedi exMove.dt (c.sd i).vt (c.sd i).pos) := by
      unfold Adve.transport
      rw [hq']
      simp [exMove]
    refine ⟨_, _, hq2, ?_⟩
    rw [hm]
    simp [exMove, Adve.sedi, Drop.pos]
  refine ⟨q, c, m, hsort, hq, ?_, hmove, mN, ?_, mz⟩
  · rw [← hb]
    exact .step (exCoal v) ok hc (.done c)
  · rw [hm]
    show c.puddle = _
    rw [c2, hb]; rfl

/-- a run of one step in which the droplets of super-droplet 0 reach the ground -/
theorem exRun (h : How) (hk : h.Ok exCfg.cond 2) : ∃ (s : ℕ → St) (t : ℕ → Trace), History exCfg 1 s t ∧ s 0 = exSt ∧ (s 1).puddle .prtclNum = 1000 ∧ (s 1).N = 1 ∧
    Near exCfg.bcnd (t 0).atWalls ∧ Clears (t 0).rcyc (bcndRun exCfg.bcnd (t 0).atWalls) ∧ (t 0).new.k = 0 ∧ (h.Exact exCfg.cond (toCond exFields exSt) → Exact exCfg (t 0)) ∧ (t 0).fields = exFields ∧ (t 0).how = h := by
  obtain ⟨q, c, m, hsort, hq, hcs, hmove, mN, mp, mz⟩ := exMoved 1 h hk
  obtain ⟨w, hw⟩ : ∃ w : New, w = ⟨0, exDrop⟩ := ⟨_, rfl⟩
  obtain ⟨tr, htr⟩ : ∃ tr : Trace, tr = { a := exSt, fields := exFields, how := h, cond := q, inc := fun _ => 0, vt := fun _ => 0, c := c, m := m, new := w, rcyc := none } := ⟨_, rfl⟩
  have aw : tr.atWalls.N = 2 ∧ ∀ i < 2, tr.atWalls.sd i = m.sd i := by
    rw [htr]
    refine ⟨?_, fun i hi => ?_⟩
    · show m.N + w.k = 2; rw [mN, hw]; rfl
    · show (if i < m.N then m.sd i else _) = _
      rw [if_pos (by omega)]
  have hts : TimeStep exCfg tr := by
    rw [htr]
    exact ⟨hsort, hk, hq, hcs, ⟨exMove, hmove⟩, fun a ha => by cases ha⟩
  have awp : tr.atWalls.puddle = fun _ => 0 := by
    rw [htr]
    exact mp
  have n0 := aw.2 0 (by norm_num)
  have n1 := aw.2 1 (by norm_num)
  obtain ⟨z0n, z0x, z0z⟩ := mz 0 (by norm_num)
  obtain ⟨z1n, z1x, z1z⟩ := mz 1 (by norm_num)
  norm_num at z0z z1z
  have bw : (bcndRun exCfg.bcnd tr.atWalls).puddle .prtclNum = 1000 ∧ (bcndRun exCfg.bcnd tr.atWalls).N = 2 ∧ ((bcndRun exCfg.bcnd tr.atWalls).sd 0).n = 0 ∧
      ((bcndRun exCfg.bcnd tr.atWalls).sd 1).n = 1001 := by
    refine ⟨?_, ?_, ?_, ?_⟩
    · norm_num [bcndRun, Bcnd.bcnd, Bcnd.bcndZ, Bcnd.bcndY, Bcnd.bcndX, exCfg, Bcnd.flagIf, Bcnd.puddleAdd, toBcnd, aw.1, Finset.sum_range_succ, n0, n1, z0n, z0z, z1z, z1n, awp]
    · rw [show (bcndRun exCfg.bcnd tr.atWalls).N = tr.atWalls.N from (bcnd_n_le exCfg.bcnd (toBcnd tr.atWalls) 0).2, aw.1]
    · norm_num [bcndRun, Bcnd.bcnd, Bcnd.bcndZ, Bcnd.bcndY, Bcnd.bcndX, exCfg, Bcnd.flagIf, toBcnd, n0, z0n, z0z]
    · norm_num [bcndRun, Bcnd.bcnd, Bcnd.bcndZ, Bcnd.bcndY, Bcnd.bcndX, exCfg, Bcnd.flagIf, toBcnd, n1, z1n, z1z]
  refine ⟨fun k => if k = 0 then exSt else tr.fin exCfg, fun _ => tr, ⟨?_, ?_, ?_⟩, rfl, ?_, ?_, ?_, ?_, ?_, ?_, ?_⟩
  · exact fun k _ => hts
  · intro k hk
    rw [if_pos (by omega), htr]
  · intro k hk
    rw [if_neg (by omega)]
  · show (postCopy tr.rcyc _).puddle .prtclNum = 1000
    rw [postCopy_puddle]; exact bw.1
  · show (postCopy tr.rcyc _).N = 1
    rw [show tr.rcyc = none by rw [htr]]
    show ((List.range (bcndRun exCfg.bcnd tr.atWalls).N).filter _).length = 1
    rw [bw.2.1]
    simp [toRcyc, List.range_succ, bw.2.2.1, bw.2.2.2]
  · intro i hi
    have hi : i < 2 := by rw [← aw.1]; exact hi
    refine ⟨fun _ => ⟨?_, fun h => by simp [exCfg] at h⟩, fun _ h => by simp [exCfg] at h⟩
    show (exCfg.bcnd.x0 - 10 * (exCfg.bcnd.x1 - exCfg.bcnd.x0) : ℝ) ≤ (tr.atWalls.sd i).x
    rw [aw.2 i hi, (mz i hi).2.1]
    simp only [exCfg]
    split_ifs <;> norm_num
  · intro a ha
    rw [htr] at ha; cases ha
  · rw [htr]; show w.k = 0; rw [hw]
  · intro hx
    rw [htr]
    refine ⟨hx, fun c _ => ?_⟩
    show Cond.airMass exFields (exFields.d.rhod c) c ≠ 0
    norm_num [Cond.airMass, exFields]
  · rw [htr]
    exact ⟨rfl, rfl⟩

/-- the hypotheses of the theorems on runs are met by it, in whatever way condensation is done -/
theorem exRun_budgets (h : How) (hk : h.Ok exCfg.cond 2) (hx : h.Exact exCfg.cond (toCond exFields exSt)) :
    ∃ (s : ℕ → St) (t : ℕ → Trace), History exCfg 1 s t ∧ (t 0).how = h ∧ (s 1).puddle .prtclNum = 1000 ∧
    dryVolume (s 1) + (s 1).puddle .dryVol + ∑ k ∈ Finset.range 1, leaving exCfg.bcnd (t k).atWalls (fun d => 4 / 3 * Real.pi * d.rd3) =
      dryVolume exSt + 0 + ∑ k ∈ Finset.range 1, newDry (t k).new ∧
    (∀ i < (s 1).N, 1 ≤ ((s 1).sd i).n ∧ Inside exCfg.bcnd ((s 1).sd i)) ∧
    rho_w * (waterVolume (s 1) + (s 1).puddle .liqVol + ∑ k ∈ Finset.range 1, leaving exCfg.bcnd (t k).atWalls (fun d => 4 / 3 * Real.pi * √d.rw2 ^ 3)) =
      rho_w * (waterVolume exSt + 0 + ∑ k ∈ Finset.range 1, newWater (t k).new) +
      ∑ k ∈ Finset.range 1, (vapourMass (t k).fields - vapourMass { (t k).fields with rv := (t k).cond.rv }) := by
  obtain ⟨s, t, H, s0, p, -, near, clr, nk, ex, -, hh⟩ := exRun h hk
  have hg : AllGood (s 0) := by rw [s0]; exact exSt_good
  have hw : ∀ k < 1, ∀ i < (t k).new.k, Good ((t k).new.sd i) := by
    intro k hk i hi
    obtain rfl : k = 0 := by omega
    rw [nk] at hi; omega
  have hn : 0 < exCfg.cond.sstp := by norm_num [exCfg]
  have hz : exCfg.bcnd.z0 ≤ exCfg.bcnd.z1 := by norm_num [exCfg]
  have d := run_dry H hn hg hw rfl hz
  have r := run_water H hn hg hw rfl hz (fun k hk => by
    obtain rfl : k = 0 := by omega
    exact ex hx)
  rw [s0] at d r
  refine ⟨s, t, H, hh, p, d, ?_, r⟩
  exact run_inside H rfl ⟨fun _ => by norm_num [exCfg], fun h => by simp [exCfg] at h, fun _ => by norm_num [exCfg]⟩
    (fun k hk => by obtain rfl : k = 0 := by omega
                    exact near)
    (fun k hk => by obtain rfl : k = 0 := by omega
                    exact clr) 1 (by norm_num) le_rfl

/-- per-cell substeps -/
example : (How.percell false).Ok exCfg.cond 2 ∧ (How.percell false).Exact exCfg.cond (toCond exFields exSt) := ⟨trivial, rfl, Or.inl rfl⟩

/-- the per-particle vectors at the beginning -/
noncomputable def exPSt : Cond.PSt :=
  { s := exFields, tP := fun _ => 1e5, dRv := fun _ => 0, dTh := fun _ => 0, dRh := fun _ => 0, dP := fun _ => 0, rw3 := fun _ => 0, Tp := fun _ => 290 }

/-- per-particle substeps without mixing -/
example : (How.perpart false true [1, 0] [0, 1] exPSt).Ok exCfg.cond 2 ∧ (How.perpart false true [1, 0] [0, 1] exPSt).Exact exCfg.cond (toCond exFields exSt) :=
  ⟨⟨by decide, by decide⟩, trivial⟩

/-- adaptive substeps -/
example : (How.adaptive 1e-3 1e-2 8 (fun _ => 1e-12) (fun _ => (7, 7, 7)) true exPSt).Ok exCfg.cond 2 ∧
    (How.adaptive 1e-3 1e-2 8 (fun _ => 1e-12) (fun _ => (7, 7, 7)) true exPSt).Exact exCfg.cond (toCond exFields exSt) := ⟨Or.inl rfl, trivial⟩

end LCP.Run
