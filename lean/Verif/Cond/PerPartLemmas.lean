import Verif.Cond.PerPart
import Verif.Cond.PerCellProps
import Verif.Cond.Strict
import Mathlib.Tactic.LinearCombination

/-!
# One substep of per-particle condensation (helper lemmas for C60)
-/
namespace LCP.Cond
open LCP.Common LCP.Diag

theorem reduceToCount_lists {s : Diag.St} (h : IsCellSort s.N s.ijk s.sid) (val : ℕ → ℝ) :
    Lists (reduceToCount s val) (fun c => cellSum s c val) := by
  obtain ⟨t, e, l, -⟩ := momsCalc_lists (s := { s with nf := some val, nDims := 0 }) h rfl (fun _ => 1) 0
  have hm : (fun i => momentCounter 0 (val i) 1) = val := by
    funext i
    have := momentCounter_nat 0 (val i) 1
    simpa using this
  unfold momsCalc at e
  simp only [Option.map_some, hm, Option.some.injEq] at e
  have hz : (reduceToCount { s with nf := some val, nDims := 0 } val).nDims = 0 := rfl
  rw [hz] at e
  simp only [lt_irrefl, decide_false, Bool.and_false, Bool.false_eq_true, if_false] at e
  have hM : (fun c => cellSum { s with nf := some val, nDims := 0 } c (fun i => momentCounter 0 (val i) 1) *
      perMass { s with nf := some val, nDims := 0 } c) = fun c => cellSum s c val := by
    funext c
    rw [hm]
    unfold perMass cellSum
    simp
  rw [hM, ← e] at l
  exact ⟨l.nodup, l.mem, l.val⟩

theorem reduceToCount_geo (s : Diag.St) (val : ℕ → ℝ) : Geo s (reduceToCount s val) := ⟨rfl, rfl, rfl, rfl, rfl, rfl, rfl, rfl⟩

theorem Geo.cellSum {a b : Diag.St} (h : Geo a b) (c : ℕ) (f : ℕ → ℝ) : cellSum b c f = cellSum a c f := by
  unfold Diag.cellSum; rw [h.N, h.ijk]

/-- every super-droplet in the grid gets its cell's sum -/
theorem updPstate_ok {d : Diag.St} (h : Sorted d) (ps pd : ℕ → ℝ) : Geo d (updPstate d ps pd).1 ∧
    ∀ i < d.N, (updPstate d ps pd).2 i = ps i + cellSum d (d.ijk i) pd := by
  classical
  refine ⟨reduceToCount_geo d pd, fun i hi => ?_⟩
  unfold updPstate
  simp only
  rw [permMap_eq (reduceToCount_lists h.sort pd), if_pos (show occ (reduceToCount d pd) _ from ⟨i, hi, rfl⟩), add_zero]
  rfl

/-- what the substeps do not touch -/
structure Frm (a b : PSt) : Prop where
  geo : Geo a.s.d b.s.d
  rv : b.s.rv = a.s.rv
  th : b.s.th = a.s.th
  p : b.s.p = a.s.p
  T : b.s.T = a.s.T
  rd3 : b.s.rd3 = a.s.rd3
  kpa : b.s.kpa = a.s.kpa
  vt : b.s.vt = a.s.vt
  lamD : b.s.lamD = a.s.lamD
  lamK : b.s.lamK = a.s.lamK
  dotSsp : b.s.dotSsp = a.s.dotSsp
  drw : b.s.drw = a.s.drw
  dRv : b.dRv = a.dRv
  dTh : b.dTh = a.dTh
  dRh : b.dRh = a.dRh
  dP : b.dP = a.dP

theorem Frm.refl (a : PSt) : Frm a a := ⟨Geo.refl _, rfl, rfl, rfl, rfl, rfl, rfl, rfl, rfl, rfl, rfl, rfl, rfl, rfl, rfl, rfl⟩

theorem Frm.trans {a b c : PSt} (h : Frm a b) (g : Frm b c) : Frm a c :=
  ⟨h.geo.trans g.geo, g.rv.trans h.rv, g.th.trans h.th, g.p.trans h.p, g.T.trans h.T, g.rd3.trans h.rd3, g.kpa.trans h.kpa, g.vt.trans h.vt,
    g.lamD.trans h.lamD, g.lamK.trans h.lamK, g.dotSsp.trans h.dotSsp, g.drw.trans h.drw, g.dRv.trans h.dRv, g.dTh.trans h.dTh,
    g.dRh.trans h.dRh, g.dP.trans h.dP⟩

/-- the air in which the droplets of a substep grow -/
noncomputable def midP (o : Cfg) (q : PSt) : PSt :=
  if o.turb then { applyDelta o q with s := sgsSupersat o (applyDelta o q).s } else applyDelta o q

theorem midP_frm (o : Cfg) (q : PSt) : Frm q (midP o q) := by
  unfold midP; split_ifs <;> exact ⟨Geo.refl _, rfl, rfl, rfl, rfl, rfl, rfl, rfl, rfl, rfl, rfl, rfl, rfl, rfl, rfl, rfl⟩

theorem midP_eq (o : Cfg) (q : PSt) : (midP o q).s.rw2 = q.s.rw2 ∧ (midP o q).rw3 = q.rw3 ∧
    (midP o q).s.tRv = (fun i => q.s.tRv i + q.dRv i / o.sstp) ∧ (midP o q).s.tTh = (fun i => q.s.tTh i + q.dTh i / o.sstp) ∧
    (midP o q).s.tRh = (fun i => q.s.tRh i + q.dRh i / o.sstp) ∧
    (midP o q).tP = (if o.tpr.const_p then fun i => q.tP i + q.dP i / o.sstp else q.tP) ∧
    (midP o q).s.ssp = (if o.turb then fun i => q.s.ssp i + o.dt / o.sstp * q.s.dotSsp i else q.s.ssp) := by
  unfold midP; split_ifs <;> exact ⟨rfl, rfl, rfl, rfl, rfl, by simp [applyDelta, *], rfl⟩

/-- squared radii after a substep -/
noncomputable def rw2P (o : Cfg) (q : PSt) (i : ℕ) : ℝ := advance o.num (envP o (midP o q) i) (o.dt / o.sstp) (q.s.rw2 i)

/-- temperature of a super-droplet's air in a substep -/
noncomputable def TpOf (o : Cfg) (q : PSt) (i : ℕ) : ℝ := TofCell o.tpr ((midP o q).s.tTh i) ((midP o q).s.tRh i) ((midP o q).tP i)

/-- change of the mixing ratio due to a super-droplet -/
noncomputable def drvP (o : Cfg) (step : ℕ) (q : PSt) (i : ℕ) : ℝ :=
  rw3diff2drv q.s.d.nDims (rw3of (rw2P o q i) - (if 0 < step then q.rw3 i else rw3of (q.s.rw2 i))) ((midP o q).s.tRh i) (q.s.d.n i)
    (q.s.d.dv (q.s.d.ijk i))

/-- and the corresponding one of the potential temperature -/
noncomputable def dthP (o : Cfg) (step : ℕ) (q : PSt) (i : ℕ) : ℝ := drvP o step q i * d_th_d_rv (TpOf o q i) ((midP o q).s.tTh i)

theorem substepP_ok (o : Cfg) (mix : Bool) (step : ℕ) (q : PSt) (h : Sorted q.s.d) :
    Frm q (substepP o mix step q) ∧ (substepP o mix step q).s.rw2 = rw2P o q ∧
    (substepP o mix step q).rw3 = (if step < o.sstp - 1 then fun i => rw3of (rw2P o q i) else q.rw3) ∧
    (substepP o mix step q).s.tRh = (midP o q).s.tRh ∧ (substepP o mix step q).tP = (midP o q).tP ∧
    (substepP o mix step q).s.ssp = (midP o q).s.ssp ∧
    ∀ i < q.s.d.N,
      (substepP o mix step q).s.tRv i = (midP o q).s.tRv i + (if mix then cellSum q.s.d (q.s.d.ijk i) (drvP o step q) else drvP o step q i) ∧
      (substepP o mix step q).s.tTh i = (midP o q).s.tTh i + (if mix then cellSum q.s.d (q.s.d.ijk i) (dthP o step q) else dthP o step q i) := by
  set m := midP o q with hm
  have hF : Frm q m := midP_frm o q
  have e1 : m.s.rw2 = q.s.rw2 := (midP_eq o q).1
  have e2 : m.rw3 = q.rw3 := (midP_eq o q).2.1
  set q2 : PSt := { m with s := { m.s with rw2 := rw2P o q }, Tp := TpOf o q
                           rw3 := if step < o.sstp - 1 then fun i => rw3of (rw2P o q i) else q.rw3 } with hq2
  have hs : substepP o mix step q = applyDrw3 mix (fun i => rw3of (rw2P o q i) - (if 0 < step then q.rw3 i else rw3of (q.s.rw2 i))) q2 := by
    have h1 : substepP o mix step q = applyDrw3 mix (fun i => rw3of ((advP o m).s.rw2 i) + (if 0 < step then -m.rw3 i else -rw3of (m.s.rw2 i)))
        (if step < o.sstp - 1 then { advP o m with rw3 := fun i => rw3of ((advP o m).s.rw2 i) } else advP o m) := rfl
    have h2 : (advP o m).s.rw2 = rw2P o q := by unfold advP rw2P; simp only; rw [e1]
    rw [h1, h2, e1, e2]
    congr 1
    · funext i; split_ifs <;> ring
    · split_ifs with hl
      · rw [hq2, if_pos hl]; unfold advP rw2P TpOf; rw [e1]
      · rw [hq2, if_neg hl, ← e2]; unfold advP rw2P TpOf; rw [e1]
  have hg : q2.s.d = m.s.d := rfl
  have hdrv : ∀ i, rw3diff2drv q2.s.d.nDims (rw3of (rw2P o q i) - (if 0 < step then q.rw3 i else rw3of (q.s.rw2 i))) (q2.s.tRh i) (q2.s.d.n i)
      (q2.s.d.dv (q2.s.d.ijk i)) = drvP o step q i := by
    intro i; unfold drvP; rw [hg, hF.geo.nDims, hF.geo.n, hF.geo.dv, hF.geo.ijk]
  rw [hs]
  unfold applyDrw3
  simp only [hdrv]
  cases mix with
  | false =>
    simp only [Bool.false_eq_true, if_false]
    refine ⟨hF.trans ⟨Geo.refl _, rfl, rfl, rfl, rfl, rfl, rfl, rfl, rfl, rfl, rfl, rfl, rfl, rfl, rfl, rfl⟩, rfl, rfl, rfl, rfl, rfl, fun i hi => ⟨?_, ?_⟩⟩
    · exact add_comm _ _
    · exact add_comm _ _
  | true =>
    simp only [if_true]
    have h' : Sorted q2.s.d := hF.geo.sorted h
    obtain ⟨g1, u1⟩ := updPstate_ok h' q2.s.tRv (drvP o step q)
    obtain ⟨g2, u2⟩ := updPstate_ok (g1.sorted h') q2.s.tTh (fun i => drvP o step q i * d_th_d_rv (q2.Tp i) (q2.s.tTh i))
    refine ⟨hF.trans ⟨g1.trans g2, rfl, rfl, rfl, rfl, rfl, rfl, rfl, rfl, rfl, rfl, rfl, rfl, rfl, rfl, rfl⟩, rfl, rfl, rfl, rfl, rfl, fun i hi => ⟨?_, ?_⟩⟩
    · rw [u1 i (by rw [hg, hF.geo.N]; exact hi), hg, hF.geo.cellSum, hF.geo.ijk]
    · rw [u2 i (by rw [g1.N, hg, hF.geo.N]; exact hi), g1.cellSum, g1.ijk, hg, hF.geo.cellSum, hF.geo.ijk]
      rfl

theorem runP_frm (o : Cfg) (mix : Bool) (q : PSt) (h : Sorted q.s.d) (k : ℕ) : Frm q (runP o mix q k) := by
  induction k with
  | zero => exact Frm.refl _
  | succ k ih => exact ih.trans (substepP_ok o mix k _ (ih.geo.sorted h)).1

/-- stored third powers are those of the radii, and the substeps' conditions move linearly towards the received ones -/
theorem runP_ok (o : Cfg) (mix : Bool) (q : PSt) (h : Sorted q.s.d) (k : ℕ) (hk : k ≤ o.sstp) :
    (k ≠ 0 → k < o.sstp → ∀ i, (runP o mix q k).rw3 i = rw3of ((runP o mix q k).s.rw2 i)) ∧
    (∀ i, (runP o mix q k).s.tRh i = q.s.tRh i + k * (q.dRh i / o.sstp)) ∧
    (o.tpr.const_p = true → ∀ i, (runP o mix q k).tP i = q.tP i + k * (q.dP i / o.sstp)) ∧
    (∀ i, (runP o mix q k).s.ssp i = if o.turb then q.s.ssp i + k * (o.dt / o.sstp * q.s.dotSsp i) else q.s.ssp i) := by
  induction k with
  | zero => refine ⟨fun h => absurd rfl h, ?_, ?_, ?_⟩ <;> intros <;> simp [runP]
  | succ k ih =>
    obtain ⟨i1, i2, i3, i4⟩ := ih (by omega)
    have hF := runP_frm o mix q h k
    obtain ⟨-, a2, a3, a4, a5, a6, -⟩ := substepP_ok o mix k _ (hF.geo.sorted h)
    obtain ⟨-, -, -, -, b5, b6, b7⟩ := midP_eq o (runP o mix q k)
    refine ⟨fun _ hl i => ?_, fun i => ?_, fun hc i => ?_, fun i => ?_⟩
    · show (substepP o mix k _).rw3 i = rw3of ((substepP o mix k _).s.rw2 i)
      rw [a3, if_pos (by omega), a2]
    · show (substepP o mix k _).s.tRh i = _
      rw [a4, b5]; simp only; rw [i2, hF.dRh]; push_cast; ring
    · show (substepP o mix k _).tP i = _
      rw [a5, b6, if_pos hc]; rw [i3 hc, hF.dP]; push_cast; ring
    · show (substepP o mix k _).s.ssp i = _
      rw [a6, b7]
      have := i4 i
      split_ifs at this ⊢
      · simp only; rw [this, hF.dotSsp]; push_cast; ring
      · exact this

end LCP.Cond
