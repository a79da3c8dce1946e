import Verif.Run.Example
import Verif.Run.Progress

/-! # Runs that cannot be continued (C106), and the surroundings of a run that can -/
namespace LCP.Run
open LCP LCP.Common

/-- the first step when both super-droplets reach the ground -/
theorem exFall (h : How) (hk : h.Ok exCfg.cond 2) (r : Option RcycIn) (hr : ∀ p : St, p.N = 2 → (∀ i < 2, (p.sd i).n = 0) → RcycOk r p) : ∃ tr : Trace, TimeStep exCfg tr ∧ tr.a = exSt ∧ tr.how = h ∧ tr.rcyc = r ∧
    (bcndRun exCfg.bcnd tr.atWalls).N = 2 ∧ ∀ i < 2, ((bcndRun exCfg.bcnd tr.atWalls).sd i).n = 0 ∧ ((bcndRun exCfg.bcnd tr.atWalls).sd i).z = -15 := by
  obtain ⟨q, c, m, hsort, hq, hcs, hmove, mN, mp, mz⟩ := exMoved 20 h hk
  obtain ⟨w, hw⟩ : ∃ w : New, w = ⟨0, exDrop⟩ := ⟨_, rfl⟩
  obtain ⟨tr, htr⟩ : ∃ tr : Trace, tr = { a := exSt, fields := exFields, how := h, cond := q, inc := fun _ => 0, vt := fun _ => 0, c := c, m := m, new := w, rcyc := r } := ⟨_, rfl⟩
  have aw : tr.atWalls.N = 2 ∧ ∀ i < 2, tr.atWalls.sd i = m.sd i := by
    rw [htr]
    refine ⟨?_, fun i hi => ?_⟩
    · show m.N + w.k = 2; rw [mN, hw]; rfl
    · show (if i < m.N then m.sd i else _) = _
      rw [if_pos (by omega)]
  have bN : (bcndRun exCfg.bcnd tr.atWalls).N = 2 := by
    rw [show (bcndRun exCfg.bcnd tr.atWalls).N = tr.atWalls.N from (bcnd_n_le exCfg.bcnd (toBcnd tr.atWalls) 0).2, aw.1]
  have bz : ∀ i < 2, ((bcndRun exCfg.bcnd tr.atWalls).sd i).n = 0 ∧ ((bcndRun exCfg.bcnd tr.atWalls).sd i).z = -15 := by
    intro i hi
    have e := aw.2 i hi
    obtain ⟨zn, zx, zz⟩ := mz i hi
    have zz : (m.sd i).z = -15 := by rw [zz]; split_ifs <;> norm_num
    constructor
    · norm_num [bcndRun, Bcnd.bcnd, Bcnd.bcndZ, Bcnd.bcndY, Bcnd.bcndX, exCfg, Bcnd.flagIf, toBcnd, e, zn, zz]
    · norm_num [bcndRun, Bcnd.bcnd, Bcnd.bcndZ, Bcnd.bcndY, Bcnd.bcndX, exCfg, Bcnd.flagIf, toBcnd, e, zn, zz]
  refine ⟨tr, ?_, by rw [htr], by rw [htr], by rw [htr], bN, bz⟩
  have h2 := hr _ bN (fun i hi => (bz i hi).1)
  rw [htr] at h2 ⊢
  exact ⟨hsort, hk, hq, hcs, ⟨exMove, hmove⟩, h2⟩

/-- **C106 refuted (1).** When all super-droplets have rained out and recycling is off, the population is empty, and the next step with coalescence is undefined: the
loop over pairs ends one element before its beginning. -/
theorem emptied_run_stuck (h : How) (hk : h.Ok exCfg.cond 2) : ∃ (s : ℕ → St) (t : ℕ → Trace), History exCfg 1 s t ∧ s 0 = exSt ∧ WellFormed exCfg.bcnd exSt ∧ (s 1).N = 0 ∧ (t 0).how = h ∧
    ∀ (o : Coal.Opts) (a : CoalIn) (r : Cond.St) (inc vt : ℕ → ℝ), coalOnce o a (ofCond r inc vt (s 1)) = none := by
  obtain ⟨tr, hts, ha, hh, hr, bN, bz⟩ := exFall h hk none (fun p _ _ a h => by cases h)
  have fN : (tr.fin exCfg).N = 0 := by
    show (postCopy tr.rcyc _).N = 0
    rw [hr]
    show ((List.range (bcndRun exCfg.bcnd tr.atWalls).N).filter _).length = 0
    rw [bN]
    simp [toRcyc, List.range_succ, (bz 0 (by norm_num)).1, (bz 1 (by norm_num)).1]
  refine ⟨fun k => if k = 0 then exSt else tr.fin exCfg, fun _ => tr, ⟨fun _ _ => hts, fun k hk => ?_, fun k _ => ?_⟩, rfl, ⟨exSt_good, fun i hi => ?_⟩, fN, hh, fun o a r inc vt => ?_⟩
  · rw [if_pos (by omega), ha]
  · rw [if_neg (by omega)]
  · have hi : i < 2 := hi
    refine ⟨?_, fun _ => ?_, fun h => by simp [exCfg] at h, fun _ => ?_⟩
    · show 1 ≤ 1000 + i; omega
    · show (0:ℝ) ≤ (if i = 0 then 2 else 7) ∧ (if i = 0 then 2 else 7 : ℝ) < 10
      split_ifs <;> norm_num
    · show (0:ℝ) ≤ 5 ∧ (5:ℝ) < 10; norm_num
  · exact coalOnce_empty o a fN

/-- **C106 refuted (2).** With recycling on, when all super-droplets (or more than half of them, none with multiplicity one) have rained out, dead ones stay below the
ground, and the conversion of their positions to cell indices at the end of the same step_async is undefined. -/
theorem recycled_run_stuck (h : How) (hk : h.Ok exCfg.cond 2) : ∃ tr : Trace, TimeStep exCfg tr ∧ tr.a = exSt ∧ tr.how = h ∧ (∃ a, tr.rcyc = some a ∧ a.pcm = false) ∧ ¬ Indexed exMove.d exMove.b (tr.fin exCfg) := by
  obtain ⟨r, hr⟩ : ∃ r : RcycIn, r = { pcm := false, sid := [0, 1], σ := { copy := fun _ => [0, 1], inc := [0, 1], dec := [0, 1] } } := ⟨_, rfl⟩
  have hsp : ∀ p : St, p.N = 2 → (∀ i < 2, (p.sd i).n = 0) → Rcyc.nSplittable (toRcyc p) [0, 1] = 2 := by
    intro p hp h
    simp [Rcyc.nSplittable, toRcyc, hp, List.range_succ, idAt, h 0 (by norm_num), h 1 (by norm_num)]
  have hfl : ∀ p : St, p.N = 2 → (∀ i < 2, (p.sd i).n = 0) → Rcyc.nFlagged (toRcyc p) = 2 := by
    intro p hp h
    unfold Rcyc.nFlagged
    rw [Finset.filter_true_of_mem]
    · rw [Finset.card_range]; exact hp
    · intro i hi
      have hi : i < p.N := Finset.mem_range.1 hi
      show (p.sd i).n < 1
      rw [h i (by omega)]; norm_num
  have hrc : ∀ p : St, p.N = 2 → (∀ i < 2, (p.sd i).n = 0) → Rcyc.nRcyc (toRcyc p) [0, 1] = 2 := by
    intro p hp h
    unfold Rcyc.nRcyc
    rw [hsp p hp h, hfl p hp h]; rfl
  obtain ⟨tr, hts, ha, hh, hrr, bN, bz⟩ := exFall h hk (some r) (fun p hp h a e => by
    obtain rfl := Option.some.inj e
    refine ⟨⟨?_, ?_⟩, ?_⟩
    · rw [hr, hp]; decide
    · rw [hr]
      simp [h 0 (by norm_num), h 1 (by norm_num)]
    · rw [hr]
      dsimp only
      rw [hrc p hp h]
      exact ⟨fun _ => (by decide : [0, 1].Perm (List.range 2)), by decide, by decide⟩)
  refine ⟨tr, hts, ha, hh, ⟨r, hrr, by rw [hr]⟩, fun h => ?_⟩
  obtain ⟨B, hB⟩ : ∃ B, B = bcndRun exCfg.bcnd tr.atWalls := ⟨_, rfl⟩
  rw [← hB] at bN bz
  have hz := fun i hi => (bz i hi).1
  have e : (Rcyc.rcyc r.pcm (toRcyc B) r.sid r.σ).1 = Rcyc.split (toRcyc B) r.sid r.σ := by
    rw [hr]
    unfold Rcyc.rcyc
    dsimp only
    rw [hfl B bN hz, hsp B bN hz, hrc B bN hz]
    norm_num
  have ef : tr.fin exCfg = ofRcyc (Rcyc.split (toRcyc B) r.sid r.σ) B := by
    unfold Trace.fin
    rw [hrr, ← hB]
    show ofRcyc (Rcyc.rcyc r.pcm (toRcyc B) r.sid r.σ).1 B = _
    rw [e]
  rw [ef] at h
  obtain ⟨q, hq⟩ := h 0 (by show 0 < B.N; omega)
  have ez : ((ofRcyc (Rcyc.split (toRcyc B) r.sid r.σ) B).sd 0).pos.z = -15 := by
    show Rcyc.copyProp B.N r.sid (r.σ.copy Attr.z) (fun j => (B.sd j).z) 0 = -15
    rw [hr, bN]
    simp [Rcyc.copyProp, idAt, Function.update, (bz 1 (by norm_num)).2]
  unfold Adve.cellOf at hq
  have hc : Grid.divideByConstantAndCast exMove.b.dz ((ofRcyc (Rcyc.split (toRcyc B) r.sid r.σ) B).sd 0).pos.z = none := by
    rw [ez]
    unfold Grid.divideByConstantAndCast Grid.toSizeT
    rw [if_neg]
    norm_num [exMove]
  rw [hc] at hq
  simp only [Option.bind_eq_bind, Option.bind_eq_some_iff] at hq
  obtain ⟨_, -, _, -, _, h3, -⟩ := hq
  rw [if_pos (by norm_num [exMove])] at h3
  cases h3

/-! ### Surroundings in which a run never stops -/

/-- inputs for a population of `N` super-droplets: all in one cell, still air, coalescence only if there is something to coalesce -/
noncomputable def exInputs (N : ℕ) : Inputs :=
  { fields := { exFields with d := { exFields.d with ijk := fun _ => 0, sid := List.range N } }
    how := .percell false, inc := fun _ => 0, vt := fun _ => 1
    coal := if N = 0 then [] else
      [{ exCoal 1 with ijk := fun _ => 0, sid := List.range N
                       σ := { coll := List.range (N - 1), chem := fun _ => List.range (N - 1), kappa := List.range (N - 1), incloud := List.range (N - 1), rc2 := List.range (N - 1) } }]
    move := exMove, new := ⟨1, fun _ => exDrop 0⟩, rcyc := fun _ => none }

theorem exBenign (s : St) : Benign exCfg (exInputs s.N) s where
  ok :=
    { sorted := by
        refine ⟨⟨List.Perm.refl _, ?_⟩, fun i _ => by show 0 < 2; norm_num⟩
        show (List.map (fun _ => 0) (List.range s.N)).Pairwise (· ≤ ·)
        rw [List.pairwise_map]
        exact List.pairwise_of_forall (fun _ _ => le_rfl)
      how := trivial
      coal := by
        intro a ha
        unfold exInputs at ha
        dsimp only at ha
        split_ifs at ha with h
        · simp at ha
        · rw [List.mem_singleton] at ha
          rw [ha]
          refine ⟨⟨List.Perm.refl _, ?_⟩, ?_⟩
          · show (List.map (fun _ => 0) (List.range s.N)).Pairwise (· ≤ ·)
            rw [List.pairwise_map]
            exact List.pairwise_of_forall (fun _ _ => le_rfl)
          · constructor <;> intros <;> exact List.Perm.refl _
      fits :=
        { grid := ⟨Or.inl ⟨by norm_num [exInputs, exMove], rfl, by norm_num [exInputs, exMove]⟩, by norm_num [exInputs, exMove], by norm_num [exInputs, exMove],
            by norm_num [exInputs, exMove], by norm_num [exInputs, exMove], fun _ => by norm_num [exInputs, exMove], by norm_num [exInputs, exMove]⟩
          dims := rfl
          x0 := le_rfl
          x1 := by norm_num [exInputs, exMove, exCfg]
          y0 := fun h => absurd rfl h
          y1 := fun h => absurd rfl h
          z0 := le_rfl
          z1 := by norm_num [exInputs, exMove, exCfg] }
      flow := fun h => by simp [exInputs, exMove] at h
      good := by
        intro i _
        refine ⟨?_, ?_, ?_⟩
        · show 1000 + 0 < 2 ^ 64; norm_num
        · show (0:ℝ) ≤ 25e-12; norm_num
        · show (0:ℝ) ≤ 1e-24; norm_num
      rcyc := fun p a h => by cases h }
  coal := by
    intro h h0
    apply h
    unfold exInputs
    dsimp only
    rw [if_pos h0]
  calm := by
    intro f
    norm_num [exInputs, exMove]
    split_ifs <;> norm_num
  dx := by norm_num [exInputs, exMove, exCfg]
  dy := fun h => absurd rfl h
  turb := fun h => by simp [exInputs, exMove] at h
  inside := by
    intro i _
    refine ⟨fun _ => ?_, fun h => by simp [exCfg] at h, fun _ => ?_⟩
    · show (0:ℝ) ≤ (if (0:ℕ) = 0 then 2 else 7) ∧ (if (0:ℕ) = 0 then 2 else 7 : ℝ) < 10
      norm_num
    · show (0:ℝ) ≤ 5 ∧ (5:ℝ) < 10; norm_num
  rcyc := fun p a h => by cases h

/-- a thousand steps, one new super-droplet in each -/
example : ∃ (s : ℕ → St) (t : ℕ → Trace), s 0 = { exSt with N := 0 } ∧ History exCfg 1000 s t ∧ ∀ k ≤ 1000, WellFormed exCfg.bcnd (s k) := by
  obtain ⟨s, t, h1, h2, -, h3⟩ := run_continues_partial (cfg := exCfg) (by norm_num [exCfg]) rfl
    ⟨fun _ => by norm_num [exCfg], fun h => by simp [exCfg] at h, fun _ => by norm_num [exCfg]⟩ rfl (fun _ s => exInputs s.N) (fun _ s _ => exBenign s)
    (s₀ := { exSt with N := 0 }) ⟨fun i hi => absurd hi (by simp), fun i hi => absurd hi (by simp)⟩ 1000
  exact ⟨s, t, h1, h2, h3⟩

end LCP.Run
