import Verif.Cond.Arrays
import Mathlib.Tactic.Ring

/-!
# One substep of per-cell condensation (helper lemmas for C58)
-/
namespace LCP.Cond
open LCP.Common LCP.Diag

/-- particles, cells, volumes and densities are the same (the selection and counting arrays may differ) -/
structure Geo (a b : Diag.St) : Prop where
  N : b.N = a.N
  n : b.n = a.n
  ijk : b.ijk = a.ijk
  sid : b.sid = a.sid
  nCell : b.nCell = a.nCell
  nDims : b.nDims = a.nDims
  dv : b.dv = a.dv
  rhod : b.rhod = a.rhod

theorem Geo.refl (a : Diag.St) : Geo a a := ⟨rfl, rfl, rfl, rfl, rfl, rfl, rfl, rfl⟩

theorem Geo.trans {a b c : Diag.St} (h : Geo a b) (g : Geo b c) : Geo a c :=
  ⟨g.N.trans h.N, g.n.trans h.n, g.ijk.trans h.ijk, g.sid.trans h.sid, g.nCell.trans h.nCell, g.nDims.trans h.nDims,
    g.dv.trans h.dv, g.rhod.trans h.rhod⟩

/-- sorted, and every super-droplet is in a cell of the grid -/
structure Sorted (d : Diag.St) : Prop where
  sort : IsCellSort d.N d.ijk d.sid
  cell : ∀ i < d.N, d.ijk i < d.nCell

theorem Geo.sorted {a b : Diag.St} (h : Geo a b) (g : Sorted a) : Sorted b := by
  constructor
  · rw [h.N, h.ijk, h.sid]; exact g.sort
  · rw [h.N, h.ijk, h.nCell]; exact g.cell

theorem Geo.occ {a b : Diag.St} (h : Geo a b) (c : ℕ) : occ b c ↔ occ a c := by
  unfold Cond.occ; rw [h.N, h.ijk]

/-- specific sum over a cell of the moments taken by `mom3` -/
noncomputable def Wd (d : Diag.St) (rw2 : ℕ → ℝ) (c : ℕ) : ℝ :=
  cellSum d c (fun i => momentCounter (3 / 2) (d.n i) (rw2 i)) * perMass d c

/-- and by `momIce` -/
noncomputable def Id (d : Diag.St) (a c rho : ℕ → ℝ) (k : ℕ) : ℝ :=
  cellSum d k (fun i => momentCounter 1 ((d.n i : ℝ) * b2r (a i > 0)) (iceMass (a i) (c i) (rho i))) * perMass d k

theorem Geo.Wd {a b : Diag.St} (h : Geo a b) (rw2 : ℕ → ℝ) (c : ℕ) : Wd b rw2 c = Wd a rw2 c := by
  unfold Cond.Wd cellSum perMass
  rw [h.N, h.ijk, h.n, h.nDims, h.dv, h.rhod]

theorem Geo.Id {a b : Diag.St} (h : Geo a b) (x y z : ℕ → ℝ) (c : ℕ) : Id b x y z c = Id a x y z c := by
  unfold Cond.Id cellSum perMass
  rw [h.N, h.ijk, h.n, h.nDims, h.dv, h.rhod]

theorem cellSum_unocc (d : Diag.St) (f : ℕ → ℝ) (c : ℕ) (h : ¬ occ d c) : cellSum d c f = 0 := by
  unfold cellSum
  rw [Finset.filter_false_of_mem, Finset.sum_empty]
  intro i hi hc
  exact h ⟨i, by simpa using hi, hc⟩

theorem Wd_unocc (d : Diag.St) (rw2 : ℕ → ℝ) (c : ℕ) (h : ¬ occ d c) : Wd d rw2 c = 0 := by
  unfold Wd; rw [cellSum_unocc _ _ _ h, zero_mul]

theorem Id_unocc (d : Diag.St) (x y z : ℕ → ℝ) (c : ℕ) (h : ¬ occ d c) : Id d x y z c = 0 := by
  unfold Id; rw [cellSum_unocc _ _ _ h, zero_mul]

theorem mom3_ok {d : Diag.St} (h : Sorted d) (rw2 : ℕ → ℝ) : ∃ t, mom3 d rw2 = some t ∧ Lists t (Wd d rw2) ∧ Geo d t := by
  unfold mom3
  simp only [Diag.select, Option.bind_some]
  obtain ⟨t, h1, h2, h3⟩ := momsCalc_lists (s := { d with nf := some (fun i => (d.n i : ℝ)) }) h.sort rfl rw2 (3 / 2)
  refine ⟨t, h1, h2, ?_⟩
  rw [h3]
  exact ⟨rfl, rfl, rfl, rfl, rfl, rfl, rfl, rfl⟩

theorem momIce_ok {d : Diag.St} (h : Sorted d) (a c rho : ℕ → ℝ) : ∃ t, momIce d a c rho = some t ∧ Lists t (Id d a c rho) ∧ Geo d t := by
  unfold momIce
  simp only [Diag.select, Diag.base, Bool.false_eq_true, if_false, Option.map_some, Option.bind_some]
  obtain ⟨t, h1, h2, h3⟩ := momsCalc_lists (s := { d with nf := some (fun i => (d.n i : ℝ) * b2r (a i > 0)) }) h.sort rfl
    (fun i => iceMass (a i) (c i) (rho i)) 1
  refine ⟨t, h1, h2, ?_⟩
  rw [h3]
  exact ⟨rfl, rfl, rfl, rfl, rfl, rfl, rfl, rfl⟩

open Classical in
/-- the array filled with minus the content before the change -/
theorem ante_ok {t : Diag.St} {M : ℕ → ℝ} (hL : Lists t M) (hs : Sorted t) (hM : ∀ c, ¬ occ t c → M c = 0) (junk : ℕ → ℝ) (c : ℕ)
    (hc : c < t.nCell) : permMap (fun m _ => -m) t (if t.countN ≠ t.nCell then fun _ => 0 else junk) c = -M c := by
  rw [permMap_eq hL]
  split_ifs with h1 h2
  · rfl
  · rw [hM c h1, neg_zero]
  · exact absurd (occ_of_full hL hs.cell (not_not.mp h2) c hc) h1

open Classical in
/-- storing the new content and forming the change -/
theorem accum_ok {d0 d : Diag.St} (step : ℕ) {M0 M A : ℕ → ℝ} (h0 : step = 0 → Lists d0 M0) (hs : Sorted d0) (hg : Geo d0 d) (hL : Lists d M)
    (hM : ∀ c, ¬ occ d0 c → M c = 0) (hA : ∀ c, ¬ occ d0 c → A c = 0) (drw0 rwM0 : ℕ → ℝ)
    (k0 : step = 0 → ∀ c < d0.nCell, drw0 c = -A c) (k1 : step ≠ 0 → ∀ c < d0.nCell, rwM0 c = A c) (c : ℕ) (hc : c < d0.nCell) :
    permMap (fun m _ => m) d (if step = 0 then (if d0.countN ≠ d0.nCell then fun _ => 0 else rwM0) else rwM0) c = M c ∧
    (if step = 0 then drw0 else fun c => -rwM0 c) c = -A c ∧
    permMap (fun m x => m + x) d (if step = 0 then drw0 else fun c => -rwM0 c) c = M c - A c := by
  have e2 : (if step = 0 then drw0 else fun c => -rwM0 c) c = -A c := by
    split_ifs with h
    · exact k0 h c hc
    · show -rwM0 c = -A c
      rw [k1 h c hc]
  refine ⟨?_, e2, ?_⟩
  · rw [permMap_eq hL]
    by_cases ho : occ d c
    · rw [if_pos ho]
    · rw [if_neg ho]
      have ho' : ¬ occ d0 c := fun h => ho ((hg.occ c).2 h)
      split_ifs with h1 h2
      · exact (hM c ho').symm
      · exact absurd (occ_of_full (h0 h1) hs.cell (not_not.mp h2) c hc) ho'
      · rw [k1 h1 c hc, hM c ho', hA c ho']
  · rw [permMap_eq hL]
    by_cases ho : occ d c
    · rw [if_pos ho, e2]; ring
    · have ho' : ¬ occ d0 c := fun h => ho ((hg.occ c).2 h)
      rw [if_neg ho, e2, hM c ho', hA c ho']; ring

/-- save_liq_ice_content_before_change -/
theorem saveContent_ok (o : Cfg) (s : St) (hs : Sorted s.d) : ∃ s', saveContent o s = some s' ∧ Geo s.d s'.d ∧
    s' = { s with d := s'.d, drw := s'.drw, dIce := s'.dIce } ∧ (∃ M, Lists s'.d M) ∧
    ∀ c < s.d.nCell, s'.drw c = -Wd s.d s.rw2 c ∧ (o.ice = true → s'.dIce c = -Id s.d s.iceA s.iceC s.iceRho c) := by
  obtain ⟨d1, e1, l1, g1⟩ := mom3_ok hs s.rw2
  unfold saveContent
  simp only [e1, Option.bind_eq_bind, Option.bind_some]
  have hs1 := g1.sorted hs
  have u1 : ∀ c, ¬ occ d1 c → Wd s.d s.rw2 c = 0 := fun c h => Wd_unocc _ _ _ (fun hh => h ((g1.occ c).2 hh))
  cases hi : o.ice with
  | false =>
    simp only [Bool.false_eq_true, if_false]
    refine ⟨_, rfl, g1, rfl, ⟨_, l1⟩, fun c hc => ⟨?_, fun h => absurd h (by simp)⟩⟩
    have := ante_ok l1 hs1 u1 s.drw c (by rw [g1.nCell]; exact hc)
    convert this using 2
  | true =>
    simp only [if_true]
    obtain ⟨d2, e2, l2, g2⟩ := momIce_ok hs1 s.iceA s.iceC s.iceRho
    simp only [e2, Option.bind_some]
    refine ⟨_, rfl, g1.trans g2, rfl, ⟨_, l2⟩, fun c hc => ⟨?_, fun _ => ?_⟩⟩
    · have := ante_ok l1 hs1 u1 s.drw c (by rw [g1.nCell]; exact hc)
      convert this using 2
    · have u2 : ∀ c, ¬ occ d2 c → Id d1 s.iceA s.iceC s.iceRho c = 0 := fun c h => Id_unocc _ _ _ _ _ (fun hh => h ((g2.occ c).2 hh))
      have := ante_ok l2 (g2.sorted hs1) u2 s.dIce c (by rw [g2.nCell, g1.nCell]; exact hc)
      rw [g1.Id] at this
      convert this using 2

/-- relative humidity seen by super-droplet `i` -/
noncomputable def RHseen (o : Cfg) (s : St) (i : ℕ) : ℝ := if o.turb then s.ssp i + s.RH (s.d.ijk i) else s.RH (s.d.ijk i)

/-- squared radii after a substep -/
noncomputable def rw2After (o : Cfg) (s : St) (i : ℕ) : ℝ := advance o.num (envOf o s (RHseen o s) i) (o.dt / o.sstp) (s.rw2 i)

/-- ice semi-axes after a substep -/
noncomputable def acAfter (o : Cfg) (s : St) (i : ℕ) : ℝ × ℝ :=
  advanceIce (envOf o s (fun i => s.RHi (s.d.ijk i)) i) (o.dt / o.sstp) (s.iceA i, s.iceC i)

theorem cond_ok (o : Cfg) (step : ℕ) (s : St) (hs : Sorted s.d) (A : ℕ → ℝ) (h0 : step = 0 → ∃ M, Lists s.d M)
    (hA : ∀ c, ¬ occ s.d c → A c = 0) (k0 : step = 0 → ∀ c < s.d.nCell, s.drw c = -A c) (k1 : step ≠ 0 → ∀ c < s.d.nCell, s.rwM c = A c) :
    ∃ s', cond o step s = some s' ∧ Geo s.d s'.d ∧
      s' = { s with d := s'.d, rw2 := rw2After o s, drw := s'.drw, rwM := s'.rwM } ∧ (step = 0 → ∃ M, Lists s'.d M) ∧
      ∀ c < s.d.nCell, s'.drw c = Wd s.d (rw2After o s) c - A c ∧ (step < o.sstp - 1 → s'.rwM c = Wd s.d (rw2After o s) c) := by
  obtain ⟨d1, e1, l1, g1⟩ := mom3_ok hs (rw2After o s)
  have hM0 : ∃ M0, step = 0 → Lists s.d M0 := by
    by_cases h : step = 0
    · obtain ⟨M, hM⟩ := h0 h; exact ⟨M, fun _ => hM⟩
    · exact ⟨fun _ => 0, fun hh => absurd hh h⟩
  obtain ⟨M0, hM0⟩ := hM0
  have key := fun c hc => accum_ok step hM0 hs g1 l1 (fun c h => Wd_unocc s.d _ c h) hA s.drw s.rwM k0 k1 c hc
  unfold cond
  have e1' : mom3 s.d (fun i => advance o.num (envOf o s (fun i => if o.turb then s.ssp i + s.RH (s.d.ijk i) else s.RH (s.d.ijk i)) i)
      (o.dt / o.sstp) (s.rw2 i)) = some d1 := e1
  simp only [e1', Option.bind_eq_bind, Option.bind_some]
  by_cases hl : step < o.sstp - 1
  · simp only [hl, if_true]
    refine ⟨_, rfl, g1, rfl, fun _ => ⟨_, l1⟩, fun c hc => ?_⟩
    obtain ⟨a1, a2, a3⟩ := key c hc
    refine ⟨?_, fun _ => ?_⟩
    · have b1 : ∀ x y : ℝ, x = Wd s.d (rw2After o s) c → y = -A c → x + y = Wd s.d (rw2After o s) c - A c := by
        intro x y hx hy; rw [hx, hy]; ring
      refine b1 _ _ ?_ ?_
      · convert a1 using 2
      · convert a2 using 2
    · convert a1 using 2
  · simp only [hl, if_false]
    refine ⟨_, rfl, g1, rfl, fun _ => ⟨_, l1⟩, fun c hc => ⟨?_, fun h => absurd h id⟩⟩
    obtain ⟨a1, a2, a3⟩ := key c hc
    convert a3 using 2

theorem iceDep_ok (o : Cfg) (step : ℕ) (s : St) (hs : Sorted s.d) (A : ℕ → ℝ) (h0 : step = 0 → ∃ M, Lists s.d M)
    (hA : ∀ c, ¬ occ s.d c → A c = 0) (k0 : step = 0 → ∀ c < s.d.nCell, s.dIce c = -A c) (k1 : step ≠ 0 → ∀ c < s.d.nCell, s.iceM c = A c) :
    ∃ s', iceDep o step s = some s' ∧ Geo s.d s'.d ∧
      s' = { s with d := s'.d, iceA := fun i => (acAfter o s i).1, iceC := fun i => (acAfter o s i).2, dIce := s'.dIce, iceM := s'.iceM } ∧
      ∀ c < s.d.nCell, s'.dIce c = Id s.d (fun i => (acAfter o s i).1) (fun i => (acAfter o s i).2) s.iceRho c - A c ∧
        (step < o.sstp - 1 → s'.iceM c = Id s.d (fun i => (acAfter o s i).1) (fun i => (acAfter o s i).2) s.iceRho c) := by
  obtain ⟨d1, e1, l1, g1⟩ := momIce_ok hs (fun i => (acAfter o s i).1) (fun i => (acAfter o s i).2) s.iceRho
  have hM0 : ∃ M0, step = 0 → Lists s.d M0 := by
    by_cases h : step = 0
    · obtain ⟨M, hM⟩ := h0 h; exact ⟨M, fun _ => hM⟩
    · exact ⟨fun _ => 0, fun hh => absurd hh h⟩
  obtain ⟨M0, hM0⟩ := hM0
  have key := fun c hc => accum_ok step hM0 hs g1 l1 (fun c h => Id_unocc s.d _ _ _ c h) hA s.dIce s.iceM k0 k1 c hc
  unfold iceDep
  have e1' : momIce s.d (fun i => (advanceIce (envOf o s (fun i => s.RHi (s.d.ijk i)) i) (o.dt / o.sstp) (s.iceA i, s.iceC i)).1)
      (fun i => (advanceIce (envOf o s (fun i => s.RHi (s.d.ijk i)) i) (o.dt / o.sstp) (s.iceA i, s.iceC i)).2) s.iceRho = some d1 := e1
  simp only [e1', Option.bind_eq_bind, Option.bind_some]
  by_cases hl : step < o.sstp - 1
  · simp only [hl, if_true]
    refine ⟨_, rfl, g1, rfl, fun c hc => ?_⟩
    obtain ⟨a1, a2, a3⟩ := key c hc
    refine ⟨?_, fun _ => ?_⟩
    · have b1 : ∀ x y z : ℝ, x = z → y = -A c → x + y = z - A c := by
        intro x y z hx hy; rw [hx, hy]; ring
      refine b1 _ _ _ ?_ ?_
      · convert a1 using 2
      · convert a2 using 2
    · convert a1 using 2
  · simp only [hl, if_false]
    refine ⟨_, rfl, g1, rfl, fun c hc => ⟨?_, fun h => absurd h id⟩⟩
    obtain ⟨a1, a2, a3⟩ := key c hc
    convert a3 using 2

end LCP.Cond
