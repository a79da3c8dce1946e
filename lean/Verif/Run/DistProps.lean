import Verif.Run.Dist

/-! # Budgets and well-formedness of runs with distributed memory (C107) -/
namespace LCP.Run
open LCP LCP.Common

/-! ### Specification -/

/-- the droplet has left the whole domain: beyond the outer open edge of the first or the last subdomain, beyond an open wall in y, above the top -/
def Gone {m : ℕ} (D : DCfg m) (r : Fin (m + 1)) (d : Drop) : Prop :=
  (D.base.bcnd.openSide = true ∧ r.val = 0 ∧ d.x < D.x0 r) ∨
  (D.base.bcnd.openSide = true ∧ r.val = m ∧ D.x1 r ≤ d.x) ∨
  (D.base.bcnd.nDims = 3 ∧ D.base.bcnd.openSide = true ∧ ¬ (D.base.bcnd.y0 ≤ d.y ∧ d.y < D.base.bcnd.y1)) ∨
  (1 < D.base.bcnd.nDims ∧ D.base.bcnd.periodicTopBot = false ∧ D.base.bcnd.z1 ≤ d.z)

open Classical in
/-- what leaves the whole domain in a step -/
noncomputable def gone {m : ℕ} (D : DCfg m) (t : Fin (m + 1) → Trace) (w : Drop → ℝ) : ℝ :=
  ∑ r, ∑ i ∈ Finset.range (t r).atWalls.N, if Gone D r ((t r).atWalls.sd i) then (((t r).atWalls.sd i).n : ℝ) * w ((t r).atWalls.sd i) else 0

/-! ### Boundary conditions of a subdomain -/

theorem bcnd_dist_x {o : Bcnd.Opts} {l r : Bool} (hd : o.dist = some (l, r)) (s : Bcnd.St) : (Bcnd.bcnd o s).x = s.x := by
  have hX : (Bcnd.bcndX o s).x = s.x := by
    unfold Bcnd.bcndX; rw [hd]; simp only
    cases l <;> cases r <;> simp [Bcnd.flagIf]
  have hZ : ∀ t : Bcnd.St, (Bcnd.bcndZ o t).x = t.x := by
    intro t; unfold Bcnd.bcndZ; split_ifs <;> rfl
  unfold Bcnd.bcnd
  split_ifs
  · rfl
  · rw [hZ, Bcnd.bcndY_x, hX]

variable {m : ℕ}

theorem gone_iff (D : DCfg m) (r : Fin (m + 1)) (s : St) (i : ℕ) :
    (Bcnd.leftSide (D.cfg r).bcnd (toBcnd s) i ∨ Bcnd.leftTop (D.cfg r).bcnd (toBcnd s) i) ↔ Gone D r (s.sd i) := by
  unfold Bcnd.leftSide Bcnd.leftTop Gone
  have e : (D.cfg r).bcnd.dist = some (D.edges r) := rfl
  have e1 : ((toBcnd s).x i) = (s.sd i).x := rfl
  have e2 : ((toBcnd s).y i) = (s.sd i).y := rfl
  have e3 : ((toBcnd s).z i) = (s.sd i).z := rfl
  have e4 : (D.cfg r).bcnd.nDims = D.base.bcnd.nDims := rfl
  have e5 : (D.cfg r).bcnd.openSide = D.base.bcnd.openSide := rfl
  have e6 : (D.cfg r).bcnd.periodicTopBot = D.base.bcnd.periodicTopBot := rfl
  have e7 : (D.cfg r).bcnd.y0 = D.base.bcnd.y0 ∧ (D.cfg r).bcnd.y1 = D.base.bcnd.y1 ∧ (D.cfg r).bcnd.z1 = D.base.bcnd.z1 ∧ (D.cfg r).bcnd.x0 = D.x0 r ∧
    (D.cfg r).bcnd.x1 = D.x1 r := ⟨rfl, rfl, rfl, rfl, rfl⟩
  rw [e, e1, e2, e3, e4, e5, e6, e7.1, e7.2.1, e7.2.2.1, e7.2.2.2.1, e7.2.2.2.2]
  have q : (∃ l r_1, some (D.edges r) = some (l, r_1) ∧ (l = true ∧ (s.sd i).x < D.x0 r ∨ r_1 = true ∧ D.x1 r ≤ (s.sd i).x)) ↔
      (D.base.bcnd.openSide = true ∧ r.val = 0 ∧ (s.sd i).x < D.x0 r) ∨ (D.base.bcnd.openSide = true ∧ r.val = m ∧ D.x1 r ≤ (s.sd i).x) := by
    constructor
    · rintro ⟨l, r', h, h'⟩
      have h := Option.some.inj h
      have h1 := congrArg Prod.fst h
      have h2 := congrArg Prod.snd h
      simp only [DCfg.edges] at h1 h2
      rcases h' with ⟨a, b⟩ | ⟨a, b⟩
      · rw [a] at h1; simp at h1; exact Or.inl ⟨h1.1, by rw [h1.2]; rfl, b⟩
      · rw [a] at h2; simp at h2; exact Or.inr ⟨h2.1, h2.2, b⟩
    · rintro (⟨a, b, c⟩ | ⟨a, b, c⟩)
      · exact ⟨_, _, rfl, Or.inl ⟨by simp [a, b], c⟩⟩
      · exact ⟨_, _, rfl, Or.inr ⟨by simp [a, b], c⟩⟩
  rw [q]
  simp only [reduceCtorEq, false_and, false_or]
  constructor
  · rintro (((h | h) | h) | h)
    · exact Or.inl h
    · exact Or.inr (Or.inl h)
    · exact Or.inr (Or.inr (Or.inl h))
    · exact Or.inr (Or.inr (Or.inr h))
  · rintro (h | h | h | h)
    · exact Or.inl (Or.inl (Or.inl h))
    · exact Or.inl (Or.inl (Or.inr h))
    · exact Or.inl (Or.inr h)
    · exact Or.inr h

theorem bcnd_total_dist (D : DCfg m) (r : Fin (m + 1)) (hd : D.base.bcnd.nDims ≠ 0) (hzz : D.base.bcnd.z0 ≤ D.base.bcnd.z1) (s : St) (q : Bcnd.Q)
    (hq : Bcnd.tracked D.base.bcnd q) (w : Drop → ℝ)
    (hw : ∀ i < s.N, Bcnd.amount (toBcnd s) i q = w (s.sd i)) (hw' : ∀ d n x y z, w { d with n := n, x := x, y := y, z := z } = w d) :
    open Classical in
    total (bcndRun (D.cfg r).bcnd s) w + (bcndRun (D.cfg r).bcnd s).puddle q +
      (∑ i ∈ Finset.range s.N, if Gone D r (s.sd i) then ((s.sd i).n : ℝ) * w (s.sd i) else 0) = total s w + s.puddle q := by
  classical
  have c1 : Bcnd.content (toBcnd s) q = total s w := Finset.sum_congr rfl fun i hi => by
    rw [hw i (Finset.mem_range.1 hi)]; rfl
  have hq' : Bcnd.tracked (D.cfg r).bcnd q := by cases q <;> exact hq
  have B := Bcnd.puddle_budget (D.cfg r).bcnd (toBcnd s) hd hzz hq'
  obtain ⟨-, hN, f1, f2, f3, f4, f5, f6⟩ := Bcnd.bcnd_removes_leavers (D.cfg r).bcnd (toBcnd s) hd 0
  have c2 : Bcnd.content (Bcnd.bcnd (D.cfg r).bcnd (toBcnd s)) q = total (bcndRun (D.cfg r).bcnd s) w := by
    unfold Bcnd.content total
    show _ = ∑ i ∈ Finset.range (Bcnd.bcnd (D.cfg r).bcnd (toBcnd s)).N, _
    refine Finset.sum_congr rfl fun i hi => ?_
    have hi : i < s.N := by have := Finset.mem_range.1 hi; rw [hN] at this; exact this
    rw [Bcnd.amount_congr f1 f2 f3 f4 f5 f6, hw i hi]
    exact congrArg (fun v => ((Bcnd.bcnd (D.cfg r).bcnd (toBcnd s)).n i : ℝ) * v) (hw' (s.sd i) _ _ _ _).symm
  have c3 : ∑ i ∈ (Finset.range (toBcnd s).N).filter (fun i => Bcnd.leftSide (D.cfg r).bcnd (toBcnd s) i ∨ Bcnd.leftTop (D.cfg r).bcnd (toBcnd s) i),
      ((toBcnd s).n i : ℝ) * Bcnd.amount (toBcnd s) i q = ∑ i ∈ Finset.range s.N, if Gone D r (s.sd i) then ((s.sd i).n : ℝ) * w (s.sd i) else 0 := by
    rw [Finset.sum_filter]
    refine Finset.sum_congr rfl fun i hi => ?_
    rw [hw i (Finset.mem_range.1 hi)]
    by_cases h : Gone D r (s.sd i)
    · rw [if_pos h, if_pos ((gone_iff D r s i).2 h)]; rfl
    · rw [if_neg h, if_neg (fun h' => h ((gone_iff D r s i).1 h'))]
  rw [c1, c2, c3] at B
  have : (toBcnd s).puddle q = s.puddle q := rfl
  rw [this] at B
  show total (bcndRun (D.cfg r).bcnd s) w + (Bcnd.bcnd (D.cfg r).bcnd (toBcnd s)).puddle q + _ = _
  linarith

/-! ### The exchange -/

theorem sum_range_getD {α : Type} (l : List α) (d : α) (g : α → ℝ) : ∑ i ∈ Finset.range l.length, g (l.getD i d) = (l.map g).sum := by
  induction l with
  | nil => simp
  | cons a l ih =>
    rw [List.length_cons, Finset.sum_range_succ', List.map_cons, List.sum_cons, ← ih]
    simp [add_comm]

theorem sum_map_range (N : ℕ) (g : ℕ → ℝ) : ((List.range N).map g).sum = ∑ i ∈ Finset.range N, g i := by
  induction N with
  | zero => simp
  | succ N ih => rw [List.range_succ, List.map_append, List.sum_append, ih, Finset.sum_range_succ]; simp

/-- quantities determined by exchanged attributes -/
theorem ofRank_total (p : Bcnd.Q → ℝ) (R : Distmem.Rank) (w : Drop → ℝ) (f : (ℕ → ℝ) → ℝ) (hf : ∀ s, w (ofSd s) = f s.attr) :
    total (ofRank p R) w = (R.sds.map (fun s => (s.n : ℝ) * f s.attr)).sum := by
  rw [← sum_range_getD R.sds ⟨0, 0, fun _ => 0⟩]
  unfold total ofRank
  refine Finset.sum_congr rfl fun i _ => ?_
  simp only
  rw [hf]; rfl

theorem toRank_total (o : Bcnd.Opts) (c n : ℕ) (s : St) (w : Drop → ℝ) (f : (ℕ → ℝ) → ℝ) (hf : ∀ d : Drop, w d = f d.code) :
    ((toRank o c n s).sds.map (fun s => (s.n : ℝ) * f s.attr)).sum = total s w := by
  unfold toRank total
  rw [List.map_map, sum_map_range]
  refine Finset.sum_congr rfl fun i _ => ?_
  simp only [Function.comp, Drop.toSd]
  rw [hf]

theorem edges_match (D : DCfg m) (r : Fin (m + 1)) : (D.edges r).2 = (D.edges (Distmem.rgtRank r)).1 := by
  unfold DCfg.edges Distmem.rgtRank
  have := r.isLt
  by_cases h : r.val < m
  · have : r.val ≠ m := by omega
    simp [h, this]
  · have : r.val = m := by omega
    simp [this]

/-- the exchange conserves every quantity determined by exchanged attributes: nothing alive is beyond an open edge -/
theorem exchange_total {D : DCfg m} {cap : Fin (m + 1) → ℕ} {t : Fin (m + 1) → Trace} {R : Fin (m + 1) → Distmem.Rank} (hd : D.base.bcnd.nDims ≠ 0)
    (hx : ∀ r, D.x0 r ≤ D.x1 r) (h : Distmem.exchange (atExchange D cap t) = some R) (p : Fin (m + 1) → Bcnd.Q → ℝ) (w : Drop → ℝ) (f : (ℕ → ℝ) → ℝ)
    (hf : ∀ s, w (ofSd s) = f s.attr) (hf' : ∀ d : Drop, w d = f d.code) :
    ∑ r, total (ofRank (p r) (R r)) w = ∑ r, total (bcndRun (D.cfg r).bcnd (t r).atWalls) w := by
  have B := Distmem.exchange_budget_partial (atExchange D cap t) R f h hx (fun r => edges_match D r)
  have dead : ∀ r, ∀ s ∈ (atExchange D cap t r).sds, ((D.edges r).1 = true ∧ s.x < D.x0 r) ∨ ((D.edges r).2 = true ∧ D.x1 r ≤ s.x) → s.n = 0 := by
    intro r s hs hc
    unfold atExchange toRank at hs
    obtain ⟨i, -, rfl⟩ := List.mem_map.1 hs
    have hg : Gone D r ((t r).atWalls.sd i) := by
      have hxe : ((bcndRun (D.cfg r).bcnd (t r).atWalls).sd i).x = ((t r).atWalls.sd i).x := by
        show (Bcnd.bcnd (D.cfg r).bcnd (toBcnd (t r).atWalls)).x i = _
        rw [bcnd_dist_x (l := (D.edges r).1) (r := (D.edges r).2) rfl]; rfl
      simp only [Drop.toSd] at hc
      rw [hxe] at hc
      rcases hc with ⟨a, b⟩ | ⟨a, b⟩
      · simp [DCfg.edges] at a; exact Or.inl ⟨a.1, by rw [a.2]; rfl, b⟩
      · simp [DCfg.edges] at a; exact Or.inr (Or.inl ⟨a.1, a.2, b⟩)
    have := (Bcnd.bcnd_removes_leavers (D.cfg r).bcnd (toBcnd (t r).atWalls) hd i).1
    show (Bcnd.bcnd (D.cfg r).bcnd (toBcnd (t r).atWalls)).n i = 0
    rw [this, if_pos]
    rcases (gone_iff D r (t r).atWalls i).2 hg with h | h
    · exact Or.inl h
    · exact Or.inr (Or.inl h)
  have z : ∀ (l : List Distmem.Sd), (∀ s ∈ l, s.n = 0) → (l.map (fun s => (s.n : ℝ) * f s.attr)).sum = 0 := by
    intro l hl
    apply List.sum_eq_zero
    intro x hx
    obtain ⟨s, hs, rfl⟩ := List.mem_map.1 hx
    rw [hl s hs]; simp
  have zL : ∑ r, (if (atExchange D cap t r).openL then (((atExchange D cap t r).sds.filter (fun s => decide (s.x < (atExchange D cap t r).x0))).map
      (fun s => (s.n : ℝ) * f s.attr)).sum else 0) = 0 := by
    refine Finset.sum_eq_zero fun r _ => ?_
    split_ifs with ho
    · exact z _ fun s hs => by
        rw [List.mem_filter] at hs
        exact dead r s hs.1 (Or.inl ⟨ho, of_decide_eq_true hs.2⟩)
    · rfl
  have zR : ∑ r, (if (atExchange D cap t r).openR then (((atExchange D cap t r).sds.filter (fun s => decide (s.x ≥ (atExchange D cap t r).x1))).map
      (fun s => (s.n : ℝ) * f s.attr)).sum else 0) = 0 := by
    refine Finset.sum_eq_zero fun r _ => ?_
    split_ifs with ho
    · exact z _ fun s hs => by
        rw [List.mem_filter] at hs
        exact dead r s hs.1 (Or.inr ⟨ho, of_decide_eq_true hs.2⟩)
    · rfl
  rw [zL, zR, add_zero, add_zero] at B
  calc ∑ r, total (ofRank (p r) (R r)) w = ∑ r, ((R r).sds.map (fun s => (s.n : ℝ) * f s.attr)).sum :=
        Finset.sum_congr rfl fun r _ => ofRank_total _ _ w f hf
    _ = _ := B
    _ = _ := Finset.sum_congr rfl fun r _ => toRank_total _ _ _ _ w f hf'

/-- whatever is held after the exchange was held, alive, by some subdomain before, with the same attributes -/
theorem exchange_mem {st R : Fin (m + 1) → Distmem.Rank} (h : Distmem.exchange st = some R) (r : Fin (m + 1)) (s : Distmem.Sd) (hs : s ∈ (R r).sds) :
    s.n ≠ 0 ∧ ∃ q, ∃ u ∈ (st q).sds, s.n = u.n ∧ s.attr = u.attr := by
  unfold Distmem.exchange at h
  split at h
  swap
  · cases h
  have h := Option.some.inj h
  subst h
  rw [List.mem_filter] at hs
  refine ⟨of_decide_eq_true hs.2, ?_⟩
  have hn := of_decide_eq_true hs.2
  rcases List.mem_append.1 hs.1 with hs' | hs'
  · rcases List.mem_append.1 hs' with hs'' | hs''
    · unfold Distmem.Rank.flagged at hs''
      obtain ⟨u, hu, rfl⟩ := List.mem_map.1 hs''
      refine ⟨r, u, hu, ?_⟩
      split_ifs at hn ⊢
      · exact absurd rfl hn
      · exact ⟨rfl, rfl⟩
    · unfold Distmem.fromRgt at hs''
      split at hs''
      · cases hs''
      · obtain ⟨u, hu, rfl⟩ := List.mem_map.1 hs''
        exact ⟨_, u, (List.mem_filter.1 hu).1, rfl, rfl⟩
  · unfold Distmem.fromLft at hs'
    split at hs'
    · cases hs'
    · obtain ⟨u, hu, rfl⟩ := List.mem_map.1 hs'
      exact ⟨_, u, (List.mem_filter.1 hu).1, rfl, rfl⟩

theorem ofRank_mem {R : Distmem.Rank} {p : Bcnd.Q → ℝ} {i : ℕ} (hi : i < (ofRank p R).N) : ∃ s ∈ R.sds, (ofRank p R).sd i = ofSd s := by
  have hi : i < R.sds.length := hi
  refine ⟨R.sds[i], List.getElem_mem hi, ?_⟩
  show ofSd (R.sds.getD i _) = _
  rw [List.getD_eq_getElem _ _ hi]

/-- droplets after the exchange are droplets from before it, up to the position in x -/
theorem exchange_drops {D : DCfg m} {cap : Fin (m + 1) → ℕ} {t : Fin (m + 1) → Trace} {R : Fin (m + 1) → Distmem.Rank}
    (h : Distmem.exchange (atExchange D cap t) = some R) (p : Bcnd.Q → ℝ) (r : Fin (m + 1)) (i : ℕ) (hi : i < (ofRank p (R r)).N) :
    ((ofRank p (R r)).sd i).n ≠ 0 ∧ ∃ q, ∃ j < (bcndRun (D.cfg q).bcnd (t q).atWalls).N, ∃ x, (ofRank p (R r)).sd i =
      { (bcndRun (D.cfg q).bcnd (t q).atWalls).sd j with x := x, chem := fun _ => 0 } := by
  obtain ⟨s, hs, e⟩ := ofRank_mem hi
  obtain ⟨h1, q, u, hu, h2, h3⟩ := exchange_mem h r s hs
  unfold atExchange toRank at hu
  obtain ⟨j, hj, rfl⟩ := List.mem_map.1 hu
  rw [List.mem_range] at hj
  refine ⟨by rw [e]; exact h1, q, j, hj, s.x, ?_⟩
  rw [e]
  unfold ofSd
  rw [h2, h3]
  rfl

/-! ### One step -/

section step
variable {D : DCfg m} {s s' : Fin (m + 1) → St} {cap cap' : Fin (m + 1) → ℕ} {t : Fin (m + 1) → Trace}

theorem dstep_good (h : DStep D s cap t s' cap') (hn : 0 < D.base.cond.sstp) (hg : ∀ r, AllGood (s r)) (hw : ∀ r, ∀ i < (t r).new.k, Good ((t r).new.sd i)) :
    ∀ r, AllGood (s' r) := by
  intro r i hi
  obtain ⟨R, hR, e⟩ := h.exch
  rw [(e r).1] at hi ⊢
  obtain ⟨-, q, j, hj, x, ed⟩ := exchange_drops hR _ r i hi
  have fr := step_front (h.step q) (by rw [h.beg q]; exact hg q) (hw q) hn
  have g := bcndRun_good (o := (D.cfg q).bcnd) fr.2.2.1 j hj
  rw [ed]
  exact ⟨g.n, g.rw2, g.rd3⟩

theorem dstep_total (h : DStep D s cap t s' cap') (hd : D.base.bcnd.nDims ≠ 0) (hx : ∀ r, D.x0 r ≤ D.x1 r) (hzz : D.base.bcnd.z0 ≤ D.base.bcnd.z1)
    (q : Bcnd.Q) (hq : Bcnd.tracked D.base.bcnd q) (w : Drop → ℝ) (f : (ℕ → ℝ) → ℝ)
    (hf : ∀ s, w (ofSd s) = f s.attr) (hf' : ∀ d : Drop, w d = f d.code) (hw' : ∀ d n x y z, w { d with n := n, x := x, y := y, z := z } = w d)
    (hw : ∀ r, ∀ i < (t r).atWalls.N, Bcnd.amount (toBcnd (t r).atWalls) i q = w ((t r).atWalls.sd i)) :
    ∑ r, (total (s' r) w + (s' r).puddle q) + gone D t w = ∑ r, (total (t r).atWalls w + (t r).atWalls.puddle q) := by
  classical
  obtain ⟨R, hR, e⟩ := h.exch
  have E := exchange_total hd hx hR (fun r => (bcndRun (D.cfg r).bcnd (t r).atWalls).puddle) w f hf hf'
  have B := fun r => bcnd_total_dist D r hd hzz (t r).atWalls q hq w (hw r) hw'
  rw [← Finset.sum_congr rfl fun r _ => B r]
  rw [Finset.sum_add_distrib, Finset.sum_add_distrib, Finset.sum_add_distrib]
  have e1 : ∑ r, total (s' r) w = ∑ r, total (bcndRun (D.cfg r).bcnd (t r).atWalls) w := by
    rw [← E]
    exact Finset.sum_congr rfl fun r _ => by rw [(e r).1]
  have e2 : ∑ r, (s' r).puddle q = ∑ r, (bcndRun (D.cfg r).bcnd (t r).atWalls).puddle q :=
    Finset.sum_congr rfl fun r _ => by rw [(e r).1]; rfl
  rw [e1, e2]
  rfl

theorem dstep_dry (h : DStep D s cap t s' cap') (hd : D.base.bcnd.nDims ≠ 0) (hx : ∀ r, D.x0 r ≤ D.x1 r) (hzz : D.base.bcnd.z0 ≤ D.base.bcnd.z1)
    (hn : 0 < D.base.cond.sstp) (hg : ∀ r, AllGood (s r)) (hw : ∀ r, ∀ i < (t r).new.k, Good ((t r).new.sd i)) :
    ∑ r, (dryVolume (s' r) + (s' r).puddle .dryVol) + gone D t (fun d => 4 / 3 * Real.pi * d.rd3) =
      ∑ r, (dryVolume (s r) + (s r).puddle .dryVol) + ∑ r, newDry (t r).new := by
  have T := dstep_total h hd hx hzz .dryVol trivial (fun d => 4 / 3 * Real.pi * d.rd3) (fun a => 4 / 3 * Real.pi * a 1) (fun _ => rfl) (fun _ => rfl)
    (fun _ _ _ _ _ => rfl) (fun _ _ _ => rfl)
  have e : ∑ r, (total (t r).atWalls (fun d => 4 / 3 * Real.pi * d.rd3) + (t r).atWalls.puddle .dryVol) =
      ∑ r, (dryVolume (s r) + (s r).puddle .dryVol) + ∑ r, newDry (t r).new := by
    rw [← Finset.sum_add_distrib]
    refine Finset.sum_congr rfl fun r _ => ?_
    obtain ⟨-, -, -, -, -, e1, -, e2, -⟩ := step_front (h.step r) (by rw [h.beg r]; exact hg r) (hw r) hn
    rw [← dryVolume_eq, e2, e1, h.beg r]; ring
  rw [e] at T
  exact T

theorem dstep_number (h : DStep D s cap t s' cap') (hd : D.base.bcnd.nDims ≠ 0) (hx : ∀ r, D.x0 r ≤ D.x1 r) (hzz : D.base.bcnd.z0 ≤ D.base.bcnd.z1)
    (hn : 0 < D.base.cond.sstp) (hg : ∀ r, AllGood (s r)) (hw : ∀ r, ∀ i < (t r).new.k, Good ((t r).new.sd i)) :
    ∑ r, (number (s' r) + (s' r).puddle .prtclNum) + gone D t (fun _ => 1) ≤ ∑ r, (number (s r) + (s r).puddle .prtclNum) + ∑ r, newNumber (t r).new := by
  have T := dstep_total h hd hx hzz .prtclNum trivial (fun _ => 1) (fun _ => 1) (fun _ => rfl) (fun _ => rfl) (fun _ _ _ _ _ => rfl) (fun _ _ _ => rfl)
  have en : ∀ s : St, number s = total s (fun _ => 1) := fun s => Finset.sum_congr rfl fun i _ => by ring
  have e : ∑ r, (total (t r).atWalls (fun _ => 1) + (t r).atWalls.puddle .prtclNum) ≤
      ∑ r, (number (s r) + (s r).puddle .prtclNum) + ∑ r, newNumber (t r).new := by
    rw [← Finset.sum_add_distrib]
    refine Finset.sum_le_sum fun r _ => ?_
    obtain ⟨-, -, -, -, -, e1, -, -, -, e2⟩ := step_front (h.step r) (by rw [h.beg r]; exact hg r) (hw r) hn
    rw [← en, e1]
    rw [h.beg r] at e2 ⊢
    linarith
  have e' : ∑ r, (number (s' r) + (s' r).puddle .prtclNum) = ∑ r, (total (s' r) (fun _ => 1) + (s' r).puddle .prtclNum) :=
    Finset.sum_congr rfl fun r _ => by rw [en]
  rw [e', T]
  exact e

theorem dstep_water (h : DStep D s cap t s' cap') (hd : D.base.bcnd.nDims ≠ 0) (hx : ∀ r, D.x0 r ≤ D.x1 r) (hzz : D.base.bcnd.z0 ≤ D.base.bcnd.z1)
    (hn : 0 < D.base.cond.sstp) (hg : ∀ r, AllGood (s r)) (hw : ∀ r, ∀ i < (t r).new.k, Good ((t r).new.sd i))
    (hex : ∀ r, Exact D.base (t r)) :
    rho_w * (∑ r, (waterVolume (s' r) + (s' r).puddle .liqVol) + gone D t (fun d => 4 / 3 * Real.pi * √d.rw2 ^ 3)) =
      rho_w * (∑ r, (waterVolume (s r) + (s r).puddle .liqVol) + ∑ r, newWater (t r).new) +
      ∑ r, (vapourMass (t r).fields - vapourMass { (t r).fields with rv := (t r).cond.rv }) := by
  have fr := fun r => step_front (h.step r) (by rw [h.beg r]; exact hg r) (hw r) hn
  have T := dstep_total h hd hx hzz .liqVol trivial (fun d => 4 / 3 * Real.pi * √d.rw2 ^ 3) (fun a => 4 / 3 * Real.pi * √(a 0) ^ 3) (fun _ => rfl) (fun _ => rfl)
    (fun _ _ _ _ _ => rfl) (fun r i hi => by
      show 4 / 3 * Real.pi * ((t r).atWalls.sd i).rw2 ^ (3 / 2 : ℝ) = _
      rw [sqrt_cube _ ((fr r).2.2.1 i hi).rw2])
  have e : rho_w * ∑ r, (total (t r).atWalls (fun d => 4 / 3 * Real.pi * √d.rw2 ^ 3) + (t r).atWalls.puddle .liqVol) =
      rho_w * (∑ r, (waterVolume (s r) + (s r).puddle .liqVol) + ∑ r, newWater (t r).new) +
      ∑ r, (vapourMass (t r).fields - vapourMass { (t r).fields with rv := (t r).cond.rv }) := by
    rw [← Finset.sum_add_distrib, Finset.mul_sum, Finset.mul_sum, ← Finset.sum_add_distrib]
    refine Finset.sum_congr rfl fun r _ => ?_
    obtain ⟨-, -, -, -, -, e1, -, -, e2, -⟩ := fr r
    have c := step_cond (h.step r) (by rw [h.beg r]; exact hg r) hn (hex r).1 (hex r).2
    rw [← waterVolume_eq, e2, e1]
    rw [h.beg r] at c ⊢
    linarith
  have e' : ∑ r, (waterVolume (s' r) + (s' r).puddle .liqVol) = ∑ r, (total (s' r) (fun d => 4 / 3 * Real.pi * √d.rw2 ^ 3) + (s' r).puddle .liqVol) := rfl
  rw [e', T, e]

end step

/-! ### Runs -/

section run
variable {D : DCfg m} {T : ℕ} {s : ℕ → Fin (m + 1) → St} {cap : ℕ → Fin (m + 1) → ℕ} {t : ℕ → Fin (m + 1) → Trace}

/-- **C107.** In every run on any number of subdomains, multiplicities stay within their type and radii stay non-negative. -/
theorem drun_good (H : DHistory D T s cap t) (hn : 0 < D.base.cond.sstp) (hg : ∀ r, AllGood (s 0 r))
    (hw : ∀ k < T, ∀ r, ∀ i < (t k r).new.k, Good ((t k r).new.sd i)) : ∀ k ≤ T, ∀ r, AllGood (s k r) := by
  intro k
  induction k with
  | zero => exact fun _ => hg
  | succ k ih => exact fun hk => dstep_good (H k hk) hn (ih (by omega)) (hw k hk)

/-- **C107 (aerosol).** Dry volume held by all subdomains together and by their puddles, plus what left the whole domain, equals the initial amount plus what was added. -/
theorem drun_dry (H : DHistory D T s cap t) (hd : D.base.bcnd.nDims ≠ 0) (hx : ∀ r, D.x0 r ≤ D.x1 r) (hzz : D.base.bcnd.z0 ≤ D.base.bcnd.z1)
    (hn : 0 < D.base.cond.sstp) (hg : ∀ r, AllGood (s 0 r)) (hw : ∀ k < T, ∀ r, ∀ i < (t k r).new.k, Good ((t k r).new.sd i)) :
    ∑ r, (dryVolume (s T r) + (s T r).puddle .dryVol) + ∑ k ∈ Finset.range T, gone D (t k) (fun d => 4 / 3 * Real.pi * d.rd3) =
      ∑ r, (dryVolume (s 0 r) + (s 0 r).puddle .dryVol) + ∑ k ∈ Finset.range T, ∑ r, newDry (t k r).new := by
  have G := drun_good H hn hg hw
  have : ∀ k ≤ T, ∑ r, (dryVolume (s k r) + (s k r).puddle .dryVol) + ∑ j ∈ Finset.range k, gone D (t j) (fun d => 4 / 3 * Real.pi * d.rd3) =
      ∑ r, (dryVolume (s 0 r) + (s 0 r).puddle .dryVol) + ∑ j ∈ Finset.range k, ∑ r, newDry (t j r).new := by
    intro k
    induction k with
    | zero => intro _; simp
    | succ k ih =>
      intro hk
      have e := dstep_dry (H k hk) hd hx hzz hn (G k (by omega)) (hw k hk)
      rw [Finset.sum_range_succ, Finset.sum_range_succ]
      linarith [ih (by omega)]
  exact this T le_rfl

/-- **C107 (number).** The number of particles grows only by sources and relaxation. -/
theorem drun_number (H : DHistory D T s cap t) (hd : D.base.bcnd.nDims ≠ 0) (hx : ∀ r, D.x0 r ≤ D.x1 r) (hzz : D.base.bcnd.z0 ≤ D.base.bcnd.z1)
    (hn : 0 < D.base.cond.sstp) (hg : ∀ r, AllGood (s 0 r)) (hw : ∀ k < T, ∀ r, ∀ i < (t k r).new.k, Good ((t k r).new.sd i)) :
    ∑ r, (number (s T r) + (s T r).puddle .prtclNum) + ∑ k ∈ Finset.range T, gone D (t k) (fun _ => 1) ≤
      ∑ r, (number (s 0 r) + (s 0 r).puddle .prtclNum) + ∑ k ∈ Finset.range T, ∑ r, newNumber (t k r).new := by
  have G := drun_good H hn hg hw
  have : ∀ k ≤ T, ∑ r, (number (s k r) + (s k r).puddle .prtclNum) + ∑ j ∈ Finset.range k, gone D (t j) (fun _ => 1) ≤
      ∑ r, (number (s 0 r) + (s 0 r).puddle .prtclNum) + ∑ j ∈ Finset.range k, ∑ r, newNumber (t j r).new := by
    intro k
    induction k with
    | zero => intro _; simp
    | succ k ih =>
      intro hk
      have e := dstep_number (H k hk) hd hx hzz hn (G k (by omega)) (hw k hk)
      rw [Finset.sum_range_succ, Finset.sum_range_succ]
      linarith [ih (by omega)]
  exact this T le_rfl

/-- **C107 (water).** Liquid water of all subdomains and puddles plus what left the whole domain is the initial one plus that of new super-droplets plus what condensation took
from the vapour in all subdomains. -/
theorem drun_water (H : DHistory D T s cap t) (hd : D.base.bcnd.nDims ≠ 0) (hx : ∀ r, D.x0 r ≤ D.x1 r) (hzz : D.base.bcnd.z0 ≤ D.base.bcnd.z1)
    (hn : 0 < D.base.cond.sstp) (hg : ∀ r, AllGood (s 0 r)) (hw : ∀ k < T, ∀ r, ∀ i < (t k r).new.k, Good ((t k r).new.sd i))
    (hex : ∀ k < T, ∀ r, Exact D.base (t k r)) :
    rho_w * (∑ r, (waterVolume (s T r) + (s T r).puddle .liqVol) + ∑ k ∈ Finset.range T, gone D (t k) (fun d => 4 / 3 * Real.pi * √d.rw2 ^ 3)) =
      rho_w * (∑ r, (waterVolume (s 0 r) + (s 0 r).puddle .liqVol) + ∑ k ∈ Finset.range T, ∑ r, newWater (t k r).new) +
      ∑ k ∈ Finset.range T, ∑ r, (vapourMass (t k r).fields - vapourMass { (t k r).fields with rv := (t k r).cond.rv }) := by
  have G := drun_good H hn hg hw
  have : ∀ k ≤ T, rho_w * (∑ r, (waterVolume (s k r) + (s k r).puddle .liqVol) + ∑ j ∈ Finset.range k, gone D (t j) (fun d => 4 / 3 * Real.pi * √d.rw2 ^ 3)) =
      rho_w * (∑ r, (waterVolume (s 0 r) + (s 0 r).puddle .liqVol) + ∑ j ∈ Finset.range k, ∑ r, newWater (t j r).new) +
      ∑ j ∈ Finset.range k, ∑ r, (vapourMass (t j r).fields - vapourMass { (t j r).fields with rv := (t j r).cond.rv }) := by
    intro k
    induction k with
    | zero => intro _; simp
    | succ k ih =>
      intro hk
      have e := dstep_water (H k hk) hd hx hzz hn (G k (by omega)) (hw k hk) (hex k hk)
      rw [Finset.sum_range_succ, Finset.sum_range_succ, Finset.sum_range_succ]
      have i := ih (by omega)
      linarith
  exact this T le_rfl

end run

end LCP.Run
