import Verif.Run.Model

/-! # Lemmas on the processes of a time step acting on one population -/
namespace LCP.Run
open LCP

/-- multiplicity-weighted total of a quantity carried by droplets -/
noncomputable def total (s : St) (w : Drop → ℝ) : ℝ := ∑ i ∈ Finset.range s.N, ((s.sd i).n : ℝ) * w (s.sd i)

/-- attributes are in range: multiplicities fit their type, radii are not negative -/
structure Good (d : Drop) : Prop where
  n : d.n < 2 ^ 64
  rw2 : 0 ≤ d.rw2
  rd3 : 0 ≤ d.rd3

def AllGood (s : St) : Prop := ∀ i < s.N, Good (s.sd i)

/-! ### Coalescence -/

theorem sum_cells (N : ℕ) (ijk : ℕ → ℕ) (f : ℕ → ℝ) :
    ∃ M, ∑ i ∈ Finset.range N, f i = ∑ c ∈ Finset.range M, ∑ i ∈ Finset.range N, if ijk i = c then f i else 0 := by
  refine ⟨(Finset.range N).sup ijk + 1, ?_⟩
  rw [Finset.sum_comm]
  refine Finset.sum_congr rfl fun i hi => ?_
  rw [Finset.sum_ite_eq, if_pos]
  rw [Finset.mem_range]
  exact Nat.lt_succ_of_le (Finset.le_sup hi)

/-- a conserved quantity of all cells is conserved in total -/
theorem total_of_cells (N : ℕ) (ijk : ℕ → ℕ) (sd sd' : ℕ → Coal.SD) (w : Coal.SD → ℝ)
    (h : ∀ c, Coal.cellTotal N ijk sd' c w = Coal.cellTotal N ijk sd c w) :
    ∑ i ∈ Finset.range N, w (sd' i) = ∑ i ∈ Finset.range N, w (sd i) := by
  have key : ∀ g : ℕ → Coal.SD, ∑ i ∈ Finset.range N, w (g i) =
      ∑ c ∈ Finset.range ((Finset.range N).sup ijk + 1), Coal.cellTotal N ijk g c w := by
    intro g
    unfold Coal.cellTotal
    rw [Finset.sum_comm]
    refine Finset.sum_congr rfl fun i hi => ?_
    rw [Finset.sum_ite_eq, if_pos]
    rw [Finset.mem_range]
    exact Nat.lt_succ_of_le (Finset.le_sup hi)
  rw [key, key]
  exact Finset.sum_congr rfl fun c _ => h c

theorem coalOnce_ok {o : Coal.Opts} {a : CoalIn} {s t : St} (ha : a.Ok s.N) (hg : AllGood s) (h : coalOnce o a s = some t) :
    t.N = s.N ∧ t.puddle = s.puddle ∧ AllGood t ∧
    total t (fun d => d.rd3) = total s (fun d => d.rd3) ∧ total t (fun d => √d.rw2 ^ 3) = total s (fun d => √d.rw2 ^ 3) ∧
    (∀ j < o.nChem, total t (fun d => d.chem j) = total s (fun d => d.chem j)) ∧
    (∀ i < s.N, (t.sd i).n ≤ (s.sd i).n ∧ (t.sd i).x = (s.sd i).x ∧ (t.sd i).y = (s.sd i).y ∧ (t.sd i).z = (s.sd i).z) := by
  unfold coalOnce at h
  rw [Option.map_eq_some_iff] at h
  obtain ⟨r, hr, rfl⟩ := h
  obtain ⟨hs, hσ⟩ := ha
  have hU : Coal.FitsU64 (a.env s.N).N (fun i => (s.sd i).toSD) := fun i hi => (hg i hi).n
  have hp : ∀ i < (a.env s.N).N, 0 ≤ ((fun i => (s.sd i).toSD) i).rw2 := fun i hi => (hg i hi).rw2
  refine ⟨rfl, rfl, ?_, ?_, ?_, ?_, ?_⟩
  · intro i hi
    have hi' : i < (a.env s.N).N := hi
    refine ⟨(Coal.coal_fitsU64 hs hσ hr hU) i hi', ?_, ?_⟩
    · show 0 ≤ (r.sd i).rw2
      rcases Coal.coal_each hs hσ hr i hi' with e | ⟨j, hj, -, -, k, -, ⟨-, e, -⟩ | ⟨-, e, -⟩⟩
      · rw [e]; exact hp i hi'
      · rw [e]; exact hp i hi'
      · rw [e]; exact mul_self_nonneg _
    · show 0 ≤ (r.sd i).rd3
      rcases Coal.coal_each hs hσ hr i hi' with e | ⟨j, hj, -, -, k, -, ⟨-, e, -⟩ | ⟨-, e, -⟩⟩
      · rw [e]; exact (hg i hi).rd3
      · rw [e]; exact (hg i hi).rd3
      · rw [e]
        have h1 := (hg i hi).rd3
        have h2 := (hg j hj).rd3
        show 0 ≤ (k : ℝ) * (s.sd j).rd3 + (s.sd i).rd3
        positivity
  · exact total_of_cells s.N a.ijk (fun i => (s.sd i).toSD) r.sd (fun d => d.n * d.rd3) (Coal.coal_conserves_dry_volume hs hσ hr hU)
  · exact total_of_cells s.N a.ijk (fun i => (s.sd i).toSD) r.sd (fun d => d.n * √d.rw2 ^ 3) (Coal.coal_conserves_liquid_volume hs hσ hr hU hp)
  · intro j hj
    exact total_of_cells s.N a.ijk (fun i => (s.sd i).toSD) r.sd (fun d => d.n * d.chem j) (Coal.coal_conserves_chem hs hσ hr hU j hj)
  · intro i hi
    exact ⟨(Coal.coal_multiplicity_never_wraps hs hσ hr hU i hi).1, rfl, rfl, rfl⟩

theorem coalSteps_ok {o : Coal.Opts} {s t : St} (h : CoalSteps o s t) (hg : AllGood s) :
    t.N = s.N ∧ t.puddle = s.puddle ∧ AllGood t ∧
    total t (fun d => d.rd3) = total s (fun d => d.rd3) ∧ total t (fun d => √d.rw2 ^ 3) = total s (fun d => √d.rw2 ^ 3) ∧
    (∀ j < o.nChem, total t (fun d => d.chem j) = total s (fun d => d.chem j)) ∧
    (∀ i < s.N, (t.sd i).n ≤ (s.sd i).n ∧ (t.sd i).x = (s.sd i).x ∧ (t.sd i).y = (s.sd i).y ∧ (t.sd i).z = (s.sd i).z) := by
  induction h with
  | done s => exact ⟨rfl, rfl, hg, rfl, rfl, fun _ _ => rfl, fun _ _ => ⟨le_rfl, rfl, rfl, rfl⟩⟩
  | step a ha h _ ih =>
    obtain ⟨a1, a2, a3, a4, a5, a6, a7⟩ := coalOnce_ok ha hg h
    obtain ⟨b1, b2, b3, b4, b5, b6, b7⟩ := ih a3
    refine ⟨b1.trans a1, b2.trans a2, b3, b4.trans a4, b5.trans a5, fun j hj => (b6 j hj).trans (a6 j hj), fun i hi => ?_⟩
    obtain ⟨c1, c2, c3, c4⟩ := a7 i hi
    obtain ⟨d1, d2, d3, d4⟩ := b7 i (by rw [a1]; exact hi)
    exact ⟨d1.trans c1, d2.trans c2, d3.trans c3, d4.trans c4⟩

/-! ### Transport and sources -/

theorem moved_ok {m : MoveIn} {s t : St} (h : Moved m s t) :
    t.N = s.N ∧ t.puddle = s.puddle ∧ ∀ i < s.N, (t.sd i).toSD = (s.sd i).toSD := by
  refine ⟨h.1, h.2.1, fun i hi => ?_⟩
  obtain ⟨_, p, -, e⟩ := h.2.2 i hi
  rw [e]

theorem total_congr {s t : St} (hN : t.N = s.N) (w : Drop → ℝ) (h : ∀ i < s.N, (t.sd i).n = (s.sd i).n ∧ w (t.sd i) = w (s.sd i)) : total t w = total s w := by
  unfold total
  rw [hN]
  refine Finset.sum_congr rfl fun i hi => ?_
  rw [(h i (Finset.mem_range.1 hi)).1, (h i (Finset.mem_range.1 hi)).2]

/-- total carried by new super-droplets -/
noncomputable def totalNew (w : New) (f : Drop → ℝ) : ℝ := ∑ i ∈ Finset.range w.k, ((w.sd i).n : ℝ) * f (w.sd i)

theorem addNew_total (w : New) (s : St) (f : Drop → ℝ) : total (addNew w s) f = total s f + totalNew w f := by
  unfold total addNew totalNew
  rw [Finset.sum_range_add]
  congr 1
  · exact Finset.sum_congr rfl fun i hi => by simp [Finset.mem_range.1 hi]
  · exact Finset.sum_congr rfl fun i _ => by simp

theorem addNew_good {w : New} {s : St} (hs : AllGood s) (hw : ∀ i < w.k, Good (w.sd i)) : AllGood (addNew w s) := by
  intro i hi
  have hi : i < s.N + w.k := hi
  show Good (if i < s.N then s.sd i else w.sd (i - s.N))
  split_ifs with h
  · exact hs i h
  · exact hw _ (by omega)

/-! ### Boundaries -/

open Classical in
theorem bcnd_zero_dims (o : Bcnd.Opts) (s : Bcnd.St) (h : o.nDims = 0) : Bcnd.bcnd o s = s := by unfold Bcnd.bcnd; rw [if_pos h]

theorem bcnd_n_le (o : Bcnd.Opts) (s : Bcnd.St) (i : ℕ) : (Bcnd.bcnd o s).n i ≤ s.n i ∧ (Bcnd.bcnd o s).N = s.N := by
  classical
  by_cases h : o.nDims = 0
  · rw [bcnd_zero_dims o s h]; exact ⟨le_rfl, rfl⟩
  · obtain ⟨h1, h2, -⟩ := Bcnd.bcnd_removes_leavers o s h i
    refine ⟨?_, h2⟩
    rw [h1]; split_ifs <;> simp

theorem bcndRun_good {o : Bcnd.Opts} {s : St} (h : AllGood s) : AllGood (bcndRun o s) := by
  intro i hi
  have e := bcnd_n_le o (toBcnd s) i
  have hi : i < s.N := by
    have : i < (Bcnd.bcnd o (toBcnd s)).N := hi
    rw [e.2] at this; exact this
  exact ⟨e.1.trans_lt (h i hi).n, (h i hi).rw2, (h i hi).rd3⟩

/-! ### Recycling and removal -/

theorem postCopy_total {r : Option RcycIn} {s : St} (hr : RcycOk r s) (w : Drop → ℝ) (hw : ∀ d m, w { d with n := m } = w d) :
    total (postCopy r s) w = total s w := by
  have hd : ∀ (d : Drop), w (mkDrop 0 d.get) = w d := by
    intro d
    have : mkDrop 0 d.get = { d with n := 0 } := rfl
    rw [this, hw]
  have hm : ∀ (n : ℕ) (a : Attr → ℝ), w (mkDrop n a) = w (mkDrop 0 a) := fun n a => by
    have : mkDrop n a = { mkDrop 0 a with n := n } := rfl
    rw [this, hw]
  have base : ∀ q : Rcyc.State Attr, total (ofRcyc q s) w = Rcyc.total q (fun a => w (mkDrop 0 a)) := by
    intro q
    unfold total Rcyc.total ofRcyc
    refine Finset.sum_congr rfl fun i _ => ?_
    show ((q.n i : ℕ) : ℝ) * w (mkDrop (q.n i) (q.attr i)) = _
    rw [hm]
  have fin : Rcyc.total (toRcyc s) (fun a => w (mkDrop 0 a)) = total s w := by
    unfold total Rcyc.total toRcyc
    exact Finset.sum_congr rfl fun i _ => by
      show ((s.sd i).n : ℝ) * w (mkDrop 0 (s.sd i).get) = _
      rw [hd]
  cases r with
  | none => show total (ofRcyc _ s) w = _; rw [base, ← fin]; exact Rcyc.removeN0_sum (toRcyc s) (fun a => w (mkDrop 0 a))
  | some a =>
    show total (ofRcyc _ s) w = _
    obtain ⟨h1, h2⟩ := hr a rfl
    rw [base, ← fin, Rcyc.rcyc_conserves a.pcm (s := toRcyc s) h1 h2]

theorem copyProp_mem {N : ℕ} {key : ℕ → ℕ} {sid : List ℕ} (h : IsCellSort N key sid) (P : ℝ → Prop) (L : List ℕ) (hL : ∀ t ∈ L, t < N) (v : ℕ → ℝ)
    (hv : ∀ i < N, P (v i)) : ∀ i < N, P (Rcyc.copyProp N sid L v i) := by
  unfold Rcyc.copyProp
  induction L generalizing v with
  | nil => exact hv
  | cons t L ih =>
    rw [List.foldl_cons]
    apply ih (fun x hx => hL x (List.mem_cons_of_mem _ hx))
    intro i hi
    have ht := hL t List.mem_cons_self
    by_cases e : i = idAt sid t
    · rw [e, Function.update_self]; exact hv _ (h.id_lt (by omega))
    · rw [Function.update_of_ne e]; exact hv i hi

theorem split_n_le {s : Rcyc.State Attr} {sid : List ℕ} (h : IsCellSort s.N s.n sid) {σ : Rcyc.Scheds Attr} (hσ : σ.Valid (Rcyc.nRcyc s sid)) (i : ℕ) (hi : i < s.N) :
    ∃ j < s.N, (Rcyc.split s sid σ).n i ≤ s.n j := by
  obtain ⟨p, hp, rfl⟩ := h.exists_pos hi
  rcases Rcyc.split_pos h hσ p hp with ⟨-, -, e, -⟩ | ⟨-, -, e, -⟩ | ⟨-, -, e, -⟩ | ⟨-, -, e⟩
  · exact ⟨_, h.id_lt (show s.N - 1 - p < s.N by omega), by rw [e]; omega⟩
  · exact ⟨_, h.id_lt hp, by rw [e]; omega⟩
  · exact ⟨_, h.id_lt hp, by rw [e]⟩
  · exact ⟨_, h.id_lt hp, by rw [e]; omega⟩

theorem removeN0_mem (s : Rcyc.State Attr) (i : ℕ) (hi : i < (Rcyc.removeN0 s).N) :
    ∃ j < s.N, (Rcyc.removeN0 s).attr i = s.attr j ∧ (Rcyc.removeN0 s).n i = s.n j ∧ s.n j ≠ 0 := by
  simp only [Rcyc.removeN0] at hi ⊢
  have hm := List.getElem_mem hi
  rw [List.mem_filter] at hm
  refine ⟨(List.filter (fun i => decide (s.n i ≠ 0)) (List.range s.N))[i], List.mem_range.1 hm.1, ?_, ?_, of_decide_eq_true hm.2⟩ <;>
    rw [List.getD_eq_getElem _ _ hi]

/-- every attribute after recycling is one of some super-droplet before -/
theorem rcyc_mem (pcm : Bool) {s : Rcyc.State Attr} {sid : List ℕ} (h : IsCellSort s.N s.n sid) {σ : Rcyc.Scheds Attr} (hσ : σ.Valid (Rcyc.nRcyc s sid))
    (i : ℕ) (hi : i < (Rcyc.rcyc pcm s sid σ).1.N) :
    (∃ j < s.N, (Rcyc.rcyc pcm s sid σ).1.n i ≤ s.n j) ∧
    ∀ (a : Attr) (P : ℝ → Prop), (∀ j < s.N, P (s.attr j a)) → P ((Rcyc.rcyc pcm s sid σ).1.attr i a) := by
  have hspl : ∀ j < s.N, (∃ k < s.N, (Rcyc.split s sid σ).n j ≤ s.n k) ∧
      ∀ (a : Attr) (P : ℝ → Prop), (∀ j < s.N, P (s.attr j a)) → P ((Rcyc.split s sid σ).attr j a) := by
    intro j hj
    refine ⟨split_n_le h hσ j hj, fun a P hP => ?_⟩
    refine copyProp_mem h P (σ.copy a) (fun t ht => ?_) (fun j => s.attr j a) hP j hj
    have h1 := List.mem_range.1 ((hσ.copy a).mem_iff.1 ht)
    have h2 := Rcyc.nRcyc_le s sid
    have h3 := Rcyc.nFlagged_le s
    omega
  have hrem : ∀ (q : Rcyc.State Attr), q.N = s.N → (∀ j < q.N, (∃ k < s.N, q.n j ≤ s.n k) ∧
      ∀ (a : Attr) (P : ℝ → Prop), (∀ j < s.N, P (s.attr j a)) → P (q.attr j a)) → ∀ i < (Rcyc.removeN0 q).N,
      (∃ k < s.N, (Rcyc.removeN0 q).n i ≤ s.n k) ∧ ∀ (a : Attr) (P : ℝ → Prop), (∀ j < s.N, P (s.attr j a)) → P ((Rcyc.removeN0 q).attr i a) := by
    intro q _ hq i hi
    obtain ⟨j, hj, e1, e2, -⟩ := removeN0_mem q i hi
    rw [e1, e2]
    exact hq j hj
  have hself : ∀ j < s.N, (∃ k < s.N, s.n j ≤ s.n k) ∧ ∀ (a : Attr) (P : ℝ → Prop), (∀ j < s.N, P (s.attr j a)) → P (s.attr j a) :=
    fun j hj => ⟨⟨j, hj, le_rfl⟩, fun a P hP => hP j hj⟩
  revert hi
  unfold Rcyc.rcyc
  split_ifs
  · exact fun hi => hself i hi
  · exact fun hi => hrem s rfl hself i hi
  · exact fun hi => hrem s rfl hself i hi
  · exact fun hi => hrem (Rcyc.split s sid σ) rfl hspl i hi
  · exact fun hi => hspl i hi

theorem postCopy_good {r : Option RcycIn} {s : St} (hr : RcycOk r s) (h : AllGood s) : AllGood (postCopy r s) := by
  cases r with
  | none =>
    intro i hi
    obtain ⟨j, hj, e1, e2, -⟩ := removeN0_mem (toRcyc s) i hi
    have g := h j hj
    refine ⟨?_, ?_, ?_⟩
    · show (Rcyc.removeN0 (toRcyc s)).n i < _; rw [e2]; exact g.n
    · show 0 ≤ (Rcyc.removeN0 (toRcyc s)).attr i .rw2; rw [e1]; exact g.rw2
    · show 0 ≤ (Rcyc.removeN0 (toRcyc s)).attr i .rd3; rw [e1]; exact g.rd3
  | some a =>
    intro i hi
    obtain ⟨h1, h2⟩ := hr a rfl
    obtain ⟨⟨j, hj, e1⟩, e2⟩ := rcyc_mem a.pcm (s := toRcyc s) h1 h2 i hi
    exact ⟨e1.trans_lt (h j hj).n, e2 .rw2 (fun x => 0 ≤ x) (fun j hj => (h j hj).rw2), e2 .rd3 (fun x => 0 ≤ x) (fun j hj => (h j hj).rd3)⟩

end LCP.Run
