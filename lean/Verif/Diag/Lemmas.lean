import Verif.Diag.Model
import Mathlib.Algebra.Order.BigOperators.Group.Finset
import Mathlib.Tactic.Ring

/-! # Lemmas for the diagnostics -/
namespace LCP.Diag

theorem zip_store {M : Type} (l : List (ℕ × M)) (a : ℕ → ℕ) (b : ℕ → M) :
    (List.range l.length).map (fun p => (store (l.map Prod.fst) a p, store (l.map Prod.snd) b p)) = l := by
  apply List.ext_getElem
  · simp
  · intro p h1 h2
    simp [store, h2]

theorem sumAt_map_val (l : List (ℕ × ℝ)) (g : ℕ → ℝ) (c : ℕ) :
    sumAt c (l.map (fun kv => (kv.1, kv.2 * g kv.1))) = sumAt c l * g c := by
  induction l with
  | nil => simp [sumAt_nil]
  | cons kv t ih =>
    obtain ⟨k, v⟩ := kv
    rw [List.map_cons, sumAt_cons, sumAt_cons, ih]
    by_cases h : k = c
    · subst h; simp; ring
    · simp [h]

theorem sumAt_cells {N : ℕ} {ijk : ℕ → ℕ} {sid : List ℕ} (h : IsCellSort N ijk sid) {M : Type*} [AddCommMonoid M]
    (val : ℕ → M) (c : ℕ) :
    sumAt c (sid.map (fun i => (ijk i, val i))) = ∑ i ∈ (Finset.range N).filter (fun i => ijk i = c), val i := by
  rw [sumAt_perm (h.perm.map _) c]
  clear h
  induction N with
  | zero => simp [sumAt_nil]
  | succ N ih =>
    rw [List.range_succ, List.map_append, Finset.range_add_one, Finset.filter_insert]
    unfold sumAt at ih ⊢
    rw [List.filter_append, List.map_append, List.sum_append, ih]
    by_cases hc : ijk N = c
    · rw [if_pos hc, Finset.sum_insert (by simp)]
      simp [hc, add_comm]
    · simp [hc]

theorem reduceByKey_fst {M M' : Type*} [Add M] [Add M'] (l : List (ℕ × M)) (l' : List (ℕ × M'))
    (h : l.map Prod.fst = l'.map Prod.fst) :
    (reduceByKey l).map Prod.fst = (reduceByKey l').map Prod.fst := by
  induction l generalizing l' with
  | nil =>
    have : l' = [] := by simpa using h.symm
    subst this; rfl
  | cons kv t ih =>
    obtain ⟨k, v⟩ := kv
    cases l' with
    | nil => simp at h
    | cons kv' t' =>
      obtain ⟨k', v'⟩ := kv'
      simp only [List.map_cons, List.cons.injEq] at h
      obtain ⟨rfl, ht⟩ := h
      have := ih t' ht
      rw [reduceByKey_cons, reduceByKey_cons]
      cases h1 : reduceByKey t with
      | nil =>
        rw [h1] at this
        have h2 : reduceByKey t' = [] := by simpa using this.symm
        rw [h2]; rfl
      | cons a r =>
        obtain ⟨ka, va⟩ := a
        cases h2 : reduceByKey t' with
        | nil => rw [h1, h2] at this; simp at this
        | cons b r' =>
          obtain ⟨kb, vb⟩ := b
          rw [h1, h2] at this
          simp only [List.map_cons, List.cons.injEq] at this
          obtain ⟨rfl, hr⟩ := this
          by_cases hk : k = ka
          · simp [hk, hr]
          · simp [hk, hr]

theorem sorted_keys {N : ℕ} {ijk : ℕ → ℕ} {sid : List ℕ} (h : IsCellSort N ijk sid) {M : Type*} (val : ℕ → M) :
    ((sid.map (fun i => (ijk i, val i))).map Prod.fst).Pairwise (· ≤ ·) := by
  rw [List.map_map]; exact h.sorted

/-- outbuf after a reduction holds per-cell sums -/
theorem fillOutbuf_reduce {s : St} (h : IsCellSort s.N s.ijk s.sid) (val : ℕ → ℝ) (c : ℕ) :
    fillOutbuf (reduceToCount s val) c = ∑ i ∈ (Finset.range s.N).filter (fun i => s.ijk i = c), val i := by
  unfold fillOutbuf reduceToCount
  simp only
  rw [zip_store, scatter_reduceByKey _ _ (sorted_keys h val), sumAt_cells h]

theorem store_lt {M : Type} {l : List M} {old : ℕ → M} {p : ℕ} (h : p < l.length) : store l old p = l[p] := by
  simp [store, h]

/-- the same after multiplying entry `p` by a function of its cell -/
theorem fillOutbuf_reduce_mul {s : St} (h : IsCellSort s.N s.ijk s.sid) (val : ℕ → ℝ) (g : ℕ → ℝ) (c : ℕ)
    (mom : ℕ → ℝ) (hm : ∀ p < (reduceToCount s val).countN,
      mom p = (reduceToCount s val).countMom p * g ((reduceToCount s val).countIjk p)) :
    fillOutbuf { reduceToCount s val with countMom := mom } c =
      (∑ i ∈ (Finset.range s.N).filter (fun i => s.ijk i = c), val i) * g c := by
  rw [← sumAt_cells h val c]
  set r := reduceByKey (s.sid.map (fun i => (s.ijk i, val i))) with hr
  have hlist : (List.range r.length).map (fun p => ((reduceToCount s val).countIjk p, mom p)) =
      r.map (fun kv => (kv.1, kv.2 * g kv.1)) := by
    apply List.ext_getElem
    · simp
    · intro p h1 h2
      have hp : p < r.length := by simpa using h1
      simp only [List.getElem_map, List.getElem_range]
      have e1 : (reduceToCount s val).countIjk p = r[p].1 := by
        have : (reduceToCount s val).countIjk p = store (r.map Prod.fst) s.countIjk p := rfl
        rw [this, store_lt (by simpa using hp)]; simp
      have e2 : (reduceToCount s val).countMom p = r[p].2 := by
        have : (reduceToCount s val).countMom p = store (r.map Prod.snd) s.countMom p := rfl
        rw [this, store_lt (by simpa using hp)]; simp
      rw [hm p hp, e1, e2]
  show scatter (fun _ => 0) ((List.range r.length).map (fun p => ((reduceToCount s val).countIjk p, mom p))) c = _
  rw [hlist]
  have hnd : ((r.map (fun kv => (kv.1, kv.2 * g kv.1))).map Prod.fst).Nodup := by
    rw [List.map_map]
    exact (reduceByKey_keys_strict _ (sorted_keys h val)).imp (fun h => Nat.ne_of_lt h)
  rw [scatter_nodup _ _ _ hnd]
  have hs : sumAt c (r.map (fun kv => (kv.1, kv.2 * g kv.1))) =
      sumAt c (s.sid.map (fun i => (s.ijk i, val i))) * g c := by
    rw [sumAt_map_val, hr, sumAt_reduceByKey]
  by_cases hc : c ∈ (r.map (fun kv => (kv.1, kv.2 * g kv.1))).map Prod.fst
  · rw [if_pos hc, hs]
  · rw [if_neg hc, ← hs, sumAt_not_mem _ _ hc]

end LCP.Diag
