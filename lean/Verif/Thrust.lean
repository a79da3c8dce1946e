import Mathlib.Data.List.Sort
import Mathlib.Data.List.Perm.Basic
import Mathlib.Algebra.BigOperators.Group.List.Basic
import Mathlib.Algebra.Order.Monoid.Defs
import Mathlib.Tactic.Linarith

/-!
# Models of the Thrust primitives used by libcloudph++

Thrust itself is outside /repo; these are the documented contracts of the calls made there.
* `reduceByKey`  – `thrust::reduce_by_key` (e.g. src/impl/housekeeping/particles_impl_hskpng_count.ipp:25-30)
* `scatter`      – `thrust::copy` into a `permutation_iterator` (e.g. src/impl/diagnose_SD_attributes/particles_impl_fill_outbuf.ipp:29-36)
* `exclusiveScan`– `thrust::exclusive_scan` (e.g. src/impl/coalescence/particles_impl_coal.ipp:324-327)
-/
namespace LCP

/-- Model of `thrust::reduce_by_key` with `operator+`: consecutive equal keys are merged, their
values summed.  Input and output are given as lists of (key, value) pairs. -/
def reduceByKey {M : Type*} [Add M] : List (ℕ × M) → List (ℕ × M)
  | [] => []
  | (k, v) :: t =>
    match reduceByKey t with
    | [] => [(k, v)]
    | (k', v') :: r => if k = k' then (k, v + v') :: r else (k, v) :: (k', v') :: r

/-- Model of copying values through a permutation iterator: `dst[key] = value`, in order.
A vector is modelled as a function of the index; the bounds (`key < n_cell`) are a separate obligation. -/
def scatter {M : Type*} (dst : ℕ → M) : List (ℕ × M) → (ℕ → M)
  | [] => dst
  | (k, v) :: t => scatter (Function.update dst k v) t

/-- Model of `thrust::exclusive_scan`: `out[c] = Σ_{c'<c} in[c']`. -/
def exclusiveScan {M : Type*} [AddMonoid M] (f : ℕ → M) : ℕ → M
  | 0 => 0
  | c + 1 => exclusiveScan f c + f c

/-- Specification: sum of the values stored under key `c`. -/
def sumAt {M : Type*} [AddMonoid M] (c : ℕ) (l : List (ℕ × M)) : M :=
  ((l.filter (fun kv => kv.1 = c)).map Prod.snd).sum

section
variable {M : Type*}

theorem sumAt_nil [AddMonoid M] (c : ℕ) : sumAt c ([] : List (ℕ × M)) = 0 := by simp [sumAt]

theorem sumAt_cons [AddMonoid M] (c k : ℕ) (v : M) (l : List (ℕ × M)) :
    sumAt c ((k, v) :: l) = (if k = c then v else 0) + sumAt c l := by
  unfold sumAt
  by_cases h : k = c <;> simp [h]

theorem reduceByKey_cons [Add M] (k : ℕ) (v : M) (t : List (ℕ × M)) :
    reduceByKey ((k, v) :: t) =
      match reduceByKey t with
      | [] => [(k, v)]
      | (k', v') :: r => if k = k' then (k, v + v') :: r else (k, v) :: (k', v') :: r := rfl

/-- reduce_by_key never changes the total stored under a key (sortedness not needed). -/
theorem sumAt_reduceByKey [AddMonoid M] (c : ℕ) (l : List (ℕ × M)) :
    sumAt c (reduceByKey l) = sumAt c l := by
  induction l with
  | nil => rfl
  | cons kv t ih =>
    obtain ⟨k, v⟩ := kv
    rw [reduceByKey_cons, sumAt_cons, ← ih]
    cases h : reduceByKey t with
    | nil => simp [sumAt_cons, sumAt_nil]
    | cons kv' r =>
      obtain ⟨k', v'⟩ := kv'
      by_cases hk : k = k'
      · subst hk
        by_cases hc : k = c <;> simp [sumAt_cons, hc, add_assoc]
      · simp [hk, sumAt_cons]

theorem mem_keys_reduceByKey [Add M] (c : ℕ) (l : List (ℕ × M)) :
    c ∈ (reduceByKey l).map Prod.fst ↔ c ∈ l.map Prod.fst := by
  induction l with
  | nil => rfl
  | cons kv t ih =>
    obtain ⟨k, v⟩ := kv
    rw [reduceByKey_cons, List.map_cons, List.mem_cons, ← ih]
    cases h : reduceByKey t with
    | nil => simp
    | cons kv' r =>
      obtain ⟨k', v'⟩ := kv'
      by_cases hk : k = k'
      · subst hk; simp
      · simp [hk]

/-- On sorted keys the output keys are strictly increasing (each cell appears once). -/
theorem reduceByKey_keys_strict [Add M] (l : List (ℕ × M))
    (hs : (l.map Prod.fst).Pairwise (· ≤ ·)) :
    ((reduceByKey l).map Prod.fst).Pairwise (· < ·) := by
  induction l with
  | nil => simp [reduceByKey]
  | cons kv t ih =>
    obtain ⟨k, v⟩ := kv
    rw [List.map_cons, List.pairwise_cons] at hs
    have iht := ih hs.2
    have hle : ∀ c ∈ (reduceByKey t).map Prod.fst, k ≤ c := by
      intro c hc
      exact hs.1 c ((mem_keys_reduceByKey c t).1 hc)
    rw [reduceByKey_cons]
    cases h : reduceByKey t with
    | nil => simp
    | cons kv' r =>
      obtain ⟨k', v'⟩ := kv'
      rw [h] at iht hle
      by_cases hk : k = k'
      · subst hk
        simpa using iht
      · simp only [hk, if_false]
        rw [List.map_cons, List.pairwise_cons]
        refine ⟨?_, iht⟩
        intro c hc
        rw [List.map_cons] at hc iht hle
        rcases List.mem_cons.1 hc with rfl | hc'
        · exact lt_of_le_of_ne (hle _ (by simp)) hk
        · have h1 := (List.pairwise_cons.1 iht).1 c hc'
          have h2 := hle k' (by simp)
          simp only at h1
          omega

theorem scatter_not_mem (dst : ℕ → M) (l : List (ℕ × M)) (c : ℕ)
    (h : c ∉ l.map Prod.fst) : scatter dst l c = dst c := by
  induction l generalizing dst with
  | nil => rfl
  | cons kv t ih =>
    obtain ⟨k, v⟩ := kv
    simp only [List.map_cons, List.mem_cons, not_or] at h
    simp [scatter, ih _ h.2, Function.update_of_ne h.1]

theorem sumAt_not_mem [AddMonoid M] (l : List (ℕ × M)) (c : ℕ)
    (h : c ∉ l.map Prod.fst) : sumAt c l = 0 := by
  induction l with
  | nil => rfl
  | cons kv t ih =>
    obtain ⟨k, v⟩ := kv
    simp only [List.map_cons, List.mem_cons, not_or] at h
    rw [sumAt_cons, ih h.2, if_neg (fun e => h.1 e.symm), add_zero]

/-- Scattering distinct keys into a zero-filled vector stores `sumAt`. -/
theorem scatter_nodup [AddMonoid M] (dst : ℕ → M) (l : List (ℕ × M)) (c : ℕ)
    (hn : (l.map Prod.fst).Nodup) :
    scatter dst l c = if c ∈ l.map Prod.fst then sumAt c l else dst c := by
  induction l generalizing dst with
  | nil => simp [scatter]
  | cons kv t ih =>
    obtain ⟨k, v⟩ := kv
    rw [List.map_cons, List.nodup_cons] at hn
    simp only [scatter]
    by_cases hc : c = k
    · subst hc
      rw [scatter_not_mem _ _ _ hn.1, sumAt_cons, sumAt_not_mem _ _ hn.1]
      simp
    · have hk : ¬ k = c := fun e => hc e.symm
      rw [ih _ hn.2, sumAt_cons, if_neg hk, zero_add]
      have hm : c ∈ List.map Prod.fst ((k, v) :: t) ↔ c ∈ List.map Prod.fst t := by
        rw [List.map_cons, List.mem_cons]; exact or_iff_right hc
      simp only [hm, Function.update_of_ne hc]

/-- fill with 0, reduce_by_key over sorted keys, scatter = per-key sum. -/
theorem scatter_reduceByKey [AddMonoid M] (l : List (ℕ × M)) (c : ℕ)
    (hs : (l.map Prod.fst).Pairwise (· ≤ ·)) :
    scatter (fun _ => 0) (reduceByKey l) c = sumAt c l := by
  have hnd : ((reduceByKey l).map Prod.fst).Nodup :=
    (reduceByKey_keys_strict l hs).imp (fun h => Nat.ne_of_lt h)
  rw [scatter_nodup _ _ _ hnd, sumAt_reduceByKey]
  by_cases hc : c ∈ (reduceByKey l).map Prod.fst
  · simp [hc]
  · rw [if_neg hc, sumAt_not_mem]
    rwa [mem_keys_reduceByKey] at hc

theorem sumAt_perm [AddCommMonoid M] {l l' : List (ℕ × M)} (h : l.Perm l') (c : ℕ) :
    sumAt c l = sumAt c l' := by
  unfold sumAt
  exact ((h.filter _).map _).sum_eq

end

/-! ### Sorting by cell

`thrust::sort_by_key` is not stable, and the shuffle sorts by random keys first, so the model does
not pick an algorithm: it accepts *any* outcome satisfying the documented contract. -/

/-- `sorted_id`, `sorted_ijk` as left by `hskpng_sort_helper`
(src/impl/housekeeping/particles_impl_hskpng_sort.ipp:15-57), any outcome of the (unstable) sorts:
`sid` is a rearrangement of `0..N-1`, and the keys `ijk[sid[p]]` are non-decreasing. -/
structure IsCellSort (N : ℕ) (ijk : ℕ → ℕ) (sid : List ℕ) : Prop where
  perm : sid.Perm (List.range N)
  sorted : (sid.map ijk).Pairwise (· ≤ ·)

/-- count_ijk / count_num produced by `hskpng_count`
(src/impl/housekeeping/particles_impl_hskpng_count.ipp:25-31). -/
def hskpngCount (ijk : ℕ → ℕ) (sid : List ℕ) : List (ℕ × ℕ) :=
  reduceByKey (sid.map (fun i => (ijk i, 1)))

theorem sumAt_map_ones (c : ℕ) (ijk : ℕ → ℕ) (sid : List ℕ) :
    sumAt c (sid.map (fun i => (ijk i, 1))) = (sid.filter (fun i => ijk i = c)).length := by
  induction sid with
  | nil => rfl
  | cons i t ih =>
    rw [List.map_cons, sumAt_cons, ih]
    by_cases h : ijk i = c
    · simp [h]; omega
    · simp [h]

theorem exclusiveScan_eq_sum {M : Type*} [AddCommMonoid M] (f : ℕ → M) (c : ℕ) :
    exclusiveScan f c = ((List.range c).map f).sum := by
  induction c with
  | zero => rfl
  | succ c ih => rw [exclusiveScan, ih, List.range_succ]; simp

end LCP
