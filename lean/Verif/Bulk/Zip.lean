import Verif.Py.Model
import Verif.Blk1m.Model

/-!
# C129: bulk calls work cell by cell, on containers of equal sizes

Sources: include/libcloudph++/common/detail/zip.hpp (`zip`: a pair of `boost::zip_iterator`s, equal only if all the iterators are equal),
its loops in blk_1m/adj_cellwise.hpp:104, 216, blk_1m/rhs_cellwise.hpp:26, 97, 185, blk_2m/rhs_cellwise.hpp:57 (forwards) and
blk_1m/rhs_columnwise.hpp:43-48, 116-121, blk_2m/rhs_columnwise.hpp:55-60 (backwards), bindings/python/util.hpp:37-64 (`np2bz`),
bindings/python/blk_1m.hpp, blk_2m.hpp.  Containers do not overlap.
-/
namespace LCP.Bulk

/-! ### Model -/

/-- the loop `for (auto tup : zip(c...)) body` from position `k` on: the end is reached when every iterator is at its end; otherwise
the body reads and writes element `k` of every container (`none`: outside of one of them) (zip.hpp:17-33) -/
noncomputable def forEach {m : ℕ} (body : (Fin (m + 1) → ℝ) → Fin (m + 1) → ℝ) (c : Fin (m + 1) → List ℝ) (k : ℕ) :
    Option (Fin (m + 1) → List ℝ) :=
  if ∀ i, k = (c i).length then some c
  else if h : ∀ i, k < (c i).length then
    forEach body (fun i => (c i).set k (body (fun j => (c j)[k]'(h j)) i)) (k + 1)
  else none
termination_by (c 0).length - k
decreasing_by
  have := h 0
  simp only [List.length_set]
  omega

/-- the loop `for (tup_ptr = iter.end(); tup_ptr != iter.begin();) { --tup_ptr; ... }` : distances of the iterators from their beginnings;
`some`: number of turns, `none`: a step before a beginning (blk_1m/rhs_columnwise.hpp:47-49) -/
def backward {m : ℕ} (p : Fin (m + 1) → ℕ) : Option ℕ :=
  if ∀ i, p i = 0 then some 0
  else if h : ∀ i, 0 < p i then (backward fun i => p i - 1).map (· + 1)
  else none
termination_by p 0
decreasing_by
  have := h 0
  omega

/-- the column function as far as it concerns sizes: nothing without sedimentation; the last element of the densities is looked at
first, and the tendency of the lowest cell written last, through a null pointer if there was no turn
(blk_1m/rhs_columnwise.hpp:36, 44, 83; blk_2m/rhs_columnwise.hpp:46-60) -/
def columnTurns {m : ℕ} (sedi : Bool) (len : Fin (m + 1) → ℕ) (rhod : Fin (m + 1)) : Option ℕ :=
  if sedi = false then some 0
  else if len rhod = 0 then none
  else (backward len).bind fun t => if t = 0 then none else some t

/-- how a call from Python ends -/
inductive Ends (α : Type) where
  | returns (a : α)
  | raises
  | ub

/-- a cellwise function called from Python: `np2bz` checks type and layout of every array and looks at all its elements as
one sequence, then the loop (bindings/python/util.hpp:37-64, blk_1m.hpp:77-220, blk_2m.hpp:23-70) -/
noncomputable def pyCellwise {m : ℕ} (body : (Fin (m + 1) → ℝ) → Fin (m + 1) → ℝ) (a : Fin (m + 1) → Py.NpArr)
    (c : Fin (m + 1) → List ℝ) : Ends (Fin (m + 1) → List ℝ) :=
  if ∃ i, (a i).dtype ≠ .float64 ∨ (a i).cContig = false then .raises
  else match forEach body c 0 with
    | some c' => .returns c'
    | none => .ub

/-! ### Theorems -/

theorem forEach_ok_aux {m : ℕ} (body : (Fin (m + 1) → ℝ) → Fin (m + 1) → ℝ) (N : ℕ) (c : Fin (m + 1) → List ℝ) (k : ℕ) (hk : k ≤ N)
    (h : ∀ i, (c i).length = N) :
    ∃ c', forEach body c k = some c' ∧ ∀ i, (c' i).length = N ∧
      (∀ q < k, (c' i)[q]? = (c i)[q]?) ∧
      ∀ q (hq : q < N), k ≤ q → (c' i)[q]? = some (body (fun j => (c j)[q]'(by rw [h]; exact hq)) i) := by
  induction hd : N - k generalizing c k with
  | zero =>
    have e : k = N := by omega
    refine ⟨c, ?_, fun i => ⟨h i, fun _ _ => rfl, fun q hq hkq => by omega⟩⟩
    rw [forEach, if_pos (fun i => by rw [h i, e])]
  | succ d ih =>
    have hlt : k < N := by omega
    have hl : ∀ i, k < (c i).length := fun i => by rw [h]; exact hlt
    have hne : ¬ ∀ i, k = (c i).length := fun hh => by have := hh 0; rw [h] at this; omega
    obtain ⟨c', e, hc⟩ := ih (fun i => (c i).set k (body (fun j => (c j)[k]'(hl j)) i)) (k + 1) (by omega)
      (fun i => by rw [List.length_set, h]) (by omega)
    refine ⟨c', by rw [forEach, if_neg hne, dif_pos hl, e], fun i => ?_⟩
    obtain ⟨l1, l2, l3⟩ := hc i
    refine ⟨l1, fun q hq => ?_, fun q hq hkq => ?_⟩
    · rw [l2 q (by omega), List.getElem?_set_ne (by omega)]
    · rcases Nat.eq_or_lt_of_le hkq with rfl | hlt'
      · rw [l2 k (by omega), List.getElem?_set_self (hl i)]
      · rw [l3 q hq (by omega)]
        have : (fun j => ((c j).set k (body (fun j => (c j)[k]'(hl j)) j))[q]'(by rw [List.length_set, h]; exact hq)) =
            fun j => (c j)[q]'(by rw [h]; exact hq) := by
          funext j
          rw [List.getElem_set_ne (by omega)]
        rw [this]

/-- **C129.** On containers of one size `N`, whatever the cell formula, the loop ends normally, keeps the sizes, and the new values of cell
`q` are the formula applied to the old values of cell `q`: no other cell matters, and every cell is processed exactly once. -/
theorem cellwise {m : ℕ} (body : (Fin (m + 1) → ℝ) → Fin (m + 1) → ℝ) (N : ℕ) (c : Fin (m + 1) → List ℝ) (h : ∀ i, (c i).length = N) :
    ∃ c', forEach body c 0 = some c' ∧ ∀ i, (c' i).length = N ∧
      ∀ q (hq : q < N), (c' i)[q]? = some (body (fun j => (c j)[q]'(by rw [h]; exact hq)) i) := by
  obtain ⟨c', e, hc⟩ := forEach_ok_aux body N c 0 (Nat.zero_le _) h
  exact ⟨c', e, fun i => ⟨(hc i).1, fun q hq => (hc i).2.2 q hq (Nat.zero_le _)⟩⟩

/-- the loop is in bounds exactly if the containers have equal sizes -/
theorem forEach_defined_iff {m : ℕ} (body : (Fin (m + 1) → ℝ) → Fin (m + 1) → ℝ) (c : Fin (m + 1) → List ℝ) :
    (forEach body c 0).isSome ↔ ∀ i j, (c i).length = (c j).length := by
  constructor
  · intro h
    suffices H : ∀ (d : ℕ) (c : Fin (m + 1) → List ℝ) (k : ℕ), (c 0).length - k = d → (forEach body c k).isSome →
        ∀ i j, (c i).length = (c j).length from H _ c 0 rfl h
    intro d
    induction d with
    | zero =>
      intro c k e hs i j
      rw [forEach] at hs
      split_ifs at hs with h1 h2
      · rw [← h1 i, ← h1 j]
      · have := h2 0; omega
      · simp at hs
    | succ d ih =>
      intro c k e hs i j
      rw [forEach] at hs
      split_ifs at hs with h1 h2
      · rw [← h1 i, ← h1 j]
      · have := ih _ (k + 1) (by rw [List.length_set]; omega) hs i j
        simpa using this
      · simp at hs
  · intro h
    obtain ⟨c', e, -⟩ := cellwise body (c 0).length c (fun i => h i 0)
    simp [e]

/-- the backward loop is in bounds exactly if the containers have equal sizes, and then visits every cell once -/
theorem backward_eq {m : ℕ} (p : Fin (m + 1) → ℕ) (N : ℕ) : backward p = some N ↔ ∀ i, p i = N := by
  induction hd : p 0 generalizing p N with
  | zero =>
    rw [backward]
    split_ifs with h1 h2
    · simp only [Option.some.injEq]
      constructor
      · rintro rfl i; exact h1 i
      · intro h; rw [← h 0, hd]
    · have := h2 0; omega
    · simp only [false_iff]
      intro h
      exact h1 fun i => by rw [h i, ← h 0, hd]
  | succ d ih =>
    rw [backward]
    split_ifs with h1 h2
    · have := h1 0; omega
    · have := ih (fun i => p i - 1) (N - 1) (by show p 0 - 1 = d; omega)
      cases N with
      | zero =>
        simp only [Option.map_eq_some_iff, Nat.add_eq_zero_iff, one_ne_zero, and_false, exists_false, false_iff]
        intro h; have := h2 0; have := h 0; omega
      | succ N =>
        simp only [Option.map_eq_some_iff, Nat.add_right_cancel_iff, exists_eq_right]
        rw [show N + 1 - 1 = N from rfl] at this
        rw [this]
        constructor
        · intro h i; have := h i; have := h2 i; omega
        · intro h i; have := h i; omega
    · simp only [false_iff]
      intro h
      refine h2 fun i => ?_
      have := h i; have := h 0; omega

/-- **C129, columns.** With sedimentation the column functions are defined exactly for containers of one size of at least one cell, and then
visit every cell once. -/
theorem column_defined {m : ℕ} (len : Fin (m + 1) → ℕ) (rhod : Fin (m + 1)) (N : ℕ) :
    columnTurns true len rhod = some N ↔ 0 < N ∧ ∀ i, len i = N := by
  unfold columnTurns
  rw [if_neg (by simp)]
  constructor
  · intro h
    split_ifs at h with h1
    obtain ⟨t, ht, h2⟩ := Option.bind_eq_some_iff.1 h
    split_ifs at h2 with h3
    obtain rfl := Option.some.inj h2
    exact ⟨Nat.pos_of_ne_zero h3, (backward_eq len t).1 ht⟩
  · rintro ⟨h1, h2⟩
    rw [if_neg (by rw [h2]; omega), (backward_eq len N).2 h2]
    simp only [Option.bind_some]
    rw [if_neg (by omega)]

/-- **C129, Python.** Arrays of a wrong type or layout raise; arrays of one size are processed cell by cell; but arrays of different
sizes are not noticed: memory outside of them is read and written. -/
theorem python_calls {m : ℕ} (body : (Fin (m + 1) → ℝ) → Fin (m + 1) → ℝ) (a : Fin (m + 1) → Py.NpArr) (c : Fin (m + 1) → List ℝ) :
    ((∃ i, (a i).dtype ≠ .float64 ∨ (a i).cContig = false) → pyCellwise body a c = .raises) ∧
    ((∀ i, (a i).dtype = .float64 ∧ (a i).cContig = true) → (∀ i j, (c i).length = (c j).length) →
      ∃ c', pyCellwise body a c = .returns c' ∧ forEach body c 0 = some c') ∧
    ((∀ i, (a i).dtype = .float64 ∧ (a i).cContig = true) → (∃ i j, (c i).length ≠ (c j).length) → pyCellwise body a c = .ub) := by
  refine ⟨fun h => by simp only [pyCellwise, if_pos h], fun h1 h2 => ?_, fun h1 h2 => ?_⟩
  · have hn : ¬ ∃ i, (a i).dtype ≠ .float64 ∨ (a i).cContig = false := by
      rintro ⟨i, hi⟩; have := h1 i; rcases hi with hi | hi
      · exact hi this.1
      · rw [this.2] at hi; cases hi
    obtain ⟨c', e⟩ := Option.isSome_iff_exists.1 ((forEach_defined_iff body c).2 h2)
    exact ⟨c', by simp only [pyCellwise, if_neg hn, e], e⟩
  · have hn : ¬ ∃ i, (a i).dtype ≠ .float64 ∨ (a i).cContig = false := by
      rintro ⟨i, hi⟩; have := h1 i; rcases hi with hi | hi
      · exact hi this.1
      · rw [this.2] at hi; cases hi
    have e : forEach body c 0 = none := by
      rw [← Option.not_isSome_iff_eq_none, forEach_defined_iff]
      obtain ⟨i, j, hij⟩ := h2
      exact fun h => hij (h i j)
    simp only [pyCellwise, if_neg hn, e]

/-! ### A case: the warm-rain tendencies of the single-moment scheme -/

/-- body of the loop of `rhs_cellwise` of the single-moment scheme on (dot_rc, dot_rr, rc, rr) (blk_1m/rhs_cellwise.hpp:26-64) -/
noncomputable def warmBody (o : Blk1m.Opts) (t : Fin 4 → ℝ) : Fin 4 → ℝ :=
  let cell : Blk1m.Cell := { rhod := 0, p := 0, th := 0, rv := 0, rc := t 2, rr := t 3, ria := 0, rib := 0 }
  let d := Blk1m.rhsWarm o cell { th := 0, rv := 0, rc := t 0, rr := t 1, ria := 0, rib := 0 }
  ![d.rc, d.rr, t 2, t 3]

/-- cell by cell, on fields of any size: what cloud loses in a cell, rain gains in this cell; the contents are not changed -/
theorem warm_field (o : Blk1m.Opts) (N : ℕ) (c : Fin 4 → List ℝ) (h : ∀ i, (c i).length = N) :
    ∃ c', forEach (warmBody o) c 0 = some c' ∧ c' 2 = c 2 ∧ c' 3 = c 3 ∧
      ∀ q (hq : q < N), ∃ x y, (c' 0)[q]? = some x ∧ (c' 1)[q]? = some y ∧
        x + y = (c 0)[q]'(by rw [h]; exact hq) + (c 1)[q]'(by rw [h]; exact hq) := by
  obtain ⟨c', e, hc⟩ := cellwise (warmBody o) N c h
  refine ⟨c', e, ?_, ?_, fun q hq => ⟨_, _, (hc 0).2 q hq, (hc 1).2 q hq, ?_⟩⟩
  · refine List.ext_getElem? fun q => ?_
    by_cases hq : q < N
    · rw [(hc 2).2 q hq, List.getElem?_eq_getElem (by rw [h]; exact hq)]
      simp [warmBody]
    · rw [List.getElem?_eq_none (by rw [(hc 2).1]; omega), List.getElem?_eq_none (by rw [h]; omega)]
  · refine List.ext_getElem? fun q => ?_
    by_cases hq : q < N
    · rw [(hc 3).2 q hq, List.getElem?_eq_getElem (by rw [h]; exact hq)]
      simp [warmBody]
    · rw [List.getElem?_eq_none (by rw [(hc 3).1]; omega), List.getElem?_eq_none (by rw [h]; omega)]
  · simp [warmBody, Blk1m.rhsWarm]

/-- non-vacuity: two cells, one more element in one array -/
example (o : Blk1m.Opts) (a : Fin 4 → Py.NpArr) (ha : ∀ i, (a i).dtype = .float64 ∧ (a i).cContig = true) :
    (∃ c', pyCellwise (warmBody o) a ![[0, 0], [0, 0], [1e-3, 2e-3], [1e-4, 0]] = .returns c') ∧
    pyCellwise (warmBody o) a ![[0, 0], [0, 0], [1e-3, 2e-3], [1e-4, 0, 0]] = .ub := by
  obtain ⟨-, h2, h3⟩ := python_calls (warmBody o) a ![[0, 0], [0, 0], [1e-3, 2e-3], [1e-4, 0]]
  obtain ⟨-, -, k3⟩ := python_calls (warmBody o) a ![[0, 0], [0, 0], [1e-3, 2e-3], [1e-4, 0, 0]]
  refine ⟨?_, k3 ha ⟨0, 3, by simp⟩⟩
  obtain ⟨c', e, -⟩ := h2 ha (by intro i j; fin_cases i <;> fin_cases j <;> rfl)
  exact ⟨c', e⟩

end LCP.Bulk
