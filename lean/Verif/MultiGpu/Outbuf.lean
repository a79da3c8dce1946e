import Verif.Distmem.Props
import Mathlib.Data.List.GetD

/-!
# C94: output of the multi-GPU backend

Sources: src/particles_multi_gpu_diag.ipp:273-340 (`outbuf`, `add_puddle`, `diag_puddle`), src/impl_multi_gpu/particles_multi_gpu_impl.ipp:31-37,132-157
(`n_cell_tot`, `n_x_bfr`, `n_cell_bfr`), src/impl/diagnose_SD_attributes/particles_impl_fill_outbuf.ipp:13-38 (`fill_outbuf`).
-/
namespace LCP.MultiGpu
open LCP.Distmem

/-- one device as far as `outbuf` is concerned: its position among the cells of the whole domain, the contents of the pooled
host vector handed out by `tmp_host_real_cell`, and the result of the last diagnostic (`count_ijk`, `count_mom`) -/
structure Dev where
  nCellBfr : ℕ
  pool : List ℝ
  diag : List (ℕ × ℝ)

/-- `fill_outbuf(thrust::host_vector<real_t> &outbuf)` (particles_impl_fill_outbuf.ipp:13-38): zero the vector, then scatter -/
def fillHost (diag : List (ℕ × ℝ)) (v : List ℝ) : List ℝ :=
  diag.foldl (fun w p => w.set p.1 p.2) (List.replicate v.length 0)

/-- `thrust::copy(outbuf.begin(), outbuf.end(), real_n_cell_tot.begin() + n_cell_bfr)` (particles_multi_gpu_diag.ipp:299-303) -/
def writeAt (tot : List ℝ) (off : ℕ) (v : List ℝ) : List ℝ :=
  tot.take off ++ v ++ tot.drop (off + v.length)

/-- one thread (particles_multi_gpu_diag.ipp:279-292): the pairs are (host vector of the pool, copy held by the `std::bind` object).
`std::bind(&fill_outbuf, pimpl, outbuf)` stores a copy of its arguments, and `fill_outbuf` is called with the stored copy -/
def runBound (d : Dev) : List ℝ × List ℝ :=
  let boundCopy := d.pool
  (d.pool, fillHost d.diag boundCopy)

/-- `particles_t<real_t, multi_CUDA>::outbuf` (particles_multi_gpu_diag.ipp:273-306) -/
def outbuf (devs : List Dev) (tot : List ℝ) : List ℝ :=
  let ran := devs.map fun d => (d.nCellBfr, (runBound d).1)
  ran.foldl (fun t p => writeAt t p.1 p.2) tot

/-- the same with `std::ref(outbuf)`: not the code, but what is meant -/
def outbufRef (devs : List Dev) (tot : List ℝ) : List ℝ :=
  (devs.map fun d => (d.nCellBfr, fillHost d.diag d.pool)).foldl (fun t p => writeAt t p.1 p.2) tot

/-- the devices set up by the constructor (particles_multi_gpu_impl.ipp:139-157): device `r` holds `get_dev_nx` columns of
`m = ny·nz` cells each after `n_x_bfr` columns of the devices before it -/
def devsOf (nx m size : ℕ) (pool : ℕ → List ℝ) (dg : ℕ → List (ℕ × ℝ)) : List Dev :=
  (List.range size).map fun r => ⟨r * getDevNx nx 0 size * m, pool r, dg r⟩

/-- `add_puddle` (particles_multi_gpu_diag.ipp:308-315), entries numbered -/
def addPuddle (x y : ℕ → ℝ) : ℕ → ℝ := fun i => x i + y i
/-- `diag_puddle` (particles_multi_gpu_diag.ipp:317-340) -/
def puddle (devs : List (ℕ → ℝ)) : ℕ → ℝ := devs.foldl addPuddle (fun _ => 0)

/-! ### Assembling -/

theorem writeAt_length {tot v : List ℝ} {off : ℕ} (h : off + v.length ≤ tot.length) : (writeAt tot off v).length = tot.length := by
  simp [writeAt]; omega

theorem writeAt_get {tot v : List ℝ} {off : ℕ} (h : off + v.length ≤ tot.length) (c : ℕ) :
    (writeAt tot off v)[c]? = if off ≤ c ∧ c < off + v.length then v[c - off]? else tot[c]? := by
  unfold writeAt
  rw [List.append_assoc]
  by_cases h1 : c < off
  · rw [if_neg (by omega), List.getElem?_append_left (by simp; omega), List.getElem?_take, if_pos h1]
  · rw [List.getElem?_append_right (by simp; omega)]
    have e : (List.take off tot).length = off := by simp; omega
    rw [e]
    by_cases h2 : c < off + v.length
    · rw [if_pos (by omega), List.getElem?_append_left (by omega)]
    · rw [if_neg (by omega), List.getElem?_append_right (by omega), List.getElem?_drop]
      congr 1; omega

/-- the vectors of the devices side by side in the output of the whole domain -/
theorem gather_cells {nx m size : ℕ} (hs : 0 < size) (v : ℕ → List ℝ) (hv : ∀ r < size, (v r).length = getDevNx nx r size * m)
    (tot : List ℝ) (ht : tot.length = nx * m) (k : ℕ) (hk : k ≤ size) :
    let res := ((List.range k).map fun r => (r * getDevNx nx 0 size * m, v r)).foldl (fun t p => writeAt t p.1 p.2) tot
    res.length = nx * m ∧ ∀ r < k, ∀ i < getDevNx nx r size * m, res[r * getDevNx nx 0 size * m + i]? = (v r)[i]? := by
  obtain ⟨_, hstep, hlast⟩ := partition_contiguous (nx := nx) hs
  have hend : ∀ r < size, (r * getDevNx nx 0 size + getDevNx nx r size) ≤ nx := by
    intro r hr
    by_cases h : r + 1 < size
    · rw [hstep r h]
      have h1 : (r + 1) * getDevNx nx 0 size ≤ (size - 1) * getDevNx nx 0 size := Nat.mul_le_mul_right _ (by omega)
      omega
    · have : r = size - 1 := by omega
      subst this; omega
  induction k with
  | zero => simp [ht]
  | succ k ih =>
    obtain ⟨h1, h2⟩ := ih (by omega)
    simp only [List.range_succ, List.map_append, List.map_cons, List.map_nil, List.foldl_append, List.foldl_cons, List.foldl_nil]
    generalize hres : ((List.range k).map fun r => (r * getDevNx nx 0 size * m, v r)).foldl (fun t p => writeAt t p.1 p.2) tot = res at h1 h2
    have hle : k * getDevNx nx 0 size * m + (v k).length ≤ res.length := by
      rw [h1, hv k (by omega), ← Nat.add_mul]
      exact Nat.mul_le_mul_right _ (hend k (by omega))
    refine ⟨by rw [writeAt_length hle, h1], ?_⟩
    intro r hr i hi
    rw [writeAt_get hle]
    by_cases hrk : r = k
    · subst hrk
      rw [if_pos ⟨by omega, by rw [hv r (by omega)]; omega⟩]
      congr 1; omega
    · have h3 : r * getDevNx nx 0 size * m + getDevNx nx r size * m ≤ k * getDevNx nx 0 size * m := by
        rw [← Nat.add_mul, hstep r (by omega)]
        exact Nat.mul_le_mul_right _ (Nat.mul_le_mul_right _ (by omega))
      rw [if_neg (by omega)]
      exact h2 r (by omega) i hi

theorem fillHost_length (d : List (ℕ × ℝ)) (v : List ℝ) : (fillHost d v).length = v.length := by
  unfold fillHost
  have : ∀ (w : List ℝ), (d.foldl (fun w p => w.set p.1 p.2) w).length = w.length := by
    induction d with
    | nil => simp
    | cons a l ih => intro w; rw [List.foldl_cons, ih]; simp
  rw [this]; simp

theorem scatter_get (d : List (ℕ × ℝ)) (hd : (d.map Prod.fst).Nodup) (w : List ℝ) (i : ℕ) (hi : i < w.length) :
    (∀ x, (i, x) ∈ d → (d.foldl (fun w p => w.set p.1 p.2) w)[i]? = some x) ∧
    ((∀ x, (i, x) ∉ d) → (d.foldl (fun w p => w.set p.1 p.2) w)[i]? = w[i]?) := by
  induction d generalizing w with
  | nil => simp
  | cons a l ih =>
    obtain ⟨k, y⟩ := a
    rw [List.map_cons, List.nodup_cons] at hd
    obtain ⟨h1, h2⟩ := ih hd.2 (w.set k y) (by simpa using hi)
    rw [List.foldl_cons]
    constructor
    · intro x hx
      rcases List.mem_cons.1 hx with e | e
      · obtain ⟨rfl, rfl⟩ := Prod.mk.injEq .. ▸ e
        rw [h2 fun x hx => hd.1 (List.mem_map.2 ⟨_, hx, rfl⟩)]
        simp [hi]
      · exact h1 x e
    · intro hn
      rw [h2 fun x hx => hn x (List.mem_cons_of_mem _ hx)]
      have : k ≠ i := by rintro rfl; exact hn y (by simp)
      rw [List.getElem?_set_ne this]

/-- **C94 (one device).** `outbuf()` of a device returns, for a cell with droplets, the result of the last diagnostic, and zero for cells without any, whatever the
vector contained -/
theorem fillHost_cells (d : List (ℕ × ℝ)) (hd : (d.map Prod.fst).Nodup) (v : List ℝ) (i : ℕ) (hi : i < v.length) :
    (∀ x, (i, x) ∈ d → (fillHost d v)[i]? = some x) ∧ ((∀ x, (i, x) ∉ d) → (fillHost d v)[i]? = some 0) := by
  obtain ⟨h1, h2⟩ := scatter_get d hd (List.replicate v.length 0) i (by simpa using hi)
  refine ⟨h1, fun h => ?_⟩
  unfold fillHost
  rw [h2 h]
  simp [hi]

example : (fillHost [(2, 7), (0, 5)] [1, 2, 3, 4])[1]? = some 0 ∧ (fillHost [(2, 7), (0, 5)] [1, 2, 3, 4])[2]? = some 7 := by
  refine ⟨(fillHost_cells _ (by simp) _ 1 (by simp)).2 (by simp), (fillHost_cells _ (by simp) _ 2 (by simp)).1 7 (by simp)⟩

/-- **C94** What is meant: with the host vectors passed by reference, `outbuf()` would return, for cell `i` of device `r`, what that
device's own `outbuf()` returns for it. -/
theorem outbuf_by_reference {nx m size : ℕ} (hs : 0 < size) (pool : ℕ → List ℝ) (dg : ℕ → List (ℕ × ℝ))
    (hp : ∀ r < size, (pool r).length = getDevNx nx r size * m) (tot : List ℝ) (ht : tot.length = nx * m) (r : ℕ) (hr : r < size)
    (i : ℕ) (hi : i < getDevNx nx r size * m) :
    (outbufRef (devsOf nx m size pool dg) tot)[r * getDevNx nx 0 size * m + i]? = (fillHost (dg r) (pool r))[i]? := by
  have hl : ∀ d v, (fillHost d v).length = v.length := by
    intro d v
    unfold fillHost
    have : ∀ (w : List ℝ), (d.foldl (fun w p => w.set p.1 p.2) w).length = w.length := by
      induction d with
      | nil => simp
      | cons a l ih => intro w; rw [List.foldl_cons, ih]; simp
    rw [this]; simp
  have := (gather_cells hs (fun r => fillHost (dg r) (pool r)) (fun r hr => by rw [hl, hp r hr]) tot ht size le_rfl).2 r hr i hi
  simpa [outbufRef, devsOf, List.map_map, Function.comp_def] using this

/-- **C94, partial** What the code does: `outbuf()` returns, for cell `i` of device `r`, whatever the pooled host vector of that device
held before the call. -/
theorem multi_outbuf_partial {nx m size : ℕ} (hs : 0 < size) (pool : ℕ → List ℝ) (dg : ℕ → List (ℕ × ℝ))
    (hp : ∀ r < size, (pool r).length = getDevNx nx r size * m) (tot : List ℝ) (ht : tot.length = nx * m) (r : ℕ) (hr : r < size)
    (i : ℕ) (hi : i < getDevNx nx r size * m) :
    (outbuf (devsOf nx m size pool dg) tot)[r * getDevNx nx 0 size * m + i]? = (pool r)[i]? := by
  have := (gather_cells hs pool hp tot ht size le_rfl).2 r hr i hi
  simpa [outbuf, runBound, devsOf, List.map_map, Function.comp_def] using this

/-- The result does not depend on the diagnostics at all. -/
theorem multi_outbuf_ignores_diagnostics (nx m size : ℕ) (pool : ℕ → List ℝ) (dg dg' : ℕ → List (ℕ × ℝ)) (tot : List ℝ) :
    outbuf (devsOf nx m size pool dg) tot = outbuf (devsOf nx m size pool dg') tot := by
  simp [outbuf, devsOf, runBound, List.map_map, Function.comp_def]

/-- Two devices of one cell each, on which the last diagnostic gave 5 and 7: `outbuf()` does not return these values. -/
theorem multi_outbuf_wrong : ∃ (pool : ℕ → List ℝ) (dg : ℕ → List (ℕ × ℝ)) (tot : List ℝ),
    (∀ r < 2, (pool r).length = getDevNx 2 r 2 * 1) ∧ tot.length = 2 ∧
    outbufRef (devsOf 2 1 2 pool dg) tot = [5, 7] ∧ outbuf (devsOf 2 1 2 pool dg) tot = [0, 0] := by
  refine ⟨fun _ => [0], fun r => [(0, if r = 0 then 5 else 7)], [0, 0], ?_, rfl, ?_, ?_⟩
  · intro r hr
    have : r = 0 ∨ r = 1 := by omega
    rcases this with h | h <;> subst h <;> simp [getDevNx]
  · simp [outbufRef, devsOf, List.range_succ, getDevNx, fillHost, writeAt]
  · simp [outbuf, runBound, devsOf, List.range_succ, getDevNx, writeAt]

/-- **C94** Every entry of the puddle is the sum over the devices. -/
theorem multi_puddle (devs : List (ℕ → ℝ)) (i : ℕ) : puddle devs i = (devs.map fun p => p i).sum := by
  have : ∀ (l : List (ℕ → ℝ)) (a : ℕ → ℝ), l.foldl addPuddle a i = a i + (l.map fun p => p i).sum := by
    intro l
    induction l with
    | nil => simp
    | cons p l ih => intro a; simp [ih, addPuddle, add_assoc]
  rw [puddle, this]; simp

/-- non-vacuity: five columns of two cells on two devices: device 1 holds three columns, its first cell is cell 4 -/
example : getDevNx 5 1 2 * 2 = 6 ∧ 1 * getDevNx 5 0 2 * 2 = 4 := by decide

end LCP.MultiGpu
