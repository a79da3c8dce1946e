import Verif.Src.Model
import Verif.Init.Props

/-!
# C76: where and how much the source adds
-/
namespace LCP.Src
open LCP.Grid LCP.Init

/-- specification: the centre of the cell lies in the source box -/
def InSource (d : Dims) (b : Box) (s : SrcBox) (c : ℕ) : Prop :=
  let q := unravel d c
  (s.x0 < (q.1 + 1 / 2) * b.dx ∧ (q.1 + 1 / 2) * b.dx ≤ s.x1) ∧
  (d.ny ≠ 0 → s.y0 < (q.2.1 + 1 / 2) * b.dy ∧ (q.2.1 + 1 / 2) * b.dy ≤ s.y1) ∧
  (s.z0 < (q.2.2 + 1 / 2) * b.dz ∧ (q.2.2 + 1 / 2) * b.dz ≤ s.z1)

theorem edge_le {p dp : ℝ} (hp : 0 ≤ p) (hd : 0 < dp) (i : ℕ) : edgeIdx p dp ≤ i ↔ p < (i + 1 / 2) * dp := by
  unfold edgeIdx toUint
  rw [← Nat.lt_add_one_iff, Nat.floor_lt (by positivity)]
  push_cast
  constructor
  · intro h
    have : p / dp < i + 1 / 2 := by linarith
    rwa [div_lt_iff₀ hd] at this
  · intro h
    rw [← div_lt_iff₀ hd] at h; linarith

theorem lt_edge {p dp : ℝ} (hp : 0 ≤ p) (hd : 0 < dp) (i : ℕ) : i < edgeIdx p dp ↔ (i + 1 / 2) * dp ≤ p := by
  rw [← not_le, edge_le hp hd, not_lt]

/-- grids on which a source is possible -/
def Grid23 (d : Dims) : Prop := 0 < d.nx ∧ 0 < d.nz

theorem prod_ite (n : ℕ) (p q : Prop) [Decidable p] [Decidable q] : n * (if p then 1 else 0) * (if q then 1 else 0) = if p ∧ q then n else 0 := by
  by_cases hp : p <;> by_cases hq : q <;> simp [hp, hq]

open Classical in
/-- **C76** The number of super-droplets created is `number` in the cells whose centre lies in the source box and 0 in the others. -/
theorem source_cells {d : Dims} {b : Box} {s : SrcBox} (hg : Grid23 d) (hx : 0 < b.dx) (hy : d.ny ≠ 0 → 0 < b.dy) (hz : 0 < b.dz)
    (h0 : 0 ≤ s.x0 ∧ 0 ≤ s.x1 ∧ 0 ≤ s.z0 ∧ 0 ≤ s.z1) (h1 : d.ny ≠ 0 → 0 ≤ s.y0 ∧ 0 ≤ s.y1) (number : ℕ) :
    ∃ cnt, initCountNumSrc d b s number = some cnt ∧ ∀ c, cnt c = if InSource d b s c then number else 0 := by
  obtain ⟨hnx, hnz⟩ := hg
  by_cases hny : d.ny = 0
  · have hd : d.nDims = 2 := by
      simp [Dims.nDims, m1, hny, hnx.ne', hnz.ne', Nat.div_self hnx, Nat.div_self hnz]
    simp only [initCountNumSrc, hd]
    refine ⟨_, rfl, fun c => ?_⟩
    simp only [InSource, unravel, hd, hny]
    rw [prod_ite, prod_ite]
    simp only [lt_edge h0.2.2.2 hz, edge_le h0.2.2.1 hz, lt_edge h0.2.1 hx, edge_le h0.1 hx]
    split_ifs <;> first | rfl | tauto
  · have hyp : 0 < d.ny := Nat.pos_of_ne_zero hny
    have hd : d.nDims = 3 := by
      simp [Dims.nDims, m1, hny, hnx.ne', hnz.ne', Nat.div_self hnx, Nat.div_self hnz, Nat.div_self hyp]
    simp only [initCountNumSrc, hd]
    refine ⟨_, rfl, fun c => ?_⟩
    simp only [InSource, unravel, hd]
    rw [prod_ite, prod_ite, prod_ite]
    simp only [lt_edge h0.2.2.2 hz, edge_le h0.2.2.1 hz, lt_edge h0.2.1 hx, edge_le h0.1 hx, lt_edge (h1 hny).2 (hy hny),
      edge_le (h1 hny).1 (hy hny)]
    split_ifs <;> first | rfl | tauto

/-- **C76** the source is rejected in 0D and 1D -/
theorem source_needs_2d {d : Dims} (b : Box) (s : SrcBox) (number : ℕ) (h : d.ny = 0 ∧ d.nz = 0) : initCountNumSrc d b s number = none := by
  obtain ⟨h1, h2⟩ := h
  have : d.nDims = 0 ∨ d.nDims = 1 := by
    by_cases hx : d.nx = 0
    · left; simp [Dims.nDims, h1, h2, hx, m1]
    · right; simp [Dims.nDims, h1, h2, hx, m1, Nat.div_self (Nat.pos_of_ne_zero hx)]
  rcases this with h | h <;> simp [initCountNumSrc, h]

/-! ### The simple source -/

/-- a list indexed cell by cell -/
theorem range_scan (cnt : ℕ → ℕ) (N : ℕ) :
    List.range ((List.range N).map cnt).sum = (List.range N).flatMap fun c => (List.range (cnt c)).map fun j => ((List.range c).map cnt).sum + j := by
  induction N with
  | zero => simp
  | succ n ih =>
    rw [List.range_succ, List.map_append, List.sum_append, List.flatMap_append, ← ih]
    simp only [List.map_cons, List.map_nil, List.sum_cons, List.sum_nil, Nat.add_zero, List.flatMap_cons, List.flatMap_nil, List.append_nil]
    rw [List.range_add]

/-- specification: number of particles that a distribution `f` (number per volume, log-radius and second) emits in a time `t` in a cell of volume `V`
(with the correction factors), in a log-radius interval of width `w` on which it has the value `v` -/
noncomputable def emitted (v w t V : ℝ) (cf : CellFactor) : ℝ := v * w * t * V * cf.rho * cf.prof * cf.frac

theorem amount_close (e : Env) (cell : ℕ) (rd3 : ℝ)
    (h : 0 ≤ emitted (e.f (Real.log rd3 / 3)) ((e.hi - e.lo) / e.number) (e.sup * e.dt0) (e.b.dx * e.b.dy * e.b.dz) (e.cf cell)) :
    |(amount e cell rd3 : ℝ) -
      emitted (e.f (Real.log rd3 / 3)) ((e.hi - e.lo) / e.number) (e.sup * e.dt0) (e.b.dx * e.b.dy * e.b.dz) (e.cf cell)| ≤ 1 / 2 := by
  have : nReal e.f (mul e) (e.cf cell) rd3 =
      emitted (e.f (Real.log rd3 / 3)) ((e.hi - e.lo) / e.number) (e.sup * e.dt0) (e.b.dx * e.b.dy * e.b.dz) (e.cf cell) := by
    simp only [nReal, mul, multiplier0, emitted]; ring
  unfold amount initN
  rw [this]
  exact toUint_round h

/-- what the user asks for in a cell: one super-droplet for each of `number` equal intervals of log-radius, with the multiplicity that the distribution
gives to its size for the time between two activations of the source, positioned in the cell `c` (given by `initXyz`, see C33) and with the hygroscopicity of
the source -/
def Requested (e : Env) (r : Rnd) (c j : ℕ) (s : Sd) : Prop :=
  s.cell = c ∧ e.lo + j * ((e.hi - e.lo) / e.number) ≤ Real.log s.rd3 / 3 ∧ Real.log s.rd3 / 3 < e.lo + (j + 1) * ((e.hi - e.lo) / e.number) ∧
  0 < s.rd3 ∧ s.kappa = e.kappa ∧ s.rw2 = e.wet c s.rd3 ∧ (∃ u, (s.x, s.y, s.z) = initXyz e.d e.b (r.pos u) c) ∧
  (0 ≤ emitted (e.f (Real.log s.rd3 / 3)) ((e.hi - e.lo) / e.number) (e.sup * e.dt0) (e.b.dx * e.b.dy * e.b.dz) (e.cf c) →
    |(s.n : ℝ) - emitted (e.f (Real.log s.rd3 / 3)) ((e.hi - e.lo) / e.number) (e.sup * e.dt0) (e.b.dx * e.b.dy * e.b.dz) (e.cf c)| ≤ 1 / 2)

theorem finish_requested (e : Env) (r : Rnd) (i c j : ℕ) (rd3 : ℝ) (h0 : 0 < rd3)
    (h1 : e.lo + j * ((e.hi - e.lo) / e.number) ≤ Real.log rd3 / 3) (h2 : Real.log rd3 / 3 < e.lo + (j + 1) * ((e.hi - e.lo) / e.number)) :
    Requested e r c j (finish e r i c rd3) :=
  ⟨rfl, h1, h2, h0, rfl, rfl, ⟨i, rfl⟩, fun h => amount_close e c rd3 h⟩

open Classical in
/-- **C76** (partial: the time is counted in `opts_init.dt`, see `source_ignores_dt`) A firing simple source keeps all existing super-droplets and appends,
for each cell whose centre is in the source box and each of `number` size intervals, exactly one super-droplet as requested; nothing else. -/
theorem simple_source_partial {e : Env} {r : Rnd} {pop pop' : List Sd} (hg : Grid23 e.d) (hx : 0 < e.b.dx) (hy : e.d.ny ≠ 0 → 0 < e.b.dy)
    (hz : 0 < e.b.dz) (h0 : 0 ≤ e.s.x0 ∧ 0 ≤ e.s.x1 ∧ 0 ≤ e.s.z0 ∧ 0 ≤ e.s.z1) (h1 : e.d.ny ≠ 0 → 0 ≤ e.s.y0 ∧ 0 ≤ e.s.y1)
    (hlh : e.lo < e.hi) (hu : ∀ p, 0 ≤ r.lnrd p ∧ r.lnrd p < 1) (ho : r.order.Perm (List.range e.d.nCell))
    (h : srcSimple e r pop = some pop') :
    ∃ new : ℕ → ℕ → Sd, (∀ c < e.d.nCell, InSource e.d e.b e.s c → ∀ j < e.number, Requested e r c j (new c j)) ∧
      pop' = pop ++ (List.range e.d.nCell).flatMap (fun c => if InSource e.d e.b e.s c then (List.range e.number).map (new c) else []) := by
  obtain ⟨cnt, hc, hcnt⟩ := source_cells (s := e.s) (b := e.b) hg hx hy hz h0 h1 e.number
  simp only [srcSimple, hc] at h
  split_ifs at h
  simp only [Option.some.injEq] at h
  set g : ℕ → Sd := fun i => finish e r i (newCell cnt r pop.length i) (newRd3 e cnt r pop.length i) with hgdef
  refine ⟨fun c j => g (((List.range c).map cnt).sum + j), ?_, ?_⟩
  · intro c hcN hin j hj
    have hcc : cnt c = e.number := by rw [hcnt, if_pos hin]
    have hcell : newCell cnt r pop.length (((List.range c).map cnt).sum + j) = c := by
      unfold newCell
      rw [← Nat.add_assoc]
      exact (cells_assigned cnt e.d.nCell r.order ho pop.length _).1 c hcN j (by rw [hcc]; exact hj)
    have hs := stratified hlh hu cnt e.d.nCell r.order ho pop.length (fun _ => 0) hcN (show j < cnt c by rw [hcc]; exact hj)
    simp only [hcc] at hs
    simp only [hgdef, hcell]
    refine finish_requested e r _ c j _ (Real.exp_pos _) ?_ ?_
    · rw [newRd3, log_rd3]; exact hs.1
    · rw [newRd3, log_rd3]; exact hs.2
  · rw [← h]
    congr 1
    show (List.range (total e cnt)).map g = _
    unfold total
    rw [range_scan, List.map_flatMap]
    apply List.flatMap_congr
    intro c _
    by_cases hin : InSource e.d e.b e.s c
    · simp only [hcnt, if_pos hin, List.map_map]; rfl
    · simp [hcnt, if_neg hin]

/-- the time step in use (`opts.dt`, C21) does not enter the amounts: a source that fires while steps of another length are made emits for the wrong time.
With steps of length `dt ≠ opts_init.dt` the time between two activations is `sup * dt`, the amount is that for `sup * opts_init.dt`. -/
theorem source_ignores_dt (e : Env) (dt : ℝ) (hdt : dt ≠ e.dt0) (hs : 0 < e.sup) (v w V : ℝ) (cf : CellFactor) (hv : v * w * V * cf.rho * cf.prof * cf.frac ≠ 0) :
    emitted v w (e.sup * e.dt0) V cf ≠ emitted v w (e.sup * dt) V cf := by
  intro h
  unfold emitted at h
  have h2 : (v * w * V * cf.rho * cf.prof * cf.frac) * (e.sup * (e.dt0 - dt)) = 0 := by linear_combination h
  rcases mul_eq_zero.1 h2 with h3 | h3
  · exact hv h3
  · rcases mul_eq_zero.1 h3 with h4 | h4
    · have : e.sup = 0 := by exact_mod_cast h4
      omega
    · exact hdt (by linarith)

/-- concrete source: 2D grid of 4 x 4 unit cells, box [1,3) x [0,2), 2 super-droplets per cell -/
noncomputable def exEnv : Env :=
  { d := ⟨4, 0, 4⟩, b := ⟨1, 1, 1, 0, 4, 0, 1, 0, 4⟩, s := ⟨1, 3, 0, 0, 0, 2⟩, number := 2, sup := 10, dt0 := 1, f := fun _ => 100, lo := 0, hi := 1,
    kappa := 1 / 2, cf := fun _ => ⟨1, 1, 1⟩, wet := fun _ r => r, nSdMax := 100 }

noncomputable def exRnd : Rnd := ⟨fun _ => 1 / 2, fun _ _ => 1 / 2, fun _ => 0, List.range 16⟩

/-- the hypotheses of `simple_source_partial` are met; cell 4 (i = 1, k = 0) is in the source, cell 0 is not -/
example : Grid23 exEnv.d ∧ exEnv.lo < exEnv.hi ∧ (∀ p, 0 ≤ exRnd.lnrd p ∧ exRnd.lnrd p < 1) ∧ exRnd.order.Perm (List.range exEnv.d.nCell) ∧
    InSource exEnv.d exEnv.b exEnv.s 4 ∧ ¬ InSource exEnv.d exEnv.b exEnv.s 0 ∧ (srcSimple exEnv exRnd []).isSome := by
  have hd : Dims.nDims ⟨4, 0, 4⟩ = 2 := nDims2 (by norm_num)
  refine ⟨by norm_num [Grid23, exEnv], by norm_num [exEnv], fun p => by norm_num [exRnd], ?_, ?_, ?_, ?_⟩
  · show (List.range 16).Perm (List.range (Dims.nCell ⟨4, 0, 4⟩)); simp [Dims.nCell, m1]
  · simp only [InSource, exEnv, unravel, hd]; norm_num
  · simp only [InSource, exEnv, unravel, hd]; norm_num
  · obtain ⟨cnt, hc, hcnt⟩ := source_cells (d := exEnv.d) (b := exEnv.b) (s := exEnv.s) (by norm_num [Grid23, exEnv]) (by norm_num [exEnv])
      (by norm_num [exEnv]) (by norm_num [exEnv]) (by norm_num [exEnv]) (by norm_num [exEnv]) exEnv.number
    have hle : total exEnv cnt ≤ 32 := by
      unfold total
      have hN : exEnv.d.nCell = 16 := by simp [exEnv, Dims.nCell, m1]
      rw [hN]
      refine (List.sum_le_card_nsmul _ 2 ?_).trans ?_
      · intro x hx
        obtain ⟨c, _, rfl⟩ := List.mem_map.1 hx
        rw [hcnt]; split_ifs <;> simp [exEnv]
      · simp
    simp only [srcSimple, hc]
    rw [if_neg (by show ¬ (100 < _); simp only [List.length_nil]; omega)]
    rfl

/-- **C76** (negation) with `opts.dt = 2` while `opts_init.dt = 1`, ten steps last 20 s and the source should emit 1000 particles in a size interval; it
emits 500 -/
theorem source_wrong_rate : amount exEnv 4 1 = 500 ∧ emitted 100 (1 / 2) (10 * 2) 1 ⟨1, 1, 1⟩ = 1000 := by
  constructor
  · unfold amount initN
    have : nReal exEnv.f (mul exEnv) (exEnv.cf 4) 1 = 500 := by
      simp only [nReal, mul, multiplier0, exEnv]; norm_num
    rw [this, toUint, Nat.floor_eq_iff (by norm_num)]
    norm_num
  · norm_num [emitted]

end LCP.Src
