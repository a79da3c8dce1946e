import Verif.Adve.TransportProps
import Verif.Bcnd.Props
import Verif.Src.Clash
import Verif.Rlx.Props

/-!
# C79: the cells that source and relaxation attribute super-droplets to

In `step_async` (src/particles_step.ipp:428-490) source and relaxation come after advection, sedimentation and subsidence, but before `post_copy`, which
calls `hskpng_ijk`.  Within these processes `hskpng_ijk` is called only in the predictor-corrector scheme, before the predictor and before the corrector, in
coordinates shifted by the width of the halo (particles_impl_adve.ipp:197-199, 253); the shift is undone for positions only (303).
-/
namespace LCP.Src
open LCP.Grid LCP.Adve LCP.Init

/-- `i`, `j`, `k`, `ijk` of one super-droplet in the state that source and relaxation find (particles_step.ipp:428-446, particles_impl_adve.ipp:167-308); `on`: advection
switched on, `p`: position before the step -/
noncomputable def cellAfter (on : Bool) (s : Scheme) (hs : ℕ) (d : Dims) (b : Box) (C : Courants) (p : Pos) : Option (ℕ × ℕ × ℕ × ℕ) :=
  if on then
    match s with
    | .predCorr => do
      let p0 : Pos := { p with x := p.x + hs * b.dx }
      let q0 ← cellOf d b p0
      let p1 := adveCalc (helperExpl true) 0 d b C q0 p0
      let p1 : Pos := if d.nDims > 1 then { p1 with z := clampZ b p1.z } else p1
      let p1 : Pos := if d.nDims = 3 then { p1 with y := Bcnd.periodic b.y0 b.y1 p1.y } else p1
      cellOf d b p1
    | _ => cellOf d b p
  else cellOf d b p

/-- the level is the one used for subsidence, see C56 -/
theorem cellAfter_level (s : Scheme) (hs : ℕ) (d : Dims) (b : Box) (C : Courants) (p : Pos) :
    kAfter s hs d b C p = (cellAfter true s hs d b C p).map fun q => q.2.2.1 := by
  cases s with
  | predCorr =>
    simp only [kAfter, cellAfter, if_true]
    cases cellOf d b { p with x := p.x + hs * b.dx } with
    | none => rfl
    | some q0 =>
      simp only [Option.bind_eq_bind, Option.bind_some]
      generalize cellOf d b _ = o
      cases o <;> rfl
  | euler => simp only [kAfter, cellAfter, if_true]; cases cellOf d b p <;> rfl
  | implicit => simp only [kAfter, cellAfter, if_true]; cases cellOf d b p <;> rfl

theorem contains_unique {d : Dims} {b : Box} (g : GridOk d b) {X Y : ℕ} {p : Pos} {i j k i' j' k' : ℕ} (h : Contains d b X p i j k)
    (h' : Contains d b Y p i' j' k') : i = i' ∧ j = j' ∧ k = k' := by
  have lem : ∀ {t x : ℝ} {m n : ℕ}, 0 < t → (m : ℝ) * t ≤ x → x < (m + 1) * t → (n : ℝ) * t ≤ x → x < (n + 1) * t → m = n := by
    intro t x m n ht h1 h2 h3 h4
    have a : (m : ℝ) < n + 1 := (mul_lt_mul_iff_of_pos_right ht).1 (lt_of_le_of_lt h1 h4)
    have c : (n : ℝ) < m + 1 := (mul_lt_mul_iff_of_pos_right ht).1 (lt_of_le_of_lt h3 h2)
    have a' : m < n + 1 := by exact_mod_cast a
    have c' : n < m + 1 := by exact_mod_cast c
    omega
  refine ⟨lem g.dx h.2.2.2.1.1 h.2.2.2.1.2 h'.2.2.2.1.1 h'.2.2.2.1.2, ?_, lem g.dz h.2.2.2.2.2.1 h.2.2.2.2.2.2 h'.2.2.2.2.2.1 h'.2.2.2.2.2.2⟩
  by_cases hh : d.ny ≠ 0
  · exact lem (g.dy hh) (h.2.2.2.2.1 hh).1 (h.2.2.2.2.1 hh).2 (h'.2.2.2.2.1 hh).1 (h'.2.2.2.2.1 hh).2
  · have := h.2.1; have := h'.2.1; omega

/-- index of the cell of column `i`, row `j`, level `k` -/
theorem faceX_cell {d : Dims} (i j k : ℕ) (hz : 0 < d.nz) : faceX d i j k = (i * max 1 d.ny + j) * d.nz + k := by
  unfold faceX; rw [show max 1 d.nz = d.nz by omega]

theorem faceX_level {d : Dims} {i j k : ℕ} (hk : k < d.nz) : faceX d i j k % d.nz = k := by
  rw [faceX_cell i j k (by omega), Nat.add_comm, Nat.add_mul_mod_self_right, Nat.mod_eq_of_lt hk]

/-! ### Departure cells -/

/-- **C79** (partial) With the Euler and implicit schemes, and without advection, source and relaxation attribute a super-droplet to the cell it was in before this step's transport. -/
theorem stored_departure_partial {d : Dims} {b : Box} (g : GridOk d b) (on : Bool) (s : Scheme) (hs : ℕ) (C : Courants) (hn : on = true → s ≠ .predCorr) {p : Pos}
    (hp : InGrid d b d.nx p) : ∃ i j k, Contains d b d.nx p i j k ∧ cellAfter on s hs d b C p = some (i, j, k, faceX d i j k) := by
  obtain ⟨i, j, k, hc, e⟩ := cellOf_spec g (by omega) hp
  refine ⟨i, j, k, hc, ?_⟩
  cases on with
  | false => simpa [cellAfter] using e
  | true =>
    cases s with
    | predCorr => exact absurd rfl (hn rfl)
    | euler => simpa [cellAfter] using e
    | implicit => simpa [cellAfter] using e

/-- **C79** (negation) so in a uniform updraught of Courant number 1, say, every super-droplet is attributed to the level below the one it is in -/
theorem stored_level_below {d : Dims} {b : Box} (g : GridOk d b) (s : Scheme) (hs : ℕ) {C : Courants} (hx : ∀ f, C.cx f = 0) (hy : ∀ f, C.cy f = 0) (hz : ∀ f, C.cz f = 1)
    (hn : s ≠ .predCorr) {p : Pos} (hp : InGrid d b d.nx p) (hp' : p.z + b.dz < d.nz * b.dz) :
    ∃ q i j k, adve s hs d b C p = some q ∧ Contains d b d.nx q i j (k + 1) ∧ cellAfter true s hs d b C p = some (i, j, k, faceX d i j k) := by
  obtain ⟨i, j, k, hc, e⟩ := stored_departure_partial g true s hs C (fun _ => hn) hp
  refine ⟨_, i, j, k, uniform_shift g hs hx hy hz hp hn, ?_, e⟩
  obtain ⟨c1, c2, c3, c4, c5, c6⟩ := hc
  have hdz := g.dz
  refine ⟨c1, c2, ?_, ?_, ?_, ?_⟩
  · have : ((k : ℝ) + 1) * b.dz < d.nz * b.dz := by nlinarith [c6.1]
    have := (mul_lt_mul_iff_of_pos_right hdz).1 this
    exact_mod_cast this
  · simpa using c4
  · intro hh; simpa [hh] using c5 hh
  · push_cast; constructor <;> nlinarith [c6.1, c6.2]

/-! ### Predictor-corrector -/

/-- cell stored in horizontal uniform flow along x -/
theorem stored_uniform {d : Dims} {b : Box} (g : GridOk d b) {C : Courants} {u : ℝ} (hu : -2 ≤ u ∧ u ≤ 2) (hx : ∀ f, C.cx f = u) (hy : ∀ f, C.cy f = 0) (hz : ∀ f, C.cz f = 0)
    {p : Pos} (hp : InGrid d b d.nx p) (hpy : d.ny ≠ 0 → b.y0 ≤ p.y ∧ p.y < b.y1) (hpz : b.z0 < p.z ∧ p.z < b.z1) :
    ∃ i j k, Contains d b (d.nx + 4) ⟨p.x + (2 + u) * b.dx, p.y, p.z⟩ i j k ∧ cellAfter true .predCorr 2 d b C p = some (i, j, k, faceX d i j k) := by
  obtain ⟨hx0, hx1, hyg, hz0, hz1⟩ := hp
  have hdx := g.dx
  have hg0 : InGrid d b (d.nx + 4) ⟨p.x + (2 : ℕ) * b.dx, p.y, p.z⟩ := by
    refine ⟨by dsimp only; push_cast; linarith, ?_, hyg, hz0, hz1⟩
    push_cast; nlinarith
  obtain ⟨i0, j0, k0, c0, e0⟩ := cellOf_spec g le_rfl hg0
  have hg1 : InGrid d b (d.nx + 4) ⟨p.x + (2 + u) * b.dx, p.y, p.z⟩ := by
    refine ⟨by dsimp only; nlinarith, ?_, hyg, hz0, hz1⟩
    push_cast; try dsimp only
    nlinarith
  obtain ⟨i, j, k, c1, e1⟩ := cellOf_spec g le_rfl hg1
  refine ⟨i, j, k, c1, ?_⟩
  obtain ⟨n0, n1, n2, n3⟩ := nDims_of g.lay
  have hv := vel_expl g 0 C ⟨p.x + (2 : ℕ) * b.dx, p.y, p.z⟩ (i := i0) c0.2.1 c0.2.2.1
  rw [vel_uniform hx hy hz, show haloX d 0 = 0 by unfold haloX; split_ifs <;> simp] at hv
  simp only [cellAfter, if_true]
  rw [e0]
  simp only [Option.bind_eq_bind, Option.bind_some, n1, if_true]
  rw [hv, ← e1]
  have hc : clampZ b (p.z + b.dz * 0) = p.z := by rw [mul_zero, add_zero]; exact clampZ_id hpz.1 hpz.2
  by_cases hh : d.ny ≠ 0
  · rw [if_pos (n3.2 hh)]
    dsimp only
    rw [hc]
    simp only [if_pos hh, mul_zero, add_zero]
    rw [Bcnd.periodic_inside (hpy hh).1 (hpy hh).2]
    congr 2
    push_cast; ring
  · rw [if_neg (by rw [n3]; exact hh)]
    dsimp only
    rw [hc]
    simp only [if_neg hh, mul_zero, add_zero]
    congr 2
    push_cast; ring

/-- **C79** (negation) In still air, with the predictor-corrector scheme, no super-droplet moves and every one is attributed to the cell two columns further than the one it is in: its cell
index is too large by twice the number of cells in a column of the grid (`ny * nz`).  The level is the right one. -/
theorem stored_two_columns_off {d : Dims} {b : Box} (g : GridOk d b) {C : Courants} (pc : PcOk d b C) (hx : ∀ f, C.cx f = 0) (hy : ∀ f, C.cy f = 0) (hz : ∀ f, C.cz f = 0)
    {p : Pos} (hp : InGrid d b d.nx p) (hpy : d.ny ≠ 0 → b.y0 ≤ p.y ∧ p.y < b.y1) (hpz : b.z0 < p.z ∧ p.z < b.z1) :
    ∃ i j k, Contains d b d.nx p i j k ∧ adve .predCorr 2 d b C p = some p ∧
      cellAfter true .predCorr 2 d b C p = some (i + 2, j, k, faceX d i j k + 2 * (max 1 d.ny * d.nz)) := by
  obtain ⟨i, j, k, hc, -⟩ := cellOf_spec g (by omega) hp
  obtain ⟨i', j', k', hc', e⟩ := stored_uniform g (u := 0) (by norm_num) hx hy hz hp hpy hpz
  have hz' : 0 < d.nz := by have := hc.2.2.1; omega
  have h2 : Contains d b (d.nx + 4) ⟨p.x + (2 + 0) * b.dx, p.y, p.z⟩ (i + 2) j k := by
    obtain ⟨c1, c2, c3, c4, c5, c6⟩ := hc
    refine ⟨by omega, c2, c3, ?_, c5, c6⟩
    push_cast; constructor <;> nlinarith [c4.1, c4.2]
  obtain ⟨r1, r2, r3⟩ := contains_unique g hc' h2
  refine ⟨i, j, k, hc, ?_, ?_⟩
  · rw [uniform_shift_predCorr g pc hx hy hz hp hpy (by simpa using hpz.1) (by simpa using hpz.2)]
    simp
  · rw [e, r1, r2, r3, faceX_cell _ _ _ hz', faceX_cell _ _ _ hz']
    congr 4
    ring

/-- **C79** (negation) Then the cell indices of super-droplets in the last two columns are beyond the end of the arrays with one entry per cell. -/
theorem stored_out_of_range {d : Dims} (hl : (0 < d.nx ∧ d.ny = 0 ∧ 0 < d.nz) ∨ (0 < d.nx ∧ 0 < d.ny ∧ 0 < d.nz)) {i j k : ℕ} (hi : d.nx ≤ i + 2) :
    d.nCell ≤ faceX d i j k + 2 * (max 1 d.ny * d.nz) := by
  have hz : 0 < d.nz := by omega
  have hN : d.nCell = d.nx * (max 1 d.ny * d.nz) := by
    unfold Dims.nCell; rw [m1_eq, m1_eq, m1_eq, show max 1 d.nx = d.nx by omega, show max 1 d.nz = d.nz by omega]; ring
  rw [hN, faceX_cell _ _ _ hz]
  calc d.nx * (max 1 d.ny * d.nz) ≤ (i + 2) * (max 1 d.ny * d.nz) := Nat.mul_le_mul_right _ hi
    _ ≤ _ := by nlinarith [Nat.zero_le (j * d.nz)]

/-! ### What this does to the matching source -/

/-- the stored cell of a super-droplet is that of its position, in the state found by the source after advection in still air with the predictor-corrector scheme -/
def StoredStill (d : Dims) (b : Box) (s : Sd) : Prop :=
  ∃ i j k, Contains d b d.nx ⟨s.x, s.y, s.z⟩ i j k ∧ s.cell = faceX d (i + 2) j k

theorem unravel_faceX {d : Dims} (hl : (0 < d.nx ∧ d.ny = 0 ∧ 0 < d.nz) ∨ (0 < d.nx ∧ 0 < d.ny ∧ 0 < d.nz)) {i j k : ℕ} (hj : j < max 1 d.ny) (hk : k < d.nz) :
    unravel d (faceX d i j k) = (i, j, k) := by
  rw [faceX_cell _ _ _ (by omega)]
  rcases hl with h | h
  · have hj0 : j = 0 := by omega
    subst hj0
    simp only [unravel, nDims2 h, h.2.1]
    norm_num
    constructor
    · rw [Nat.add_comm, Nat.add_mul_div_right _ _ (by omega), Nat.div_eq_of_lt hk, Nat.zero_add]
    · exact Nat.mod_eq_of_lt hk
  · have hj' : j < d.ny := by omega
    rw [show max 1 d.ny = d.ny by omega]
    simp only [unravel, nDims3 h]
    have e1 : ((i * d.ny + j) * d.nz + k) / d.nz = i * d.ny + j := by
      rw [Nat.add_comm, Nat.add_mul_div_right _ _ (by omega), Nat.div_eq_of_lt hk, Nat.zero_add]
    have e2 : ((i * d.ny + j) * d.nz + k) % d.nz = k := by
      rw [Nat.add_comm, Nat.add_mul_mod_self_right, Nat.mod_eq_of_lt hk]
    rw [← Nat.div_div_eq_div_mul, e1, e2]
    refine Prod.ext ?_ (Prod.ext ?_ rfl)
    · show (i * d.ny + j) / d.ny = i
      rw [Nat.add_comm, Nat.add_mul_div_right _ _ (by omega), Nat.div_eq_of_lt hj', Nat.zero_add]
    · show (i * d.ny + j) % d.ny = j
      rw [Nat.add_comm, Nat.add_mul_mod_self_right, Nat.mod_eq_of_lt hj']

/-- **C79** (negation) A super-droplet whose multiplicity the matching source raises is two columns to the left of the source: the source box contains the point two columns to the right of
the centre of its cell. -/
theorem raised_two_columns_off {e : Env} {r : Rnd} {gb : List (ℕ × ℝ)} {pop pop' : List Sd} {ord : List ℕ} (hc : Conf e)
    (hl : (0 < e.d.nx ∧ e.d.ny = 0 ∧ 0 < e.d.nz) ∨ (0 < e.d.nx ∧ 0 < e.d.ny ∧ 0 < e.d.nz)) (hr : RndOk e r) (hp : PopOk e pop)
    (hs : Sorted pop ord) (hst : ∀ s ∈ pop, StoredStill e.d e.b s) (h : srcMatching e r gb pop ord = some pop') (i : ℕ) (s s' : Sd) (hi : pop[i]? = some s)
    (hi' : pop'[i]? = some s') (hne : s'.n ≠ s.n) :
    ∃ m : ℕ, m * e.b.dx ≤ s.x ∧ s.x < (m + 1) * e.b.dx ∧ e.s.x0 < (m + 2 + 1 / 2) * e.b.dx ∧ (m + 2 + 1 / 2) * e.b.dx ≤ e.s.x1 := by
  classical
  obtain ⟨cnt, new, hcnt', hpop, -, -, -⟩ := core hc hr hp hs h
  set ids := picked e cnt r pop ord with hids
  have hnd := picked_nodup (e := e) (cnt := cnt) (r := r) hs hr.pick
  have hlt := (List.getElem?_eq_some_iff.1 hi).1
  rw [hpop, List.getElem?_append_left (by rw [modify_fold_length]; exact hlt), modify_fold (raise e) ids hnd, hi] at hi'
  by_cases hm : i ∈ ids
  · obtain ⟨t, ht, hget⟩ := List.getElem_of_mem hm
    obtain ⟨-, h2, h3⟩ := picked_run (e := e) (cnt := cnt) hs hr.pick ht
    have hg := picked_get (e := e) (cnt := cnt) (r := r) (pop := pop) (ord := ord) ht
    obtain ⟨s1, hs1, -, hk⟩ := sorted_at (e := e) (cnt := cnt) hs h2
    have hidx : ord.getD (pos (sortedKeys e cnt pop ord) r.pick t) 0 = i := by rw [← hg]; exact hget
    rw [hidx, hi] at hs1
    obtain rfl : s = s1 := by simpa using hs1
    rw [hk] at h3
    simp only [binOf] at h3
    have hin : InSource e.d e.b e.s s.cell := by
      by_contra hn
      apply h3
      have h0 : cnt s.cell = 0 := by
        rw [hcnt' s.cell]; simp [hn]
      unfold getBinNo; simp [h0]
    obtain ⟨m, j, k, hC, hcell⟩ := hst s (List.mem_of_getElem? hi)
    rw [hcell] at hin
    unfold InSource at hin
    rw [unravel_faceX hl hC.2.1 hC.2.2.1] at hin
    refine ⟨m, hC.2.2.2.1.1, hC.2.2.2.1.2, ?_⟩
    have := hin.1
    push_cast at this
    exact this
  · rw [if_neg hm] at hi'
    obtain rfl : s = s' := by simpa using hi'
    exact absurd rfl hne

/-- **C79** (negation) A source in the first two columns never finds a match: it creates a super-droplet for every cell and size interval whatever is there. -/
theorem never_matched {e : Env} {r : Rnd} {gb : List (ℕ × ℝ)} {pop pop' : List Sd} {ord : List ℕ} (hc : Conf e)
    (hl : (0 < e.d.nx ∧ e.d.ny = 0 ∧ 0 < e.d.nz) ∨ (0 < e.d.nx ∧ 0 < e.d.ny ∧ 0 < e.d.nz)) (hr : RndOk e r) (hp : PopOk e pop)
    (hs : Sorted pop ord) (hst : ∀ s ∈ pop, StoredStill e.d e.b s) (hbox : e.s.x1 ≤ 2 * e.b.dx) (h : srcMatching e r gb pop ord = some pop') :
    (∀ (i : ℕ) (s s' : Sd), pop[i]? = some s → pop'[i]? = some s' → s'.n = s.n) ∧
    ∃ new : List Sd, pop'.length = pop.length + new.length ∧ (∀ i, pop'[pop.length + i]? = new[i]?) ∧
      ∀ c < e.d.nCell, InSource e.d e.b e.s c → ∀ b < e.number, ∃ (i : ℕ) (s : Sd), new[i]? = some s ∧ Slot e c b s := by
  classical
  constructor
  · intro i s s' hi hi'
    by_contra hne
    obtain ⟨m, h1, -, -, h4⟩ := raised_two_columns_off hc hl hr hp hs hst h i s s' hi hi' hne
    have := hc.dx
    have hm : (0 : ℝ) ≤ m := Nat.cast_nonneg m
    nlinarith
  · obtain ⟨cnt, new, hcnt', hpop, -, -, hfill⟩ := core hc hr hp hs h
    refine ⟨new, by rw [hpop, List.length_append, modify_fold_length], fun i => ?_, fun c hcell hin b hb => ?_⟩
    · rw [hpop, List.getElem?_append_right (by rw [modify_fold_length]; omega), modify_fold_length, Nat.add_sub_cancel_left]
    · obtain ⟨i, s, h1, h2, -⟩ := hfill c hcell hin b hb (by
        intro hmem
        have hmem := (unique_sublist _).subset hmem
        rw [List.mem_filter] at hmem
        obtain ⟨hmem, -⟩ := hmem
        unfold sortedKeys at hmem
        rw [List.mem_map] at hmem
        obtain ⟨id, hid, heq⟩ := hmem
        have hlt : id < pop.length := List.mem_range.1 (hs.perm.mem_iff.1 hid)
        obtain ⟨s, hsome⟩ : ∃ s, pop[id]? = some s := ⟨_, List.getElem?_eq_getElem hlt⟩
        rw [hsome] at heq
        simp only [Prod.mk.injEq] at heq
        obtain ⟨m, j, k, hC, hcell'⟩ := hst s (List.mem_of_getElem? hsome)
        rw [← heq.1, hcell'] at hin
        unfold InSource at hin
        rw [unravel_faceX hl hC.2.1 hC.2.2.1] at hin
        have h5 := hin.1.2
        push_cast at h5
        have := hc.dx
        have hm : (0 : ℝ) ≤ m := Nat.cast_nonneg m
        nlinarith)
      exact ⟨i, s, h1, h2⟩

/-! ### What this does to relaxation -/

/-- **C79** Relaxation uses only the level of the stored cell, which is not affected by the shift of columns. -/
theorem stored_level {d : Dims} {i j k : ℕ} (hk : k < d.nz) : (faceX d i j k + 2 * (max 1 d.ny * d.nz)) % d.nz = k := by
  rw [show faceX d i j k + 2 * (max 1 d.ny * d.nz) = faceX d i j k + (2 * max 1 d.ny) * d.nz by ring, Nat.add_mul_mod_self_right, faceX_level hk]

/-- number of entries written by the reduction over cells is at least the number of distinct cells of super-droplets -/
theorem cellMoments_length (srt : List Rlx.Sd) (a b c d : ℝ) (S : Finset ℕ) (hS : ∀ x ∈ S, ∃ s ∈ srt, s.cell = x) : S.card ≤ (Rlx.cellMoments srt a b c d).length := by
  classical
  have : S ⊆ ((Rlx.cellMoments srt a b c d).map Prod.fst).toFinset := by
    intro x hx
    obtain ⟨s, hs, rfl⟩ := hS x hx
    rw [List.mem_toFinset]
    unfold Rlx.cellMoments
    rw [mem_keys_reduceByKey]
    rw [List.map_map, List.mem_map]
    exact ⟨s, hs, rfl⟩
  calc S.card ≤ _ := Finset.card_le_card this
    _ ≤ _ := List.toFinset_card_le _
    _ = _ := by rw [List.length_map]

/-- a super-droplet of relaxation with the cell stored after a step with the predictor-corrector scheme; `p` its position before -/
def StoredPc (d : Dims) (b : Box) (C : Courants) (p : Pos) (s : Rlx.Sd) : Prop :=
  ∃ i j k, cellAfter true .predCorr 2 d b C p = some (i, j, k, s.cell)

/-- **C79** (negation) In uniform horizontal flow of a Courant number between 0 and 1, with the predictor-corrector scheme: if every cell holds a super-droplet that stays in its column, and one in the last
column is on its way out of it, the reduction over cells yields more entries than there are cells, beyond the end of the arrays (`count_ijk`, `count_mom`) it is written to. -/
theorem count_overflow {d : Dims} {b : Box} (g : GridOk d b) {C : Courants} {u : ℝ} (hu : 0 < u ∧ u < 1) (hx : ∀ f, C.cx f = u) (hy : ∀ f, C.cy f = 0) (hz : ∀ f, C.cz f = 0)
    (srt : List Rlx.Sd) (a1 a2 a3 a4 : ℝ)
    (hstay : ∀ i j k, i < d.nx → j < max 1 d.ny → k < d.nz → ∃ p s, s ∈ srt ∧ StoredPc d b C p s ∧ InGrid d b d.nx p ∧ (d.ny ≠ 0 → b.y0 ≤ p.y ∧ p.y < b.y1) ∧ b.z0 < p.z ∧ p.z < b.z1 ∧
      Contains d b d.nx p i j k ∧ p.x + u * b.dx < (i + 1) * b.dx)
    (hgo : ∃ p s, s ∈ srt ∧ StoredPc d b C p s ∧ InGrid d b d.nx p ∧ (d.ny ≠ 0 → b.y0 ≤ p.y ∧ p.y < b.y1) ∧ b.z0 < p.z ∧ p.z < b.z1 ∧ (d.nx : ℝ) * b.dx ≤ p.x + u * b.dx) :
    d.nCell < (Rlx.cellMoments srt a1 a2 a3 a4).length := by
  classical
  have hl := g.lay
  have hz' : 0 < d.nz := by omega
  have hx' : 0 < d.nx := by omega
  have hdx := g.dx
  have hN : d.nCell = d.nx * (max 1 d.ny * d.nz) := by
    unfold Dims.nCell; rw [m1_eq, m1_eq, m1_eq, show max 1 d.nx = d.nx by omega, show max 1 d.nz = d.nz by omega]; ring
  set M := max 1 d.ny * d.nz with hM
  have hM0 : 0 < M := Nat.mul_pos (by omega) hz'
  obtain ⟨pg, sg, hsg, ⟨i1, j1, k1, hst⟩, hpg, hpy, hpz0, hpz1, hout⟩ := hgo
  obtain ⟨i2, j2, k2, hc2, e2⟩ := stored_uniform g (by constructor <;> linarith) hx hy hz hpg hpy ⟨hpz0, hpz1⟩
  rw [e2] at hst
  simp only [Option.some.injEq, Prod.mk.injEq] at hst
  have hi2 : d.nx + 2 ≤ i2 := by
    have h1 := hc2.2.2.2.1.2
    dsimp only at h1
    have : ((d.nx : ℝ) + 2) * b.dx < (i2 + 1) * b.dx := by nlinarith
    have := (mul_lt_mul_iff_of_pos_right hdx).1 this
    have h3 : d.nx + 2 < i2 + 1 := by exact_mod_cast this
    omega
  have hbig : (d.nx + 2) * M ≤ sg.cell := by
    rw [← hst.2.2.2, faceX_cell _ _ _ hz']
    calc (d.nx + 2) * M ≤ i2 * M := Nat.mul_le_mul_right _ hi2
      _ ≤ _ := by rw [hM]; nlinarith [Nat.zero_le (j2 * d.nz)]
  have hcov : ∀ x ∈ insert sg.cell ((Finset.range d.nCell).map ⟨fun c => c + 2 * M, fun a b h => by simpa using h⟩), ∃ s ∈ srt, s.cell = x := by
    intro x hx0
    rw [Finset.mem_insert] at hx0
    rcases hx0 with rfl | hx0
    · exact ⟨sg, hsg, rfl⟩
    · rw [Finset.mem_map] at hx0
      obtain ⟨c, hc, rfl⟩ := hx0
      rw [Finset.mem_range, hN] at hc
      have hi : c / M < d.nx := (Nat.div_lt_iff_lt_mul hM0).2 hc
      have hj : c % M / d.nz < max 1 d.ny := (Nat.div_lt_iff_lt_mul hz').2 (Nat.mod_lt _ hM0)
      have hk : c % M % d.nz < d.nz := Nat.mod_lt _ hz'
      obtain ⟨p, s, hs, ⟨i3, j3, k3, h3⟩, hp, hpy, hp0, hp1, hC, hst⟩ := hstay _ _ _ hi hj hk
      obtain ⟨i4, j4, k4, hc4, e4⟩ := stored_uniform g (by constructor <;> linarith) hx hy hz hp hpy ⟨hp0, hp1⟩
      have hc5 : Contains d b (d.nx + 4) ⟨p.x + (2 + u) * b.dx, p.y, p.z⟩ (c / M + 2) (c % M / d.nz) (c % M % d.nz) := by
        obtain ⟨q1, q2, q3, q4, q5, q6⟩ := hC
        refine ⟨by omega, q2, q3, ?_, q5, q6⟩
        push_cast
        constructor <;> try dsimp only
        · nlinarith [q4.1]
        · nlinarith
      obtain ⟨r1, r2, r3⟩ := contains_unique g hc4 hc5
      rw [e4] at h3
      simp only [Option.some.injEq, Prod.mk.injEq] at h3
      refine ⟨s, hs, ?_⟩
      rw [← h3.2.2.2, r1, r2, r3, faceX_cell _ _ _ hz']
      show _ = c + 2 * M
      have e5 := Nat.div_add_mod c M
      have e6 := Nat.div_add_mod (c % M) d.nz
      calc ((c / M + 2) * max 1 d.ny + c % M / d.nz) * d.nz + c % M % d.nz = M * (c / M) + (d.nz * (c % M / d.nz) + c % M % d.nz) + 2 * M := by rw [hM]; ring
        _ = _ := by rw [e6, e5]
  have hcard := cellMoments_length srt a1 a2 a3 a4 _ hcov
  rw [Finset.card_insert_of_notMem, Finset.card_map, Finset.card_range] at hcard
  · omega
  · rw [Finset.mem_map]
    rintro ⟨c, hc, heq⟩
    rw [Finset.mem_range, hN] at hc
    have : c + 2 * M = sg.cell := heq
    have : (d.nx + 2) * M = d.nx * M + 2 * M := by ring
    omega

/-! ### Non-vacuity -/

/-- grid of the example source of C76: 4 x 4 unit cells in 2D -/
theorem exGrid : GridOk exEnv.d exEnv.b := by
  constructor <;> norm_num [exEnv]

/-- air at rest -/
def still : Courants := ⟨fun _ => 0, fun _ => 0, fun _ => 0⟩

theorem exPcOk : PcOk exEnv.d exEnv.b still := by
  constructor <;> norm_num [exEnv, still]

/-- a super-droplet in the corner cell (column 0, level 0), as the source finds it after advection in still air -/
noncomputable def exCorner : Sd := { exSd 8 (1 / 4) with x := 1 / 2, z := 1 / 2 }

/-- its stored cell is number 8 (column 2, level 0) -/
theorem exCorner_stored : cellAfter true .predCorr 2 exEnv.d exEnv.b still ⟨exCorner.x, exCorner.y, exCorner.z⟩ = some (2, 0, 0, exCorner.cell) ∧ StoredStill exEnv.d exEnv.b exCorner := by
  have hC : Contains exEnv.d exEnv.b exEnv.d.nx ⟨exCorner.x, exCorner.y, exCorner.z⟩ 0 0 0 := by
    norm_num [Contains, exCorner, exSd, exEnv]
  obtain ⟨i, j, k, h1, -, h2⟩ := stored_two_columns_off exGrid exPcOk (fun _ => rfl) (fun _ => rfl) (fun _ => rfl) (p := ⟨exCorner.x, exCorner.y, exCorner.z⟩)
    (by norm_num [InGrid, exCorner, exSd, exEnv]) (by norm_num [exEnv]) (by norm_num [exCorner, exSd, exEnv])
  obtain ⟨rfl, rfl, rfl⟩ := contains_unique exGrid h1 hC
  refine ⟨?_, 0, 0, 0, hC, ?_⟩
  · rw [h2]; simp [faceX, exCorner, exSd, exEnv]
  · simp [faceX, exCorner, exSd, exEnv]

/-- **C79** (negation) The source of C76, in columns 1 and 2, raises a super-droplet in column 0. -/
theorem raised_outside : ∃ (pop' : List Sd) (s' : Sd), srcMatching exEnv exRnd [] [exCorner] [0] = some pop' ∧ pop'[0]? = some s' ∧ s'.n = exCorner.n + 500 ∧
    ¬ (exEnv.s.x0 ≤ exCorner.x ∧ exCorner.x < exEnv.s.x1) := by
  have hp : PopOk exEnv [exCorner] := by
    intro s hs
    simp only [List.mem_cons, List.not_mem_nil, or_false] at hs
    subst hs
    exact ⟨Real.exp_pos _, by show 8 < Dims.nCell ⟨4, 0, 4⟩; simp [Dims.nCell, m1]⟩
  have hs : Sorted [exCorner] [0] := by
    constructor
    · simp [List.range_succ]
    · intro p q hpq hq
      simp at hq; omega
  have hn : NoClash exEnv [exCorner] := by
    intro s hs t ht c c' b hlt h1 h2
    simp only [List.mem_cons, List.not_mem_nil, or_false] at hs ht
    subst hs; subst ht
    have := h1.1; have := h2.1; omega
  obtain ⟨pop', h⟩ := exRuns (by simp) hs hp exRndOk
  have hin : InSource exEnv.d exEnv.b exEnv.s 8 := by
    have hd : Dims.nDims ⟨4, 0, 4⟩ = 2 := nDims2 (by norm_num)
    simp only [InSource, exEnv, unravel, hd]; norm_num
  have hslot : Slot exEnv 8 0 exCorner := by
    refine ⟨rfl, hin, by norm_num [exEnv], ?_, ?_⟩ <;> simp only [exCorner, exSd, Real.log_exp] <;> norm_num [exEnv]
  obtain ⟨inc, sel, new, -, h2, -, -, h5, -, h7⟩ := matching_partial exConf exRndOk hp hs hn h
  refine ⟨pop', { exCorner with n := exCorner.n + inc 0 }, h, h2 0 exCorner rfl, ?_, by norm_num [exEnv, exCorner]⟩
  rcases h7 8 (by simp [exEnv, Dims.nCell, m1]) hin 0 (by norm_num [exEnv]) with ⟨⟨i, hi, s, hs1, -, -⟩, -⟩ | ⟨hno, -⟩
  · have hi0 : i = 0 := by
      have := (List.getElem?_eq_some_iff.1 hs1).1
      simpa using this
    subst hi0
    obtain ⟨s, c, b, e1, -, e3⟩ := h5 0 hi
    have h3 := e3 (by norm_num [emitted, exEnv])
    have h4 : emitted (exEnv.f (Real.log s.rd3 / 3)) ((exEnv.hi - exEnv.lo) / exEnv.number) (exEnv.sup * exEnv.dt0) (exEnv.b.dx * exEnv.b.dy * exEnv.b.dz) (exEnv.cf c) = 500 := by
      norm_num [emitted, exEnv]
    rw [h4, abs_le] at h3
    have h5 : (inc 0 : ℝ) < 501 := by linarith
    have h6 : (499 : ℝ) < inc 0 := by linarith
    have h5' : inc 0 < 501 := by exact_mod_cast h5
    have h6' : 499 < inc 0 := by exact_mod_cast h6
    show exCorner.n + inc 0 = _
    omega
  · exact absurd hslot (hno exCorner (by simp))

/-- hypotheses of `count_overflow`: one cell, Courant number 1/2, two super-droplets, one of them about to leave -/
example : (⟨1, 0, 1⟩ : Dims).nCell < (Rlx.cellMoments [⟨1, 0, 1, 2⟩, ⟨1, 0, 1, 3⟩] 0 1 0 2).length := by
  have g : GridOk ⟨1, 0, 1⟩ ⟨1, 1, 1, 0, 1, 0, 1, 0, 1⟩ := by constructor <;> norm_num
  have hC : ∀ x : ℝ, ∀ m : ℕ, 0 ≤ x → x < 1 → Contains ⟨1, 0, 1⟩ ⟨1, 1, 1, 0, 1, 0, 1, 0, 1⟩ 5 ⟨x + (2 + 1 / 2) * 1, 0, 1 / 2⟩ m 0 0 →
      StoredPc ⟨1, 0, 1⟩ ⟨1, 1, 1, 0, 1, 0, 1, 0, 1⟩ ⟨fun _ => 1 / 2, fun _ => 0, fun _ => 0⟩ ⟨x, 0, 1 / 2⟩ ⟨1, 0, 1, m⟩ := by
    intro x m h0 h1 hc
    obtain ⟨i, j, k, h2, h3⟩ := stored_uniform g (u := 1 / 2) (C := ⟨fun _ => 1 / 2, fun _ => 0, fun _ => 0⟩) (by norm_num) (fun _ => rfl) (fun _ => rfl) (fun _ => rfl)
      (p := ⟨x, 0, 1 / 2⟩) (by norm_num [InGrid, h0, h1]) (by simp) (by norm_num)
    obtain ⟨rfl, rfl, rfl⟩ := contains_unique g h2 hc
    exact ⟨i, 0, 0, by rw [h3]; simp [faceX]⟩
  refine count_overflow g (u := 1 / 2) (C := ⟨fun _ => 1 / 2, fun _ => 0, fun _ => 0⟩) (by norm_num) (fun _ => rfl) (fun _ => rfl) (fun _ => rfl) _ 0 1 0 2 ?_ ?_
  · intro i j k hi hj hk
    simp at hi hj hk
    subst hi; subst hj; subst hk
    refine ⟨⟨1 / 4, 0, 1 / 2⟩, ⟨1, 0, 1, 2⟩, by simp, hC _ 2 (by norm_num) (by norm_num) ?_, ?_, ?_, ?_, ?_, ?_, ?_⟩ <;> norm_num [Contains, InGrid]
  · refine ⟨⟨3 / 4, 0, 1 / 2⟩, ⟨1, 0, 1, 3⟩, by simp, hC _ 3 (by norm_num) (by norm_num) ?_, ?_, ?_, ?_, ?_, ?_⟩ <;> norm_num [Contains, InGrid]

/-- hypotheses of `never_matched`: the source moved to columns 0 and 1, the super-droplet of column 0 there -/
example : let e : Env := { exEnv with s := ⟨0, 2, 0, 0, 0, 2⟩ }
    Conf e ∧ RndOk e exRnd ∧ PopOk e [exCorner] ∧ Sorted [exCorner] [0] ∧ (∀ s ∈ [exCorner], StoredStill e.d e.b s) ∧ e.s.x1 ≤ 2 * e.b.dx ∧ InSource e.d e.b e.s 0 := by
  intro e
  refine ⟨?_, ⟨exRndOk.lnrd, exRndOk.pick, exRndOk.order⟩, ?_, ?_, ?_, ?_, ?_⟩
  · constructor <;> norm_num [e, exEnv, Grid23]
  · intro s hs
    simp only [List.mem_cons, List.not_mem_nil, or_false] at hs
    subst hs
    exact ⟨Real.exp_pos _, by show 8 < Dims.nCell ⟨4, 0, 4⟩; simp [Dims.nCell, m1]⟩
  · constructor
    · simp [List.range_succ]
    · intro p q hpq hq
      simp at hq; omega
  · intro s hs
    simp only [List.mem_cons, List.not_mem_nil, or_false] at hs
    subst hs
    exact exCorner_stored.2
  · norm_num [e, exEnv]
  · have hd : Dims.nDims ⟨4, 0, 4⟩ = 2 := nDims2 (by norm_num)
    simp only [InSource, e, exEnv, unravel, hd]; norm_num

end LCP.Src
