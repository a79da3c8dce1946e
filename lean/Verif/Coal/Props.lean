import Verif.Coal.Outcome

/-!
# Coalescence: property theorems (C01–C07)

All theorems speak about `coal` (Model.lean), i.e. one coalescence substep executed by `step_async`,
for every shuffle outcome `e.sid` (any rearrangement sorted by cell), every kernel `e.ker`, every random
number in `s.col` and all execution orders `σ` of the parallel loops.
-/
namespace LCP.Coal
noncomputable section

/-- Specification: total of an extensive attribute over the super-droplets located in cell `c`. -/
def cellTotal (N : ℕ) (ijk : ℕ → ℕ) (sd : ℕ → SD) (c : ℕ) (w : SD → ℝ) : ℝ :=
  ∑ i ∈ Finset.range N, if ijk i = c then w (sd i) else 0

/-- Multiplicities fit the C++ type `unsigned long long`. -/
def FitsU64 (N : ℕ) (sd : ℕ → SD) : Prop := ∀ i < N, (sd i).n < 2 ^ 64

/-- helper: pairwise conservation from a rule for one merger -/
theorem conserved_of_merge {o : Opts} {e : Env} (h : e.Sorted) {σ : Scheds} (hσ : σ.Valid e.N)
    {s s' : State} (hr : coal o e σ s = some s') (w : SD → ℝ)
    (hm : ∀ i < e.N, ∀ j < e.N, ∀ k : ℕ, 1 ≤ k → k * (s.sd j).n ≤ (s.sd i).n →
      w (donated (s.sd i) (s.sd j) k) + w (merged o (s.sd i) (s.sd j) k) = w (s.sd i) + w (s.sd j)) (c : ℕ) :
    cellTotal e.N e.ijk s'.sd c w = cellTotal e.N e.ijk s.sd c w := by
  apply coal_cell_conserved h hσ hr w
  intro p u x y hp H
  rcases H.elim with ⟨rfl, rfl⟩ | ⟨k, hk, ⟨h2, rfl, rfl⟩ | ⟨h2, rfl, rfl⟩⟩
  · rfl
  · exact hm _ (id_lt h (by omega)) _ (id_lt h hp) k hk h2
  · rw [add_comm, hm _ (id_lt h hp) _ (id_lt h (by omega)) k hk h2, add_comm]

/-- **C01** Dry aerosol volume of every cell is unchanged by coalescence. -/
theorem coal_conserves_dry_volume {o : Opts} {e : Env} (h : e.Sorted) {σ : Scheds} (hσ : σ.Valid e.N)
    {s s' : State} (hr : coal o e σ s = some s') (hU : FitsU64 e.N s.sd) (c : ℕ) :
    cellTotal e.N e.ijk s'.sd c (fun d => d.n * d.rd3) = cellTotal e.N e.ijk s.sd c (fun d => d.n * d.rd3) := by
  apply conserved_of_merge h hσ hr
  intro i hi j _ k _ hk
  simp only [donated, merged, subU64_eq (hU i hi) hk]
  rw [Nat.cast_sub hk]; push_cast; ring

/-- **C02** Liquid water volume (multiplicity × wet radius cubed, r = √rw2) of every cell is unchanged. -/
theorem coal_conserves_liquid_volume {o : Opts} {e : Env} (h : e.Sorted) {σ : Scheds} (hσ : σ.Valid e.N)
    {s s' : State} (hr : coal o e σ s = some s') (hU : FitsU64 e.N s.sd)
    (hpos : ∀ i < e.N, 0 ≤ (s.sd i).rw2) (c : ℕ) :
    cellTotal e.N e.ijk s'.sd c (fun d => d.n * √d.rw2 ^ 3) =
      cellTotal e.N e.ijk s.sd c (fun d => d.n * √d.rw2 ^ 3) := by
  apply conserved_of_merge h hσ hr
  intro i hi j hj k _ hk
  simp only [donated, merged, subU64_eq (hU i hi) hk]
  have hi0 := hpos i hi
  have hj0 := hpos j hj
  rw [cube_cbrt (by positivity), mul_assoc (k : ℝ), rw3_eq hi0, rw3_eq hj0]
  rw [Nat.cast_sub hk]; push_cast; ring

/-- **C03** Multiplicities never grow and never wrap around: each new multiplicity is the old one, or the old
one minus (number of collisions) × (partner's multiplicity), a subtraction that does not go below zero. -/
theorem coal_multiplicity_never_wraps {o : Opts} {e : Env} (h : e.Sorted) {σ : Scheds} (hσ : σ.Valid e.N)
    {s s' : State} (hr : coal o e σ s = some s') (hU : FitsU64 e.N s.sd) (i : ℕ) (hi : i < e.N) :
    (s'.sd i).n ≤ (s.sd i).n ∧
    ((s'.sd i).n = (s.sd i).n ∨
      ∃ j < e.N, ∃ k : ℕ, j ≠ i ∧ k * (s.sd j).n ≤ (s.sd i).n ∧ (s'.sd i).n = (s.sd i).n - k * (s.sd j).n) := by
  rcases coal_each h hσ hr i hi with h1 | ⟨j, hj, hne, -, k, -, ⟨h2, h3, -⟩ | ⟨-, h3, -⟩⟩
  · rw [h1]; exact ⟨le_rfl, Or.inl rfl⟩
  · rw [h3]
    simp only [donated, subU64_eq (hU i hi) h2]
    exact ⟨Nat.sub_le _ _, Or.inr ⟨j, hj, k, hne, h2, rfl⟩⟩
  · rw [h3]; exact ⟨le_rfl, Or.inl rfl⟩

/-- **C03** The number of real droplets in a cell never increases. -/
theorem coal_droplet_number_nonincreasing {o : Opts} {e : Env} (h : e.Sorted) {σ : Scheds} (hσ : σ.Valid e.N)
    {s s' : State} (hr : coal o e σ s = some s') (hU : FitsU64 e.N s.sd) (c : ℕ) :
    cellTotal e.N e.ijk s'.sd c (fun d => d.n) ≤ cellTotal e.N e.ijk s.sd c (fun d => d.n) := by
  apply Finset.sum_le_sum
  intro i hi
  have := (coal_multiplicity_never_wraps h hσ hr hU i (by simpa using hi)).1
  split_ifs
  · show ((s'.sd i).n : ℝ) ≤ ((s.sd i).n : ℝ)
    exact_mod_cast this
  · exact le_rfl

/-- **C03** After the step multiplicities still fit the machine type. -/
theorem coal_fitsU64 {o : Opts} {e : Env} (h : e.Sorted) {σ : Scheds} (hσ : σ.Valid e.N)
    {s s' : State} (hr : coal o e σ s = some s') (hU : FitsU64 e.N s.sd) : FitsU64 e.N s'.sd :=
  fun i hi => (coal_multiplicity_never_wraps h hσ hr hU i hi).1.trans_lt (hU i hi)

/-- **C04** The attributes and the collision record do not depend on the execution order of the parallel loops. -/
theorem coal_schedule_independent {o : Opts} {e : Env} (h : e.Sorted) {σ σ' : Scheds} (hσ : σ.Valid e.N)
    (hσ' : σ'.Valid e.N) {s s₁ s₂ : State} (h1 : coal o e σ s = some s₁) (h2 : coal o e σ' s = some s₂) :
    (∀ i < e.N, s₁.sd i = s₂.sd i) ∧ ∀ p < e.N, s₁.col p = s₂.col p := by
  have hv : view e s₁ = view e s₂ := by rw [coal_view h hσ h1, coal_view h hσ' h2]
  constructor
  · intro i hi
    obtain ⟨p, -, rfl⟩ := exists_pos h hi
    exact congrArg Prod.fst (congrFun hv p)
  · intro p _
    exact congrArg Prod.snd (congrFun hv p)

/-- **C04** Each super-droplet collides with at most one other, of its own cell: there is a pairing
`mate` (an involution staying in the cell) such that the new attributes of `i` are determined by the old
attributes of `i` and `mate i` alone, and unpaired super-droplets (`mate i = i`) are untouched. -/
theorem coal_is_local {o : Opts} {e : Env} (h : e.Sorted) {σ : Scheds} (hσ : σ.Valid e.N) :
    ∃ mate : ℕ → ℕ,
      (∀ i < e.N, mate i < e.N ∧ mate (mate i) = i ∧ e.ijk (mate i) = e.ijk i) ∧
      (∀ i < e.N, ∀ s s' : State, coal o e σ s = some s' → mate i = i → s'.sd i = s.sd i) ∧
      (∀ i < e.N, ∀ s₁ s₁' s₂ s₂' : State, coal o e σ s₁ = some s₁' → coal o e σ s₂ = some s₂' →
        s₁.col = s₂.col → s₁.sd i = s₂.sd i → s₁.sd (mate i) = s₂.sd (mate i) → s₁'.sd i = s₂'.sd i) := by
  classical
  -- position of the mate
  let m : ℕ → ℕ := fun q => if kind e q = .pair then q + 1 else if 1 ≤ q ∧ kind e (q - 1) = .pair then q - 1 else q
  have hm_invol : ∀ q, m (m q) = q := by
    intro q
    simp only [m]
    by_cases h1 : kind e q = .pair
    · have h2 := kind_disj h q h1
      simp [h1, h2]
    · by_cases h2 : 1 ≤ q ∧ kind e (q - 1) = .pair
      · have : q - 1 + 1 = q := by omega
        simp [h1, h2, this]
      · simp [h1, h2]
  have hm_lt : ∀ q, q < e.N → m q < e.N := by
    intro q hq
    simp only [m]
    split_ifs with h1 h2
    · exact ((kind_pair_iff e q).1 h1).1
    · omega
    · exact hq
  have hm_cell : ∀ q, e.cell (m q) = e.cell q := by
    intro q
    simp only [m]
    split_ifs with h1 h2
    · exact ((kind_pair_iff e q).1 h1).2.2.symm
    · have := ((kind_pair_iff e (q - 1)).1 h2.2).2.2
      rw [show q - 1 + 1 = q by omega] at this
      exact this
    · rfl
  -- inverse of id
  let pos : ℕ → ℕ := Function.invFun e.id
  have hpos : ∀ q, pos (e.id q) = q := Function.leftInverse_invFun (id_injective h)
  have hap : ∀ q (v v' : ℕ → SD × ℝ), v q = v' q → v (m q) = v' (m q) →
      PairLoop.apply (kind e) (fun _ x => (x.1, 0)) (coalPair o e) v q =
      PairLoop.apply (kind e) (fun _ x => (x.1, 0)) (coalPair o e) v' q := by
    intro q v v' e1 e2
    cases hk : kind e q with
    | pair =>
      have : m q = q + 1 := by simp [m, hk]
      rw [this] at e2
      simp only [PairLoop.apply, hk, e1, e2]
    | single => simp only [PairLoop.apply, hk, e1]
    | skip =>
      by_cases hp : 1 ≤ q ∧ kind e (q - 1) = .pair
      · have : m q = q - 1 := by simp [m, hk, hp]
        rw [this] at e2
        simp only [PairLoop.apply, hk, e1, e2]
      · simp only [PairLoop.apply, hk, hp, if_false, e1]
  refine ⟨fun i => e.id (m (pos i)), ?_, ?_, ?_⟩
  · intro i hi
    obtain ⟨q, hq, rfl⟩ := exists_pos h hi
    simp only [hpos]
    exact ⟨id_lt h (hm_lt q hq), by rw [hm_invol], hm_cell q⟩
  · intro i hi s s' hr hmi
    obtain ⟨q, hq, rfl⟩ := exists_pos h hi
    simp only [hpos] at hmi
    have hmq : m q = q := id_injective h hmi
    have hk : kind e q ≠ .pair := by
      intro hk; simp only [m, hk, if_true] at hmq; omega
    have hp : ¬ (1 ≤ q ∧ kind e (q - 1) = .pair) := by
      intro hp; simp only [m, hk, hp, if_false, and_self, if_true] at hmq; omega
    rw [coal_pointwise h hσ hr q]
    cases hkk : kind e q with
    | pair => exact absurd hkk hk
    | single => simp [PairLoop.apply, hkk, view]
    | skip => simp [PairLoop.apply, hkk, hp, view]
  · intro i hi s₁ s₁' s₂ s₂' hr1 hr2 hcol ha hb
    obtain ⟨q, hq, rfl⟩ := exists_pos h hi
    simp only [hpos] at hb
    rw [coal_pointwise h hσ hr1 q, coal_pointwise h hσ hr2 q]
    rw [hap q (view e s₁) (view e s₂)]
    · simp [view, ha, hcol]
    · simp [view, hb, hcol]

/-- **C05** Dissolved mass of every species handled by the scheme is conserved in every cell. -/
theorem coal_conserves_chem {o : Opts} {e : Env} (h : e.Sorted) {σ : Scheds} (hσ : σ.Valid e.N)
    {s s' : State} (hr : coal o e σ s = some s') (hU : FitsU64 e.N s.sd) (sp : ℕ) (hsp : sp < o.nChem) (c : ℕ) :
    cellTotal e.N e.ijk s'.sd c (fun d => d.n * d.chem sp) =
      cellTotal e.N e.ijk s.sd c (fun d => d.n * d.chem sp) := by
  apply conserved_of_merge h hσ hr
  intro i hi j _ k _ hk
  simp only [donated, merged, subU64_eq (hU i hi) hk, hsp, if_true]
  rw [Nat.cast_sub hk]; push_cast; ring

/-- **C05** With several hygroscopicities, the volume-weighted kappa content of every cell is conserved. -/
theorem coal_conserves_kappa_volume {o : Opts} {e : Env} (h : e.Sorted) {σ : Scheds} (hσ : σ.Valid e.N)
    {s s' : State} (hr : coal o e σ s = some s') (hU : FitsU64 e.N s.sd) (hkp : o.kappa = true)
    (hrd : ∀ i < e.N, 0 < (s.sd i).rd3) (c : ℕ) :
    cellTotal e.N e.ijk s'.sd c (fun d => d.n * (d.kpa * d.rd3)) =
      cellTotal e.N e.ijk s.sd c (fun d => d.n * (d.kpa * d.rd3)) := by
  apply conserved_of_merge h hσ hr
  intro i hi j hj k _ hk
  have hkl := kappaLoop_mul (s.sd i).kpa (s.sd i).rd3 (hrd i hi).le k (s.sd j).kpa (s.sd j).rd3 (hrd j hj)
  simp only [donated, merged, subU64_eq (hU i hi) hk, hkp, if_true]
  rw [add_comm ((k : ℝ) * (s.sd i).rd3), hkl, Nat.cast_sub hk]; push_cast; ring

/-- **C07** Only mergers change attributes: a super-droplet is untouched, or loses multiplicity only, or
keeps its multiplicity and has its cached terminal velocity (and critical radius, when used) invalidated. -/
theorem coal_invalidates_cache {o : Opts} {e : Env} (h : e.Sorted) {σ : Scheds} (hσ : σ.Valid e.N)
    {s s' : State} (hr : coal o e σ s = some s') (i : ℕ) (hi : i < e.N) :
    s'.sd i = s.sd i ∨ (∃ n', s'.sd i = { s.sd i with n := n' }) ∨
      ((s'.sd i).n = (s.sd i).n ∧ (s'.sd i).vt = invalid ∧ (o.rc2 = true → (s'.sd i).rc2 = invalid)) := by
  rcases coal_each h hσ hr i hi with h1 | ⟨j, hj, hne, -, k, -, ⟨h2, h3, -⟩ | ⟨-, h3, -⟩⟩
  · exact Or.inl h1
  · exact Or.inr (Or.inl ⟨_, h3⟩)
  · right; right; rw [h3]; refine ⟨rfl, rfl, ?_⟩
    intro hR; simp [merged, hR]

/-- **C07** (corollary) A changed wet or dry radius implies an invalidated terminal velocity. -/
theorem coal_no_stale_vt {o : Opts} {e : Env} (h : e.Sorted) {σ : Scheds} (hσ : σ.Valid e.N)
    {s s' : State} (hr : coal o e σ s = some s') (i : ℕ) (hi : i < e.N)
    (hch : (s'.sd i).rw2 ≠ (s.sd i).rw2 ∨ (s'.sd i).rd3 ≠ (s.sd i).rd3) : (s'.sd i).vt = invalid := by
  rcases coal_invalidates_cache h hσ hr i hi with h1 | ⟨n', h1⟩ | h1
  · rw [h1] at hch; simp at hch
  · rw [h1] at hch; simp at hch
  · exact h1.2.1

/-- The radii only grow: a merger never shrinks the receiver (non-negative radii). -/
theorem coal_rd3_nondecreasing {o : Opts} {e : Env} (h : e.Sorted) {σ : Scheds} (hσ : σ.Valid e.N)
    {s s' : State} (hr : coal o e σ s = some s') (hpos : ∀ i < e.N, 0 ≤ (s.sd i).rd3) (i : ℕ) (hi : i < e.N) :
    (s.sd i).rd3 ≤ (s'.sd i).rd3 := by
  rcases coal_each h hσ hr i hi with h1 | ⟨j, hj, hne, -, k, -, ⟨h2, h3, -⟩ | ⟨-, h3, -⟩⟩
  · rw [h1]
  · rw [h3]; exact le_rfl
  · rw [h3]
    have := hpos j hj
    simp only [merged]
    have : (0:ℝ) ≤ k * (s.sd j).rd3 := by positivity
    linarith

/-- Specification: sorted positions examined as candidate pairs of cell `c` by the collider loop
(even index within the cell, next super-droplet in the same cell). -/
def candidatePairs (e : Env) (c : ℕ) : Finset ℕ :=
  (Finset.range (e.N - 1)).filter (fun p => e.cell p = c ∧ e.cell (p + 1) = c ∧ e.cix p % 2 = 0)

theorem scatter_map {M M' : Type*} (φ : M → M') (dst : ℕ → M) (l : List (ℕ × M)) (c : ℕ) :
    scatter (fun i => φ (dst i)) (l.map (fun kv => (kv.1, φ kv.2))) c = φ (scatter dst l c) := by
  induction l generalizing dst with
  | nil => rfl
  | cons kv t ih =>
    obtain ⟨k, v⟩ := kv
    simp only [List.map_cons, scatter]
    rw [← ih]
    congr 1
    funext i
    by_cases hi : i = k
    · subst hi; simp
    · simp [hi]

theorem scl_eq (e : Env) (c : ℕ) : e.scl c = scaleFactor (e.cnt c) := by
  have := scatter_map scaleFactor (fun _ => 0) (hskpngCount e.ijk e.sid) c
  have h0 : scaleFactor 0 = 0 := by simp [scaleFactor]
  simp only [h0] at this
  exact this

theorem cnt_eq_card {e : Env} (h : e.Sorted) (c : ℕ) :
    e.cnt c = ((Finset.range e.N).filter (fun i => e.ijk i = c)).card := by
  rw [cnt_eq h, List.countP_map]
  have : (e.sid.countP ((fun k => decide (k = c)) ∘ e.ijk)) = (List.range e.N).countP ((fun k => decide (k = c)) ∘ e.ijk) :=
    h.perm.countP_eq _
  rw [this, List.countP_eq_length_filter]
  rfl

theorem card_positions {e : Env} (h : e.Sorted) (P : ℕ → Prop) [DecidablePred P] :
    ((Finset.range e.N).filter (fun i => P (e.ijk i))).card = ((Finset.range e.N).filter (fun p => P (e.cell p))).card := by
  rw [Finset.card_filter, Finset.card_filter, sum_id h]
  rfl

/-- positions of a cell form the interval `[off c, off c + cnt c)` -/
theorem cell_eq_iff {e : Env} (h : e.Sorted) (c p : ℕ) (hp : p < e.N) :
    e.cell p = c ↔ e.off c ≤ p ∧ p < e.off c + e.cnt c := by
  have hoff : ∀ d q, q < e.N → (e.cell q < d ↔ q < e.off d) := by
    intro d q hq
    have hcard : e.off d = ((Finset.range e.N).filter (fun p => e.cell p < d)).card := by
      rw [off_eq h, List.countP_map]
      have : (e.sid.countP ((fun k => decide (k < d)) ∘ e.ijk)) = (List.range e.N).countP ((fun k => decide (k < d)) ∘ e.ijk) :=
        h.perm.countP_eq _
      rw [this, List.countP_eq_length_filter, ← card_positions h (fun k => k < d)]
      rfl
    -- the filtered set is an initial segment
    constructor
    · intro hlt
      rw [hcard]
      have : Finset.range (q + 1) ⊆ (Finset.range e.N).filter (fun p => e.cell p < d) := by
        intro r hr
        simp only [Finset.mem_range, Finset.mem_filter] at hr ⊢
        have := cell_mono h (p := r) (q := q) (by omega) hq
        omega
      have := Finset.card_le_card this
      simp at this; omega
    · intro hlt
      by_contra hge
      have : (Finset.range e.N).filter (fun p => e.cell p < d) ⊆ Finset.range q := by
        intro r hr
        simp only [Finset.mem_range, Finset.mem_filter] at hr ⊢
        by_contra hrq
        have := cell_mono h (p := q) (q := r) (by omega) hr.1
        omega
      have := Finset.card_le_card this
      rw [← hcard] at this
      simp at this; omega
  have hs : e.off (c + 1) = e.off c + e.cnt c := rfl
  have h1 := hoff c p hp
  have h2 := hoff (c + 1) p hp
  rw [hs] at h2
  omega

/-- **C06** number of candidate pairs of a cell with `n` super-droplets: `⌊n/2⌋` (every super-droplet but
possibly one is paired). -/
theorem candidate_pair_count {e : Env} (h : e.Sorted) (c : ℕ) :
    (candidatePairs e c).card = ((Finset.range e.N).filter (fun i => e.ijk i = c)).card / 2 := by
  rw [← cnt_eq_card h]
  have hcN : 0 < e.cnt c → e.off c + e.cnt c ≤ e.N := by
    intro _
    have e1 : e.off (c + 1) = e.off c + e.cnt c := rfl
    rw [← e1, off_eq h, ← sid_length h]
    refine List.countP_le_length.trans (by simp)
  have himg : candidatePairs e c = (Finset.range (e.cnt c / 2)).image (fun j => e.off c + 2 * j) := by
    ext p
    simp only [candidatePairs, Finset.mem_filter, Finset.mem_range, Finset.mem_image]
    constructor
    · rintro ⟨hp, h1, h2, h3⟩
      have a1 := (cell_eq_iff h c p (by omega)).1 h1
      have a2 := (cell_eq_iff h c (p + 1) (by omega)).1 h2
      unfold Env.cix at h3
      rw [h1] at h3
      exact ⟨(p - e.off c) / 2, by omega, by omega⟩
    · rintro ⟨j, hj, rfl⟩
      have hN := hcN (by omega)
      have c1 := (cell_eq_iff h c (e.off c + 2 * j) (by omega)).2 (by omega)
      have c2 := (cell_eq_iff h c (e.off c + 2 * j + 1) (by omega)).2 (by omega)
      refine ⟨by omega, c1, c2, ?_⟩
      unfold Env.cix; rw [c1]; omega
  rw [himg, Finset.card_image_of_injective _ (fun a b hab => by simpa using hab), Finset.card_range]

/-- **C06** (candidate pairs examined) × (scale factor) = n(n-1)/2, the number of all unordered pairs of
super-droplets in the cell. -/
theorem scaled_pairs_represent_all_pairs {e : Env} (h : e.Sorted) (c : ℕ) :
    ((candidatePairs e c).card : ℝ) * e.scl c =
      (((Finset.range e.N).filter (fun i => e.ijk i = c)).card.choose 2 : ℝ) := by
  rw [candidate_pair_count h, scl_eq, cnt_eq_card h]
  generalize ((Finset.range e.N).filter (fun i => e.ijk i = c)).card = n
  unfold scaleFactor
  by_cases hn : 1 < n
  · rw [if_pos hn]
    have h2 : ((n / 2 : ℕ) : ℝ) ≠ 0 := by
      have : n / 2 ≠ 0 := by omega
      exact_mod_cast this
    rw [mul_div_cancel₀ _ h2, Nat.choose_two_right]
    have hdvd : 2 ∣ n * (n - 1) := (Nat.even_mul_pred_self n).two_dvd
    rw [Nat.cast_div hdvd (by norm_num)]
    norm_num
  · have : n = 0 ∨ n = 1 := by omega
    rcases this with rfl | rfl <;> simp

/-! ### Non-vacuity: three super-droplets, two of them in cell 0, and a double collision -/

/-- witness super-droplets -/
def exSD (i : ℕ) : SD :=
  { n := if i = 0 then 5 else 2, rw2 := 1, rd3 := 1 / 8, vt := 3, kpa := 1 / 2, chem := fun _ => 1, inc := 0, rc2 := 0 }
/-- witness environment -/
def exEnv : Env :=
  { N := 3, dt := 1, dv := fun _ => 1, ker := fun _ _ _ => 2, ijk := fun i => if i = 2 then 1 else 0, sid := [0, 1, 2], constMulti := false }
/-- witness schedules -/
def exSch : Scheds := ⟨[1, 0], fun _ => [0, 1], [0, 1], [1, 0], [0, 1]⟩
/-- witness state: u01 = 1/2 -/
def exState : State := ⟨exSD, fun _ => 1 / 2, false⟩

theorem exEnv_sorted : exEnv.Sorted := ⟨by decide, by decide⟩
theorem exSch_valid : exSch.Valid exEnv.N := ⟨by decide, fun _ => (by decide : [0, 1].Perm (List.range 2)), by decide, by decide, by decide⟩

example : exEnv.Sorted ∧ exSch.Valid exEnv.N ∧ FitsU64 exEnv.N exState.sd ∧
    (∀ i < exEnv.N, 0 ≤ (exState.sd i).rw2) ∧ (∀ i < exEnv.N, 0 < (exState.sd i).rd3) ∧
    ∃ s', coal ⟨1, true, true, true⟩ exEnv exSch exState = some s' ∧ (s'.sd 0).n < 5 := by
  refine ⟨exEnv_sorted, exSch_valid, ?_, ?_, ?_, ?_⟩
  · intro i _; simp only [exState, exSD]; split_ifs <;> norm_num
  · intro i _; simp [exState, exSD]
  · intro i _; simp [exState, exSD]
  · obtain ⟨s', hr⟩ : ∃ s', coal ⟨1, true, true, true⟩ exEnv exSch exState = some s' := ⟨_, rfl⟩
    refine ⟨s', hr, ?_⟩
    have hpw := coal_pointwise exEnv_sorted exSch_valid hr 0
    have hk : kind exEnv 0 = .pair := by decide
    have hcnt : exEnv.scl 0 = 1 := by
      have : exEnv.cnt 0 = 2 := by decide
      rw [scl_eq, this]; norm_num [scaleFactor]
    have hcell : exEnv.cell 0 = 0 := by decide
    have hprob : ∀ a b, prob exEnv 0 a b = 2 := by
      intro a b; unfold prob; rw [hcell, hcnt]; norm_num [exEnv]
    have hc : ∀ a b u, 0 ≤ u → colNo0 exEnv 0 a b u = 2 := by
      intro a b u hu
      unfold colNo0; rw [hprob]
      have : ⌊(2:ℝ)⌋₊ = 2 := by norm_num
      rw [this]; simp [hu]
    have hid0 : exEnv.id 0 = 0 := by decide
    have hid1 : exEnv.id 1 = 1 := by decide
    simp only [PairLoop.apply, hk, hid0] at hpw
    have ho := coalPair_outcome ⟨1, true, true, true⟩ exEnv 0 (view exEnv exState 0) (view exEnv exState 1)
    rw [hpw]
    obtain ⟨k, hk1, hk2, hx⟩ := ho.hit (by rw [hc _ _ _ (by norm_num [view, exState])]; norm_num)
      (by simp [view, exState, hid0, hid1, exSD])
    simp only [view, exState, hid0, hid1] at hk2 hx
    rw [zero_add]
    show (coalPair ⟨1, true, true, true⟩ exEnv 0 (view exEnv exState 0) (view exEnv exState 1)).1.1.n < 5
    rw [show (coalPair ⟨1, true, true, true⟩ exEnv 0 (view exEnv exState 0) (view exEnv exState 1)).1.1 = _ from hx]
    have hk2' : k * 2 ≤ 5 := hk2
    simp only [donated]
    show subU64 5 (k * 2) < 5
    rw [subU64_eq (by norm_num) hk2']; omega

end
end LCP.Coal
