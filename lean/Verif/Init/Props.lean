import Verif.Init.Model
import Verif.Grid.Props
import Verif.Grid.Volume
import Mathlib.Algebra.Order.BigOperators.Group.Finset
import Mathlib.Tactic.FieldSimp
import Mathlib.Tactic.Positivity
import Mathlib.Tactic.NormNum
import Mathlib.Data.Fin.VecNotation

/-!
# C33 (positions), C34 (stratified radii), C35 (several distributions), C46 (number of particles)
-/
namespace LCP.Init
open LCP.Grid Finset

/-! ### C33 -/

theorem pos_in {p0 p1 dp u : ℝ} {i : ℕ} (hu0 : 0 ≤ u) (hu1 : u < 1) (h : max p0 (i * dp) < min p1 ((i + 1) * dp)) :
    p0 ≤ posLgrngnDomain p0 p1 dp u i ∧ posLgrngnDomain p0 p1 dp u i < p1 ∧
    i * dp ≤ posLgrngnDomain p0 p1 dp u i ∧ posLgrngnDomain p0 p1 dp u i < (i + 1) * dp := by
  unfold posLgrngnDomain
  have a1 := le_max_left p0 (i * dp)
  have a2 := le_max_right p0 (i * dp)
  have b1 := min_le_left p1 ((i + 1) * dp)
  have b2 := min_le_right p1 ((i + 1) * dp)
  generalize max p0 (i * dp) = A at *
  generalize min p1 ((i + 1) * dp) = B at *
  refine ⟨?_, ?_, ?_, ?_⟩ <;> nlinarith

/-- cell index `i` along a dimension of `n` cells overlaps the Lagrangian domain (no condition along a missing dimension) -/
def Meets (n : ℕ) (p0 p1 dp : ℝ) (i : ℕ) : Prop := n ≠ 0 → max p0 (i * dp) < min p1 ((i + 1) * dp)

/-- **C33** (partial: for cells that overlap the Lagrangian domain, see `outside_domain`) The initial position of a super-droplet created
for cell `(i,j,k)` lies in the domain and in that cell, and the cell index computed from it is the one it was created for. -/
theorem initial_position_partial {d : Dims} (hl : d.Layout) {b : Box} {u : Fin 3 → ℝ} (hu : ∀ m, 0 ≤ u m ∧ u m < 1) {i j k : ℕ} (hc : IsCell d i j k)
    (hsz : d.nx ≤ 2 ^ 64 ∧ d.ny ≤ 2 ^ 64 ∧ d.nz ≤ 2 ^ 64)
    (hx : Meets d.nx b.x0 b.x1 b.dx i) (hy : Meets d.ny b.y0 b.y1 b.dy j) (hz : Meets d.nz b.z0 b.z1 b.dz k)
    (hdx : d.nx ≠ 0 → 0 < b.dx) (hdy : d.ny ≠ 0 → 0 < b.dy) (hdz : d.nz ≠ 0 → 0 < b.dz) :
    ∃ c, ravel d i j k = some c ∧ c < d.nCell ∧
      let p := initXyz d b u c
      InSlab d.nx b.dx p.1 i ∧ InSlab d.ny b.dy p.2.1 j ∧ InSlab d.nz b.dz p.2.2 k ∧
      (d.nx ≠ 0 → b.x0 ≤ p.1 ∧ p.1 < b.x1) ∧ (d.ny ≠ 0 → b.y0 ≤ p.2.1 ∧ p.2.1 < b.y1) ∧ (d.nz ≠ 0 → b.z0 ≤ p.2.2 ∧ p.2.2 < b.z1) ∧
      hskpngIjk d b.dx b.dy b.dz p.1 p.2.1 p.2.2 = some c := by
  obtain ⟨c, hr, hlt, hun⟩ := ravel_unravel hl hc
  refine ⟨c, hr, hlt, ?_⟩
  intro p
  have hp : p = (if d.nx = 0 then 0 else posLgrngnDomain b.x0 b.x1 b.dx (u 0) i,
      if d.ny = 0 then 0 else posLgrngnDomain b.y0 b.y1 b.dy (u 1) j, if d.nz = 0 then 0 else posLgrngnDomain b.z0 b.z1 b.dz (u 2) k) := by
    simp only [p, initXyz, hun]
  have key : ∀ {n : ℕ} {p0 p1 dp uu : ℝ} {m : ℕ}, 0 ≤ uu → uu < 1 → Meets n p0 p1 dp m → n ≠ 0 →
      let q := (if n = 0 then 0 else posLgrngnDomain p0 p1 dp uu m); p0 ≤ q ∧ q < p1 ∧ m * dp ≤ q ∧ q < (m + 1) * dp := by
    intro n p0 p1 dp uu m h1 h2 h3 h4
    simp only [if_neg h4]
    exact pos_in h1 h2 (h3 h4)
  have kx := fun h => key (hu 0).1 (hu 0).2 hx h
  have ky := fun h => key (hu 1).1 (hu 1).2 hy h
  have kz := fun h => key (hu 2).1 (hu 2).2 hz h
  have e1 : p.1 = (if d.nx = 0 then 0 else posLgrngnDomain b.x0 b.x1 b.dx (u 0) i) := by rw [hp]
  have e2 : p.2.1 = (if d.ny = 0 then 0 else posLgrngnDomain b.y0 b.y1 b.dy (u 1) j) := by rw [hp]
  have e3 : p.2.2 = (if d.nz = 0 then 0 else posLgrngnDomain b.z0 b.z1 b.dz (u 2) k) := by rw [hp]
  have sx : InSlab d.nx b.dx p.1 i := by intro h; rw [e1]; exact (kx h).2.2
  have sy : InSlab d.ny b.dy p.2.1 j := by intro h; rw [e2]; exact (ky h).2.2
  have sz : InSlab d.nz b.dz p.2.2 k := by intro h; rw [e3]; exact (kz h).2.2
  refine ⟨sx, sy, sz, ?_, ?_, ?_, ?_⟩
  · intro h; rw [e1]; exact ⟨(kx h).1, (kx h).2.1⟩
  · intro h; rw [e2]; exact ⟨(ky h).1, (ky h).2.1⟩
  · intro h; rw [e3]; exact ⟨(kz h).1, (kz h).2.1⟩
  · obtain ⟨c1, c2, c3⟩ := hc
    have cast : ∀ {n : ℕ} {dp q : ℝ} {m : ℕ}, 0 < dp → n ≠ 0 → n ≤ 2 ^ 64 → m < max 1 n → m * dp ≤ q → q < (m + 1) * dp →
        divideByConstantAndCast dp q = some m := by
      intro n dp q m hdp hn hN hm h1 h2
      have hmn : m < n := by omega
      have h0 : 0 ≤ q := le_trans (by positivity) h1
      have hq : q < n * dp := by
        refine lt_of_lt_of_le h2 (mul_le_mul_of_nonneg_right ?_ hdp.le)
        exact_mod_cast hmn
      obtain ⟨m', e, _, _, _, uniq⟩ := cast_spec hdp h0 hq (by exact_mod_cast hN)
      rw [e, uniq m h1 h2]
    have qx : (if d.nx ≠ 0 then divideByConstantAndCast b.dx p.1 else some 0) = some i := by
      by_cases h : d.nx = 0
      · rw [h] at c1; simp [h]; omega
      · rw [if_pos h]; exact cast (hdx h) h hsz.1 c1 (sx h).1 (sx h).2
    have qy : (if d.ny ≠ 0 then divideByConstantAndCast b.dy p.2.1 else some 0) = some j := by
      by_cases h : d.ny = 0
      · rw [h] at c2; simp [h]; omega
      · rw [if_pos h]; exact cast (hdy h) h hsz.2.1 c2 (sy h).1 (sy h).2
    have qz : (if d.nz ≠ 0 then divideByConstantAndCast b.dz p.2.2 else some 0) = some k := by
      by_cases h : d.nz = 0
      · rw [h] at c3; simp [h]; omega
      · rw [if_pos h]; exact cast (hdz h) h hsz.2.2 c3 (sz h).1 (sz h).2
    unfold hskpngIjk
    rw [qx, qy, qz]
    exact hr

/-- hypotheses met by a 2D domain whose edges cut cells -/
example : Meets 4 (1 / 2) (7 / 2) 1 0 ∧ Meets 4 (1 / 2) (7 / 2) 1 3 ∧ Dims.Layout ⟨4, 0, 4⟩ ∧ IsCell ⟨4, 0, 4⟩ 0 0 3 := by
  norm_num [Meets, Dims.Layout, IsCell]

/-- **C33** (negation) Super-droplets are created in every cell, also in those that do not overlap the Lagrangian domain; such a cell can have positive
volume (see C30), hence get super-droplets of positive multiplicity.  2D grid of 2 x 2 unit cells, domain [0,1/2) x [0,1/2): the cell (1,1) has
volume 1/4, its super-droplets get positions in neither the domain nor the cell. -/
theorem outside_domain (u : Fin 3 → ℝ) (hu : ∀ m, 0 < u m ∧ u m < 1) :
    let d : Dims := ⟨2, 0, 2⟩
    let b : Box := ⟨1, 1, 1, 0, 1 / 2, 0, 1, 0, 1 / 2⟩
    ravel d 1 0 1 = some 3 ∧ dvEval d b 3 = 1 / 4 ∧
      (b.x1 ≤ (initXyz d b u 3).1 ∧ (initXyz d b u 3).1 < 1 * b.dx) ∧ (b.z1 ≤ (initXyz d b u 3).2.2 ∧ (initXyz d b u 3).2.2 < 1 * b.dz) := by
  have hd : Dims.nDims ⟨2, 0, 2⟩ = 2 := nDims2 (by norm_num)
  intro d b
  have hun : unravel d 3 = (1, 0, 1) := by simp only [unravel, d, hd]
  have h0 := hu 0
  have h2 := hu 2
  refine ⟨by simp [ravel, d, hd], ?_, ?_, ?_⟩
  · simp only [dvEval, d, b]; norm_num
  · simp only [initXyz, hun, posLgrngnDomain, d, b]
    norm_num
    constructor <;> linarith
  · simp only [initXyz, hun, posLgrngnDomain, d, b]
    norm_num
    constructor <;> linarith

/-! ### Assignment to cells -/

theorem arbitrarySequence_eq (a : ℕ → ℕ) (cnt start c p : ℕ) :
    arbitrarySequence a cnt start c p = if start ≤ p ∧ p < start + cnt then c else a p := by
  unfold arbitrarySequence
  induction cnt with
  | zero => simp
  | succ n ih =>
    rw [List.range_succ, List.foldl_append, List.foldl_cons, List.foldl_nil]
    by_cases h : p = n + start
    · subst h; rw [Function.update_self, if_pos (by omega)]
    · rw [Function.update_of_ne h, ih]
      by_cases h2 : start ≤ p ∧ p < start + n
      · rw [if_pos h2, if_pos (by omega)]
      · rw [if_neg h2, if_neg (by omega)]

theorem scan_succ (cnt : ℕ → ℕ) (c : ℕ) : exclusiveScan cnt (c + 1) = exclusiveScan cnt c + cnt c := rfl

theorem scan_mono (cnt : ℕ → ℕ) {a b : ℕ} (h : a ≤ b) : exclusiveScan cnt a ≤ exclusiveScan cnt b := by
  induction h with
  | refl => rfl
  | step _ ih => rw [Nat.succ_eq_add_one, scan_succ]; omega

theorem scan_disjoint (cnt : ℕ → ℕ) {a b : ℕ} (h : a < b) : exclusiveScan cnt a + cnt a ≤ exclusiveScan cnt b := by
  rw [← scan_succ]; exact scan_mono cnt h

/-- each place belongs to one cell only -/
theorem scan_unique (cnt : ℕ → ℕ) {a b p : ℕ} (ha : exclusiveScan cnt a ≤ p ∧ p < exclusiveScan cnt a + cnt a)
    (hb : exclusiveScan cnt b ≤ p ∧ p < exclusiveScan cnt b + cnt b) : a = b := by
  rcases lt_trichotomy a b with h | h | h
  · have := scan_disjoint cnt h; omega
  · exact h
  · have := scan_disjoint cnt h; omega

/-- every place below the total belongs to some cell -/
theorem scan_cover (cnt : ℕ → ℕ) (N p : ℕ) (hp : p < exclusiveScan cnt N) :
    ∃ c < N, exclusiveScan cnt c ≤ p ∧ p < exclusiveScan cnt c + cnt c := by
  induction N with
  | zero => simp [exclusiveScan] at hp
  | succ n ih =>
    by_cases h : p < exclusiveScan cnt n
    · obtain ⟨c, h1, h2⟩ := ih h; exact ⟨c, by omega, h2⟩
    · exact ⟨n, by omega, by omega, by rw [← scan_succ]; exact hp⟩

theorem initIjk_eq (cnt : ℕ → ℕ) (order : List ℕ) (old : ℕ) (ijk : ℕ → ℕ) (p : ℕ) :
    (∀ c ∈ order, ¬ (old + exclusiveScan cnt c ≤ p ∧ p < old + exclusiveScan cnt c + cnt c)) ∧ initIjk cnt order old ijk p = ijk p ∨
    (∃ c ∈ order, (old + exclusiveScan cnt c ≤ p ∧ p < old + exclusiveScan cnt c + cnt c) ∧ initIjk cnt order old ijk p = c) := by
  unfold initIjk
  induction order generalizing ijk with
  | nil => left; simp
  | cons a l ih =>
    rw [List.foldl_cons]
    rcases ih (arbitrarySequence ijk (cnt a) (old + exclusiveScan cnt a) a) with ⟨h1, h2⟩ | ⟨c, h1, h2, h3⟩
    · rw [h2, arbitrarySequence_eq]
      by_cases h : old + exclusiveScan cnt a ≤ p ∧ p < old + exclusiveScan cnt a + cnt a
      · right; exact ⟨a, by simp, h, by rw [if_pos h]⟩
      · left; refine ⟨?_, by rw [if_neg h]⟩
        intro c hc
        rcases List.mem_cons.1 hc with rfl | hc
        · exact h
        · exact h1 c hc
    · right; exact ⟨c, by simp [h1], h2, h3⟩

/-- **C34** in whatever order the cells are processed, the new super-droplets are numbered cell by cell: the `j`-th of cell `c` has the number
`old + (number in previous cells) + j` and is in cell `c`; older super-droplets keep their cell. -/
theorem cells_assigned (cnt : ℕ → ℕ) (nCell : ℕ) (order : List ℕ) (ho : order.Perm (List.range nCell)) (old : ℕ) (ijk : ℕ → ℕ) :
    (∀ c < nCell, ∀ j < cnt c, initIjk cnt order old ijk (old + ((List.range c).map cnt).sum + j) = c) ∧
    (∀ p < old, initIjk cnt order old ijk p = ijk p) := by
  constructor
  · intro c hc j hj
    rw [← exclusiveScan_eq_sum]
    rcases initIjk_eq cnt order old ijk (old + exclusiveScan cnt c + j) with ⟨h, _⟩ | ⟨c', _, h2, h3⟩
    · exact absurd ⟨by omega, by omega⟩ (h c (ho.mem_iff.2 (List.mem_range.2 hc)))
    · rw [h3]
      exact scan_unique cnt (p := exclusiveScan cnt c + j) ⟨by omega, by omega⟩ ⟨by omega, by omega⟩
  · intro p hp
    rcases initIjk_eq cnt order old ijk p with ⟨_, h⟩ | ⟨c', _, h2, h3⟩
    · exact h
    · omega

/-! ### C34 -/

/-- **C34** The `j`-th of the `cnt c` super-droplets created in cell `c` has log-radius in the `j`-th of `cnt c` equal sub-intervals of `[lo, hi)`. -/
theorem stratified {lo hi : ℝ} (hlh : lo < hi) {u : ℕ → ℝ} (hu : ∀ p, 0 ≤ u p ∧ u p < 1) (cnt : ℕ → ℕ) (nCell : ℕ) (order : List ℕ)
    (ho : order.Perm (List.range nCell)) (old : ℕ) (ijk : ℕ → ℕ) {c j : ℕ} (hc : c < nCell) (hj : j < cnt c) :
    let idx := ((List.range c).map cnt).sum + j
    let l := initLnrd lo hi u cnt (initIjk cnt order old ijk) old idx
    lo + j * ((hi - lo) / cnt c) ≤ l ∧ l < lo + (j + 1) * ((hi - lo) / cnt c) := by
  intro idx l
  have hcell : initIjk cnt order old ijk (old + idx) = c := by
    rw [← Nat.add_assoc]; exact (cells_assigned cnt nCell order ho old ijk).1 c hc j hj
  have hcp : (0 : ℝ) < cnt c := by exact_mod_cast (by omega : 0 < cnt c)
  have hl : l = lo + (j + u idx) * ((hi - lo) / cnt c) := by
    simp only [l, initLnrd, hcell, calcLnrd, exclusiveScan_eq_sum, idx]
    push_cast; field_simp; ring
  rw [hl]
  obtain ⟨h0, h1⟩ := hu idx
  have hw : 0 < (hi - lo) / cnt c := div_pos (by linarith) hcp
  generalize (hi - lo) / cnt c = w at *
  constructor <;> nlinarith

/-- **C34** consequence: the dry radii in a cell are strictly increasing with the number of the super-droplet, hence all different, and inside the range -/
theorem radii_distinct {lo hi : ℝ} (hlh : lo < hi) {u : ℕ → ℝ} (hu : ∀ p, 0 ≤ u p ∧ u p < 1) (cnt : ℕ → ℕ) (nCell : ℕ) (order : List ℕ)
    (ho : order.Perm (List.range nCell)) (old : ℕ) (ijk : ℕ → ℕ) {c j j' : ℕ} (hc : c < nCell) (hjj : j < j') (hj : j' < cnt c) :
    let rd3 := fun j => rd3Of (initLnrd lo hi u cnt (initIjk cnt order old ijk) old (((List.range c).map cnt).sum + j))
    rd3 j < rd3 j' ∧ Real.exp lo ^ 3 ≤ rd3 j ∧ rd3 j' < Real.exp hi ^ 3 := by
  have hcp : (0 : ℝ) < cnt c := by exact_mod_cast (by omega : 0 < cnt c)
  have hw : 0 < (hi - lo) / cnt c := div_pos (by linarith) hcp
  have s1 := stratified hlh hu cnt nCell order ho old ijk hc (show j < cnt c by omega)
  have s2 := stratified hlh hu cnt nCell order ho old ijk hc hj
  have hjr : (j : ℝ) + 1 ≤ j' := by exact_mod_cast hjj
  have hjc : (j' : ℝ) + 1 ≤ cnt c := by exact_mod_cast hj
  have hend : lo + (cnt c : ℝ) * ((hi - lo) / cnt c) = hi := by field_simp; ring
  simp only at s1 s2
  simp only [rd3Of, ← Real.exp_nat_mul]
  generalize initLnrd lo hi u cnt (initIjk cnt order old ijk) old (((List.range c).map cnt).sum + j) = l1 at *
  generalize initLnrd lo hi u cnt (initIjk cnt order old ijk) old (((List.range c).map cnt).sum + j') = l2 at *
  generalize (hi - lo) / (cnt c : ℝ) = w at *
  push_cast
  have hj0 : (0 : ℝ) ≤ j := Nat.cast_nonneg j
  refine ⟨Real.exp_lt_exp.2 ?_, Real.exp_le_exp.2 ?_, Real.exp_lt_exp.2 ?_⟩
  · nlinarith
  · nlinarith
  · nlinarith

example : ∀ p : ℕ, 0 ≤ (fun p : ℕ => (1 : ℝ) / (p + 2)) p ∧ (fun p : ℕ => (1 : ℝ) / (p + 2)) p < 1 := by
  intro p
  have : (0 : ℝ) ≤ p := Nat.cast_nonneg p
  constructor
  · positivity
  · rw [div_lt_one (by linarith)]; linarith

/-! ### C46: number of particles -/

theorem toUint_round {x : ℝ} (hx : 0 ≤ x) : |(toUint (x + 1 / 2) : ℝ) - x| ≤ 1 / 2 := by
  unfold toUint
  have h1 := Nat.floor_le (show 0 ≤ x + 1 / 2 by linarith)
  have h2 := Nat.lt_floor_add_one (x + 1 / 2)
  rw [abs_le]; constructor <;> linarith

theorem log_rd3 (l : ℝ) : Real.log (rd3Of l) / 3 = l := by unfold rd3Of; rw [Real.log_exp]; ring

/-- **C46** With a single distribution, the total of the unrounded multiplicities of a cell is between the lower and the upper Riemann sums of
the distribution (over `sd_conc` equal log-radius intervals) times the volume and density factors; each multiplicity is rounded by at most 1/2. -/
theorem number_single {f : ℝ → ℝ} {lo hi vol tot : ℝ} (hlh : lo < hi) {sdConc : ℕ} (hsd : 0 < sdConc) (htot : tot = totRange [⟨f, lo, hi⟩])
    {u : ℕ → ℝ} (hu : ∀ p, 0 ≤ u p ∧ u p < 1) (nCell : ℕ) (order : List ℕ) (ho : order.Perm (List.range nCell)) (old : ℕ) (ijk : ℕ → ℕ)
    {c : ℕ} (hc : c < nCell) (cf : CellFactor) (hcf : 0 ≤ cf.rho * cf.prof * cf.frac) (hvol : 0 ≤ vol)
    {m M : ℕ → ℝ} (hm : ∀ j < sdConc, ∀ l, lo + j * ((hi - lo) / sdConc) ≤ l → l < lo + (j + 1) * ((hi - lo) / sdConc) → m j ≤ f l ∧ f l ≤ M j)
    (hpos : ∀ l, 0 ≤ f l) :
    ∃ cnt mul, sdConcEntry sdConc vol tot ⟨f, lo, hi⟩ = some (cnt, mul) ∧ cnt = sdConc ∧
      let l := fun j => initLnrd lo hi u (fun _ => cnt) (initIjk (fun _ => cnt) order old ijk) old (((List.range c).map (fun _ => cnt)).sum + j)
      let x := fun j => nReal f mul cf (rd3Of (l j))
      let F := cf.rho * cf.prof * cf.frac * vol
      (∑ j ∈ range cnt, m j * ((hi - lo) / sdConc)) * F ≤ ∑ j ∈ range cnt, x j ∧
      ∑ j ∈ range cnt, x j ≤ (∑ j ∈ range cnt, M j * ((hi - lo) / sdConc)) * F ∧
      ∀ j < cnt, |(initN f mul cf (rd3Of (l j)) : ℝ) - x j| ≤ 1 / 2 := by
  have hne : hi - lo ≠ 0 := by linarith
  have ht : tot = hi - lo := by rw [htot]; simp [totRange]
  have hfr : (hi - lo) / tot * (sdConc : ℝ) = sdConc := by rw [ht, div_self hne, one_mul]
  have hsdr : (0 : ℝ) < sdConc := by exact_mod_cast hsd
  have hden : toUint ((hi - lo) / tot * (sdConc : ℝ) + 1 / 2) = sdConc := by
    rw [hfr]; unfold toUint
    rw [Nat.floor_eq_iff (by positivity)]; constructor <;> linarith
  have hcnt : toUint ((hi - lo) / tot * (sdConc : ℝ)) = sdConc := by rw [hfr]; unfold toUint; exact Nat.floor_natCast _
  refine ⟨sdConc, multiplier0 lo hi sdConc 1 vol, ?_, rfl, ?_⟩
  · unfold sdConcEntry
    rw [if_neg (not_le.2 hlh)]
    dsimp only
    rw [hden, hcnt, if_neg (by omega), Nat.div_self hsd]
    simp
  · intro l x F
    have hs : ∀ j < sdConc, _ := fun j hj => stratified hlh hu (fun _ => sdConc) nCell order ho old ijk hc (j := j) hj
    have hx : ∀ j, x j = f (l j) * ((hi - lo) / sdConc) * F := by
      intro j
      simp only [x, nReal, log_rd3, multiplier0, F]; ring
    have hF : 0 ≤ F := mul_nonneg hcf hvol
    have hw : 0 ≤ (hi - lo) / (sdConc : ℝ) := (div_pos (by linarith) hsdr).le
    refine ⟨?_, ?_, ?_⟩
    · rw [sum_mul]
      apply sum_le_sum
      intro j hj
      rw [hx]
      have := (hm j (mem_range.1 hj) (l j) (hs j (mem_range.1 hj)).1 (hs j (mem_range.1 hj)).2).1
      exact mul_le_mul_of_nonneg_right (mul_le_mul_of_nonneg_right this hw) hF
    · rw [sum_mul]
      apply sum_le_sum
      intro j hj
      rw [hx]
      have := (hm j (mem_range.1 hj) (l j) (hs j (mem_range.1 hj)).1 (hs j (mem_range.1 hj)).2).2
      exact mul_le_mul_of_nonneg_right (mul_le_mul_of_nonneg_right this hw) hF
    · intro j _
      refine toUint_round ?_
      change 0 ≤ x j
      rw [hx]
      exact mul_nonneg (mul_nonneg (hpos _) hw) hF

/-- **C46** dry sizes: the total multiplicity of a cell for an entry given as concentration and number of super-droplets is the number of particles in the
cell (concentration times volume, density and profile factors) up to half a particle per super-droplet -/
theorem number_sizes {conc dv rho prof : ℝ} {k : ℕ} (hk : 0 < k) (h : 0 ≤ conc * dv * rho * prof) :
    |(k * initNSizes conc k dv rho prof : ℕ) - conc * dv * rho * prof| ≤ k / 2 := by
  have hkr : (0 : ℝ) < k := by exact_mod_cast hk
  have := toUint_round (x := conc * dv * rho * prof / k) (div_nonneg h hkr.le)
  unfold initNSizes
  push_cast
  rw [abs_le] at this ⊢
  have e : conc * dv * rho * prof = k * (conc * dv * rho * prof / k) := by field_simp
  rw [e] at *
  have e2 : (k : ℝ) * (conc * dv * rho * prof / k) / k = conc * dv * rho * prof / k := by field_simp
  rw [e2] at *
  constructor <;> nlinarith

example : initNSizes 30 7 2 1 1 = 9 := by
  unfold initNSizes toUint
  rw [Nat.floor_eq_iff (by norm_num)]; norm_num

/-! ### C35 -/

/-- the multiplier with which the `cnt` super-droplets of an entry would represent its whole range -/
noncomputable def idealMultiplier (e : Distro) (cnt : ℕ) (vol : ℝ) : ℝ := (e.hi - e.lo) / cnt * vol

/-- **C35** (partial) when the multiplier is exact: exactly if the truncated count times the truncated quotient is `sd_conc` -/
theorem multiplier_exact_partial {sdConc : ℕ} {vol tot : ℝ} {e : Distro} {cnt : ℕ} {mul : ℝ} (hvol : 0 < vol) (hsd : 0 < sdConc) (hcnt : 0 < cnt)
    (h : sdConcEntry sdConc vol tot e = some (cnt, mul)) :
    mul = idealMultiplier e cnt vol ↔ (sdConc / toUint ((e.hi - e.lo) / tot * sdConc + 1 / 2)) * cnt = sdConc := by
  unfold sdConcEntry at h
  split at h
  · exact absurd h (by simp)
  · rename_i hlt
    push Not at hlt
    dsimp only at h
    split at h
    · exact absurd h (by simp)
    · simp only [Option.some.injEq, Prod.mk.injEq] at h
      obtain ⟨_, h2⟩ := h
      rw [← h2]
      generalize hQ : sdConc / toUint ((e.hi - e.lo) / tot * sdConc + 1 / 2) = Q
      have hsdr : (0 : ℝ) < sdConc := by exact_mod_cast hsd
      have hcr : (0 : ℝ) < cnt := by exact_mod_cast hcnt
      have hR : 0 < (e.hi - e.lo) := by linarith
      unfold multiplier0 idealMultiplier
      have : (e.hi - e.lo) / sdConc * 1 * vol * (Q : ℝ) = (e.hi - e.lo) / cnt * vol ↔ (Q : ℝ) * cnt = sdConc := by
        have e1 : (e.hi - e.lo) / sdConc * 1 * vol * (Q : ℝ) = ((e.hi - e.lo) * vol / (sdConc * cnt)) * (Q * cnt) := by field_simp
        have e2 : (e.hi - e.lo) / cnt * vol = ((e.hi - e.lo) * vol / (sdConc * cnt)) * sdConc := by field_simp
        rw [e1, e2]
        have hp : 0 < (e.hi - e.lo) * vol / (sdConc * cnt) := by positivity
        exact mul_right_inj' hp.ne'
      rw [this]
      exact_mod_cast Iff.rfl

/-- **C35** (partial) a single distribution: `sd_conc` super-droplets per cell and the exact multiplier -/
theorem single_distro_partial {sdConc : ℕ} (hsd : 0 < sdConc) {vol : ℝ} {e : Distro} (hlh : e.lo < e.hi) :
    sdConcEntry sdConc vol (totRange [e]) e = some (sdConc, idealMultiplier e sdConc vol) := by
  have hne : e.hi - e.lo ≠ 0 := by linarith
  have hfr : (e.hi - e.lo) / totRange [e] * (sdConc : ℝ) = sdConc := by simp [totRange, div_self hne]
  have hden : toUint ((e.hi - e.lo) / totRange [e] * (sdConc : ℝ) + 1 / 2) = sdConc := by
    rw [hfr]; unfold toUint
    rw [Nat.floor_eq_iff (by positivity)]; constructor <;> linarith
  have hcnt : toUint ((e.hi - e.lo) / totRange [e] * (sdConc : ℝ)) = sdConc := by rw [hfr]; unfold toUint; exact Nat.floor_natCast _
  unfold sdConcEntry
  rw [if_neg (not_le.2 hlh)]
  dsimp only
  rw [hden, hcnt, if_neg (by omega), Nat.div_self hsd]
  simp [multiplier0, idealMultiplier]

/-- **C35** (partial) the number of particles of an entry is never overestimated by the scaling -/
theorem multiplier_le_partial {sdConc : ℕ} {vol tot : ℝ} {e : Distro} {cnt : ℕ} {mul : ℝ} (hvol : 0 ≤ vol) (hsd : 0 < sdConc)
    (h : sdConcEntry sdConc vol tot e = some (cnt, mul)) :
    cnt * mul ≤ (e.hi - e.lo) * vol := by
  unfold sdConcEntry at h
  split at h
  · exact absurd h (by simp)
  · rename_i hlt
    push Not at hlt
    dsimp only at h
    split at h
    · exact absurd h (by simp)
    · simp only [Option.some.injEq, Prod.mk.injEq] at h
      obtain ⟨h1, h2⟩ := h
      have hcd : cnt ≤ toUint ((e.hi - e.lo) / tot * sdConc + 1 / 2) := by
        rw [← h1]; exact Nat.floor_le_floor (by linarith)
      have hQ : sdConc / toUint ((e.hi - e.lo) / tot * sdConc + 1 / 2) * cnt ≤ sdConc :=
        le_trans (Nat.mul_le_mul_left _ hcd) (Nat.div_mul_le_self _ _)
      rw [← h2]
      generalize sdConc / toUint ((e.hi - e.lo) / tot * sdConc + 1 / 2) = Q at *
      have hQr : (Q : ℝ) * cnt ≤ sdConc := by exact_mod_cast hQ
      have hsdr : (0 : ℝ) < sdConc := by exact_mod_cast hsd
      unfold multiplier0
      have e1 : (cnt : ℝ) * ((e.hi - e.lo) / sdConc * 1 * vol * Q) = ((e.hi - e.lo) * vol / sdConc) * (Q * cnt) := by field_simp
      have e2 : (e.hi - e.lo) * vol = ((e.hi - e.lo) * vol / sdConc) * sdConc := by field_simp
      rw [e1]
      refine le_trans ?_ e2.symm.le
      exact mul_le_mul_of_nonneg_left hQr (div_nonneg (mul_nonneg (sub_nonneg.2 hlt.le) hvol) hsdr.le)

/-- **C35** (partial) all entries together do not give more than `sd_conc` super-droplets per cell -/
theorem count_total_partial {sdConc : ℕ} {ds : List Distro} (hpos : ∀ e ∈ ds, e.lo < e.hi) (hne : ds ≠ []) :
    (ds.map (fun e => toUint ((e.hi - e.lo) / totRange ds * sdConc))).sum ≤ sdConc := by
  have htot : 0 < totRange ds := by
    unfold totRange
    cases ds with
    | nil => exact absurd rfl hne
    | cons a l =>
      simp only [List.map_cons, List.sum_cons]
      have ha := hpos a (by simp)
      have : 0 ≤ (l.map (fun e => e.hi - e.lo)).sum := List.sum_nonneg (by
        intro x hx
        obtain ⟨e, he, rfl⟩ := List.mem_map.1 hx
        have := hpos e (by simp [he]); linarith)
      linarith
  have key : ∀ l : List Distro, (∀ e ∈ l, e.lo < e.hi) →
      (((l.map (fun e => toUint ((e.hi - e.lo) / totRange ds * sdConc))).sum : ℕ) : ℝ) ≤ totRange l / totRange ds * sdConc := by
    intro l
    induction l with
    | nil => intro _; simp [totRange]
    | cons a l ih =>
      intro hl
      have ih' := ih (fun e he => hl e (by simp [he]))
      have ha := hl a (by simp)
      simp only [List.map_cons, List.sum_cons, totRange] at ih' ⊢
      rw [Nat.cast_add]
      have : (toUint ((a.hi - a.lo) / (ds.map (fun e => e.hi - e.lo)).sum * sdConc) : ℝ) ≤ (a.hi - a.lo) / (ds.map (fun e => e.hi - e.lo)).sum * sdConc :=
        Nat.floor_le (mul_nonneg (div_nonneg (by linarith) htot.le) (Nat.cast_nonneg _))
      refine le_trans (add_le_add this ih') (le_of_eq ?_)
      ring
  have := key ds hpos
  rw [div_self htot.ne', one_mul] at this
  exact_mod_cast this

/-- two distributions with log-radius ranges 2 and 3 -/
def exD1 : Distro := ⟨fun _ => 1, 0, 2⟩
def exD2 : Distro := ⟨fun _ => 1, 0, 3⟩

/-- **C35** (negation) With two distributions of ranges 2 and 3 and `sd_conc = 64`, the first one gets 25 super-droplets per cell, with a multiplier scaled
by the integer quotient 64/26 = 2 instead of 64/25: only 25/32 of the particles of this distribution are represented. -/
theorem multiplier_wrong : sdConcEntry 64 1 (totRange [exD1, exD2]) exD1 = some (25, 2 / 64 * 1 * 1 * 2) ∧
    (25 : ℝ) * (2 / 64 * 1 * 1 * 2) = 25 / 32 * ((exD1.hi - exD1.lo) * 1) := by
  have ht : totRange [exD1, exD2] = 5 := by norm_num [totRange, exD1, exD2]
  constructor
  · unfold sdConcEntry
    rw [ht]
    have h1 : toUint ((exD1.hi - exD1.lo) / 5 * ((64 : ℕ) : ℝ) + 1 / 2) = 26 := by
      unfold toUint; rw [Nat.floor_eq_iff (by norm_num [exD1])]; norm_num [exD1]
    have h2 : toUint ((exD1.hi - exD1.lo) / 5 * ((64 : ℕ) : ℝ)) = 25 := by
      unfold toUint; rw [Nat.floor_eq_iff (by norm_num [exD1])]; norm_num [exD1]
    rw [if_neg (by norm_num [exD1])]
    dsimp only
    rw [h1, h2]
    norm_num [multiplier0, exD1]
  · norm_num [exD1]

/-- **C35** (negation) a distribution much narrower than the others: integer division by zero -/
theorem multiplier_div_zero : sdConcEntry 64 1 (totRange [⟨fun _ => 1, 0, 1⟩, ⟨fun _ => 1, 0, 999⟩]) ⟨fun _ => 1, 0, 1⟩ = none := by
  have ht : totRange [⟨fun _ => 1, 0, 1⟩, ⟨fun _ => 1, 0, 999⟩] = 1000 := by norm_num [totRange]
  unfold sdConcEntry
  rw [ht]
  have h1 : toUint (((1 : ℝ) - 0) / 1000 * ((64 : ℕ) : ℝ) + 1 / 2) = 0 := by
    unfold toUint; rw [Nat.floor_eq_iff (by norm_num)]; norm_num
  rw [if_neg (by norm_num)]
  dsimp only
  rw [if_pos h1]

end LCP.Init
