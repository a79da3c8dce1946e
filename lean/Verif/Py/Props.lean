import Verif.Py.Model
import Verif.E2L.Halo

/-!
# Arrays passed from Python (C99)
-/
namespace LCP.Py
open LCP.Grid LCP.E2L

/-! ### Specification: NumPy's C order -/

/-- strides in bytes of a freshly allocated C-ordered float64 array -/
def cStrides : List ℕ → List ℤ
  | [] => []
  | _ :: l => 8 * (l.prod : ℤ) :: cStrides l

/-- position, in elements from the beginning of the data, of the element with the given indices -/
def cIndex : List ℕ → List ℕ → ℕ
  | _ :: l, i :: is => i * l.prod + cIndex l is
  | _, _ => 0

/-- a freshly allocated float64 array of a given shape -/
structure Fresh (a : NpArr) (sh : List ℕ) : Prop where
  dtype : a.dtype = .float64
  contig : a.cContig = true
  shape : a.shape = sh
  strides : a.strides = cStrides sh

/-- the shape of an array of cell (or face) values with `X`, `Y`, `Z` entries per dimension, in a given dimensionality -/
def shapeOf (nd X Y Z : ℕ) : List ℕ :=
  match nd with
  | 0 => [1]
  | 1 => [X]
  | 2 => [X, Z]
  | _ => [X, Y, Z]

/-- the indices of the entry for `(i,j,k)` -/
def indexOf (nd i j k : ℕ) : List ℕ :=
  match nd with
  | 0 => [0]
  | 1 => [i]
  | 2 => [i, k]
  | _ => [i, j, k]

theorem strideElems_mul {n : ℕ} (h : n < 2 ^ 61) : strideElems (8 * (n : ℤ)) = n := by
  unfold strideElems
  rw [Int.emod_eq_of_lt (by positivity) (by have : (n : ℤ) < 2 ^ 61 := by exact_mod_cast h
                                            linarith), Int.mul_ediv_cancel_left _ (by norm_num)]

/-! ### What `np2ai` does to fresh arrays -/

/-- grid as seen by the bindings: the options of the whole process -/
def procDims (D : Dom) : Dims := ⟨if D.d.nDims = 0 then 0 else D.nxTot, D.d.ny, D.d.nz⟩

theorem np2ai_fresh1 {a : NpArr} {sz : Dims} {X : ℕ} (f : Fresh a [X]) (hd : pyDims sz = 1 ∨ (pyDims sz = 0 ∧ X = 1)) :
    np2ai a sz = .ai [1] := by
  have e : strideElems 8 = 1 := by decide
  obtain ⟨h1, h2, h3, h4⟩ := f
  rcases hd with hd | ⟨hd, rfl⟩ <;> simp [np2ai, h1, h2, h3, h4, hd, cStrides, copyStrides, e]

theorem np2ai_fresh2 {a : NpArr} {sz : Dims} {X Z : ℕ} (f : Fresh a [X, Z]) (hd : pyDims sz = 2) (hZ : Z < 2 ^ 61) :
    np2ai a sz = .ai [(Z : ℤ), 1] := by
  have e : strideElems 8 = 1 := by decide
  have eZ := strideElems_mul hZ
  obtain ⟨h1, h2, h3, h4⟩ := f
  simp [np2ai, h1, h2, h3, h4, hd, cStrides, copyStrides, e, eZ]

theorem np2ai_fresh3 {a : NpArr} {sz : Dims} {X Y Z : ℕ} (f : Fresh a [X, Y, Z]) (hd : pyDims sz = 3) (hZ : Z < 2 ^ 61)
    (hYZ : Y * Z < 2 ^ 61) : np2ai a sz = .ai [((Y * Z : ℕ) : ℤ), (Z : ℤ), 1] := by
  have e : strideElems 8 = 1 := by decide
  have eZ := strideElems_mul hZ
  have eYZ := strideElems_mul hYZ
  push_cast at eYZ
  obtain ⟨h1, h2, h3, h4⟩ := f
  simp [np2ai, h1, h2, h3, h4, hd, cStrides, copyStrides, e, eZ, eYZ]

/-- A profile in a 2D or 3D set-up gets zero horizontal strides and unit vertical stride. -/
theorem np2ai_profile {a : NpArr} {sz : Dims} {L : ℕ} (f : Fresh a [L]) (hd : pyDims sz = 2 ∨ pyDims sz = 3) :
    np2ai a sz = if pyDims sz = 2 then .ai [0, 1] else .ai [0, 0, 1] := by
  have e : strideElems 8 = 1 := by decide
  obtain ⟨h1, h2, h3, h4⟩ := f
  rcases hd with hd | hd <;> simp [np2ai, h1, h2, h3, h4, hd, cStrides, copyStrides, e]

/-- the bindings and the library agree on the dimensionality, except for a single column in 1D -/
theorem pyDims_eq {d : Dims} (hL : d.Layout) (h1 : ¬ (d.nx = 1 ∧ d.ny = 0 ∧ d.nz = 0)) : pyDims d = d.nDims := by
  rcases hL with h | h | h | h
  · rw [nDims0 h]; simp [pyDims, h]
  · rw [nDims1 h]; simp [pyDims, h]; omega
  · rw [nDims2 h]; simp [pyDims, h]
  · rw [nDims3 h]; simp [pyDims, h]

/-- the strides that a fresh array of the right shape ends up with, and what they mean -/
theorem np2ai_good {a : NpArr} {sz : Dims} {nd X Y Z : ℕ} (f : Fresh a (shapeOf nd X Y Z)) (hnd : nd ≤ 3)
    (hd : pyDims sz = nd ∨ (pyDims sz = 0 ∧ nd = 1 ∧ X = 1))
    (hfit : X * Y * Z ≤ 2 ^ 31) (hX : 0 < X) (hY : 0 < Y) (hZ : 0 < Z) (h1 : nd ≤ 1 → Z = 1) (h2 : nd ≤ 2 → Y = 1) :
    ∃ v, np2ai a sz = .ai v ∧ GoodStrides nd (asStrides v) X Y Z ∧ (2 ≤ nd → Dense nd (asStrides v) Y Z) ∧
      ∀ i j k : ℕ, elem nd (asStrides v) i j k = cIndex (shapeOf nd X Y Z) (indexOf nd i j k) := by
  have hYZ : Y * Z ≤ 2 ^ 31 := by
    calc Y * Z ≤ X * (Y * Z) := Nat.le_mul_of_pos_left _ hX
      _ = X * Y * Z := by ring
      _ ≤ _ := hfit
  have hZ' : Z ≤ 2 ^ 31 := (Nat.le_mul_of_pos_left Z hY).trans hYZ
  match nd, hnd with
  | 0, _ =>
    have hd : pyDims sz = 0 := by omega
    exact ⟨_, np2ai_fresh1 f (Or.inr ⟨hd, rfl⟩), trivial, by omega, fun i j k => by simp [elem, cIndex, shapeOf, indexOf]⟩
  | 1, _ =>
    refine ⟨_, np2ai_fresh1 f (by omega), trivial, by omega, fun i j k => by simp [elem, cIndex, shapeOf, indexOf]⟩
  | 2, _ =>
    have hd : pyDims sz = 2 := by omega
    refine ⟨_, np2ai_fresh2 f hd (by omega), ⟨rfl, le_refl _⟩, fun _ => ⟨rfl, rfl⟩, fun i j k => ?_⟩
    simp [elem, asStrides, cIndex, shapeOf, indexOf]; ring
  | 3, _ =>
    have hd : pyDims sz = 3 := by omega
    refine ⟨_, np2ai_fresh3 f hd (by omega) (by omega), ⟨rfl, Or.inl ⟨le_refl _, ?_⟩⟩,
      fun _ => ⟨rfl, rfl, by simp [asStrides]⟩, fun i j k => ?_⟩
    · simp [asStrides]
    · simp [elem, asStrides, cIndex, shapeOf, indexOf]; ring

/-- an index inside the shape is a position inside the data -/
theorem cIndex_lt {nd X Y Z i j k : ℕ} (h0 : nd = 0 → X = 1) (hi : i < X) (hj : j < Y) (hk : k < Z) :
    cIndex (shapeOf nd X Y Z) (indexOf nd i j k) < (shapeOf nd X Y Z).prod := by
  have row : ∀ a A b B : ℕ, a < A → b < B → a * B + b < A * B := by
    intro a A b B ha hb
    have : (a + 1) * B ≤ A * B := Nat.mul_le_mul_right _ ha
    have : (a + 1) * B = a * B + B := by ring
    omega
  match nd with
  | 0 => simp [cIndex, shapeOf, indexOf]
  | 1 => simpa [cIndex, shapeOf, indexOf] using hi
  | 2 => simpa [cIndex, shapeOf, indexOf] using row _ _ _ _ hi hk
  | n + 3 => simpa [cIndex, shapeOf, indexOf] using row _ _ _ _ hi (row _ _ _ _ hj hk)

/-- a domain with vertical extent only also counts as one-dimensional, so that only arrays of one dimension are accepted for it -/
theorem vertical_column {a : NpArr} {sz : Dims} (h : sz.nx = 0 ∧ sz.ny = 0 ∧ 0 < sz.nz) (hs : a.strides.length = a.shape.length) :
    pyDims sz = sz.nDims ∧ ((∃ v, np2ai a sz = .ai v) ↔ a.dtype = .float64 ∧ a.cContig = true ∧ a.shape.length = 1) := by
  have h1 : pyDims sz = 1 := by simp [pyDims, h]
  constructor
  · rw [h1]; unfold Dims.nDims; obtain ⟨a, b, c⟩ := h; simp [a, b, m1]; rw [if_neg (by omega), Nat.div_self c]
  · unfold np2ai
    simp only [h1]
    split_ifs <;> simp_all
    omega


theorem pyDims_proc {D : Dom} (hL : D.d.Layout) (hx : D.nxBfr + D.d.nx ≤ D.nxTot) :
    pyDims (procDims D) = D.d.nDims ∨ (pyDims (procDims D) = 0 ∧ D.d.nDims = 1 ∧ D.nxTot = 1) := by
  rcases hL with h | h | h | h
  · left; rw [nDims0 h]; simp [pyDims, procDims, h, nDims0 h]
  · have hn := nDims1 h
    by_cases h1 : D.nxTot = 1
    · right; simp [pyDims, procDims, h, hn, h1]
    · left; rw [hn]; simp [pyDims, procDims, h, hn]; omega
  · have hn := nDims2 h
    left; rw [hn]; simp [pyDims, procDims, h, hn]; omega
  · have hn := nDims3 h
    left; rw [hn]; simp [pyDims, procDims, h, hn]; omega

/-- **C99** (partial: freshly laid out arrays, not every array flagged C-contiguous) A float64 array with one entry per cell of the
process, passed from Python as th, rv, rhod, p, diss_rate or a trace gas, is accepted, and the value read (or written) for cell
`(i,j,k)` of a device with `nxBfr` columns to its left is the array's entry `[nxBfr+i, j, k]` (`[nxBfr+i, k]` in 2D, `[nxBfr+i]`
in 1D, `[0]` in a parcel), inside the array. -/
theorem array_cells_partial {D : Dom} {a : NpArr} (hL : D.d.Layout) (hx : D.nxBfr + D.d.nx ≤ D.nxTot)
    (hpar : D.d.nDims = 0 → D.nxBfr = 0 ∧ D.nxTot = 1) (hsize : D.nxTot * max 1 D.d.ny * max 1 D.d.nz ≤ 2 ^ 31)
    (f : Fresh a (shapeOf D.d.nDims D.nxTot D.d.ny D.d.nz)) :
    ∃ v, np2ai a (procDims D) = .ai v ∧ ∀ i j k q, IsCell D.d i j k → ravel D.d i j k = some q →
      l2eScalar D (asStrides v) q =
        cIndex (shapeOf D.d.nDims D.nxTot D.d.ny D.d.nz) (indexOf D.d.nDims (D.nxBfr + i) j k) ∧
      cIndex (shapeOf D.d.nDims D.nxTot D.d.ny D.d.nz) (indexOf D.d.nDims (D.nxBfr + i) j k) < a.shape.prod := by
  have hnd : D.d.nDims ≤ 3 := by
    rcases hL with h | h | h | h
    · rw [nDims0 h]; omega
    · rw [nDims1 h]; omega
    · rw [nDims2 h]; omega
    · rw [nDims3 h]
  have hsh : shapeOf D.d.nDims D.nxTot D.d.ny D.d.nz = shapeOf D.d.nDims D.nxTot (max 1 D.d.ny) (max 1 D.d.nz) := by
    rcases hL with h | h | h | h
    · rw [nDims0 h]; rfl
    · rw [nDims1 h]; rfl
    · rw [nDims2 h]; simp only [shapeOf]; rw [show max 1 D.d.nz = D.d.nz by omega]
    · rw [nDims3 h]; simp only [shapeOf]; rw [show max 1 D.d.nz = D.d.nz by omega, show max 1 D.d.ny = D.d.ny by omega]
  have h12 := dims_one hL
  have hX : 0 < D.nxTot := by
    rcases hL with h | h | h | h
    · have := hpar (nDims0 h); omega
    all_goals omega
  have hp := pyDims_proc hL hx
  obtain ⟨v, hv, hg, -, he⟩ := np2ai_good (sz := procDims D) (nd := D.d.nDims) (X := D.nxTot) (Y := max 1 D.d.ny) (Z := max 1 D.d.nz)
    (hsh ▸ f) hnd hp hsize hX (by omega) (by omega) h12.1 h12.2
  refine ⟨v, hv, fun i j k q hc hq => ?_⟩
  have hI : D.nxBfr + i < D.nxTot := Good.col_lt (s := asStrides v) ⟨hL, hg, hsize, hx, hpar⟩ hc
  rw [scalar_map hL hg hsize hx hc hq hpar, f.shape, hsh]
  exact ⟨he _ _ _, cIndex_lt (fun h => (hpar h).2) hI hc.2.1 hc.2.2⟩

/-- A fresh array flows through: reading it gives the entry of each cell. -/
theorem array_read_partial {α : Type} {D : Dom} {a : NpArr} (hL : D.d.Layout) (hx : D.nxBfr + D.d.nx ≤ D.nxTot)
    (hpar : D.d.nDims = 0 → D.nxBfr = 0 ∧ D.nxTot = 1) (hsize : D.nxTot * max 1 D.d.ny * max 1 D.d.nz ≤ 2 ^ 31)
    (f : Fresh a (shapeOf D.d.nDims D.nxTot D.d.ny D.d.nz)) (data : Mem α) :
    ∃ v, np2ai a (procDims D) = .ai v ∧ ∀ i j k q, IsCell D.d i j k → ravel D.d i j k = some q → q < D.d.nCell →
      (syncIn (l2eScalar D (asStrides v)) D.d.nCell data)[q]? =
        some (data (cIndex (shapeOf D.d.nDims D.nxTot D.d.ny D.d.nz) (indexOf D.d.nDims (D.nxBfr + i) j k))) := by
  obtain ⟨v, hv, h⟩ := array_cells_partial hL hx hpar hsize f
  refine ⟨v, hv, fun i j k q hc hq hlt => ?_⟩
  simp [syncIn, hlt, (h i j k q hc hq).1]

/-- a 4×3×5 grid as the right part (columns 2..5) of a process with 6 columns -/
example : Dims.Layout ⟨4, 3, 5⟩ ∧ Fresh ⟨.float64, true, [6, 3, 5], [120, 40, 8]⟩ (shapeOf 3 6 3 5) ∧
    np2ai ⟨.float64, true, [6, 3, 5], [120, 40, 8]⟩ ⟨6, 3, 5⟩ = .ai [15, 5, 1] ∧
    l2eScalar ⟨⟨4, 3, 5⟩, 2, 6⟩ ⟨15, 5, 1⟩ 19 = cIndex [6, 3, 5] [3, 0, 4] := by
  refine ⟨Or.inr (Or.inr (Or.inr (by decide))), ⟨rfl, rfl, rfl, by decide⟩, by decide, by decide⟩

/-- **C99** Courant numbers: the array of faces perpendicular to x (one more along x) is read at its entry `[nxBfr+i, j, k]` for face `i`
of the device, stored after a halo of `h` columns; likewise for faces perpendicular to y and z. -/
theorem array_faces_x {D : Dom} {a : NpArr} (hL : D.d.Layout) (hn : D.d.nDims ≠ 0) (hx : D.nxBfr + D.d.nx ≤ D.nxTot) {h : ℕ}
    (h1 : ¬ (D.d.nDims = 1 ∧ D.nxTot = 1))
    (hf : FitsInt (D.nxTot + 1) (effY D.d 0) (effZ D.d 0) h)
    (f : Fresh a (shapeOf D.d.nDims (D.nxTot + 1) D.d.ny D.d.nz)) :
    ∃ v, np2ai a (procDims D) = .ai v ∧ ∀ i j k, i ≤ D.d.nx → j < effY D.d 0 → k < effZ D.d 0 →
      l2eX D h (asStrides v) (((h + i) * effY D.d 0 + j) * effZ D.d 0 + k) =
        cIndex (shapeOf D.d.nDims (D.nxTot + 1) D.d.ny D.d.nz) (indexOf D.d.nDims (D.nxBfr + i) j k) := by
  have hp : pyDims (procDims D) = D.d.nDims := by
    rcases pyDims_proc hL hx with h | h
    · exact h
    · exact absurd h.2 h1
  have hnd : D.d.nDims ≤ 3 := by
    rcases hL with h | h | h | h
    · rw [nDims0 h]; omega
    · rw [nDims1 h]; omega
    · rw [nDims2 h]; omega
    · rw [nDims3 h]
  have hsh : shapeOf D.d.nDims (D.nxTot + 1) D.d.ny D.d.nz = shapeOf D.d.nDims (D.nxTot + 1) (effY D.d 0) (effZ D.d 0) := by
    rw [effY_eq hL, effZ_eq hL]
    rcases hL with h | h | h | h
    · rw [nDims0 h]; rfl
    · rw [nDims1 h]; rfl
    · rw [nDims2 h]; simp only [shapeOf]; rw [show max 1 D.d.nz = D.d.nz by omega]
    · rw [nDims3 h]; simp only [shapeOf]; rw [show max 1 D.d.nz = D.d.nz by omega, show max 1 D.d.ny = D.d.ny by omega]
  have h12 := dims_one hL
  have hfit : (D.nxTot + 1) * effY D.d 0 * effZ D.d 0 ≤ 2 ^ 31 := by
    exact le_trans (Nat.mul_le_mul_right _ (Nat.mul_le_mul_right _ (by omega))) hf
  obtain ⟨v, hv, hg, -, he⟩ := np2ai_good (sz := procDims D) (nd := D.d.nDims) (X := D.nxTot + 1) (Y := effY D.d 0) (Z := effZ D.d 0)
    (hsh ▸ f) hnd (Or.inl hp) hfit (by omega) (by rw [effY_eq hL]; omega) (by rw [effZ_eq hL]; omega)
    (by rw [effZ_eq hL]; exact h12.1) (by rw [effY_eq hL]; exact h12.2)
  refine ⟨v, hv, fun i j k hi hj hk => ?_⟩
  rw [courant_x_map hL hn hg hf hi hx hj hk, hsh]
  exact he _ _ _

theorem array_faces_y {D : Dom} {a : NpArr} (h3 : 0 < D.d.nx ∧ 0 < D.d.ny ∧ 0 < D.d.nz) (hx : D.nxBfr + D.d.nx ≤ D.nxTot) {h : ℕ}
    (hf : FitsInt D.nxTot (D.d.ny + 1) D.d.nz h) (f : Fresh a [D.nxTot, D.d.ny + 1, D.d.nz]) :
    ∃ v, np2ai a (procDims D) = .ai v ∧ ∀ i j k, i < D.d.nx → j ≤ D.d.ny → k < D.d.nz →
      l2eY D h (asStrides v) (((h + i) * (D.d.ny + 1) + j) * D.d.nz + k) =
        cIndex [D.nxTot, D.d.ny + 1, D.d.nz] [D.nxBfr + i, j, k] := by
  have hL : D.d.Layout := Or.inr (Or.inr (Or.inr h3))
  have hn := nDims3 h3
  have hp : pyDims (procDims D) = 3 := by
    rcases pyDims_proc hL hx with h | h
    · rw [h, hn]
    · omega
  have hfit : D.nxTot * (D.d.ny + 1) * D.d.nz ≤ 2 ^ 31 := by
    refine le_trans ?_ hf
    gcongr; omega
  obtain ⟨v, hv, hg, -, he⟩ := np2ai_good (sz := procDims D) (nd := 3) (X := D.nxTot) (Y := D.d.ny + 1) (Z := D.d.nz)
    f (by omega) (Or.inl hp) hfit (by omega) (by omega) h3.2.2 (by omega) (by omega)
  refine ⟨v, hv, fun i j k hi hj hk => ?_⟩
  rw [courant_y_map h3 hg hf hi hx hj hk]
  exact he _ _ _

theorem array_faces_z {D : Dom} {a : NpArr} (hL : D.d.Layout) (hn : D.d.nDims = 2 ∨ D.d.nDims = 3) (hx : D.nxBfr + D.d.nx ≤ D.nxTot)
    {h : ℕ} (hf : FitsInt D.nxTot (effY D.d 0) (D.d.nz + 1) h)
    (f : Fresh a (shapeOf D.d.nDims D.nxTot D.d.ny (D.d.nz + 1))) :
    ∃ v, np2ai a (procDims D) = .ai v ∧ ∀ i j k, i < D.d.nx → j < effY D.d 0 → k ≤ D.d.nz →
      l2eZ D h (asStrides v) (((h + i) * effY D.d 0 + j) * (D.d.nz + 1) + k) =
        cIndex (shapeOf D.d.nDims D.nxTot D.d.ny (D.d.nz + 1)) (indexOf D.d.nDims (D.nxBfr + i) j k) := by
  have hp : pyDims (procDims D) = D.d.nDims := by
    rcases pyDims_proc hL hx with h | h
    · exact h
    · omega
  have hsh : shapeOf D.d.nDims D.nxTot D.d.ny (D.d.nz + 1) = shapeOf D.d.nDims D.nxTot (effY D.d 0) (D.d.nz + 1) := by
    rcases hn with h | h
    · rw [h]; rfl
    · rw [h]; simp [effY, h]
  have hx0 : 0 < D.nxTot := by
    rcases hL with h | h | h | h
    · rw [nDims0 h] at hn; omega
    all_goals omega
  have hfit : D.nxTot * effY D.d 0 * (D.d.nz + 1) ≤ 2 ^ 31 := by
    refine le_trans ?_ hf
    gcongr; omega
  have h12 := dims_one hL
  obtain ⟨v, hv, hg, -, he⟩ := np2ai_good (sz := procDims D) (nd := D.d.nDims) (X := D.nxTot) (Y := effY D.d 0) (Z := D.d.nz + 1)
    (hsh ▸ f) (by omega) (Or.inl hp) hfit hx0 (by rw [effY_eq hL]; omega) (by omega) (by omega)
    (by rw [effY_eq hL]; exact h12.2)
  refine ⟨v, hv, fun i j k hi hj hk => ?_⟩
  rw [courant_z_map hL hn hg hf hi hx hj hk, hsh]
  exact he _ _ _

/-- **C99** Profiles: in 2D and 3D a 1D array is used as a vertical profile, whatever its length: the value read for cell `(i,j,k)` is
its entry `k`. -/
theorem profile_cells {D : Dom} {a : NpArr} {L : ℕ} (hL : D.d.Layout) (hn : D.d.nDims = 2 ∨ D.d.nDims = 3)
    (hx : D.nxBfr + D.d.nx ≤ D.nxTot) (hsize : D.nxTot * max 1 D.d.ny * max 1 D.d.nz ≤ 2 ^ 31) (f : Fresh a [L]) :
    ∃ v, np2ai a (procDims D) = .ai v ∧ ∀ i j k q, IsCell D.d i j k → ravel D.d i j k = some q →
      l2eScalar D (asStrides v) q = k := by
  have hp : pyDims (procDims D) = D.d.nDims := by
    rcases pyDims_proc hL hx with h | h
    · exact h
    · omega
  have := np2ai_profile (sz := procDims D) f (by rw [hp]; exact hn)
  rw [hp] at this
  rcases hn with h | h
  · rw [if_pos h] at this
    exact ⟨_, this, fun i j k q hc hq => profile_broadcast hL rfl (by omega) (fun _ => rfl) (Or.inl h) hsize hx hc hq⟩
  · rw [if_neg (by omega)] at this
    exact ⟨_, this, fun i j k q hc hq => profile_broadcast hL rfl (fun _ => ⟨rfl, rfl⟩) (by omega) (Or.inr h) hsize hx hc hq⟩

/-- **C99** (negation: nothing checks the length) ... so a profile shorter than the grid is accepted and read past its end, and only
then. -/
theorem profile_in_bounds_iff {D : Dom} {a : NpArr} {L : ℕ} (hL : D.d.Layout) (hn : D.d.nDims = 2 ∨ D.d.nDims = 3)
    (hx : D.nxBfr + D.d.nx ≤ D.nxTot) (hsize : D.nxTot * max 1 D.d.ny * max 1 D.d.nz ≤ 2 ^ 31) (f : Fresh a [L]) :
    ∃ v, np2ai a (procDims D) = .ai v ∧
      ((∀ q, q < D.d.nCell → 0 ≤ l2eScalar D (asStrides v) q ∧ l2eScalar D (asStrides v) q < L) ↔ D.d.nz ≤ L) := by
  obtain ⟨v, hv, h⟩ := profile_cells hL hn hx hsize f
  have hz : 0 < D.d.nz := by
    rcases hL with h | h | h | h
    · rw [nDims0 h] at hn; omega
    · rw [nDims1 h] at hn; omega
    all_goals omega
  refine ⟨v, hv, fun hall => ?_, fun hle q hq => ?_⟩
  · have hc : IsCell D.d 0 0 (D.d.nz - 1) := ⟨by omega, by omega, by omega⟩
    have hr := ravel_eq hL hc
    have hlt : (0 * max 1 D.d.ny + 0) * max 1 D.d.nz + (D.d.nz - 1) < D.d.nCell := by
      unfold Dims.nCell
      rw [m1_eq, m1_eq, m1_eq, show max 1 D.d.nz = D.d.nz by omega]
      have : D.d.nz ≤ max 1 D.d.nx * max 1 D.d.ny * D.d.nz := Nat.le_mul_of_pos_left _ (Nat.mul_pos (by omega) (by omega))
      omega
    have h1 := (hall _ hlt).2
    rw [h _ _ _ _ hc hr] at h1
    have h1' : D.d.nz - 1 < L := by exact_mod_cast h1
    omega
  · obtain ⟨i, j, k, hc, hr⟩ := cell_of hL hq
    rw [h i j k q hc hr]
    have := hc.2.2
    exact ⟨by positivity, by exact_mod_cast (by omega : k < L)⟩

/-- **C99** (negation) In 1D, 2D and 3D the extents of an array do not matter to the bindings at all: arrays of different extents but equal
strides and number of dimensions are treated alike. -/
theorem extents_unchecked {a b : NpArr} {sz : Dims} (hd : pyDims sz ≠ 0) (h1 : a.dtype = b.dtype) (h2 : a.cContig = b.cContig)
    (h3 : a.shape.length = b.shape.length) (h4 : a.strides = b.strides) : np2ai a sz = np2ai b sz := by
  have : pyDims sz = 1 ∨ pyDims sz = 2 ∨ pyDims sz = 3 := by
    unfold pyDims at *; split_ifs at * <;> simp_all
  unfold np2ai
  rw [h1, h2, h3, h4]
  rcases this with h | h | h <;> simp [h]

/-- e.g. a 2×5 array passed where a 6×5 grid is expected: cell (5,0,4) is read at position 29 of an array of 10 elements -/
theorem short_array_read_out_of_bounds :
    Fresh ⟨.float64, true, [2, 5], [40, 8]⟩ [2, 5] ∧ np2ai ⟨.float64, true, [2, 5], [40, 8]⟩ ⟨6, 0, 5⟩ = .ai [5, 1] ∧
    IsCell ⟨6, 0, 5⟩ 5 0 4 ∧ ravel ⟨6, 0, 5⟩ 5 0 4 = some 29 ∧ l2eScalar ⟨⟨6, 0, 5⟩, 0, 6⟩ (asStrides [5, 1]) 29 = 29 ∧
    [2, 5].prod = 10 := by
  refine ⟨⟨rfl, rfl, rfl, by decide⟩, by decide, ⟨by decide, by decide, by decide⟩, by decide, by decide, by decide⟩

/-- **C99** (negation) An array with more dimensions than the set-up is not reported: its strides are written past the end of a vector first.
This happens exactly for contiguous float64 arrays with more than `max(1, n_dims)` dimensions. -/
theorem overflow_iff {a : NpArr} {sz : Dims} : np2ai a sz = .overflow ↔
    a.dtype = .float64 ∧ a.cContig = true ∧ max 1 (pyDims sz) < a.strides.length := by
  have : pyDims sz = 0 ∨ pyDims sz = 1 ∨ pyDims sz = 2 ∨ pyDims sz = 3 := by
    unfold pyDims at *; split_ifs at * <;> simp_all
  unfold np2ai
  by_cases h1 : a.dtype = .object
  · simp [h1]
  by_cases h2 : a.dtype = .float64
  · by_cases h3 : a.cContig = true
    · by_cases h4 : max 1 (pyDims sz) < a.strides.length
      · simp [h2, h3, h4]
      · simp only [h2, h3, h4]
        rcases this with h | h | h | h <;> simp only [h] <;> simp <;> split_ifs <;> simp
    · simp [h2, h3]
  · simp [h1, h2]

/-- e.g. a 1×1 array in a parcel set-up, which "accepts only 1D arrays" -/
theorem parcel_2d_overflow : np2ai ⟨.float64, true, [1, 1], [8, 8]⟩ ⟨0, 0, 0⟩ = .overflow := by decide

/-- **C99** (negation) With a single column in 1D the bindings take the set-up for a parcel: the array of the two x Courant numbers, which the
library requires when any Courant number is given, is refused. -/
theorem one_column_1d {a : NpArr} (f : Fresh a [2]) : (⟨1, 0, 0⟩ : Dims).nDims = 1 ∧ np2ai a ⟨1, 0, 0⟩ = .throws := by
  obtain ⟨h1, h2, h3, h4⟩ := f
  refine ⟨by decide, ?_⟩
  have : pyDims ⟨1, 0, 0⟩ = 0 := by decide
  simp [np2ai, h1, h2, h3, h4, this, cStrides]

/-- NumPy's rule for the flag `c_contiguous`: strides of dimensions of length one are not looked at -/
def RelaxedC (shape : List ℕ) (strides : List ℤ) : Prop :=
  strides.length = shape.length ∧
    ∀ i, i < shape.length → shape.getD i 0 ≠ 1 → strides.getD i 0 = 8 * ((shape.drop (i + 1)).prod : ℤ)

/-- in a grid with one level the stride along z does not matter -/
theorem l2e_one_level {D : Dom} (hz : D.d.nz = 1) (s : Strides) (c : ℤ) (q : ℕ) :
    (D.d.nDims = 2 → l2eScalar D s q = l2eScalar D ⟨s.s0, c, s.s2⟩ q) ∧
    (D.d.nDims = 3 → l2eScalar D s q = l2eScalar D ⟨s.s0, s.s1, c⟩ q) := by
  constructor <;> intro h <;> simp [l2eScalar, l2e, h, hz]

/-- **C99** (partial: at least two columns, and in 3D at least two rows) Every array that NumPy flags as C-contiguous, of the right shape,
is accepted and its entry for cell `(i,j,k)` is the one read or written. -/
theorem array_cells_relaxed_partial {D : Dom} {a : NpArr} (hL : D.d.Layout) (hx : D.nxBfr + D.d.nx ≤ D.nxTot)
    (hpar : D.d.nDims = 0 → D.nxBfr = 0 ∧ D.nxTot = 1) (hsize : D.nxTot * max 1 D.d.ny * max 1 D.d.nz ≤ 2 ^ 31)
    (hX : 2 ≤ D.d.nDims → 2 ≤ D.nxTot) (hY : D.d.nDims = 3 → 2 ≤ D.d.ny)
    (h1 : a.dtype = .float64) (h2 : a.cContig = true) (h3 : a.shape = shapeOf D.d.nDims D.nxTot D.d.ny D.d.nz)
    (h4 : RelaxedC a.shape a.strides) :
    ∃ v, np2ai a (procDims D) = .ai v ∧ ∀ i j k q, IsCell D.d i j k → ravel D.d i j k = some q →
      l2eScalar D (asStrides v) q =
        cIndex (shapeOf D.d.nDims D.nxTot D.d.ny D.d.nz) (indexOf D.d.nDims (D.nxBfr + i) j k) := by
  obtain ⟨hlen, hst⟩ := h4
  have hp := pyDims_proc hL hx
  rcases Nat.lt_or_ge D.d.nDims 2 with hlt | hge
  · -- strides are not used
    have hr : ∀ (s : Strides) (q : ℕ), l2eScalar D s q = l2eScalar D ⟨1, 0, 0⟩ q := by
      intro s q
      have : D.d.nDims = 0 ∨ D.d.nDims = 1 := by omega
      rcases this with h | h <;> simp [l2eScalar, l2e, h]
    have f : Fresh ⟨a.dtype, a.cContig, a.shape, cStrides a.shape⟩ (shapeOf D.d.nDims D.nxTot D.d.ny D.d.nz) :=
      ⟨h1, h2, h3, by rw [h3]⟩
    obtain ⟨v, -, h⟩ := array_cells_partial hL hx hpar hsize f
    have hone : a.shape.length = 1 := by
      rw [h3]
      have : D.d.nDims = 0 ∨ D.d.nDims = 1 := by omega
      rcases this with h | h <;> simp [shapeOf, h]
    have hsome : ∃ w, np2ai a (procDims D) = .ai w := by
      have : D.d.nDims = 0 ∨ D.d.nDims = 1 := by omega
      have hsh1 : (pyDims (procDims D) = 0 → a.shape.getD 0 0 = 1) := by
        intro h0
        rw [h3]
        rcases this with h | h
        · simp [shapeOf, h]
        · have : D.nxTot = 1 := by omega
          simp [shapeOf, h, this]
      have hpp : pyDims (procDims D) = 0 ∨ pyDims (procDims D) = 1 := by omega
      rcases hpp with h | h
      · have h5 := hsh1 h
        refine ⟨copyStrides 1 a.strides, ?_⟩
        simp only [np2ai, h1, h2, h, hlen, hone, h5]
        simp
      · refine ⟨copyStrides 1 a.strides, ?_⟩
        simp only [np2ai, h1, h2, h, hlen, hone]
        simp
    obtain ⟨w, hw⟩ := hsome
    refine ⟨w, hw, fun i j k q hc hq => ?_⟩
    rw [hr, ← hr (asStrides v)]
    exact (h i j k q hc hq).1
  · have hX := hX hge
    have hlay : (0 < D.d.nx ∧ D.d.ny = 0 ∧ 0 < D.d.nz) ∨ (0 < D.d.nx ∧ 0 < D.d.ny ∧ 0 < D.d.nz) := by
      rcases hL with h | h | h | h
      · rw [nDims0 h] at hge; omega
      · rw [nDims1 h] at hge; omega
      · exact Or.inl h
      · exact Or.inr h
    have f : Fresh ⟨a.dtype, a.cContig, a.shape, cStrides a.shape⟩ (shapeOf D.d.nDims D.nxTot D.d.ny D.d.nz) :=
      ⟨h1, h2, h3, by rw [h3]⟩
    obtain ⟨v, hv, h⟩ := array_cells_partial hL hx hpar hsize f
    rcases hlay with hl | hl
    · have hn := nDims2 hl
      have hpd : pyDims (procDims D) = 2 := by omega
      rw [hn] at h3 f
      simp only [shapeOf] at h3 f
      obtain ⟨s0, s1, hs⟩ : ∃ s0 s1, a.strides = [s0, s1] := by
        rw [h3] at hlen
        exact List.length_eq_two.1 (by simpa using hlen)
      have e0 : s0 = 8 * (D.d.nz : ℤ) := by
        have := hst 0 (by rw [h3]; simp) (by rw [h3]; simp; omega)
        simpa [hs, h3] using this
      have hnz : max 1 D.d.nz = D.d.nz := by omega
      have hny : max 1 D.d.ny = 1 := by omega
      have hzl : D.d.nz < 2 ^ 61 := by
        rw [hnz, hny, mul_one] at hsize
        have : D.d.nz ≤ D.nxTot * D.d.nz := Nat.le_mul_of_pos_left _ (by omega)
        omega
      have hw : np2ai a (procDims D) = .ai [(D.d.nz : ℤ), strideElems s1] := by
        simp [np2ai, h1, h2, hpd, h3, hs, copyStrides, e0, strideElems_mul hzl]
      rw [np2ai_fresh2 f hpd hzl] at hv
      obtain rfl : v = [(D.d.nz : ℤ), 1] := by injection hv with hv; exact hv.symm
      refine ⟨_, hw, fun i j k q hc hq => ?_⟩
      rw [← (h i j k q hc hq).1]
      by_cases hz1 : D.d.nz = 1
      · exact (l2e_one_level hz1 _ 1 q).1 hn
      · have e1 : s1 = 8 := by
          have := hst 1 (by rw [h3]; simp) (by rw [h3]; simpa using hz1)
          simpa [hs, h3] using this
        rw [e1, show strideElems 8 = 1 by decide]
    · have hn := nDims3 hl
      have hpd : pyDims (procDims D) = 3 := by omega
      have hY := hY hn
      rw [hn] at h3 f
      simp only [shapeOf] at h3 f
      obtain ⟨s0, s1, s2, hs⟩ : ∃ s0 s1 s2, a.strides = [s0, s1, s2] := by
        rw [h3] at hlen
        exact List.length_eq_three.1 (by simpa using hlen)
      have e0 : s0 = 8 * ((D.d.ny * D.d.nz : ℕ) : ℤ) := by
        have := hst 0 (by rw [h3]; simp) (by rw [h3]; simp; omega)
        simpa [hs, h3] using this
      have e1 : s1 = 8 * (D.d.nz : ℤ) := by
        have := hst 1 (by rw [h3]; simp) (by rw [h3]; simp; omega)
        simpa [hs, h3] using this
      have hnz : max 1 D.d.nz = D.d.nz := by omega
      have hny : max 1 D.d.ny = D.d.ny := by omega
      have hyzl : D.d.ny * D.d.nz < 2 ^ 61 := by
        rw [hnz, hny, mul_assoc] at hsize
        have : D.d.ny * D.d.nz ≤ D.nxTot * (D.d.ny * D.d.nz) := Nat.le_mul_of_pos_left _ (by omega)
        omega
      have hzl : D.d.nz < 2 ^ 61 := lt_of_le_of_lt (Nat.le_mul_of_pos_left _ (by omega)) hyzl
      have hw : np2ai a (procDims D) = .ai [((D.d.ny * D.d.nz : ℕ) : ℤ), (D.d.nz : ℤ), strideElems s2] := by
        have e := strideElems_mul hyzl
        push_cast at e
        simp [np2ai, h1, h2, hpd, h3, hs, copyStrides, e0, e1, strideElems_mul hzl, e]
      rw [np2ai_fresh3 f hpd hzl hyzl] at hv
      obtain rfl : v = [((D.d.ny * D.d.nz : ℕ) : ℤ), (D.d.nz : ℤ), 1] := by injection hv with hv; exact hv.symm
      refine ⟨_, hw, fun i j k q hc hq => ?_⟩
      rw [← (h i j k q hc hq).1]
      by_cases hz1 : D.d.nz = 1
      · exact (l2e_one_level hz1 _ 1 q).2 hn
      · have e2 : s2 = 8 := by
          have := hst 2 (by rw [h3]; simp) (by rw [h3]; simpa using hz1)
          simpa [hs, h3] using this
        rw [e2, show strideElems 8 = 1 by decide]

/-- a C-contiguous array whose last, unit dimension has a stride unlike that of a fresh array (`zeros((6,3))[..., None]`) -/
example : RelaxedC [6, 3, 1] [24, 8, 0] ∧ cStrides [6, 3, 1] = [24, 8, 8] := by
  refine ⟨⟨rfl, by decide⟩, by decide⟩

/-- **C99** (negation) `zeros((5,1)).T` has shape (1,5), is C-contiguous and is accepted in a set-up with one column of five levels; but each cell
above the lowest is read (and written) one level too low. -/
theorem single_column_2d_wrong :
    RelaxedC [1, 5] [8, 8] ∧ np2ai ⟨.float64, true, [1, 5], [8, 8]⟩ ⟨1, 0, 5⟩ = .ai [1, 1] ∧
    ∀ k, 0 < k → k < 5 → IsCell ⟨1, 0, 5⟩ 0 0 k ∧ ravel ⟨1, 0, 5⟩ 0 0 k = some k ∧
      l2eScalar ⟨⟨1, 0, 5⟩, 0, 1⟩ (asStrides [1, 1]) k = k - 1 ∧ cIndex [1, 5] [0, k] = k := by
  refine ⟨⟨rfl, by decide⟩, by decide, fun k h0 h5 => ?_⟩
  obtain rfl | rfl | rfl | rfl : k = 1 ∨ k = 2 ∨ k = 3 ∨ k = 4 := by omega
  all_goals exact ⟨⟨by decide, by decide, by decide⟩, by decide, by decide, by decide⟩

/-- **C99** (negation) `zeros((3,5)).reshape(3,1,5).transpose(1,0,2)` has shape (1,3,5), is C-contiguous and is accepted in a 1×3×5 set-up; but cell
(0,2,0) is read (and written) at position 5, the entry [0,1,0], instead of 10, the entry [0,2,0]. -/
theorem single_column_3d_wrong :
    RelaxedC [1, 3, 5] [40, 40, 8] ∧ np2ai ⟨.float64, true, [1, 3, 5], [40, 40, 8]⟩ ⟨1, 3, 5⟩ = .ai [5, 5, 1] ∧
    IsCell ⟨1, 3, 5⟩ 0 2 0 ∧ ravel ⟨1, 3, 5⟩ 0 2 0 = some 10 ∧ l2eScalar ⟨⟨1, 3, 5⟩, 0, 1⟩ (asStrides [5, 5, 1]) 10 = 5 ∧
    cIndex [1, 3, 5] [0, 2, 0] = 10 ∧ cIndex [1, 3, 5] [0, 1, 0] = 5 := by
  refine ⟨⟨rfl, ?_⟩, by decide, ⟨by decide, by decide, by decide⟩, by decide, by decide, by decide, by decide⟩
  decide

/-- **C99** A skipped argument (an array holding None) is passed on as a null array; other types and non-contiguous arrays are refused. -/
theorem skipped_and_refused {a : NpArr} {sz : Dims} :
    (a.dtype = .object → np2ai a sz = .null) ∧ (a.dtype = .other → np2ai a sz = .throws) ∧
    (a.dtype = .float64 → a.cContig = false → np2ai a sz = .throws) := by
  refine ⟨fun h => by simp [np2ai, h], fun h => by simp [np2ai, h], fun h h' => by simp [np2ai, h, h']⟩

/-- **C99** The memory view returned by `outbuf` has one entry per cell. -/
theorem outbuf_len (sz : Dims) : outbufLen sz = sz.nCell := rfl

/-- **C99** (negation) th and rv are written back by `step_sync` and `step_cond`.  If they are profiles, all cells of a level write the same element: the
result is the value of whichever cell is written last. -/
theorem profile_write_race (x : ℕ → ℚ) (y : Mem ℚ) :
    let f := l2eScalar ⟨⟨2, 0, 1⟩, 0, 2⟩ (asStrides [0, 1])
    syncOut f [0, 1] x y 0 = x 1 ∧ syncOut f [1, 0] x y 0 = x 0 := by
  have e0 : l2eScalar ⟨⟨2, 0, 1⟩, 0, 2⟩ (asStrides [0, 1]) 0 = 0 := by decide
  have e1 : l2eScalar ⟨⟨2, 0, 1⟩, 0, 2⟩ (asStrides [0, 1]) 1 = 0 := by decide
  simp [syncOut, e0, e1]

end LCP.Py
