import Mathlib.Data.Real.Basic
import Mathlib.Algebra.Order.Floor.Ring
import Mathlib.Algebra.BigOperators.Ring.Finset
import Mathlib.Tactic.Ring
import Mathlib.Tactic.Linarith
import Mathlib.Algebra.Order.Archimedean.Real.Basic

/-!
# Model of the grid: cell indices, cell volumes, face indices

Sources: src/impl/housekeeping/particles_impl_hskpng_ijk.ipp, src/impl/initialization/particles_impl_init_grid.ipp,
src/impl/particles_impl.ipp (constructor).
-/
namespace LCP.Grid

/-- `opts_init.nx, ny, nz` (include/libcloudph++/lgrngn/opts_init.hpp:38); non-negative ints -/
structure Dims where
  nx : ℕ
  ny : ℕ
  nz : ℕ

/-- `impl::m1` (src/impl/particles_impl.ipp:322) -/
def m1 (n : ℕ) : ℕ := if n = 0 then 1 else n

/-- `n_dims` (particles_impl.ipp:334-338) -/
def Dims.nDims (d : Dims) : ℕ := d.nx / m1 d.nx + d.ny / m1 d.ny + d.nz / m1 d.nz

/-- `n_cell` (particles_impl.ipp:339-343) -/
def Dims.nCell (d : Dims) : ℕ := m1 d.nx * m1 d.ny * m1 d.nz

/-- the documented layouts: 0D, 1D = x, 2D = xz, 3D = xyz (comment in particles_impl.ipp:412) -/
def Dims.Layout (d : Dims) : Prop :=
  (d.nx = 0 ∧ d.ny = 0 ∧ d.nz = 0) ∨ (0 < d.nx ∧ d.ny = 0 ∧ d.nz = 0) ∨
  (0 < d.nx ∧ d.ny = 0 ∧ 0 < d.nz) ∨ (0 < d.nx ∧ 0 < d.ny ∧ 0 < d.nz)

/-- `ravel_ijk` (particles_impl_hskpng_ijk.ipp:31-82); in 0D `ijk` keeps its initial value 0.
`none`: `assert(false)`. -/
def ravel (d : Dims) (i j k : ℕ) : Option ℕ :=
  match d.nDims with
  | 0 => some 0
  | 1 => some i
  | 2 => some (i * d.nz + k)
  | 3 => some (i * (d.nz * d.ny) + j * d.nz + k)
  | _ => none

/-- `unravel_ijk` (particles_impl_hskpng_ijk.ipp:85-156); indices not computed in the given dimensionality are 0 -/
def unravel (d : Dims) (c : ℕ) : ℕ × ℕ × ℕ :=
  match d.nDims with
  | 3 => (c / (d.nz * d.ny), (c / d.nz) % d.ny, c % d.nz)
  | 2 => (c / d.nz, 0, c % d.nz)
  | 1 => (c, 0, 0)
  | _ => (0, 0, 0)

/-- C++ conversion of a real to `size_t` (truncation toward zero; values outside are undefined behaviour: `none`) -/
noncomputable def toSizeT (r : ℝ) : Option ℕ :=
  if -1 < r ∧ r < 2 ^ 64 then some ⌊r⌋₊ else none

/-- `divide_by_constant_and_cast` (particles_impl_hskpng_ijk.ipp:16-28) -/
noncomputable def divideByConstantAndCast (c x : ℝ) : Option ℕ := toSizeT (x / c)

/-- `hskpng_ijk` for one super-droplet (particles_impl_hskpng_ijk.ipp:158-200): coordinates along dimensions with
zero cells are not used. -/
noncomputable def hskpngIjk (d : Dims) (dx dy dz x y z : ℝ) : Option ℕ := do
  let i ← (if d.nx ≠ 0 then divideByConstantAndCast dx x else some 0)
  let j ← (if d.ny ≠ 0 then divideByConstantAndCast dy y else some 0)
  let k ← (if d.nz ≠ 0 then divideByConstantAndCast dz z else some 0)
  ravel d i j k

/-- Lagrangian domain and cell sizes -/
structure Box where
  dx : ℝ
  dy : ℝ
  dz : ℝ
  x0 : ℝ
  x1 : ℝ
  y0 : ℝ
  y1 : ℝ
  z0 : ℝ
  z1 : ℝ

/-- `dv_eval::operator()` (particles_impl_init_grid.ipp:33-52) -/
noncomputable def dvEval (d : Dims) (b : Box) (c : ℕ) : ℝ :=
  let i := (c / max 1 d.nz) / max 1 d.ny
  let j := (c / max 1 d.nz) % max 1 d.ny
  let k := c % max 1 d.nz
  max 0 ((min (((i : ℝ) + 1) * b.dx) b.x1 - max ((i : ℝ) * b.dx) b.x0) *
         (min (((j : ℝ) + 1) * b.dy) b.y1 - max ((j : ℝ) * b.dy) b.y0) *
         (min (((k : ℝ) + 1) * b.dz) b.z1 - max ((k : ℝ) * b.dz) b.z0))

/-- `lft` (particles_impl_init_grid.ipp:109-113, 120-124) -/
def lft (_d : Dims) (c : ℕ) : ℕ := c
/-- `rgt` (particles_impl_init_grid.ipp:114-118 for 1D and 2D — note `nz` is 0 in 1D —, 125-129 for 3D) -/
def rgt (d : Dims) (c : ℕ) : ℕ := if d.nDims = 3 then lft d c + d.nz * d.ny else lft d c + d.nz
/-- `blw` (particles_impl_init_grid.ipp:97-101 for 2D, 130-136 for 3D) -/
def blw (d : Dims) (c : ℕ) : ℕ :=
  if d.nDims = 3 then
    c + d.ny * (c / (d.nz * d.ny)) + (c - (c / (d.nz * d.ny)) * (d.nz * d.ny)) / d.nz
  else c + c / d.nz
/-- `abv` (particles_impl_init_grid.ipp:102-106, 137-141) -/
def abv (d : Dims) (c : ℕ) : ℕ := blw d c + 1
/-- `fre` (particles_impl_init_grid.ipp:142-146) -/
def fre (d : Dims) (c : ℕ) : ℕ := c + (c / (d.nz * d.ny)) * d.nz
/-- `hnd` (particles_impl_init_grid.ipp:147-151) -/
def hnd (d : Dims) (c : ℕ) : ℕ := fre d c + d.nz

/-- `halo_size` (particles_impl.ipp:361) -/
def haloSize (predCorr : Bool) : ℕ := if predCorr then 2 else 0

/-- `halo_x` (particles_impl.ipp:362-366) -/
def haloX (d : Dims) (h : ℕ) : ℕ :=
  if d.nDims = 1 then h else if d.nDims = 2 then h * d.nz else h * d.nz * d.ny

end LCP.Grid
