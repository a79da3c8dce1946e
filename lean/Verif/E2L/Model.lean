import Verif.Grid.Model
import Mathlib.Data.Int.Basic

/-!
# Model of the Eulerian–Lagrangian coupling: index maps and copying of fields

Sources: src/impl/initialization/particles_impl_init_e2l.ipp, src/impl/particles_impl_sync.ipp,
src/particles_init.ipp:36-56, src/impl/initialization/particles_impl_init_sync.ipp,
src/impl/distributed_memory/particles_impl_xchng_courants.ipp, include/libcloudph++/lgrngn/arrinfo.hpp.
-/
namespace LCP.E2L
open LCP.Grid

/-- `arrinfo_t::strides` (arrinfo.hpp:14-16), in elements; `data` is a map from offsets (any integer: the pointer may point
into a larger array) to values, see `Mem` -/
structure Strides where
  s0 : ℤ
  s1 : ℤ
  s2 : ℤ

/-- conversion to a 32-bit signed int, modulo 2^32: `thrust::make_counting_iterator<int>(0) + shift`
(particles_impl_init_e2l.ipp:61-62, 77-78, 93-94) keeps its value in an `int` -/
def toInt32 (x : ℤ) : ℤ := Int.bmod x (2 ^ 32)

/-- conversion to `unsigned int` -/
def toUInt32 (x : ℤ) : ℤ := x % 2 ^ 32

/-- `detail::periodic_cellno::operator()` (particles_impl_init_e2l.ipp:14-30) -/
def periodicCellno (nTot v : ℤ) : ℤ := if v ≥ nTot then v - nTot else if v < 0 then v + nTot else v

/-- the part of the object state that enters `init_e2l`: local grid, columns and cells to the left on this node, columns of
the whole process (particles_impl.ipp:271-275) -/
structure Dom where
  d : Dims
  nxBfr : ℕ
  nxTot : ℕ

/-- `n_cell_bfr` (src/impl_multi_gpu/particles_multi_gpu_impl.ipp:155; 0 otherwise, when `nxBfr = 0`) -/
def Dom.nCellBfr (D : Dom) : ℕ := D.nxBfr * m1 D.d.ny * m1 D.d.nz

/-- the value stored in `l2e[key][q]` by `init_e2l(arr, key, ext_x, ext_y, ext_z, offset)`
(particles_impl_init_e2l.ipp:33-117).  C++ `/` and `%` truncate: `tdiv`, `tmod`.  The lambda is evaluated on an `int`;
strides are `ptrdiff_t`, whose overflow is not modelled. -/
def l2e (D : Dom) (s : Strides) (ex ey ez : ℕ) (offset : ℤ) (q : ℕ) : ℤ :=
  let shift : ℤ := D.nCellBfr + offset
  let c := toInt32 (shift + q)
  let nz : ℤ := D.d.nz + ez
  let ny : ℤ := D.d.ny + ey
  match D.d.nDims with
  | 0 => periodicCellno 0 0
  | 1 => periodicCellno ((D.nxTot + ex) * 1) c
  | 2 => periodicCellno ((D.nxTot + ex) * s.s0) (s.s0 * c.tdiv nz + s.s1 * c.tmod nz)
  | 3 =>
    let maxStride := max s.s0 s.s1
    let maxStrideNCell := if maxStride = s.s0 then (D.nxTot + ex : ℤ) else ny
    periodicCellno (maxStrideNCell * maxStride)
      (s.s0 * c.tdiv (nz * ny) + s.s1 * (c.tdiv nz).tmod ny + s.s2 * c.tmod nz)
  | _ => 0

/-- `halo_y` (particles_impl.ipp:367) -/
def haloY (d : Dims) (h : ℕ) : ℕ := h * (d.ny + 1) * d.nz
/-- `halo_z` (particles_impl.ipp:368-371) -/
def haloZ (d : Dims) (h : ℕ) : ℕ := if d.nDims = 2 then h * (d.nz + 1) else h * (d.nz + 1) * d.ny

/-- map for th, rv, rhod, p, ambient_chem, diss_rate (particles_init.ipp:36-40, 56, particles_step.ipp:97) -/
def l2eScalar (D : Dom) (s : Strides) : ℕ → ℤ := l2e D s 0 0 0 0
/-- map for courant_x (particles_init.ipp:45, particles_step.ipp:84) -/
def l2eX (D : Dom) (h : ℕ) (s : Strides) : ℕ → ℤ := l2e D s 1 0 0 (-(haloX D.d h : ℤ))
/-- map for courant_y (particles_init.ipp:46, particles_step.ipp:85); `n_x_bfr` is unsigned, so the offset is computed
modulo 2^32 before being converted to long -/
def l2eY (D : Dom) (h : ℕ) (s : Strides) : ℕ → ℤ :=
  l2e D s 0 1 0 (toUInt32 ((D.nxBfr : ℤ) * D.d.nz - haloY D.d h))
/-- map for courant_z (particles_init.ipp:47, particles_step.ipp:86) -/
def l2eZ (D : Dom) (h : ℕ) (s : Strides) : ℕ → ℤ :=
  l2e D s 0 0 1 (toUInt32 ((D.nxBfr : ℤ) * max 1 D.d.ny - haloZ D.d h))

/-! ### Copying -/

/-- the memory reachable from `arrinfo_t::data` -/
abbrev Mem (α : Type) := ℤ → α

/-- `sync(arrinfo, vector)` (particles_impl_sync.ipp:15-50) for a non-null array -/
def syncIn {α : Type} (l2e : ℕ → ℤ) (n : ℕ) (data : Mem α) : List α := (List.range n).map (fun q => data (l2e q))

/-- `sync(vector, arrinfo)` (particles_impl_sync.ipp:52-85): the elements are written in an arbitrary order `sched` -/
def syncOut {α : Type} (l2e : ℕ → ℤ) (sched : List ℕ) (v : ℕ → α) (data : Mem α) : Mem α :=
  sched.foldl (fun m q => Function.update m (l2e q) (v q)) data

/-! ### MPI exchange of Courant number halos -/

/-- number of Courant numbers per column: courant_x, courant_y, courant_z in the given dimensionality
(particles_impl_init_sync.ipp:31-44) -/
inductive Comp | x | y | z

def colLen (d : Dims) : Comp → ℕ
  | .x => if d.nDims = 1 then 1 else if d.nDims = 2 then d.nz else d.nz * d.ny
  | .y => d.nz * (d.ny + 1)
  | .z => if d.nDims = 2 then d.nz + 1 else (d.nz + 1) * d.ny

/-- columns stored: `nx + 2 halo_size + 1` for x, `nx + 2 halo_size` otherwise (particles_impl_init_sync.ipp:31-44) -/
def nCols (d : Dims) (h : ℕ) : Comp → ℕ
  | .x => d.nx + 2 * h + 1
  | _ => d.nx + 2 * h

/-- `cx/cy/cz_lft_internal_idx` (particles_impl_xchng_courants.ipp:27-32, 35, 41) -/
def lftInternal (d : Dims) (h : ℕ) : Comp → ℕ
  | .x => if d.nDims = 1 then h + 1 else if d.nDims = 2 then (h + 1) * d.nz else (h + 1) * d.nz * d.ny
  | .y => haloY d h
  | .z => haloZ d h

/-- `cx/cy/cz_rgt_internal_idx` (particles_impl_xchng_courants.ipp:33, 36-39, 42-44) -/
def rgtInternal (d : Dims) : Comp → ℕ
  | .x => d.nCell
  | .y => d.nx * d.nz * (d.ny + 1)
  | .z => if d.nDims = 2 then d.nx * (d.nz + 1) else d.nx * (d.nz + 1) * d.ny

/-- number of values exchanged: halo_x, halo_y, halo_z (particles_impl_xchng_courants.ipp:66, 80, ...) -/
def haloLen (d : Dims) (h : ℕ) : Comp → ℕ
  | .x => haloX d h
  | .y => haloY d h
  | .z => haloZ d h

/-- overwrite `len` elements of `a` starting at `at` by those of `src` starting at `from` (a message) -/
def blit {α : Type} (a : ℕ → α) (dst : ℕ) (src : ℕ → α) (from_ len : ℕ) : ℕ → α :=
  fun q => if dst ≤ q ∧ q < dst + len then src (from_ + (q - dst)) else a q

/-- `xchng_courants` (particles_impl_xchng_courants.ipp:16-172) as seen by one rank, for one component: first pass
(`i = 0`): what the left neighbour sends goes to the left halo; second pass: what the right neighbour sends goes to the right
halo.  `L`, `R` are the arrays of the neighbours when they send and `dL`, `dR` their grids; both boundaries are of type
distmem_mpi; the array length is `nCols * colLen`. -/
def xchng {α : Type} (d : Dims) (h : ℕ) (c : Comp) (dL : Dims) (L : ℕ → α) (R : ℕ → α) (a : ℕ → α) : ℕ → α :=
  let a1 := blit a 0 L (rgtInternal dL c) (haloLen d h c)
  blit a1 (nCols d h c * colLen d c - haloLen d h c) R (lftInternal d h c) (haloLen d h c)

end LCP.E2L
