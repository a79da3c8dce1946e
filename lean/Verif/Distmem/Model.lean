import Mathlib.Data.Real.Basic
import Mathlib.Data.List.Basic
import Mathlib.Data.Fin.Basic

/-!
# Model of domain decomposition and of the exchange of super-droplets between subdomains

Sources: src/detail/distmem_opts.hpp, src/impl/boundary_conditions/particles_impl_bcnd.ipp:148-204,
src/impl/distributed_memory/{particles_impl_pack,particles_impl_unpack,particles_impl_mpi_exchange,particles_impl_post_copy}.ipp,
src/impl_multi_gpu/particles_multi_gpu_impl_step_async_and_copy.ipp, src/particles_ctor.ipp:38-60,
src/impl_multi_gpu/particles_multi_gpu_impl.ipp:140-180.
-/
namespace LCP.Distmem

/-! ### Decomposition -/

/-- `get_dev_nx` (distmem_opts.hpp:9-16); `nx / size` is an integer division, `+ .5` and truncation leave it unchanged -/
def getDevNx (nx rank size : ℕ) : ℕ :=
  if rank < size - 1 then nx / size else nx - rank * (nx / size)

/-- the options changed by `distmem_opts` -/
structure Part where
  nxBfr : ℕ
  nx : ℕ
  x0 : ℝ
  x1 : ℝ
  srcX0 : ℝ
  srcX1 : ℝ

/-- `distmem_opts` (distmem_opts.hpp:20-52); `n_sd_max` and `rlx_sd_per_bin` are not modelled here -/
noncomputable def distmemOpts (nx : ℕ) (dx x0 x1 s0 s1 : ℝ) (rank size : ℕ) : Part :=
  let nxBfr := rank * getDevNx nx 0 size
  let nx' := getDevNx nx rank size
  let x0' := if rank ≠ 0 then 0 else x0
  let x1' := if rank ≠ size - 1 then nx' * dx else x1 - nxBfr * dx
  let s0' := s0 - nxBfr * dx
  let s1' := s1 - nxBfr * dx
  if s1' ≤ x0' ∨ s0' ≥ x1' then ⟨nxBfr, nx', x0', x1', 0, 0⟩
  else ⟨nxBfr, nx', x0', x1', if s0' < x0' then x0' else s0', if s1' > x1' then x1' else s1'⟩

/-! ### Exchange -/

/-- a super-droplet: multiplicity, x position, all other attributes that are in `distmem_real_vctrs`
(particles_impl.ipp:440-491; chemistry is not exchanged) -/
structure Sd where
  n : ℕ
  x : ℝ
  attr : ℕ → ℝ

/-- one subdomain: extent in local coordinates, super-droplets, size of the `in_n_bfr` buffer, `n_sd_max`, and whether its left/right
boundary is open (`bcond.first/second == open`) rather than shared with a neighbour -/
structure Rank where
  x0 : ℝ
  x1 : ℝ
  sds : List Sd
  cap : ℕ
  nSdMax : ℕ
  openL : Bool
  openR : Bool

/-- `x < x0` → `lft_id` (particles_impl_bcnd.ipp:160-165) -/
noncomputable def Rank.lft (r : Rank) : List Sd := r.sds.filter (fun s => decide (s.x < r.x0))
/-- `x >= x1` → `rgt_id` (particles_impl_bcnd.ipp:167-172) -/
noncomputable def Rank.rgt (r : Rank) : List Sd := r.sds.filter (fun s => decide (s.x ≥ r.x1))

/-- buffers after `bcnd` (particles_impl_bcnd.ipp:174-192): enlarged to 1.1 times the larger of this rank's *outgoing* counts -/
noncomputable def Rank.cap' (r : Rank) : ℕ :=
  if r.lft.length > r.cap ∨ r.rgt.length > r.cap then
    (if r.lft.length > r.rgt.length then 11 * r.lft.length / 10 else 11 * r.rgt.length / 10)
  else r.cap

/-- `detail::remote` (particles_impl_pack.ipp:14-26) -/
noncomputable def remote (lcl rmt : ℝ) (s : Sd) : Sd := { s with x := rmt + s.x - lcl }

/-- `config.bcond_tolerance` (src/detail/config.hpp:38) -/
noncomputable abbrev tol : ℝ := 5 / 10000

/-- `tolerance_away_from_bcond` (particles_impl_unpack.ipp:15-31), applied to the received ones -/
noncomputable def away (lft rgt : ℝ) (s : Sd) : Sd :=
  { s with x := if s.x ≥ rgt then s.x - tol else if s.x < lft then s.x + tol else s.x }

/-- the super-droplets a rank holds after flagging those sent away or lost through an open boundary: `flag_lft`, `flag_rgt`
(particles_impl_unpack.ipp:131-153); positions of the sent ones have been translated in place, which does not matter
since their multiplicity is zero -/
noncomputable def Rank.flagged (r : Rank) : List Sd :=
  r.sds.map (fun s => if s.x < r.x0 ∨ s.x ≥ r.x1 then { s with n := 0 } else s)

/-- ranks to the left/right, periodic (particles_impl_mpi_exchange.ipp:30-31,
particles_multi_gpu_impl_step_async_and_copy.ipp:59-60) -/
def lftRank {m : ℕ} (r : Fin (m + 1)) : Fin (m + 1) := if h : 0 < r.val then ⟨r.val - 1, by omega⟩ else ⟨m, by omega⟩
def rgtRank {m : ℕ} (r : Fin (m + 1)) : Fin (m + 1) := if h : r.val < m then ⟨r.val + 1, by omega⟩ else ⟨0, by omega⟩

/-- what arrives at rank `r` from its right neighbour (that neighbour's left-going ones) -/
noncomputable def fromRgt {m : ℕ} (st : Fin (m + 1) → Rank) (r : Fin (m + 1)) : List Sd :=
  if (st r).openR then [] else
    (st (rgtRank r)).lft.map (fun s => away (st r).x0 (st r).x1 (remote (st (rgtRank r)).x0 (st r).x1 s))

/-- what arrives at rank `r` from its left neighbour -/
noncomputable def fromLft {m : ℕ} (st : Fin (m + 1) → Rank) (r : Fin (m + 1)) : List Sd :=
  if (st r).openL then [] else
    (st (lftRank r)).rgt.map (fun s => away (st r).x0 (st r).x1 (remote (st (lftRank r)).x1 (st r).x0 s))

/-- `mpi_exchange` / `step_async_and_copy` followed by `post_copy` without recycling (`hskpng_remove_n0`), as seen by all ranks
together.  `none`: a message does not fit the receiver's buffer (MPI truncation error; with CUDA a write out of bounds), or
`hskpng_resize_npart` throws (n_part > n_sd_max, checked before the sent ones are removed). -/
noncomputable def exchange {m : ℕ} (st : Fin (m + 1) → Rank) : Option (Fin (m + 1) → Rank) :=
  if ∀ r, (fromRgt st r).length ≤ (st r).cap' ∧ (fromLft st r).length ≤ (st r).cap' ∧
      (st r).sds.length + (fromRgt st r).length + (fromLft st r).length ≤ (st r).nSdMax
  then some (fun r => { st r with
    sds := ((st r).flagged ++ fromRgt st r ++ fromLft st r).filter (fun s => decide (s.n ≠ 0))
    cap := (st r).cap' })
  else none

end LCP.Distmem
