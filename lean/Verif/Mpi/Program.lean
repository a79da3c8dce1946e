import Verif.Mpi.Sem
import Verif.E2L.Model
import Verif.Distmem.Model

/-!
# The message passing programs of the library

Sources: src/particles_ctor.ipp:36-48, src/particles_init.ipp:60-125, src/particles_step.ipp:100-112, 479-492,
src/impl/distributed_memory/{particles_impl_xchng_domains,particles_impl_xchng_courants,particles_impl_mpi_exchange,
particles_impl_pack,particles_impl_unpack,particles_impl_post_copy}.ipp, src/detail/get_mpi_type.hpp:13,
src/impl/boundary_conditions/particles_impl_bcnd.ipp:148-204.

Each process runs: `init`, then any number of time steps (`sync_in` ... `step_async`).  What a process computes by itself
(condensation, coalescence, advection, sources, ...) enters as an arbitrary function `dyn` of its own super-droplets and its own Courant
numbers including the halo.
-/
namespace LCP.Mpi
open LCP.E2L LCP.Grid LCP.Distmem

/-- request handles.  `xchng_domains` and `xchng_courants` allocate a new one for each send (`new MPI_Request()`); `mpi_exchange` has four
(particles_impl_mpi_exchange.ipp:34-37) -/
inductive Req where
  | dom (i : Bool) (send : Bool)
  | cour (k : ℕ) (i : Bool) (c : ℕ) (send : Bool)
  | recvN | recvR | sendN | sendR
  deriving DecidableEq

/-- contents of a message: multiplicities or real numbers -/
inductive Pay where
  | n (l : List ℕ)
  | r (l : List ℝ)

/-- super-droplets as stored: multiplicities and the vectors of `distmem_real_vctrs` -/
structure Parts where
  n : List ℕ
  v : ℕ → List ℝ

/-- memory of a process -/
structure Mem where
  lftX1 : ℝ
  rgtX0 : ℝ
  cour : Comp → ℕ → ℝ
  n : List ℕ
  v : ℕ → List ℝ
  nPart : ℕ
  nPartOld : ℕ
  lftId : List ℕ
  rgtId : List ℕ
  outN : List ℕ
  outR : List ℝ
  inN : List ℕ
  inR : List ℝ
  nCopied : ℕ
  /-- size of `in_n_bfr`; `in_real_bfr` is `nv` times larger -/
  cap : ℕ
  /-- an MPI call has failed, or an exception was thrown -/
  err : Bool

/-- what is common to a run on `m + 1` processes.  `nv`: number of vectors in `distmem_real_vctrs`, `jx`: the one with positions.  The set is
ordered by addresses of members of one class, so it is traversed in the same order by all processes of one executable. -/
structure Cfg (m : ℕ) where
  open_ : Bool
  dims : Fin (m + 1) → Dims
  h : ℕ
  x0 : Fin (m + 1) → ℝ
  x1 : Fin (m + 1) → ℝ
  nv : ℕ
  jx : ℕ
  nSdMax : Fin (m + 1) → ℕ
  /-- Courant numbers passed by the user to `init` (0) and to the `sync_in` of step `k` (`k + 1`) -/
  user : Fin (m + 1) → ℕ → Option (Comp → ℕ → ℝ)
  /-- computations of a step -/
  dyn : Fin (m + 1) → ℕ → (Comp → ℕ → ℝ) → Parts → Parts
  /-- `opts.adve || opts.turb_adve` in a step (particles_step.ipp:485) -/
  adve : ℕ → Bool

abbrev I (m : ℕ) := Instr (Fin (m + 1)) ℕ Req Pay Mem

variable {m : ℕ}

/-- `bcond.first == distmem_mpi`, for more than one process (particles_ctor.ipp:38-50) -/
def Cfg.linkL (c : Cfg m) (r : Fin (m + 1)) : Bool := if !c.open_ then true else if r.val = 0 then false else true
/-- `bcond.second == distmem_mpi` (particles_ctor.ipp:38-50) -/
def Cfg.linkR (c : Cfg m) (r : Fin (m + 1)) : Bool :=
  if !c.open_ then true else if r.val = 0 then true else if r.val = m then false else true

/-! ### Domain extents -/

/-- `MPI_Recv` into `lft_x1` (particles_impl_xchng_domains.ipp:42-51) -/
def wrLftX1 (p : Pay) (M : Mem) : Mem := { M with lftX1 := match p with | .r l => l.getD 0 0 | .n _ => 0 }
/-- `MPI_Recv` into `rgt_x0` (particles_impl_xchng_domains.ipp:42-51) -/
def wrRgtX0 (p : Pay) (M : Mem) : Mem := { M with rgtX0 := match p with | .r l => l.getD 0 0 | .n _ => 0 }

/-- `xchng_domains` (particles_impl_xchng_domains.ipp:13-55); the tag is `i` -/
def domProg (c : Cfg m) (r : Fin (m + 1)) : List (I m) :=
  (if c.linkR r then [Instr.isend (.dom false true) (rgtRank r) 0 (fun _ => .r [c.x1 r])] else []) ++
  (if c.linkL r then [Instr.irecv (.dom false false) (lftRank r) 0 wrLftX1, .wait (.dom false false)] else []) ++
  (if c.linkL r then [Instr.isend (.dom true true) (lftRank r) 1 (fun _ => .r [c.x0 r])] else []) ++
  (if c.linkR r then [Instr.irecv (.dom true false) (rgtRank r) 1 wrRgtX0, .wait (.dom true false)] else [])

/-! ### Courant numbers -/

def compId : Comp → ℕ
  | .x => 0
  | .y => 1
  | .z => 2

/-- `enum { cx_tag = 12331, cy_tag, cz_tag }` (particles_impl_xchng_courants.ipp:54) -/
def ctag : Comp → ℕ
  | .x => 12331
  | .y => 12332
  | .z => 12333

/-- components, in the order in which they are exchanged (particles_impl_xchng_courants.ipp:60-168) -/
def comps (d : Dims) : List Comp :=
  (if d.nDims > 0 then [Comp.x] else []) ++ (if d.nDims > 1 then [Comp.z] else []) ++ (if d.nDims > 2 then [Comp.y] else [])

/-- the values sent: `halo` of them from `idx` on -/
noncomputable def rdCour (c : Comp) (idx len : ℕ) (M : Mem) : Pay := .r ((List.range len).map (fun j => M.cour c (idx + j)))
/-- `MPI_Recv` of `len` values to `idx` on -/
noncomputable def wrCour (c : Comp) (idx len : ℕ) (p : Pay) (M : Mem) : Mem :=
  { M with cour := fun c' => if compId c' = compId c then
      (fun q => if idx ≤ q ∧ q < idx + len then (match p with | .r l => l.getD (q - idx) 0 | .n _ => 0) else M.cour c' q)
    else M.cour c' }

/-- index in the right halo: `courant.size() - halo` (particles_impl_xchng_courants.ipp:47-52) -/
def rgtHalo (d : Dims) (h : ℕ) (co : Comp) : ℕ := nCols d h co * colLen d co - haloLen d h co

/-- one component, `i = 0`: send right, receive from left (particles_impl_xchng_courants.ipp:63-92 and analogous) -/
noncomputable def courRight (c : Cfg m) (k : ℕ) (r : Fin (m + 1)) (co : Comp) : List (I m) :=
  (if c.linkR r then [Instr.isend (.cour k false (compId co) true) (rgtRank r) ((0 + 1) * ctag co)
      (rdCour co (rgtInternal (c.dims r) co) (haloLen (c.dims r) c.h co))] else []) ++
  (if c.linkL r then [Instr.irecv (.cour k false (compId co) false) (lftRank r) ((0 + 1) * ctag co)
      (wrCour co 0 (haloLen (c.dims r) c.h co)), .wait (.cour k false (compId co) false)] else [])

/-- one component, `i = 1`: send left, receive from right -/
noncomputable def courLeft (c : Cfg m) (k : ℕ) (r : Fin (m + 1)) (co : Comp) : List (I m) :=
  (if c.linkL r then [Instr.isend (.cour k true (compId co) true) (lftRank r) ((1 + 1) * ctag co)
      (rdCour co (lftInternal (c.dims r) c.h co) (haloLen (c.dims r) c.h co))] else []) ++
  (if c.linkR r then [Instr.irecv (.cour k true (compId co) false) (rgtRank r) ((1 + 1) * ctag co)
      (wrCour co (rgtHalo (c.dims r) c.h co) (haloLen (c.dims r) c.h co)), .wait (.cour k true (compId co) false)] else [])

/-- `xchng_courants` (particles_impl_xchng_courants.ipp:14-172) -/
noncomputable def courProg (c : Cfg m) (k : ℕ) (r : Fin (m + 1)) : List (I m) :=
  if c.h = 0 then [] else
    (comps (c.dims r)).flatMap (courRight c k r) ++ (comps (c.dims r)).flatMap (courLeft c k r)

/-- `sync(courant_*, ...)` (particles_step.ipp:107-109, particles_init.ipp:64-66); nothing is copied if no array is passed -/
noncomputable def syncCour (c : Cfg m) (k : ℕ) (r : Fin (m + 1)) (M : Mem) : Mem :=
  match c.user r k with
  | none => M
  | some f => { M with cour := f }

/-! ### Exchange of super-droplets -/

/-- elements of a vector at the given indices (a permutation iterator) -/
def gather {α : Type} (dflt : α) (l : List α) (ids : List ℕ) : List α := ids.map (fun i => l.getD i dflt)

/-- `vector::resize` -/
def resizeL {α : Type} (dflt : α) (l : List α) (k : ℕ) : List α := l.take k ++ List.replicate (k - l.length) dflt

/-- overwrite a part of a vector (`thrust::copy`) -/
def blitL {α : Type} (l : List α) (pos : ℕ) (src : List α) : List α := l.take pos ++ src ++ l.drop (pos + src.length)

/-- `n_copied` values of a buffer starting at `from` -/
def slice {α : Type} (l : List α) (start len : ℕ) : List α := (l.drop start).take len

/-- the part of `bcnd` done with distributed memory (particles_impl_bcnd.ipp:148-204): lists of those to be sent, growth of the buffers, flags on those
lost through an open wall.  `tmp` vectors and the walls in y and z belong to `dyn`. -/
noncomputable def bcndM (c : Cfg m) (r : Fin (m + 1)) (M : Mem) : Mem :=
  let x := M.v c.jx
  let lft := (List.range M.nPart).filter (fun i => decide (x.getD i 0 < c.x0 r))
  let rgt := (List.range M.nPart).filter (fun i => decide (x.getD i 0 ≥ c.x1 r))
  let cap := if lft.length > M.cap ∨ rgt.length > M.cap then
      (if lft.length > rgt.length then 11 * lft.length / 10 else 11 * rgt.length / 10) else M.cap
  let n1 := if c.linkL r then M.n else M.n.mapIdx (fun i k => if i ∈ lft then 0 else k)
  let n2 := if c.linkR r then n1 else n1.mapIdx (fun i k => if i ∈ rgt then 0 else k)
  { M with lftId := lft, rgtId := rgt, cap := cap, n := n2 }

/-- `pack_n_lft` (particles_impl_pack.ipp:29-47) -/
def packNL (M : Mem) : Mem := { M with outN := gather 0 M.n M.lftId }
/-- `pack_n_rgt` (particles_impl_pack.ipp:49-67) -/
def packNR (M : Mem) : Mem := { M with outN := gather 0 M.n M.rgtId }
/-- `pack_real_lft` (particles_impl_pack.ipp:69-87): one vector after another -/
noncomputable def packRL (c : Cfg m) (M : Mem) : Mem := { M with outR := (List.range c.nv).flatMap (fun j => gather 0 (M.v j) M.lftId) }
/-- `pack_real_rgt` (particles_impl_pack.ipp:89-107) -/
noncomputable def packRR (c : Cfg m) (M : Mem) : Mem := { M with outR := (List.range c.nv).flatMap (fun j => gather 0 (M.v j) M.rgtId) }

/-- `bcnd_remote_lft(x0, lft_x1)` (particles_impl_pack.ipp:109-121); the indices are distinct, so the in-place transformation hits each once -/
noncomputable def remoteL (c : Cfg m) (r : Fin (m + 1)) (M : Mem) : Mem :=
  { M with v := Function.update M.v c.jx ((M.v c.jx).mapIdx (fun i x => if i ∈ M.lftId then M.lftX1 + x - c.x0 r else x)) }
/-- `bcnd_remote_rgt(x1, rgt_x0)` (particles_impl_pack.ipp:123-135) -/
noncomputable def remoteR (c : Cfg m) (r : Fin (m + 1)) (M : Mem) : Mem :=
  { M with v := Function.update M.v c.jx ((M.v c.jx).mapIdx (fun i x => if i ∈ M.rgtId then M.rgtX0 + x - c.x1 r else x)) }

/-- `MPI_Get_count` after the wait (particles_impl_mpi_exchange.ipp:188-191, 266-269); a message that does not fit the buffer is an error of the wait -/
def getCount (M : Mem) : Mem := { M with nCopied := M.inN.length, err := M.err || decide (M.cap < M.inN.length) }

/-- `unpack_n` (particles_impl_unpack.ipp:50-69) -/
def unpackN (M : Mem) : Mem :=
  let np := M.nPart + M.nCopied
  if M.nCopied = 0 then { M with nPartOld := M.nPart, nPart := np }
  else { M with nPartOld := M.nPart, nPart := np, n := blitL (resizeL 0 M.n np) M.nPart (slice M.inN 0 M.nCopied) }

/-- `unpack_real` (particles_impl_unpack.ipp:71-129) -/
noncomputable def unpackR (c : Cfg m) (r : Fin (m + 1)) (M : Mem) : Mem :=
  if M.nCopied = 0 then M else
  let v1 : ℕ → List ℝ := fun j => if j < c.nv then
    blitL (resizeL 0 (M.v j) M.nPart) M.nPartOld (slice M.inR (j * M.nCopied) M.nCopied) else M.v j
  { M with v := Function.update v1 c.jx ((v1 c.jx).mapIdx (fun i x => if M.nPartOld ≤ i then
      (if x ≥ c.x1 r then x - tol else if x < c.x0 r then x + tol else x) else x)) }

/-- `flag_lft` (particles_impl_unpack.ipp:131-141) -/
def flagL (M : Mem) : Mem := { M with n := M.n.mapIdx (fun i k => if i ∈ M.lftId then 0 else k) }
/-- `flag_rgt` (particles_impl_unpack.ipp:143-153) -/
def flagR (M : Mem) : Mem := { M with n := M.n.mapIdx (fun i k => if i ∈ M.rgtId then 0 else k) }

/-- `hskpng_resize_npart` (particles_impl_hskpng_resize.ipp): throws if there are too many -/
def resizeM (c : Cfg m) (r : Fin (m + 1)) (M : Mem) : Mem := { M with err := M.err || decide (c.nSdMax r < M.nPart) }

def rdN (M : Mem) : Pay := .n M.outN
def rdR (M : Mem) : Pay := .r M.outR
def wrN (p : Pay) (M : Mem) : Mem := { M with inN := match p with | .n l => l | .r _ => [] }
def wrR (p : Pay) (M : Mem) : Mem := { M with inR := match p with | .r l => l | .n _ => [] }

/-- `mpi_exchange` (particles_impl_mpi_exchange.ipp:18-345); tags: `enum {tag_n_lft, tag_real_lft, tag_n_rgt, tag_real_rgt}`
(get_mpi_type.hpp:13) -/
noncomputable def exchProg (c : Cfg m) (r : Fin (m + 1)) : List (I m) :=
  if !c.linkL r && !c.linkR r then [] else
  (if c.linkL r then [Instr.loc packNL, .isend .sendN (lftRank r) 0 rdN] else []) ++
  (if c.linkR r then [Instr.irecv .recvN (rgtRank r) 0 wrN] else []) ++
  (if c.linkL r then [Instr.loc (remoteL c r), .loc (packRL c), .isend .sendR (lftRank r) 1 rdR] else []) ++
  (if c.linkR r then [Instr.irecv .recvR (rgtRank r) 1 wrR, .wait .recvN, .loc getCount, .loc unpackN] else []) ++
  (if c.linkR r then (if c.linkL r then [Instr.wait .sendN] else []) ++
    [.loc packNR, .loc (remoteR c r), .wait .recvR, .loc (unpackR c r), .isend .sendN (rgtRank r) 2 rdN] else []) ++
  (if c.linkL r then [Instr.irecv .recvN (lftRank r) 2 wrN] else []) ++
  (if c.linkR r then (if c.linkL r then [Instr.wait .sendR] else []) ++ [.loc (packRR c)] else []) ++
  (if c.linkL r then [Instr.wait .recvN, .loc getCount, .loc unpackN] else []) ++
  (if c.linkR r then [Instr.isend .sendR (rgtRank r) 3 rdR] else []) ++
  (if c.linkL r then [Instr.irecv .recvR (lftRank r) 3 wrR] else []) ++
  (if c.linkL r then [Instr.loc flagL] else []) ++
  (if c.linkR r then [Instr.loc flagR] else []) ++
  (if c.linkL r then [Instr.wait .recvR, .loc (unpackR c r)] else []) ++
  [.loc (resizeM c r), .wait .sendN, .wait .sendR]

/-- `post_copy` without recycling: `hskpng_remove_n0` (particles_impl_post_copy.ipp:20-40, particles_impl_hskpng_remove.ipp:40-66) -/
noncomputable def postM (c : Cfg m) (M : Mem) : Mem :=
  let keep := (List.range M.nPart).filter (fun i => decide (M.n.getD i 0 ≠ 0))
  { M with n := gather 0 M.n keep, v := fun j => if j < c.nv then gather 0 (M.v j) keep else M.v j, nPart := keep.length }

/-- what the process computes by itself in a step, up to `bcnd` -/
noncomputable def dynM (c : Cfg m) (k : ℕ) (r : Fin (m + 1)) (M : Mem) : Mem :=
  let s := c.dyn r k M.cour ⟨M.n, M.v⟩
  { M with n := s.n, v := s.v, nPart := s.n.length }

/-! ### Whole run -/

/-- `init` (particles_init.ipp:64-69, 124); super-droplets are initialised locally and are part of the initial memory -/
noncomputable def initProg (c : Cfg m) (r : Fin (m + 1)) : List (I m) :=
  [Instr.loc (syncCour c 0 r)] ++ courProg c 0 r ++ domProg c r

/-- one time step: `sync_in` (particles_step.ipp:107-112), `step_cond` and `step_async` (particles_step.ipp:482-492) -/
noncomputable def stepProg (c : Cfg m) (k : ℕ) (r : Fin (m + 1)) : List (I m) :=
  [Instr.loc (syncCour c (k + 1) r)] ++ courProg c (k + 1) r ++ [Instr.loc (dynM c k r), .loc (bcndM c r)] ++
    (if c.adve k then exchProg c r else []) ++ [.loc (postM c)]

/-- time steps `k`, `k + 1`, ..., `j` of them -/
noncomputable def stepsProg (c : Cfg m) (r : Fin (m + 1)) : ℕ → ℕ → List (I m)
  | _, 0 => []
  | k, j + 1 => stepProg c k r ++ stepsProg c r (k + 1) j

/-- the program of a process in a run of `K` time steps -/
noncomputable def prog (c : Cfg m) (K : ℕ) (r : Fin (m + 1)) : List (I m) := initProg c r ++ stepsProg c r 0 K

end LCP.Mpi
