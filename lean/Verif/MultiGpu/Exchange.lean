import Mathlib.Data.Nat.Notation
import Mathlib.Logic.Relation
import Mathlib.Data.Fintype.Basic

/-!
# Model of the exchange of super-droplets between the GPUs of one node, as a concurrent program

Sources: src/impl_multi_gpu/particles_multi_gpu_impl_step_async_and_copy.ipp:27-212, src/particles_multi_gpu_step.ipp:59-86,
src/impl/distributed_memory/particles_impl_pack.ipp, particles_impl_unpack.ipp,
src/impl/boundary_conditions/particles_impl_bcnd.ipp:174-190.

One host thread per device runs `step_async_and_copy`.  The threads are interleaved arbitrarily; the copies that they start with
`cudaMemcpyPeerAsync` run in the background: a copy of a stream may finish at any time after the copies started before it in the
same stream.  What is exchanged (the multiplicities and the attributes of the super-droplets that leave) is an arbitrary value of the
type `V`; packing and unpacking of lists of super-droplets is modelled in `Verif/Distmem`.
-/
namespace LCP.MultiGpu

/-- the four messages sent by a device: multiplicities / attributes to the left, multiplicities / attributes to the right -/
inductive Msg | nL | rL | nR | rR
deriving DecidableEq

/-- the four exchange buffers of a device: `out_n_bfr`, `out_real_bfr`, `in_n_bfr`, `in_real_bfr` -/
inductive Buf | outN | outR | inN | inR
deriving DecidableEq

/-- neighbour: left / right -/
inductive Side | lft | rgt
deriving DecidableEq

/-- what a thread does -/
inductive Op
  /-- `particles[dev_id]->step_async(opts)` (step_async_and_copy.ipp:39), of which only the resizing of the exchange buffers in `bcnd`
  (particles_impl_bcnd.ipp:177-190) matters here -/
  | stepAsync
  /-- fill `out_n_bfr` / `out_real_bfr` -/
  | pack (k : Msg)
  /-- `cudaMemcpyPeerAsync` followed by `cudaEventRecord` -/
  | copy (k : Msg)
  /-- `barrier.wait()` -/
  | barrier
  /-- `cudaEventSynchronize(events[...])`: the call, which captures the most recent `cudaEventRecord` -/
  | call (t : Side)
  /-- return of `cudaEventSynchronize` -/
  | ret (t : Side)
  /-- copy from `in_n_bfr` / `in_real_bfr` -/
  | unpack (k : Msg)
  /-- `cudaStreamDestroy`, `cudaEventDestroy` -/
  | destroy
deriving DecidableEq

/-- the program of a thread (step_async_and_copy.ipp:39-207): operations on buffers, events and the barrier.
Simplification: the flagging of the super-droplets that left, the correction of `x` and `hskpng_resize_npart` touch no shared data and are left
out -/
def prog : List Op :=
  [ .stepAsync,            -- 0  :39
    .pack .nL,             -- 1  :73
    .copy .nL,             -- 2  :76-83
    .barrier,              -- 3  :87
    .pack .rL,             -- 4  :93-96
    .call .rgt,            -- 5  :102
    .ret .rgt,             -- 6  :102
    .unpack .nL,           -- 7  :104
    .copy .rL,             -- 8  :110-117
    .barrier,              -- 9  :120
    .pack .nR,             -- 10 :125-128
    .call .rgt,            -- 11 :131
    .ret .rgt,             -- 12 :131
    .unpack .rL,           -- 13 :134
    .copy .nR,             -- 14 :140-147
    .barrier,              -- 15 :150
    .pack .rR,             -- 16 :154
    .call .lft,            -- 17 :159
    .ret .lft,             -- 18 :159
    .unpack .nR,           -- 19 :161
    .copy .rR,             -- 20 :167-174
    .barrier,              -- 21 :178
    .call .lft,            -- 22 :187
    .ret .lft,             -- 23 :187
    .unpack .rR,           -- 24 :190
    .barrier,              -- 25 :200
    .destroy ]             -- 26 :201-202

/-- buffer from which a message is sent (step_async_and_copy.ipp:78,112,142,169) -/
def outB : Msg → Buf
  | .nL => .outN | .rL => .outR | .nR => .outN | .rR => .outR
/-- buffer into which a message is written (step_async_and_copy.ipp:77,111,141,168) -/
def inB : Msg → Buf
  | .nL => .inN | .rL => .inR | .nR => .inN | .rR => .inR

/-- the devices: neighbours, boundaries shared with another device, messages to be sent, devices whose buffers are enlarged in this step -/
structure Sys (D V : Type) where
  /-- `lft_dev` (step_async_and_copy.ipp:61) -/
  lft : D → D
  /-- `rgt_dev` (step_async_and_copy.ipp:62) -/
  rgt : D → D
  /-- `bcond.first == distmem_cuda` -/
  first : D → Bool
  /-- `bcond.second == distmem_cuda` -/
  second : D → Bool
  /-- contents of the messages -/
  pay : D → Msg → V
  /-- "Overflow of the buffer" (particles_impl_bcnd.ipp:177) -/
  grow : D → Bool

/-- the neighbours form a ring, and a boundary is seen in the same way from both sides
(src/impl_multi_gpu/particles_multi_gpu_impl.ipp:140-180) -/
structure Sys.Ok {D V : Type} (S : Sys D V) : Prop where
  lr : ∀ d, S.lft (S.rgt d) = d
  rl : ∀ d, S.rgt (S.lft d) = d
  cons : ∀ d, S.second d = S.first (S.rgt d)

variable {D V : Type}

/-- neighbour on a side -/
def Sys.nb (S : Sys D V) (d : D) : Side → D
  | .lft => S.lft d | .rgt => S.rgt d

/-- `bcond.first` / `bcond.second` is shared with another device -/
def Sys.shared (S : Sys D V) (d : D) : Side → Bool
  | .lft => S.first d | .rgt => S.second d

/-- side to which a message is sent -/
def Msg.to : Msg → Side
  | .nL => .lft | .rL => .lft | .nR => .rgt | .rR => .rgt

/-- opposite side: the one from which a message comes -/
def Msg.from : Msg → Side
  | .nL => .rgt | .rL => .rgt | .nR => .lft | .rR => .lft

/-- receiver of a message -/
def Sys.dst (S : Sys D V) (d : D) (k : Msg) : D := S.nb d k.to

/-- `if(bcond.first == detail::distmem_cuda)` / `if(bcond.second == detail::distmem_cuda)` around the operations -/
def Sys.guard (S : Sys D V) (d : D) : Op → Bool
  | .stepAsync => S.grow d
  | .pack k => S.shared d k.to
  | .copy k => S.shared d k.to
  | .barrier => true
  | .call t => S.shared d t
  | .ret t => S.shared d t
  | .unpack k => S.shared d k.from
  | .destroy => true

/-- the state of the exchange -/
structure St (D V : Type) where
  /-- next operation of each thread -/
  pc : D → ℕ
  /-- copies started -/
  issued : D → Msg → Bool
  /-- copies finished -/
  done : D → Msg → Bool
  /-- copies of the neighbour for whose completion the thread waits -/
  cap : D → Msg → Bool
  /-- exchange buffers -/
  mem : D → Buf → V
  /-- messages unpacked, by kind -/
  got : D → Msg → Option V

/-- before the step; the buffers hold anything -/
def init (mem : D → Buf → V) : St D V :=
  ⟨fun _ => 0, fun _ _ => false, fun _ _ => false, fun _ _ => false, mem, fun _ _ => none⟩

/-- a copy is under way -/
def St.pending (s : St D V) (d : D) (k : Msg) : Prop := s.issued d k = true ∧ s.done d k = false

/-- order of the copies in the stream of a device -/
def Msg.rank : Msg → ℕ
  | .nL => 0 | .rL => 1 | .nR => 2 | .rR => 3

/-- can the thread perform the operation now?  The barrier is passed when all the threads have reached it;
`cudaEventSynchronize` returns when the work captured by the event is finished -/
def St.ready (S : Sys D V) (s : St D V) (d : D) : Op → Prop
  | .barrier => ∀ e, s.pc d ≤ s.pc e
  | .ret t => S.shared d t = true → ∀ k, s.cap d k = true → s.done (S.nb d t) k = true
  | _ => True

/-- effect of an operation of the thread of device `d`.  `vector::resize` preserves the contents, so `stepAsync` changes nothing here; that
it moves the buffer is accounted for in `writes` -/
def exec [DecidableEq D] (S : Sys D V) (s : St D V) (d : D) (o : Op) : St D V where
  pc e := if e = d then s.pc e + 1 else s.pc e
  issued e k := if e = d ∧ o = .copy k ∧ S.guard d o then true else s.issued e k
  done := s.done
  cap e k := match o with
    | .call t => if e = d ∧ S.shared d t then s.issued (S.nb d t) k else s.cap e k
    | _ => s.cap e k
  mem e b := match o with
    | .pack k => if e = d ∧ S.shared d k.to ∧ b = outB k then S.pay d k else s.mem e b
    | _ => s.mem e b
  got e k := if e = d ∧ o = .unpack k ∧ S.guard d o then some (s.mem d (inB k)) else s.got e k

/-- a copy finishes: `in` buffer of the receiver := `out` buffer of the sender -/
def finish [DecidableEq D] (S : Sys D V) (s : St D V) (d : D) (k : Msg) : St D V where
  pc := s.pc
  issued := s.issued
  done e j := if e = d ∧ j = k then true else s.done e j
  cap := s.cap
  mem e b := if e = S.dst d k ∧ b = inB k then s.mem d (outB k) else s.mem e b
  got := s.got

/-- one step of the whole system: a thread performs its next operation, or a copy finishes -/
inductive Step [DecidableEq D] (S : Sys D V) : St D V → St D V → Prop
  | thread (s : St D V) (d : D) (o : Op) (h : prog[s.pc d]? = some o) (hr : s.ready S d o) : Step S s (exec S s d o)
  | copy (s : St D V) (d : D) (k : Msg) (hp : s.pending d k) (ho : ∀ j, j.rank < k.rank → ¬ s.pending d j) : Step S s (finish S s d k)

/-- states reached from the beginning of the step -/
def Reach [DecidableEq D] (S : Sys D V) (s : St D V) : Prop := ∃ mem, Relation.ReflTransGen (Step S) (init mem) s

/-! ### Data races -/

/-- buffers written by an operation of the thread of device `d`, or by the copy that it starts; enlarging the buffers invalidates all
four -/
def Sys.writes (S : Sys D V) (d : D) (o : Op) (e : D) (b : Buf) : Prop :=
  S.guard d o = true ∧ match o with
    | .stepAsync => e = d
    | .pack k => e = d ∧ b = outB k
    | .copy k => e = S.dst d k ∧ b = inB k
    | _ => False

/-- buffers read by an operation, or by the copy that it starts -/
def Sys.reads (S : Sys D V) (d : D) (o : Op) (e : D) (b : Buf) : Prop :=
  S.guard d o = true ∧ match o with
    | .unpack k => e = d ∧ b = inB k
    | .copy k => e = d ∧ b = outB k
    | _ => False

/-- a thread can perform an operation that conflicts with a copy under way: writes a buffer that the copy reads or writes, or
reads a buffer that the copy writes -/
def Race (S : Sys D V) (s : St D V) : Prop :=
  ∃ d o, prog[s.pc d]? = some o ∧ s.ready S d o ∧ ∃ c k, s.pending c k ∧ ∃ e b,
    (S.writes d o e b ∧ ((e = c ∧ b = outB k) ∨ (e = S.dst c k ∧ b = inB k))) ∨ (S.reads d o e b ∧ e = S.dst c k ∧ b = inB k)

end LCP.MultiGpu
