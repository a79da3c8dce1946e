import Mathlib.Logic.Function.Basic
import Mathlib.Data.List.Basic
import Mathlib.Tactic.Cases

/-!
# Semantics of message passing

What the library uses of MPI (src/impl/distributed_memory/particles_impl_mpi_exchange.ipp, particles_impl_xchng_domains.ipp,
particles_impl_xchng_courants.ipp): `MPI_Isend`, `MPI_Irecv`, `MPI_Wait` and `MPI_Recv` (= `MPI_Irecv` followed by
`MPI_Wait`) between processes that are otherwise sequential, on one communicator.

The semantics leaves to the adversary everything the MPI standard leaves to the implementation: the interleaving of the processes, when a
posted message is read from the sender's buffer (any time between the `MPI_Isend` and its completion, so that a buffer that is
overwritten too early sends the *new* contents), whether a send completes early because the library has copied the message
(`cap`), how long a message travels (`snd`, `dlv`), and when it is written to the posted buffer.  What the standard guarantees is kept: two
messages between the same processes with the same tag do not overtake one another; a receive takes messages of its source and tag only.
-/
namespace LCP.Mpi

/-- one statement of a process; `f`, `rd`, `wr` are computation, reading of a send buffer, and writing to a receive buffer -/
inductive Instr (R T Q P M : Type) where
  | loc (f : M → M)
  | isend (q : Q) (dst : R) (tag : T) (rd : M → P)
  | irecv (q : Q) (src : R) (tag : T) (wr : P → M → M)
  | wait (q : Q)

/-- a message posted by `MPI_Isend`: still in the user's buffer (request `q` not complete), or copied by the library -/
inductive Msg (Q P M : Type) where
  | user (q : Q) (rd : M → P)
  | lib (p : P)

/-- a process: rest of its program, memory, posted sends by destination and tag, posted receives by source and tag -/
structure Loc (R T Q P M : Type) where
  prog : List (Instr R T Q P M)
  mem : M
  out : R × T → List (Msg Q P M)
  inn : R × T → List (Q × (P → M → M))

/-- all processes and the messages on their way (sender, receiver, tag) -/
structure State (R T Q P M : Type) where
  loc : R → Loc R T Q P M
  net : R × R × T → List P

variable {R T Q P M : Type} [DecidableEq R] [DecidableEq T] [DecidableEq Q]

/-- the library copies the message of request `q` from the user's buffer; the request is then complete -/
def capQ (q : Q) (m : M) : List (Msg Q P M) → Option (List (Msg Q P M))
  | [] => none
  | .lib p :: k => (capQ q m k).map (.lib p :: ·)
  | .user q' rd :: k => if q' = q then some (.lib (rd m) :: k) else (capQ q m k).map (.user q' rd :: ·)

/-- place of the message of request `q` in its queue -/
def pos (q : Q) : List (Msg Q P M) → ℕ
  | [] => 0
  | .lib _ :: k => pos q k + 1
  | .user q' _ :: k => if q' = q then 0 else pos q k + 1

/-- what can happen to one process -/
inductive LLab (R T Q P : Type) where
  /-- its next statement is executed -/
  | x
  /-- the library copies a message -/
  | c (b : R) (t : T) (q : Q)
  /-- a copied message is put on its way -/
  | s (b : R) (t : T) (p : P)
  /-- a message arrives -/
  | d (a : R) (t : T) (p : P)

inductive LStep : Loc R T Q P M → LLab R T Q P → Loc R T Q P M → Prop
  | loc {l : Loc R T Q P M} {f k} (h : l.prog = .loc f :: k) : LStep l .x { l with prog := k, mem := f l.mem }
  | isend {l : Loc R T Q P M} {q b t rd k} (h : l.prog = .isend q b t rd :: k) :
      LStep l .x { l with prog := k, out := Function.update l.out (b, t) (l.out (b, t) ++ [.user q rd]) }
  | irecv {l : Loc R T Q P M} {q a t wr k} (h : l.prog = .irecv q a t wr :: k) :
      LStep l .x { l with prog := k, inn := Function.update l.inn (a, t) (l.inn (a, t) ++ [(q, wr)]) }
  | wait {l : Loc R T Q P M} {q k} (h : l.prog = .wait q :: k) (ho : ∀ ch rd, Msg.user q rd ∉ l.out ch)
      (hi : ∀ ch wr, (q, wr) ∉ l.inn ch) : LStep l .x { l with prog := k }
  | cap {l : Loc R T Q P M} {b t q z} (h : capQ q l.mem (l.out (b, t)) = some z) :
      LStep l (.c b t q) { l with out := Function.update l.out (b, t) z }
  | snd {l : Loc R T Q P M} {b t p z} (h : l.out (b, t) = .lib p :: z) :
      LStep l (.s b t p) { l with out := Function.update l.out (b, t) z }
  | dlv {l : Loc R T Q P M} {a t p q wr z} (h : l.inn (a, t) = (q, wr) :: z) :
      LStep l (.d a t p) { l with mem := wr p l.mem, inn := Function.update l.inn (a, t) z }

/-- what can happen in the system -/
inductive Lab (R T Q : Type) where
  | exec (r : R)
  | cap (a b : R) (t : T) (q : Q)
  | snd (a b : R) (t : T)
  | dlv (a b : R) (t : T)

inductive Step : State R T Q P M → Lab R T Q → State R T Q P M → Prop
  | exec {s : State R T Q P M} {r l'} (h : LStep (s.loc r) .x l') :
      Step s (.exec r) { s with loc := Function.update s.loc r l' }
  | cap {s : State R T Q P M} {a b t q l'} (h : LStep (s.loc a) (.c b t q) l') :
      Step s (.cap a b t q) { s with loc := Function.update s.loc a l' }
  | snd {s : State R T Q P M} {a b t p l'} (h : LStep (s.loc a) (.s b t p) l') :
      Step s (.snd a b t) { loc := Function.update s.loc a l', net := Function.update s.net (a, b, t) (s.net (a, b, t) ++ [p]) }
  | dlv {s : State R T Q P M} {a b t p z l'} (hn : s.net (a, b, t) = p :: z) (h : LStep (s.loc b) (.d a t p) l') :
      Step s (.dlv a b t) { loc := Function.update s.loc b l', net := Function.update s.net (a, b, t) z }

/-- steps an MPI implementation cannot put off for ever: it need not copy a message before the receive that takes it is
posted (no buffering), but then it has to; everything else happens eventually -/
def Due (s : State R T Q P M) : Lab R T Q → Prop
  | .cap a b t q => pos q ((s.loc a).out (b, t)) + (s.net (a, b, t)).length < ((s.loc b).inn (a, t)).length
  | _ => True

/-- a schedule -/
inductive Run : State R T Q P M → List (Lab R T Q) → State R T Q P M → Prop
  | nil {s} : Run s [] s
  | cons {s b s' k u} (h : Step s b s') (hk : Run s' k u) : Run s (b :: k) u

/-- a schedule of due steps only -/
inductive DueRun : State R T Q P M → List (Lab R T Q) → State R T Q P M → Prop
  | nil {s} : DueRun s [] s
  | cons {s b s' k u} (hd : Due s b) (h : Step s b s') (hk : DueRun s' k u) : DueRun s (b :: k) u

/-- every process has run to the end of its program and no message is left anywhere -/
def Final (s : State R T Q P M) : Prop :=
  (∀ r, (s.loc r).prog = [] ∧ (∀ c, (s.loc r).out c = []) ∧ ∀ c, (s.loc r).inn c = []) ∧ ∀ c, s.net c = []

end LCP.Mpi
