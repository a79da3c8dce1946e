import Verif.Pool.Model

/-!
# Programs over guards of temporary vectors: language and semantics

The library keeps ten pools of temporary vectors (src/impl/particles_impl.ipp:190-230, 523-539).  Every API call acquires,
uses and releases guards in an order that depends on the run-time options, on loop counts and on where an exception is thrown.
Here: the guards, a small nondeterministic language for that order, and its execution on the pools of `Verif.Pool.Model`.
-/
namespace LCP.PoolApi
open LCP.Pool (St)

/-- the pools (particles_impl.ipp: tmp_device_real_part, tmp_device_real_cell, tmp_device_n_part, tmp_device_size_cell,
tmp_device_size_part, tmp_host_real_grid, tmp_host_real_cell, tmp_host_size_cell, tmp_host_real_part, tmp_host_size_part) -/
inductive PoolId where
  | realPart | realCell | nPart | sizeCell | sizePart | hRealGrid | hRealCell | hSizeCell | hRealPart | hSizePart
deriving DecidableEq

/-- the guards.  Member guards (std::unique_ptr in impl, names ending in _gp): nF = n_filtered, V = volume (chemistry), dRv/dTh/dRh/dP = sstp_dlt_*,
rwX, drwX, Tp, lamD/lamK = lambda_D/K, drw = drw_mom3, rwm = rw_mom3, dIce = d_ice_mass, iceM = ice_mass, chemFlag,
pps = perparticle_sstp_cond, lft/rgt = lft_id/rgt_id, i, j, k.  Locals (auto x_g = pool.get_guard()): a1 a2 a3 (real_part), c1 c2 (real_cell),
n1 (n_part), s1 (size_cell), g1 o1 o2 o3 o4 (host pools). -/
inductive H where
  | nF | V | dRv | dTh | dRh | dP | rwX | drwX | Tp | a1 | a2 | a3
  | lamD | lamK | drw | rwm | dIce | iceM | c1 | c2
  | chemFlag | pps | n1
  | s1
  | lft | rgt | i | j | k
  | g1 | o1 | o2 | o3 | o4
deriving DecidableEq

/-- identity of the guard object -/
def H.bit : H → ℕ
  | .nF => 0 | .V => 1 | .dRv => 2 | .dTh => 3 | .dRh => 4 | .dP => 5 | .rwX => 6 | .drwX => 7 | .Tp => 8 | .a1 => 9 | .a2 => 10 | .a3 => 11
  | .lamD => 12 | .lamK => 13 | .drw => 14 | .rwm => 15 | .dIce => 16 | .iceM => 17 | .c1 => 18 | .c2 => 19
  | .chemFlag => 20 | .pps => 21 | .n1 => 22
  | .s1 => 23
  | .lft => 24 | .rgt => 25 | .i => 26 | .j => 27 | .k => 28
  | .g1 => 29 | .o1 => 30 | .o2 => 31 | .o3 => 32 | .o4 => 33

/-- the guards of each pool -/
def handles : PoolId → List H
  | .realPart => [.nF, .V, .dRv, .dTh, .dRh, .dP, .rwX, .drwX, .Tp, .a1, .a2, .a3]
  | .realCell => [.lamD, .lamK, .drw, .rwm, .dIce, .iceM, .c1, .c2]
  | .nPart => [.chemFlag, .pps, .n1]
  | .sizeCell => [.s1]
  | .sizePart => [.lft, .rgt, .i, .j, .k]
  | .hRealGrid => [.g1]
  | .hRealCell => [.o1]
  | .hSizeCell => [.o2]
  | .hRealPart => [.o3]
  | .hSizePart => [.o4]

/-- the pool a guard takes its vector from -/
def H.pool : H → PoolId
  | .nF | .V | .dRv | .dTh | .dRh | .dP | .rwX | .drwX | .Tp | .a1 | .a2 | .a3 => .realPart
  | .lamD | .lamK | .drw | .rwm | .dIce | .iceM | .c1 | .c2 => .realCell
  | .chemFlag | .pps | .n1 => .nPart
  | .s1 => .sizeCell
  | .lft | .rgt | .i | .j | .k => .sizePart
  | .g1 => .hRealGrid | .o1 => .hRealCell | .o2 => .hSizeCell | .o3 => .hRealPart | .o4 => .hSizePart

/-- what is done to a guard: `pool.get_guard()`; `x_gp.reset()` or end of scope; `reset_guardp(x_gp, pool)`; `x_gp->get()`
(tmp_vector_pool.hpp:67-121) -/
inductive Act where
  | acquire (h : H)
  | release (h : H)
  | reset (h : H)
  | use (h : H)
deriving DecidableEq

/-- programs: sequencing, choice (run-time options and data), loops with any number of rounds, throwing an exception, and a local
guard whose vector is released when control leaves the block, also by an exception -/
inductive Prog where
  | skip
  | act (a : Act)
  | seq (p q : Prog)
  | alt (p q : Prog)
  | star (p : Prog)
  | throw
  | scope (h : H) (p : Prog)

/-- the runs of a program: the actions done and whether it ended by an exception -/
inductive Runs : Prog → List Act → Bool → Prop
  | skip : Runs .skip [] false
  | act (a : Act) : Runs (.act a) [a] false
  | throw : Runs .throw [] true
  | seqT {p q l} : Runs p l true → Runs (.seq p q) l true
  | seq {p q l l' b} : Runs p l false → Runs q l' b → Runs (.seq p q) (l ++ l') b
  | altL {p q l b} : Runs p l b → Runs (.alt p q) l b
  | altR {p q l b} : Runs q l b → Runs (.alt p q) l b
  | starZ {p} : Runs (.star p) [] false
  | starT {p l} : Runs p l true → Runs (.star p) l true
  | starS {p l l' b} : Runs p l false → Runs (.star p) l' b → Runs (.star p) (l ++ l') b
  | scope {h p l b} : Runs p l b → Runs (.scope h p) (.acquire h :: (l ++ [.release h])) b

/-- the pools -/
abbrev W := PoolId → St

/-- a guard holds a vector -/
def live (w : W) (h : H) : Bool := decide (h.bit ∈ (w h.pool).live.map Prod.fst)

/-- result of a sequence of actions: the pools; or an acquisition found no free vector (the C++ code then uses index -1:
undefined behaviour); or a guard was dereferenced that holds none (null pointer); or a guard object was constructed twice
(cannot happen in C++, shown not to happen) -/
inductive Res where
  | ok (w : W)
  | exhausted
  | null
  | dup

def upd (w : W) (p : PoolId) (s : St) : W := fun q => if q = p then s else w q

/-- one action, on the pools of `Verif.Pool.Model` (tmp_vector_pool.hpp:42-61, 116-121) -/
def step (w : W) : Act → Res
  | .acquire h =>
    if live w h then .dup
    else match Pool.acquire (w h.pool) h.bit with
      | none => .exhausted
      | some s => .ok (upd w h.pool s)
  | .release h => .ok (upd w h.pool (Pool.destroy (w h.pool) h.bit))
  | .reset h =>
    match Pool.acquire (Pool.destroy (w h.pool) h.bit) h.bit with
    | none => .exhausted
    | some s => .ok (upd w h.pool s)
  | .use h => if live w h then .ok w else .null

/-- a sequence of actions -/
def exec (w : W) : List Act → Res
  | [] => .ok w
  | a :: l =>
    match step w a with
    | .ok w' => exec w' l
    | .exhausted => .exhausted
    | .null => .null
    | .dup => .dup

/-! ### Notation for programs -/

def sq : List Prog → Prog
  | [] => .skip
  | [p] => p
  | p :: l => .seq p (sq l)
def opt (p : Prog) : Prog := .alt .skip p
def mayThrow : Prog := .alt .skip .throw
def when (b : Bool) (p : Prog) : Prog := if b then p else .skip
def use (h : H) : Prog := .act (.use h)
def release (h : H) : Prog := .act (.release h)
def reset (h : H) : Prog := .act (.reset h)

end LCP.PoolApi
