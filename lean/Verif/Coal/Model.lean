import Verif.Thrust
import Mathlib.Analysis.SpecialFunctions.Pow.Real
import Mathlib.Analysis.SpecialFunctions.Sqrt
import Mathlib.Algebra.Order.Floor.Semiring

/-!
# Model of super-droplet coalescence

Source: src/impl/coalescence/particles_impl_coal.ipp (548 lines).
`real_t` is ℝ (exact arithmetic).  `n_t = unsigned long long` is ℕ, with the subtraction of
line 125 performed modulo 2^64 (`subU64`), so that absence of wrap-around is a theorem.
Not modelled: the value of the collision kernel (a parameter `ker`), floating-point rounding,
conversion of a probability ≥ 2^64 to `n_t`, the debug-only nan checks.
-/
namespace LCP.Coal
noncomputable section

/-- The per-super-droplet attributes read or written by coalescence
(n, rw2, vt, rd3: lines 159-166; chem_bgn[i]: 463-477; kpa: 485-489; incloud_time: 511; rc2: 532). -/
structure SD where
  n    : ℕ
  rw2  : ℝ
  rd3  : ℝ
  vt   : ℝ
  kpa  : ℝ
  chem : ℕ → ℝ
  inc  : ℝ
  rc2  : ℝ

/-- `detail::invalid` (src/detail/config.hpp). -/
def invalid : ℝ := -1
/-- `enum{na_ge_nb = -2, nb_gt_na = -1}` (line 15). -/
def na_ge_nb : ℝ := -2
/-- see `na_ge_nb` (line 15). -/
def nb_gt_na : ℝ := -1

/-- Subtraction of `unsigned long long` (used at line 125): modulo 2^64. -/
def subU64 (x y : ℕ) : ℕ := (x + (2 ^ 64 - y % 2 ^ 64)) % 2 ^ 64

/-- `cbrt` (line 128), used on non-negative arguments. -/
def cbrt (x : ℝ) : ℝ := x ^ (1 / 3 : ℝ)

/-- `detail::scale_factor` (lines 98-107); `n/2` is an integer division, `n*(n-1)` is converted to real first. -/
def scaleFactor (n : ℕ) : ℝ := if 1 < n then ((n * (n - 1) : ℕ) : ℝ) / 2 / ((n / 2 : ℕ) : ℝ) else 0

/-- `detail::collide` (lines 109-143); `d` is the super-droplet assumed to have higher multiplicity. Returns the new `(d, r)`. -/
def collide (d r : SD) (colNo : ℕ) : SD × SD :=
  ({ d with n := subU64 d.n (colNo * r.n) },
   { r with
      rw2 := cbrt (colNo * d.rw2 * √d.rw2 + r.rw2 * √r.rw2) * cbrt (colNo * d.rw2 * √d.rw2 + r.rw2 * √r.rw2)
      rd3 := colNo * d.rd3 + r.rd3
      vt := invalid })

/-- Read-only inputs of one `coal` call (lines 184-220, 375-437): substep length, cell volume, kernel value
for the pair at a sorted position (it may depend on anything about the two super-droplets and the cell),
cell of each super-droplet, and the result `sid` of shuffling and sorting. -/
structure Env where
  N   : ℕ
  dt  : ℝ
  dv  : ℕ → ℝ
  ker : ℕ → SD → SD → ℝ
  ijk : ℕ → ℕ
  sid : List ℕ
  /-- `pure_const_multi` -/
  constMulti : Bool

/-- Memory touched by coalescence: attributes by super-droplet id, the `col` vector by sorted position
(`col` and `u01` are the same storage, line 372), and `*increase_sstp_coal`. -/
structure State where
  sd  : ℕ → SD
  col : ℕ → ℝ
  increase : Bool

/-- id of the super-droplet at sorted position `p` (`sorted_id[p]`; positions ≥ n_part are never accessed,
the model maps them to themselves) -/
def Env.id (e : Env) (p : ℕ) : ℕ := e.sid.getD p p
/-- `sorted_ijk[p]` -/
def Env.cell (e : Env) (p : ℕ) : ℕ := e.ijk (e.id p)

/-- number of super-droplets per cell, zero-filled and scattered (lines 301-323) -/
def Env.cnt (e : Env) : ℕ → ℕ := scatter (fun _ => 0) (hskpngCount e.ijk e.sid)
/-- `off`: exclusive scan of the counts (lines 324-327) -/
def Env.off (e : Env) : ℕ → ℕ := exclusiveScan e.cnt
/-- `scl`: scale factors laid out on the grid (lines 280-310) -/
def Env.scl (e : Env) : ℕ → ℝ :=
  scatter (fun _ => 0) ((hskpngCount e.ijk e.sid).map (fun kv => (kv.1, scaleFactor kv.2)))
/-- `cix_a`/`cix_b`: index within the cell (lines 199, 204) -/
def Env.cix (e : Env) (p : ℕ) : ℕ := p - e.off (e.cell p)

/-- `prob` (lines 218-220) -/
def prob (e : Env) (p : ℕ) (a b : SD) : ℝ := e.dt / e.dv (e.cell p) * e.scl (e.cell p) * e.ker p a b

/-- number of collisions before the multiplicity limiter (lines 222, 230) -/
def colNo0 (e : Env) (p : ℕ) (a b : SD) (u : ℝ) : ℕ :=
  if u < prob e p a b - ⌊prob e p a b⌋₊ then ⌊prob e p a b⌋₊ + 1 else ⌊prob e p a b⌋₊

/-- One iteration of the collider loop, `detail::collider::operator()` (lines 184-268), at sorted position `p`. -/
def colliderStep (e : Env) (s : State) (p : ℕ) : State :=
  if e.cix p % 2 ≠ 0 then s
  else if e.cix p + 1 ≠ e.cix (p + 1) then { s with col := Function.update s.col p 0 }
  else
    let a := s.sd (e.id p)
    let b := s.sd (e.id (p + 1))
    let s := { s with increase := s.increase || (e.constMulti && decide (1 ≤ ⌊prob e p a b⌋₊)) }
    let c := colNo0 e p a b (s.col p)
    if c = 0 then { s with col := Function.update (Function.update s.col p 0) (p + 1) 0 }
    else if b.n ≤ a.n then
      let k := if 0 < b.n then min c (a.n / b.n) else c
      let ab := collide a b k
      { s with
        sd := Function.update (Function.update s.sd (e.id p) ab.1) (e.id (p + 1)) ab.2
        col := Function.update (Function.update s.col (p + 1) na_ge_nb) p k }
    else
      let k := if 0 < a.n then min c (b.n / a.n) else c
      let ba := collide b a k
      { s with
        sd := Function.update (Function.update s.sd (e.id p) ba.2) (e.id (p + 1)) ba.1
        col := Function.update (Function.update s.col (p + 1) nb_gt_na) p k }

/-- `detail::summator` (lines 46-57) applied to chemical species `i` (lines 459-480). -/
def summatorStep (i : ℕ) (e : Env) (s : State) (p : ℕ) : State :=
  if s.col p ≤ 0 then s
  else
    let a := s.sd (e.id p)
    let b := s.sd (e.id (p + 1))
    if s.col (p + 1) = na_ge_nb then
      { s with sd := Function.update s.sd (e.id (p + 1)) { b with chem := Function.update b.chem i (b.chem i + s.col p * a.chem i) } }
    else
      { s with sd := Function.update s.sd (e.id p) { a with chem := Function.update a.chem i (a.chem i + s.col p * b.chem i) } }

/-- loop over collisions of `detail::weighted_summator` (lines 74-94): `kd, rd` kappa and rd3 of the donor. -/
def kappaLoop (kd rd : ℝ) : ℕ → ℝ → ℝ → ℝ
  | 0, k, _ => k
  | m + 1, k, rold => kappaLoop kd rd m ((kd * rd + k * rold) / (rd + rold)) (rold + rd)

/-- `detail::weighted_summator` (lines 59-96, applied at 482-504). The loop count `int ci < col` is `⌈col⌉`. -/
def kappaStep (e : Env) (s : State) (p : ℕ) : State :=
  if s.col p ≤ 0 then s
  else
    let a := s.sd (e.id p)
    let b := s.sd (e.id (p + 1))
    if s.col (p + 1) = na_ge_nb then
      let b' := { b with kpa := kappaLoop a.kpa a.rd3 ⌈s.col p⌉₊ b.kpa (b.rd3 - s.col p * a.rd3) }
      { s with sd := Function.update s.sd (e.id (p + 1)) b' }
    else
      let a' := { a with kpa := kappaLoop b.kpa b.rd3 ⌈s.col p⌉₊ a.kpa (a.rd3 - s.col p * b.rd3) }
      { s with sd := Function.update s.sd (e.id p) a' }

/-- `detail::selector` on incloud_time (lines 17-31, applied at 507-525). -/
def incloudStep (e : Env) (s : State) (p : ℕ) : State :=
  if s.col p ≤ 0 then s
  else
    let a := s.sd (e.id p)
    let b := s.sd (e.id (p + 1))
    if s.col (p + 1) = na_ge_nb then
      { s with sd := Function.update s.sd (e.id (p + 1)) { b with inc := max a.inc b.inc } }
    else
      { s with sd := Function.update s.sd (e.id p) { a with inc := max a.inc b.inc } }

/-- `detail::invalidator` on rc2 (lines 33-44, applied at 528-545). -/
def rc2Step (e : Env) (s : State) (p : ℕ) : State :=
  if s.col p ≤ 0 then s
  else
    let a := s.sd (e.id p)
    let b := s.sd (e.id (p + 1))
    if s.col (p + 1) = na_ge_nb then
      { s with sd := Function.update s.sd (e.id (p + 1)) { b with rc2 := invalid } }
    else
      { s with sd := Function.update s.sd (e.id p) { a with rc2 := invalid } }

/-- Which of the optional passes run (lines 459, 482, 507, 528). -/
structure Opts where
  /-- number of chemical species if chem_switch, else 0 -/
  nChem : ℕ
  /-- more than one kappa -/
  kappa : Bool
  incloud : Bool
  rc2 : Bool

/-- One parallel `thrust::for_each` (any execution order `sched` of its iterations). -/
def pass (step : Env → State → ℕ → State) (e : Env) (sched : List ℕ) (s : State) : State :=
  sched.foldl (step e) s

/-- Execution orders of the successive parallel loops of one `coal` call. -/
structure Scheds where
  coll : List ℕ
  chem : ℕ → List ℕ
  kappa : List ℕ
  incloud : List ℕ
  rc2 : List ℕ

/-- Every loop executes each of its `n_part - 1` iterations exactly once, in some order. -/
structure Scheds.Valid (N : ℕ) (σ : Scheds) : Prop where
  coll : σ.coll.Perm (List.range (N - 1))
  chem : ∀ i, (σ.chem i).Perm (List.range (N - 1))
  kappa : σ.kappa.Perm (List.range (N - 1))
  incloud : σ.incloud.Perm (List.range (N - 1))
  rc2 : σ.rc2.Perm (List.range (N - 1))

/-- `impl::coal` (lines 272-546) after the shuffle; `none`: with `n_part = 0` the range end
`begin + n_part - 1` (line 442) lies before the beginning, which is undefined behaviour. -/
def coal (o : Opts) (e : Env) (σ : Scheds) (s : State) : Option State :=
  if e.N = 0 then none
  else
    let s := pass colliderStep e σ.coll s
    let s := (List.range o.nChem).foldl (fun s i => pass (summatorStep i) e (σ.chem i) s) s
    let s := if o.kappa then pass kappaStep e σ.kappa s else s
    let s := if o.incloud then pass incloudStep e σ.incloud s else s
    some (if o.rc2 then pass rc2Step e σ.rc2 s else s)

end
end LCP.Coal
