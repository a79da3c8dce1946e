import Mathlib.Data.Real.Basic
import Mathlib.Data.Real.Sign
import Mathlib.Algebra.Order.Field.Basic

/-!
# Model of the root finder `toms748_solve`

Source: include/libcloudph++/common/detail/toms748.hpp.  Exact real arithmetic; the machine constants (`epsilon`, largest and
smallest value) are parameters.  `copysign(1, x) < 0` is `x < 0` (the model has no signed zero; the product of two
non-zero numbers is non-zero).
-/
namespace LCP.Toms

/-- machine constants (lines 22-35) -/
structure Mach where
  epsilon : ℝ
  maxv : ℝ
  minv : ℝ

/-- `eps_tolerance` (lines 262-287): constructor argument already turned into the relative tolerance `eps` -/
noncomputable def tolTest (eps a b : ℝ) : Prop := |a - b| ≤ eps * min |a| |b|

/-- the constructor of `eps_tolerance` (lines 268-275) -/
noncomputable def tolEps (M : Mach) (bits : ℕ) : ℝ := max ((2 : ℝ) ^ (1 - (bits : ℤ))) (4 * M.epsilon)

/-- bracket `[a,b]`, values at its ends, the last two removed points with their values (lines 295, 331), and the list of the
points at which the function has been evaluated (not in the code: a record of the calls of `f`) -/
structure St where
  a : ℝ
  b : ℝ
  fa : ℝ
  fb : ℝ
  d : ℝ
  fd : ℝ
  e : ℝ
  fe : ℝ
  evals : List ℝ

open Classical in
/-- adjustment of the new point (lines 77-93) -/
noncomputable def clip (M : Mach) (a b c : ℝ) : ℝ :=
  let tol := M.epsilon * 2
  if b - a < 2 * tol * a then a + (b - a) / 2
  else if c ≤ a + |a| * tol then a + |a| * tol
  else if c ≥ b - |b| * tol then b - |a| * tol
  else c

open Classical in
/-- `bracket` (lines 63-124) -/
noncomputable def bracket (M : Mach) (f : ℝ → ℝ) (s : St) (c : ℝ) : St :=
  let c := clip M s.a s.b c
  let fc := f c
  let s := { s with evals := c :: s.evals }
  if fc = 0 then { s with a := c, fa := 0, d := 0, fd := 0 }
  else if s.fa * fc < 0 then { s with d := s.b, fd := s.fb, b := c, fb := fc }
  else { s with d := s.a, fd := s.fa, a := c, fa := fc }

open Classical in
/-- `safe_div` (lines 127-140) -/
noncomputable def safeDiv (M : Mach) (num denom r : ℝ) : ℝ :=
  if |denom| < 1 then (if |denom * M.maxv| ≤ |num| then r else num / denom) else num / denom

open Classical in
/-- `secant_interpolate` (lines 144-162) -/
noncomputable def secant (M : Mach) (a b fa fb : ℝ) : ℝ :=
  let tol := M.epsilon * 5
  let c := a - fa / (fb - fa) * (b - a)
  if c ≤ a + |a| * tol ∨ c ≥ b - |b| * tol then (a + b) / 2 else c

/-- one Newton step of the quadratic interpolation (lines 205-213) -/
noncomputable def newtonStep (M : Mach) (a b fa A B c : ℝ) : ℝ :=
  c - safeDiv M (fa + (B + A * (c - b)) * (c - a)) (B + A * (2 * c - a - b)) (1 + c - a)

open Classical in
/-- `quadratic_interpolate` (lines 165-218) -/
noncomputable def quadratic (M : Mach) (a b d fa fb fd : ℝ) (count : ℕ) : ℝ :=
  let B := safeDiv M (fb - fa) (b - a) M.maxv
  let A := safeDiv M (fd - fb) (d - b) M.maxv
  let A := safeDiv M (A - B) (d - a) 0
  if A = 0 then secant M a b fa fb
  else
    let c := if A * fa > 0 then a else b
    let c := (newtonStep M a b fa A B)^[count] c
    if c ≤ a ∨ c ≥ b then secant M a b fa fb else c

open Classical in
/-- `cubic_interpolate` (lines 222-258) -/
noncomputable def cubic (M : Mach) (a b d e fa fb fd fe : ℝ) : ℝ :=
  let q11 := (d - e) * fd / (fe - fd)
  let q21 := (b - d) * fb / (fd - fb)
  let q31 := (a - b) * fa / (fb - fa)
  let d21 := (b - d) * fd / (fd - fb)
  let d31 := (a - b) * fb / (fb - fa)
  let q22 := (d21 - q11) * fb / (fe - fb)
  let q32 := (d31 - q21) * fa / (fd - fa)
  let d32 := (d31 - q21) * fd / (fd - fa)
  let q33 := (d32 - q22) * fa / (fe - fa)
  let c := q31 + q32 + q33 + a
  if c ≤ a ∨ c ≥ b then quadratic M a b d fa fb fd 3 else c

/-- the flag `prof` (lines 368, 388): two of the four values (nearly) coincide -/
def prof (M : Mach) (s : St) : Prop :=
  let m := M.minv * 32
  |s.fa - s.fb| < m ∨ |s.fa - s.fd| < m ∨ |s.fa - s.fe| < m ∨ |s.fb - s.fd| < m ∨ |s.fb - s.fe| < m ∨ |s.fd - s.fe| < m

open Classical in
/-- interpolated point (lines 369-377, 389-397) -/
noncomputable def interp (M : Mach) (s : St) (count : ℕ) : ℝ :=
  if prof M s then quadratic M s.a s.b s.d s.fa s.fb s.fd count else cubic M s.a s.b s.d s.e s.fa s.fb s.fd s.fe

/-- `e = d; fe = fd` -/
def saveE (s : St) : St := { s with e := s.d, fe := s.fd }

/-- the loop's stopping condition after a bracketing (besides the iteration count) -/
def done (eps : ℝ) (s : St) : Prop := s.fa = 0 ∨ tolTest eps s.a s.b

open Classical in
/-- double-length secant point (lines 404-420) -/
noncomputable def doubleSecant (s : St) : ℝ :=
  let u := if |s.fa| < |s.fb| then s.a else s.b
  let fu := if |s.fa| < |s.fb| then s.fa else s.fb
  let c := u - 2 * (fu / (s.fb - s.fa)) * (s.b - s.a)
  if |c - u| > (s.b - s.a) / 2 then s.a + (s.b - s.a) / 2 else c

open Classical in
/-- the while loop (lines 354-442) with `count` iterations left, run for at most `fuel` rounds (each round uses up at least
one iteration, so `fuel = count` rounds always suffice) -/
noncomputable def loop (M : Mach) (f : ℝ → ℝ) (eps : ℝ) : ℕ → ℕ → St → St
  | 0, _, s => s
  | fuel + 1, count, s =>
    if count = 0 ∨ done eps s then s else
    let s0 := s
    -- interpolated step
    let s := bracket M f (saveE s) (interp M s 2)
    if count - 1 = 0 ∨ done eps s then s else
    -- another interpolated step
    let s := bracket M f s (interp M s 3)
    if count - 2 = 0 ∨ done eps s then s else
    -- double-length secant step
    let s := bracket M f (saveE s) (doubleSecant s)
    if count - 3 = 0 ∨ done eps s then s else
    if s.b - s.a < 1 / 2 * (s0.b - s0.a) then loop M f eps fuel (count - 3) s else
    -- bisection
    let s := bracket M f (saveE s) (s.a + (s.b - s.a) / 2)
    loop M f eps fuel (count - 4) s

open Classical in
/-- result: lines 445-453 -/
noncomputable def result (s : St) : ℝ :=
  if s.fa = 0 then (s.a + s.a) / 2 else if s.fb = 0 then (s.b + s.b) / 2 else (s.a + s.b) / 2

open Classical in
/-- `toms748_solve(f, ax, bx, fax, fbx, tol, max_iter)` (lines 291-454) up to the final state; `max_iter ≥ 1` (for 0 the
unsigned counter would wrap around at line 340) -/
noncomputable def final (M : Mach) (f : ℝ → ℝ) (eps : ℝ) (maxIter : ℕ) (ax bx fax fbx : ℝ) : St :=
  let s : St := ⟨ax, bx, fax, fbx, 0, 1e5, 1e5, 1e5, []⟩
  if tolTest eps ax bx ∨ fax = 0 ∨ fbx = 0 then s
  else
    let s := bracket M f s (secant M ax bx fax fbx)
    let count := maxIter - 1
    if count ≠ 0 ∧ ¬ done eps s then
      let s := bracket M f (saveE s) (quadratic M s.a s.b s.d s.fa s.fb s.fd 2)
      loop M f eps (count - 1) (count - 1) s
    else loop M f eps count count s

/-- value returned by `toms748_solve` (lines 291-454) -/
noncomputable def solve (M : Mach) (f : ℝ → ℝ) (eps : ℝ) (maxIter : ℕ) (ax bx fax fbx : ℝ) : ℝ :=
  result (final M f eps maxIter ax bx fax fbx)

/-- double precision constants (lines 24-34) -/
noncomputable def dbl : Mach := ⟨2 ^ (-52 : ℤ), (2 - 2 ^ (-52 : ℤ)) * 2 ^ (1023 : ℤ), 2 ^ (-1022 : ℤ)⟩

/-- single precision constants (lines 24-34) -/
noncomputable def flt : Mach := ⟨2 ^ (-23 : ℤ), (2 - 2 ^ (-23 : ℤ)) * 2 ^ (127 : ℤ), 2 ^ (-126 : ℤ)⟩

/-- the version with default tolerance and number of iterations (lines 468-489), double precision: 64/4 = 16 bits, 100
iterations -/
noncomputable def solveDbl (f : ℝ → ℝ) (ax bx : ℝ) : ℝ := solve dbl f (tolEps dbl 16) 100 ax bx (f ax) (f bx)

/-- the same in single precision: 32/4 = 8 bits -/
noncomputable def solveFlt (f : ℝ → ℝ) (ax bx : ℝ) : ℝ := solve flt f (tolEps flt 8) 100 ax bx (f ax) (f bx)

end LCP.Toms
