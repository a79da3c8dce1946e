import Mathlib.Data.Real.Basic
import Mathlib.Data.List.TakeWhile

/-!
# The output options of the kinematic driver (C122)

Source: models/kinematic_2D/src/opts_lgrngn.hpp:60-121 (`parse_moms`, the two overloads are the same but for the list they fill), models/kinematic_2D/src/outmom.hpp.

`out_dry`, `out_wet`, `out_chem` and `out_wet_pH` are strings "r1:r2|n1,n2...;..." (opts_lgrngn.hpp:258-261).  The two grammars are Boost.Spirit ones with the skipper
`ascii::space`: white space is skipped before every character, and no parser of a single character can start with one, so the first grammar sees the string without it.
`lexical_cast<real_t>` is a parameter: what it makes of a string, `none` when it throws.
-/
namespace LCP.Icicle

/-- ascii::space: blank, \t, \n, \v, \f, \r -/
def isBlank (c : Char) : Bool := c = ' ' || (9 ≤ c.toNat && c.toNat ≤ 13)

/-- one turn of the outer Kleene star (opts_lgrngn.hpp:80-81): everything before ':', everything before ';', an optional ';'; the characters that remain -/
def group (l : List Char) : Option ((List Char × List Char) × List Char) :=
  match l.dropWhile (· ≠ ':') with
  | [] => none
  | _ :: r => some ((l.takeWhile (· ≠ ':'), r.takeWhile (· ≠ ';')), (r.dropWhile (· ≠ ';')).tail)

/-- a turn uses up at least the ':' -/
theorem group_lt {l : List Char} {p : List Char × List Char} {r : List Char} (h : group l = some (p, r)) : r.length < l.length := by
  unfold group at h
  split at h
  · cases h
  next _ r' e =>
    simp only [Option.some.injEq, Prod.mk.injEq] at h
    obtain ⟨-, rfl⟩ := h
    have h1 : (l.dropWhile (· ≠ ':')).length ≤ l.length := (List.dropWhile_suffix _).length_le
    have h2 : (r'.dropWhile (· ≠ ';')).length ≤ r'.length := (List.dropWhile_suffix _).length_le
    rw [e] at h1
    simp only [List.length_cons, List.length_tail] at *
    omega

/-- the outer Kleene star (opts_lgrngn.hpp:78-85): the pairs found and the characters that remain -/
def groups (l : List Char) : List (List Char × List Char) × List Char :=
  match h : group l with
  | none => ([], l)
  | some (p, r) =>
    have := group_lt h
    ((p :: (groups r).1), (groups r).2)
termination_by l.length

/-- value of a string of decimal digits -/
def digitsVal (l : List Char) : ℕ := l.foldl (fun a c => 10 * a + (c.toNat - 48)) 0

/-- qi::int_: optional sign, digits; fails beyond the range of `int` -/
def intTok (l : List Char) : Option (ℤ × List Char) :=
  let neg := l.head? = some '-'
  let r := if l.head? = some '-' ∨ l.head? = some '+' then l.tail else l
  let ds := r.takeWhile Char.isDigit
  let v : ℤ := if neg then -(digitsVal ds : ℤ) else digitsVal ds
  if ds ≠ [] ∧ -2 ^ 31 ≤ v ∧ v < 2 ^ 31 then some (v, r.dropWhile Char.isDigit) else none

theorem intTok_le {l : List Char} {v : ℤ} {r : List Char} (h : intTok l = some (v, r)) : r.length ≤ l.length := by
  unfold intTok at h
  dsimp only at h
  split_ifs at h <;> simp only [Option.some.injEq, Prod.mk.injEq] at h <;> obtain ⟨-, rfl⟩ := h
  all_goals
    refine le_trans (List.dropWhile_suffix _).length_le ?_
    simp

/-- `*(',' >> int_)` (opts_lgrngn.hpp:111): numbers and what remains -/
def moreInts (l : List Char) : List ℤ × List Char :=
  match l with
  | ',' :: t =>
    match h : intTok t with
    | none => ([], l)
    | some (v, r) =>
      have := intTok_le h
      (v :: (moreInts r).1, (moreInts r).2)
  | _ => ([], l)
termination_by l.length
decreasing_by all_goals simp_wf; omega

/-- the second grammar (opts_lgrngn.hpp:106-118): all characters must be used -/
def nums (l : List Char) : Option (List ℤ) :=
  match intTok l with
  | none => none
  | some (v, r) => if (moreInts r).2 = [] then some (v :: (moreInts r).1) else none

/-- range of radii and numbers of moments (outmom.hpp:10-17) -/
structure OutMom where
  r1 : ℝ
  r2 : ℝ
  moms : List ℤ

/-- one pair of strings (opts_lgrngn.hpp:90-119).  `find` of an absent '|' gives npos, stored in an `int` as -1: then `substr(0, sep)` is the whole string, and so is
`substr(sep + 1)`.  `none`: an exception. -/
def entry (lc : List Char → Option ℝ) (p : List Char × List Char) : Option OutMom :=
  let second := if '|' ∈ p.2 then p.2.takeWhile (· ≠ '|') else p.2
  let rest := if '|' ∈ p.2 then (p.2.dropWhile (· ≠ '|')).tail else p.2
  match lc p.1, lc second, nums rest with
  | some a, some b, some m => some ⟨a, b, m⟩
  | _, _, _ => none

/-- parse_moms (opts_lgrngn.hpp:60-121); `none`: an exception -/
def parseMoms (lc : List Char → Option ℝ) (s : List Char) : Option (List OutMom) :=
  let g := groups (s.filter fun c => !isBlank c)
  if g.2 = [] then g.1.mapM (entry lc) else none

end LCP.Icicle
