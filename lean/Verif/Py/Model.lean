import Verif.E2L.Model

/-!
# Model of the Python bindings: arrays, keyword arguments, option setters

Sources: bindings/python/util.hpp, bindings/python/lgrngn.hpp, bindings/python/blk_2m.hpp:95-111, bindings/python/lib.cpp:364-399,
include/libcloudph++/lgrngn/arrinfo.hpp.
-/
namespace LCP.Py
open LCP.Grid LCP.E2L

/-! ### Arrays -/

/-- the classes of `dtype.name` that the bindings tell apart (util.hpp:40, 71) -/
inductive DType | object | float64 | other
  deriving DecidableEq

/-- a NumPy array as the bindings see it: `dtype`, `flags.c_contiguous`, `shape`, `strides` (in bytes) -/
structure NpArr where
  dtype : DType
  cContig : Bool
  shape : List ℕ
  strides : List ℤ

/-- outcome of `np2ai`: a null arrinfo, an arrinfo with a vector of strides, an exception, or a write past the end of the
vector of strides (undefined behaviour) -/
inductive Out
  | null
  | ai (strvec : List ℤ)
  | throws
  | overflow
  deriving DecidableEq

/-- `n_dims` (util.hpp:87-92) -/
def pyDims (sz : Dims) : ℕ :=
  if 0 < sz.nx ∧ 0 < sz.ny ∧ 0 < sz.nz then 3
  else if 0 < sz.nx ∧ sz.ny = 0 ∧ 0 < sz.nz then 2
  else if sz.nx = 0 ∧ sz.ny = 0 ∧ 0 < sz.nz then 1
  else if 1 < sz.nx ∧ sz.ny = 0 ∧ sz.nz = 0 then 1
  else 0

/-- `extract<ptrdiff_t>(...) / sizeof(real_t)` (util.hpp:98): `sizeof` is an unsigned 64-bit number, so the stride is first
converted to one; `real_t` is `double` (lib.cpp:30) -/
def strideElems (bytes : ℤ) : ℤ := bytes % 2 ^ 64 / 8

/-- the vector after the loop that copies the strides (util.hpp:94-98): `std::max(1, n_dims)` zeros, the first ones overwritten -/
def copyStrides (len : ℕ) (st : List ℤ) : List ℤ := st.map strideElems ++ List.replicate (len - st.length) 0

/-- `np2ai` (util.hpp:73-155), with `sanity_checks` (util.hpp:37-46) and `not_numeric` (util.hpp:68-72).  The data pointer is left
out: it is the array's. -/
def np2ai (a : NpArr) (sz : Dims) : Out :=
  if a.dtype = .object then .null
  else if a.dtype ≠ .float64 then .throws
  else if a.cContig = false then .throws
  else
    let nd := pyDims sz
    if max 1 nd < a.strides.length then .overflow
    else
      let st := copyStrides (max 1 nd) a.strides
      match nd with
      | 3 =>
        if a.shape.length = 3 then .ai st
        else if a.shape.length = 1 then .ai [0, 0, st.getD 0 0]
        else .throws
      | 2 =>
        if a.shape.length = 2 then .ai st
        else if a.shape.length = 1 then .ai [0, st.getD 0 0]
        else .throws
      | 1 => if a.shape.length = 1 then .ai st else .throws
      | _ => if a.shape.length = 1 then (if a.shape.getD 0 0 = 1 then .ai st else .throws) else .throws

/-- the strides as the library reads them through `arrinfo_t::strides` (arrinfo.hpp:17, 33-35): entry `i` of the vector
(entries past its end are never used: see particles_impl_init_e2l.ipp:50-110) -/
def asStrides (v : List ℤ) : Strides := ⟨v.getD 0 0, v.getD 1 0, v.getD 2 0⟩

/-- size in reals of the memory view returned by `outbuf` (lgrngn.hpp:50-61) -/
def outbufLen (sz : Dims) : ℕ := m1 sz.nx * m1 sz.ny * m1 sz.nz

/-! ### Keyword arguments (Boost.Python)

`.def(name, f, (arg("a") = d, ...))` gives names and defaults to the last parameters of `f`; a call fills the positions from
the positional arguments, then by name, then from the defaults (Boost.Python, libs/python/src/object/function.cpp,
`function::function` and `function::call`; Boost is not part of the repository: this is a description of its documented
behaviour).  Positions do not count `self`. -/

/-- parameters of the bound C++ function, in order; `names` are the declared keywords, all with defaults -/
structure Bound where
  arity : ℕ
  names : List String

/-- name of position `i`, if it has one -/
def Bound.nameOf (b : Bound) (i : ℕ) : Option String := if b.arity - b.names.length ≤ i then b.names[i - (b.arity - b.names.length)]? else none

/-- position `i` takes its value from a keyword argument -/
def Bound.byName {α : Type} (b : Bound) (npos : ℕ) (kw : List (String × α)) (i : ℕ) : Bool :=
  decide (npos ≤ i) && (match b.nameOf i with | none => false | some n => (kw.lookup n).isSome)

/-- result of a call: for every position the value passed, or `none` for the default; an exception if an unnamed position is
not given, if there are too many arguments or if a keyword is not used -/
def Bound.call {α : Type} (b : Bound) (pos : List α) (kw : List (String × α)) : Option (List (Option α)) :=
  if b.arity < pos.length + kw.length then none
  else
    let slots : List (Option (Option α)) := (List.range b.arity).map fun i =>
      if h : i < pos.length then some (some pos[i])
      else match b.nameOf i with
        | none => none
        | some n => some (kw.lookup n)
    if slots.any Option.isNone then none
    else
      let used := ((List.range b.arity).filter (b.byName pos.length kw)).length
      if used < kw.length then none else some (slots.map fun s => s.getD none)

/-- `init` (lgrngn.hpp:78-88, lib.cpp:366-374): parameters th, rv, rhod, p, Cx, Cy, Cz, ambient_chem; seven names -/
def initB : Bound := ⟨8, ["th", "rv", "rhod", "Cx", "Cy", "Cz", "ambient_chem"]⟩
/-- `step_sync` (lgrngn.hpp:113-123, lib.cpp:375-384): parameters opts, th, rv, rhod, Cx, Cy, Cz, diss_rate, ambient_chem -/
def stepSyncB : Bound := ⟨9, ["th", "rv", "rhod", "Cx", "Cy", "Cz", "diss_rate", "ambient_chem"]⟩
/-- `sync_in` (lgrngn.hpp:152-162, lib.cpp:385-394): parameters th, rv, rhod, Cx, Cy, Cz, diss_rate, ambient_chem -/
def syncInB : Bound := ⟨8, ["th", "rv", "rhod", "Cx", "Cy", "Cz", "diss_rate", "ambient_chem"]⟩
/-- `step_cond` (lgrngn.hpp:191-197, lib.cpp:395-399): parameters opts, th, rv, ambient_chem -/
def stepCondB : Bound := ⟨4, ["th", "rv", "ambient_chem"]⟩

/-- what the positions are, in the C++ declarations cited above -/
def initParams : List String := ["th", "rv", "rhod", "p", "Cx", "Cy", "Cz", "ambient_chem"]
def stepSyncParams : List String := ["opts", "th", "rv", "rhod", "Cx", "Cy", "Cz", "diss_rate", "ambient_chem"]
def syncInParams : List String := ["th", "rv", "rhod", "Cx", "Cy", "Cz", "diss_rate", "ambient_chem"]
def stepCondParams : List String := ["opts", "th", "rv", "ambient_chem"]

/-! ### Option setters -/

/-- `kappa_rd_insol_t::operator<` (include/libcloudph++/lgrngn/distro_t.hpp:18-22) -/
def keyLt (a b : ℚ × ℚ) : Bool := if a.1 ≠ b.1 then decide (a.1 < b.1) else decide (a.2 < b.2)

/-- `std::map::emplace`: an existing (equivalent) key keeps its value -/
def mapEmplace {κ α : Type} (lt : κ → κ → Bool) (m : List (κ × α)) (k : κ) (v : α) : List (κ × α) :=
  if m.any (fun e => !lt e.1 k && !lt k e.1) then m
  else (m.takeWhile fun e => lt e.1 k) ++ (k, v) :: m.dropWhile fun e => lt e.1 k

/-- `map[k] = v` -/
def mapAssign {κ α : Type} (lt : κ → κ → Bool) (m : List (κ × α)) (k : κ) (v : α) : List (κ × α) :=
  if m.any (fun e => !lt e.1 k && !lt k e.1) then m.map fun e => if !lt e.1 k && !lt k e.1 then (e.1, v) else e
  else (m.takeWhile fun e => lt e.1 k) ++ (k, v) :: m.dropWhile fun e => lt e.1 k

/-- `set_dd`, `set_sdd` (lgrngn.hpp:234-278): clear, then emplace the entries of the dict in its order -/
def setDistros {α : Type} (_old new : List ((ℚ × ℚ) × α)) : List ((ℚ × ℚ) × α) :=
  new.foldl (fun m e => mapEmplace keyLt m e.1 e.2) []

/-- `set_ds`, `set_sds` (lgrngn.hpp:281-350): clear, return if the dict is empty, then assign -/
def setSizes {α : Type} (_old new : List ((ℚ × ℚ) × α)) : List ((ℚ × ℚ) × α) :=
  if new.length = 0 then [] else new.foldl (fun m e => mapAssign keyLt m e.1 e.2) []

/-- `set_w_LS`, `set_SGS_mix_len` (lgrngn.hpp:444-486): `resize(0)`, then push back; `none` is the exception of
`sanity_checks` -/
def setProfile {α : Type} (a : NpArr) (_old new : List α) : Option (List α) :=
  if a.dtype ≠ .float64 ∨ a.cContig = false then none else some (new.foldl (fun l x => l ++ [x]) [])

/-- `set_kp` (lgrngn.hpp:423-433): push back, without clearing -/
def setKernelParams {α : Type} (a : NpArr) (old new : List α) : Option (List α) :=
  if a.dtype ≠ .float64 ∨ a.cContig = false then none else some (new.foldl (fun l x => l ++ [x]) old)

/-- `set_dd` of the double-moment bulk scheme (blk_2m.hpp:97-111): push back, without clearing -/
def setModes2m {α : Type} (old new : List α) : List α := new.foldl (fun l x => l ++ [x]) old

end LCP.Py
