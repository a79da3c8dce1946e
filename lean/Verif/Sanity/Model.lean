import Mathlib.Data.Real.Basic
import Mathlib.Tactic.Linarith
import Mathlib.Tactic.NormNum

/-!
# Model of the option checks made by `init`

Source: src/impl/initialization/particles_impl_init_sanity_check.ipp (non-MPI build), constructor of src/impl/particles_impl.ipp.
Distributions enter only through their number. NaN is not modelled.
-/
namespace LCP.Sanity

/-- `src_t` (include/libcloudph++/lgrngn/ccn_source.hpp) -/
inductive Src where
  | off | simple | matching
  deriving DecidableEq

/-- the members of `opts_init_t` that are checked (include/libcloudph++/lgrngn/opts_init.hpp:31-260) -/
structure Opts where
  nx : ℤ := 0
  ny : ℤ := 0
  nz : ℤ := 0
  dx : ℝ := 1
  dy : ℝ := 1
  dz : ℝ := 1
  dt : ℝ := 0
  x0 : ℝ := 0
  y0 : ℝ := 0
  z0 : ℝ := 0
  x1 : ℝ := 1
  y1 : ℝ := 1
  z1 : ℝ := 1
  nDistros : ℕ := 0
  nSizes : ℕ := 0
  sdConc : ℕ := 0
  sdConstMulti : ℕ := 0
  largeTail : Bool := false
  src : Src := .off
  vtDefined : Bool := false
  kernelDefined : Bool := false
  chem : Bool := false
  coal : Bool := true
  sedi : Bool := true
  subs : Bool := false
  rlx : Bool := false
  turbAdve : Bool := false
  turbCond : Bool := false
  ice : Bool := false
  exact : Bool := false
  mix : Bool := true
  adaptive : Bool := false
  sstpCond : ℤ := 1
  sstpCondAct : ℤ := 1
  wLS : List ℝ := []
  mixLen : List ℝ := []
  concFactor : List ℝ := []
  indepRhod : Bool := false
  rlxBins : ℕ := 0
  rlxSdPerBin : ℝ := 0
  rlxTimescale : ℝ := 1
  constP : Bool := false

/-- which arguments of `init` are null, and the number of trace gases passed -/
structure Args where
  th : Bool := true
  rv : Bool := true
  rhod : Bool := true
  p : Bool := false
  cx : Bool := false
  cy : Bool := false
  cz : Bool := false
  nChem : ℕ := 0

/-- `m1` (particles_impl.ipp:322) on an `int` -/
def m1 (n : ℤ) : ℤ := if n = 0 then 1 else n
/-- `n_dims` (particles_impl.ipp:334-338), C++ division truncates -/
def nDims (o : Opts) : ℤ := Int.tdiv o.nx (m1 o.nx) + Int.tdiv o.ny (m1 o.ny) + Int.tdiv o.nz (m1 o.nz)

/-- `chem_gas_n` (include/libcloudph++/common/chem.hpp:16-17) -/
abbrev chemGasN : ℕ := 6

/-- `*std::min(v.begin(), v.end())` (init_sanity_check.ipp:117): the smaller of the two *iterators* is dereferenced, i.e. the
first element of a non-empty vector -/
def minIter (v : List ℝ) : ℝ := v.headD 0

open Classical in
/-- the checks in order, `true` = throws (init_sanity_check.ipp:29-173); the comments give the first line of each -/
noncomputable def checks (o : Opts) (a : Args) : List Bool :=
  let anyC := a.cx || a.cy || a.cz
  [ !a.th || !a.rv || !a.rhod,                                                                  -- 30
    anyC && decide (nDims o = 0),                                                               -- 38
    anyC && decide (nDims o = 1) && (!a.cx || a.cy || a.cz),                                    -- 41
    anyC && decide (nDims o = 2) && (!a.cx || a.cy || !a.cz),                                   -- 44
    anyC && decide (nDims o = 3) && (!a.cx || !a.cy || !a.cz),                                  -- 47
    o.chem && decide (a.nChem ≠ chemGasN),                                                      -- 51
    !o.chem && decide (a.nChem ≠ 0),                                                            -- 54
    o.chem && decide (o.src ≠ .off),                                                            -- 57
    decide (o.src = .matching) && decide (1 < o.nDistros),                                      -- 60
    decide (o.src ≠ .off) && decide (nDims o < 2),                                              -- 63
    decide (1 < o.nDistros) && o.chem,                                                          -- 66
    decide (o.nDistros = 0) && decide (o.nSizes = 0),                                           -- 69
    o.largeTail && decide (o.sdConc = 0),                                                       -- 72
    decide (0 < o.sdConstMulti) && decide (o.src ≠ .off),                                       -- 75
    decide (0 < nDims o) && decide (¬ (0 ≤ o.x0 ∧ o.x0 < m1 o.nx * o.dx)),                      -- 80
    decide (0 < nDims o) && decide (¬ (0 ≤ o.y0 ∧ o.y0 < m1 o.ny * o.dy)),                      -- 82
    decide (0 < nDims o) && decide (¬ (0 ≤ o.z0 ∧ o.z0 < m1 o.nz * o.dz)),                      -- 84
    decide (0 < nDims o) && decide (¬ (o.y0 < o.y1 ∧ o.y1 ≤ m1 o.ny * o.dy)),                   -- 89
    decide (0 < nDims o) && decide (¬ (o.z0 < o.z1 ∧ o.z1 ≤ m1 o.nz * o.dz)),                   -- 91
    decide (o.dt = 0),                                                                          -- 95
    decide (o.sdConc * o.sdConstMulti % 2 ^ 64 ≠ 0),                                            -- 96
    decide (o.sdConc = 0) && decide (o.sdConstMulti = 0) && decide (o.nSizes = 0),              -- 97
    o.coal && !o.vtDefined,                                                                     -- 100
    o.coal && !o.kernelDefined,                                                                 -- 101
    o.sedi && !o.vtDefined,                                                                     -- 104
    o.sedi && decide (o.nz = 0),                                                                -- 105
    o.subs && decide (o.nz = 0),                                                                -- 107
    o.turbAdve && decide (o.nz = 0),                                                            -- 109
    o.turbCond && decide (o.nz = 0),                                                            -- 111
    o.subs && decide (o.nz ≠ o.wLS.length),                                                     -- 113
    (o.turbAdve || o.turbCond) && decide (o.nz ≠ o.mixLen.length),                              -- 115
    decide (0 < o.mixLen.length) && decide (minIter o.mixLen ≤ 0),                              -- 117
    decide (o.concFactor ≠ []) && decide (nDims o < 2),                                         -- 119
    decide (o.concFactor ≠ []) && decide (o.nz ≠ o.concFactor.length),                          -- 121
    decide (o.concFactor ≠ []) && !o.indepRhod,                                                 -- 123
    decide (nDims o < 2) && o.rlx,                                                              -- 134
    o.rlx && decide (o.rlxBins ≤ 0),                                                            -- 136
    o.rlx && decide (o.rlxSdPerBin ≤ 0),                                                        -- 138
    o.rlx && decide (o.rlxTimescale ≤ 0),                                                       -- 140
    o.rlx && o.chem,                                                                            -- 142
    o.constP && !a.p,                                                                           -- 145
    !o.constP && a.p,                                                                           -- 147
    decide (o.sstpCond < 1),                                                                    -- 150
    o.adaptive && !o.exact,                                                                     -- 152
    !o.mix && !o.exact,                                                                         -- 156
    o.mix && o.adaptive && o.exact,                                                             -- 158
    decide (1 < o.sstpCondAct) && (o.mix || !o.exact || !o.adaptive),                           -- 160
    o.ice && o.coal,                                                                            -- 165
    o.ice && o.rlx,                                                                             -- 167
    o.ice && decide (o.src = .matching),                                                        -- 169
    o.ice && o.turbCond,                                                                        -- 171
    o.ice && o.exact ]                                                                          -- 173

/-- `init_sanity_check`: new value of `init_called` (set at line 27, before the other checks) and whether the call throws -/
noncomputable def initCheck (called : Bool) (o : Opts) (a : Args) : Bool × Bool :=
  if called then (true, true) else (true, (checks o a).any id)

end LCP.Sanity
