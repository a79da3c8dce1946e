import Mathlib.Data.List.Basic
import Mathlib.Tactic.IntervalCases

/-!
# Names: entries of the puddle, chemical species, choices of options

Sources: include/libcloudph++/common/output.hpp:8-53, include/libcloudph++/common/chem.hpp:9-24, src/particles_ctor.ipp:73-74, src/impl/boundary_conditions/particles_impl_bcnd.ipp:330-342,
bindings/python/lib.cpp:220-265, bindings/python/lgrngn.hpp:218-227, include/libcloudph++/lgrngn/kernel.hpp:5-25, terminal_velocity.hpp:6-18, RH_formula.hpp, advection_scheme.hpp, ccn_source.hpp,
backend.hpp.

Enumerators are their numbers.  A Boost.Python `enum_` is its list of (name, value) pairs in the order of the calls of `value`.
-/
namespace LCP.Py.Names

/-- chem_species_t (chem.hpp:9-23) -/
def HNO3 : ℕ := 0
def NH3 : ℕ := 1
def CO2 : ℕ := 2
def SO2 : ℕ := 3
def H2O2 : ℕ := 4
def O3 : ℕ := 5
def S_VI : ℕ := 6
def H : ℕ := 7
def chem_all : ℕ := H + 1

/-- output_t (output.hpp:8-24): the first eight take the values of the species, the others count on from the last one -/
def outHNO3 : ℕ := HNO3
def outNH3 : ℕ := NH3
def outCO2 : ℕ := CO2
def outSO2 : ℕ := SO2
def outH2O2 : ℕ := H2O2
def outO3 : ℕ := O3
def outS_VI : ℕ := S_VI
def outH : ℕ := H
def outliq_vol : ℕ := outH + 1
def outdry_vol : ℕ := outH + 2
def outprtcl_num : ℕ := outH + 3
def outice_mass : ℕ := outH + 4
def outliq_num : ℕ := outH + 5
def outice_num : ℕ := outH + 6

/-- output_names (output.hpp:26-42) -/
def outputNames : List (ℕ × String) :=
  [(outHNO3, "HNO3"), (outNH3, "NH3"), (outCO2, "CO2"), (outSO2, "SO2"), (outH2O2, "H2O2"), (outO3, "O3"), (outS_VI, "S_VI"), (outH, "H"), (outliq_vol, "liquid_volume"),
    (outdry_vol, "dry_volume"), (outprtcl_num, "particle_number"), (outice_mass, "ice_mass"), (outliq_num, "liquid_number"), (outice_num, "ice_number")]

/-- get_output_enum (output.hpp:44-53); `none`: it throws -/
def getOutputEnum (name : String) : Option ℕ := (outputNames.find? fun p => p.2 = name).map Prod.fst

/-- `output_names.at(k)`; `none`: it throws -/
def nameAt (k : ℕ) : Option String := (outputNames.find? fun p => p.1 = k).map Prod.snd

/-- the keys of `output_puddle` after the constructor (particles_ctor.ipp:73-74): `static_cast<output_t>(i)` for all i below the number of names -/
def puddleKeys : List ℕ := List.range outputNames.length

/-- the keys `bcnd` adds to (particles_impl_bcnd.ipp:255-342): the six of droplets and ice, and one for each species -/
def bcndKeys : List ℕ := [outliq_vol, outdry_vol, outprtcl_num, outliq_num, outice_mass, outice_num] ++ List.range chem_all

/-- Python's diag_puddle (lgrngn.hpp:218-227) for a puddle with the given keys and values: the pairs put into the dictionary; `none`: an exception -/
def diagPuddle {V : Type} (keys : List ℕ) (v : ℕ → V) : Option (List (String × V)) := keys.mapM fun k => (nameAt k).map fun s => (s, v k)

/-- chem_species_t in Python (lib.cpp:257-265) -/
def pySpecies : List (String × ℕ) := [("H", H), ("SO2", SO2), ("O3", O3), ("H2O2", H2O2), ("CO2", CO2), ("NH3", NH3), ("HNO3", HNO3), ("S_VI", S_VI)]

/-- kernel_t (kernel.hpp:7) -/
inductive Kernel
  | undefined | geometric | golovin | hall | hall_davis_no_waals | Long | onishi_hall | onishi_hall_davis_no_waals | hall_pinsky_1000mb_grav | hall_pinsky_cumulonimbus
  | hall_pinsky_stratocumulus | vohl_davis_no_waals
  deriving DecidableEq

/-- kernel_name (kernel.hpp:10-23) -/
def kernelName : Kernel → String
  | .undefined => "undefined"
  | .geometric => "geometric"
  | .golovin => "golovin"
  | .hall => "hall"
  | .hall_davis_no_waals => "hall_davis_no_waals"
  | .Long => "Long"
  | .onishi_hall => "onishi_hall"
  | .onishi_hall_davis_no_waals => "onishi_hall_davis_no_waals"
  | .hall_pinsky_1000mb_grav => "hall_pinsky_1000mb_grav"
  | .hall_pinsky_cumulonimbus => "hall_pinsky_cumulonimbus"
  | .hall_pinsky_stratocumulus => "hall_pinsky_stratocumulus"
  | .vohl_davis_no_waals => "vohl_davis_no_waals"

/-- kernel_t in Python (lib.cpp:225-236) -/
def pyKernel : List (String × Kernel) :=
  [("geometric", .geometric), ("golovin", .golovin), ("hall", .hall), ("hall_davis_no_waals", .hall_davis_no_waals), ("long", .Long),
    ("hall_pinsky_1000mb_grav", .hall_pinsky_1000mb_grav), ("onishi_hall_davis_no_waals", .onishi_hall_davis_no_waals), ("onishi_hall", .onishi_hall),
    ("vohl_davis_no_waals", .vohl_davis_no_waals), ("hall_pinsky_stratocumulus", .hall_pinsky_stratocumulus), ("hall_pinsky_cumulonimbus", .hall_pinsky_cumulonimbus)]

/-- the value of an attribute of a Boost.Python enumeration -/
def attr {E : Type} (t : List (String × E)) (name : String) : Option E := (t.find? fun p => p.1 = name).map Prod.snd

theorem find?_name {E : Type} (t : List (String × E)) (h : (t.map Prod.fst).Nodup) (name : String) (v : E) : attr t name = some v ↔ (name, v) ∈ t := by
  unfold attr
  induction t with
  | nil => simp
  | cons p t ih =>
    rw [List.map_cons, List.nodup_cons] at h
    by_cases hp : p.1 = name
    · rw [List.find?_cons_of_pos (by simpa using hp)]
      subst hp
      simp only [Option.map_some, Option.some.injEq, List.mem_cons]
      constructor
      · rintro rfl; exact Or.inl rfl
      · rintro (h' | h')
        · rw [← h']
        · exact absurd (List.mem_map.mpr ⟨_, h', rfl⟩) h.1
    · rw [List.find?_cons_of_neg (by simpa using hp), ih h.2, List.mem_cons]
      constructor
      · exact Or.inr
      · rintro (h' | h')
        · exact absurd (by rw [← h']) hp
        · exact h'

theorem getOutputEnum_eq (name : String) : getOutputEnum name = attr (outputNames.map Prod.swap) name := by
  unfold getOutputEnum attr
  rw [List.find?_map, Option.map_map]
  rfl

/-! ## The claims -/

/-- the names as documented, in the order of the numbers (specification) -/
def documented : List String :=
  ["HNO3", "NH3", "CO2", "SO2", "H2O2", "O3", "S_VI", "H", "liquid_volume", "dry_volume", "particle_number", "ice_mass", "liquid_number", "ice_number"]

/-- **C141.** For every string: the entry of that name is found if the string is one of the fourteen names, and it is the entry whose name it is; any other string is refused. -/
theorem output_enum_iff (name : String) (k : ℕ) : getOutputEnum name = some k ↔ documented[k]? = some name := by
  rw [getOutputEnum_eq, find?_name _ (by decide)]
  constructor
  · intro h
    simp only [outputNames, List.map_cons, List.map_nil, Prod.swap, List.mem_cons, Prod.mk.injEq, List.not_mem_nil, or_false] at h
    rcases h with ⟨rfl, rfl⟩ | ⟨rfl, rfl⟩ | ⟨rfl, rfl⟩ | ⟨rfl, rfl⟩ | ⟨rfl, rfl⟩ | ⟨rfl, rfl⟩ | ⟨rfl, rfl⟩ | ⟨rfl, rfl⟩ | ⟨rfl, rfl⟩ | ⟨rfl, rfl⟩ | ⟨rfl, rfl⟩ | ⟨rfl, rfl⟩ | ⟨rfl, rfl⟩ |
      ⟨rfl, rfl⟩ <;> rfl
  · intro h
    have hk : k < 14 := by
      obtain ⟨h1, -⟩ := List.getElem?_eq_some_iff.mp h
      exact h1
    interval_cases k <;> (simp only [documented] at h; obtain rfl := Option.some.inj h.symm; decide)

/-- **C141.** Whatever has been accumulated, Python's `diag_puddle` gives a dictionary with exactly the fourteen names, each with the value of its own entry. -/
theorem puddle_dict {V : Type} (v : ℕ → V) : diagPuddle puddleKeys v = some (documented.mapIdx fun k s => (s, v k)) ∧ documented.Nodup :=
  ⟨rfl, by decide⟩

/-- **C141.** No step adds an entry without a name. -/
theorem bcnd_keys_named : ∀ k ∈ bcndKeys, k ∈ puddleKeys := by decide

/-- **C141.** The puddle's entry for a species carries the name by which Python knows the species, for every name. -/
theorem species_named (name : String) (s : ℕ) (h : attr pySpecies name = some s) : nameAt s = some name ∧ s < chem_all := by
  rw [find?_name _ (by decide)] at h
  simp only [pySpecies, List.mem_cons, Prod.mk.injEq, List.not_mem_nil, or_false] at h
  rcases h with ⟨rfl, rfl⟩ | ⟨rfl, rfl⟩ | ⟨rfl, rfl⟩ | ⟨rfl, rfl⟩ | ⟨rfl, rfl⟩ | ⟨rfl, rfl⟩ | ⟨rfl, rfl⟩ | ⟨rfl, rfl⟩ <;> decide

/-- **C141.** Every species has a name in Python. -/
theorem species_complete (s : ℕ) (h : s < chem_all) : ∃ name, attr pySpecies name = some s := by
  have : s < 8 := h
  have hn := find?_name pySpecies (by decide)
  interval_cases s
  · exact ⟨"HNO3", by decide⟩
  · exact ⟨"NH3", by decide⟩
  · exact ⟨"CO2", by decide⟩
  · exact ⟨"SO2", by decide⟩
  · exact ⟨"H2O2", by decide⟩
  · exact ⟨"O3", by decide⟩
  · exact ⟨"S_VI", by decide⟩
  · exact ⟨"H", by decide⟩

/-- **C141.** Every collision kernel can be chosen from Python, by one name only. -/
theorem kernel_complete (k : Kernel) (h : k ≠ .undefined) : ∃ name, ∀ n, attr pyKernel n = some k ↔ n = name := by
  have H := fun n => find?_name pyKernel (by decide) n k
  cases k
  · exact absurd rfl h
  all_goals simp only [H]; simp only [pyKernel, List.mem_cons, Prod.mk.injEq, List.not_mem_nil, or_false, reduceCtorEq, and_false, and_true, or_false, false_or]; exact ⟨_, fun _ => Iff.rfl⟩

/-- **C141 (partial).** The name of a kernel in Python is the name the library itself uses, except for Long's kernel. -/
theorem kernel_named_partial (name : String) (k : Kernel) (h : attr pyKernel name = some k) (hk : k ≠ .Long) : kernelName k = name := by
  rw [find?_name _ (by decide)] at h
  simp only [pyKernel, List.mem_cons, Prod.mk.injEq, List.not_mem_nil, or_false] at h
  rcases h with ⟨rfl, rfl⟩ | ⟨rfl, rfl⟩ | ⟨rfl, rfl⟩ | ⟨rfl, rfl⟩ | ⟨rfl, rfl⟩ | ⟨rfl, rfl⟩ | ⟨rfl, rfl⟩ | ⟨rfl, rfl⟩ | ⟨rfl, rfl⟩ | ⟨rfl, rfl⟩ | ⟨rfl, rfl⟩
  all_goals first | rfl | exact absurd rfl hk

/-- **C141 (negation).** The library calls it "Long", a name unknown in Python, where it is "long". -/
theorem long_named_differently : kernelName .Long = "Long" ∧ attr pyKernel "Long" = none ∧ attr pyKernel "long" = some .Long := by decide

example : getOutputEnum "liquid_volume" = some 8 ∧ getOutputEnum "liquid volume" = none := by decide
example : attr pyKernel "hall" = some .hall := by decide

end LCP.Py.Names
