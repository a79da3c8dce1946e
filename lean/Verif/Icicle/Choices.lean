import Verif.Kernel.Model
import Mathlib.Tactic.NormNum
import Mathlib.Tactic.SplitIfs

/-!
# Choices offered by the kinematic driver: collision kernel, fall speed, advection scheme

Sources: models/kinematic_2D/src/opts_lgrngn.hpp:264-266 (the help texts), :323-417 (the chains of `if`), src/impl/initialization/particles_impl_init_sanity_check.ipp:98-105,
src/particles_init.ipp:110, src/impl/initialization/particles_impl_init_kernel.ipp (model in Verif.Kernel.Model).

The driver leaves `opts_init.coal_switch` and `opts_init.sedi_switch` at their default, on, and `opts_init.turb_coal_switch` at its default, off (opts_init.hpp:207-218), whatever `--coal` and
`--sedi` say; there is no option for the parameters of the kernel.  Everything else checked by the library is taken to be in order.
-/
namespace LCP.Icicle.Choices
open LCP.Kernel

/-- vt_t (terminal_velocity.hpp:7) -/
inductive Vt
  | undefined | beard76 | beard77 | beard77fast | khvorostyanov_spherical | khvorostyanov_nonspherical
  deriving DecidableEq

/-- as_t (advection_scheme.hpp:7) without `undefined`, which is not the default -/
inductive As
  | implicit | euler | pred_corr
  deriving DecidableEq

/-- how the start of a run ends: an assertion fails, an exception is thrown, or it runs with the given kernel, fall speed and scheme -/
inductive Outcome
  | aborts
  | throws
  | runs (k : Kern) (v : Vt) (a : As)

/-- the kernel and its parameters (opts_lgrngn.hpp:340-391); `none`: the last `else`, which has `assert(false)` -/
noncomputable def driverKernel (s : String) : Option (Kind × List ℝ) :=
  if s = "geometric" then some (.geometric, [0.5])
  else if s = "long" then some (.Long, [])
  else if s = "hall" then some (.hall, [])
  else if s = "hall_davis_no_waals" then some (.hall_davis_no_waals, [])
  else if s = "golovin" then some (.golovin, [1])
  else if s = "onishi_hall" then some (.onishi_hall, [0.01, 100])
  else if s = "onishi_hall_davis_no_waals" then some (.onishi_hall_davis_no_waals, [0.01, 100])
  else if s = "vohl_davis_no_waals" then some (.vohl_davis_no_waals, [])
  else if s = "hall_pinsky_cumulonimbus" then some (.hall_pinsky_cumulonimbus, [])
  else if s = "hall_pinsky_stratocumulus" then some (.hall_pinsky_stratocumulus, [])
  else none

/-- the fall speed (opts_lgrngn.hpp:393-417) -/
def driverVt (s : String) : Option Vt :=
  if s = "khvorostyanov_spherical" then some .khvorostyanov_spherical
  else if s = "khvorostyanov_nonspherical" then some .khvorostyanov_nonspherical
  else if s = "beard76" then some .beard76
  else if s = "beard77" then some .beard77
  else if s = "beard77fast" then some .beard77fast
  else none

/-- the advection scheme (opts_lgrngn.hpp:324-337) -/
def driverAs (s : String) : Option As :=
  if s = "implicit" then some .implicit else if s = "euler" then some .euler else if s = "pred_corr" then some .pred_corr else none

/-- the library with coalescence and sedimentation on and turbulent coalescence off (sanity_check.ipp:98-105, particles_init.ipp:110, init_kernel.ipp) -/
def library (tab : Table → List ℝ) (k : Kind) (user : List ℝ) (v : Vt) (a : As) : Outcome :=
  if v = .undefined then .throws
  else if k = .undefined then .throws
  else match initKernel tab false user k with
    | none => .throws
    | some K => .runs K v a

/-- the start of a run: with assertions (`dbg`) a choice not known aborts; without them the default of opts_init stays (opts_init.hpp:222-224: kernel and fall speed undefined, scheme implicit) -/
noncomputable def start (dbg : Bool) (tab : Table → List ℝ) (kernel vt adve : String) : Outcome :=
  if dbg && ((driverAs adve).isNone || (driverKernel kernel).isNone || (driverVt vt).isNone) then .aborts
  else
    let k := (driverKernel kernel).getD (.undefined, [])
    library tab k.1 k.2 ((driverVt vt).getD .undefined) ((driverAs adve).getD .implicit)

/-! ## Specification: the help texts -/

/-- "collision kernel (...)" (opts_lgrngn.hpp:264) -/
def helpKernels : List String := ["geometric", "long", "hall", "hall_davis_no_waals", "golovin", "onishi_hall", "onishi_hall_davis_no_waals", "vohl_davis_no_waals", "hall_pinsky_cumulonimbus",
  "hall_pinsky_stratocumulus"]

/-- "sedimentation velocity (...)" (opts_lgrngn.hpp:265) -/
def helpVts : List String := ["khvorostyanov_spherical", "khvorostyanov_nonspherical", "beard76", "beard77", "beard77fast"]

/-- "advection for super-droplets (...)" (opts_lgrngn.hpp:266) -/
def helpAs : List String := ["implicit", "euler", "pred_corr"]

/-- the collisions a name stands for, with the tables of the efficiencies named; `none`: not a name -/
noncomputable def meant (tab : Table → List ℝ) (s : String) : Option Kern :=
  match s with
  | "geometric" => some (.geometricWithMultiplier [1 / 2])
  | "long" => some .long
  | "golovin" => some (.golovin [1])
  | "hall" => some (.geometricWithEfficiencies (tab .hall) 1100)
  | "hall_davis_no_waals" => some (.geometricWithEfficiencies (tab .hall_davis_no_waals) 1100)
  | "vohl_davis_no_waals" => some (.geometricWithEfficiencies (tab .vohl_davis_no_waals) 1100)
  | "hall_pinsky_cumulonimbus" => some (.geometricWithEfficiencies (tab .hall_pinsky_cumulonimbus) 1100)
  | "hall_pinsky_stratocumulus" => some (.geometricWithEfficiencies (tab .hall_pinsky_stratocumulus) 1100)
  | _ => none

/-- the name of a fall speed in the help text -/
def Vt.name : Vt → String
  | .undefined => "(none)"
  | .beard76 => "beard76"
  | .beard77 => "beard77"
  | .beard77fast => "beard77fast"
  | .khvorostyanov_spherical => "khvorostyanov_spherical"
  | .khvorostyanov_nonspherical => "khvorostyanov_nonspherical"

/-- the name of an advection scheme in the help text -/
def As.name : As → String
  | .implicit => "implicit"
  | .euler => "euler"
  | .pred_corr => "pred_corr"

/-- **C142 (partial).** All kernels of the help text but Onishi's run, with the collisions meant, whatever documented fall speed and scheme they are combined with. -/
theorem documented_runs_partial (dbg : Bool) (tab : Table → List ℝ) (kernel vt adve : String) (hk : kernel ∈ helpKernels) (ho : kernel ≠ "onishi_hall")
    (ho' : kernel ≠ "onishi_hall_davis_no_waals") (hv : vt ∈ helpVts) (ha : adve ∈ helpAs) :
    ∃ K v a, start dbg tab kernel vt adve = .runs K v a ∧ meant tab kernel = some K ∧ v.name = vt ∧ a.name = adve := by
  have hV : ∃ v, driverVt vt = some v ∧ v ≠ .undefined ∧ v.name = vt := by
    simp only [helpVts, List.mem_cons, List.not_mem_nil, or_false] at hv
    rcases hv with rfl | rfl | rfl | rfl | rfl <;> exact ⟨_, rfl, by decide, rfl⟩
  have hA : ∃ a, driverAs adve = some a ∧ a.name = adve := by
    simp only [helpAs, List.mem_cons, List.not_mem_nil, or_false] at ha
    rcases ha with rfl | rfl | rfl <;> exact ⟨_, rfl, rfl⟩
  obtain ⟨v, hv, hv0, hvn⟩ := hV
  obtain ⟨a, ha, han⟩ := hA
  simp only [helpKernels, List.mem_cons, List.not_mem_nil, or_false] at hk
  rcases hk with rfl | rfl | rfl | rfl | rfl | rfl | rfl | rfl | rfl | rfl
  case inr.inr.inr.inr.inr.inl => exact absurd rfl ho
  case inr.inr.inr.inr.inr.inr.inl => exact absurd rfl ho'
  all_goals
    refine ⟨_, v, a, ?_, rfl, hvn, han⟩
    clear hvn han
    simp [start, driverKernel, hv, ha, library, hv0, initKernel] <;> norm_num

/-- **C142 (negation).** Onishi's kernels, both in the help text, never run: the driver gives two parameters, the library takes one, and turbulent coalescence, which it needs, stays off. -/
theorem onishi_never_runs (dbg : Bool) (tab : Table → List ℝ) (kernel vt adve : String) (hk : kernel = "onishi_hall" ∨ kernel = "onishi_hall_davis_no_waals") (hv : vt ∈ helpVts)
    (ha : adve ∈ helpAs) : start dbg tab kernel vt adve = .throws := by
  have hV : ∃ v, driverVt vt = some v := by
    simp only [helpVts, List.mem_cons, List.not_mem_nil, or_false] at hv
    rcases hv with rfl | rfl | rfl | rfl | rfl <;> exact ⟨_, rfl⟩
  have hA : ∃ a, driverAs adve = some a := by
    simp only [helpAs, List.mem_cons, List.not_mem_nil, or_false] at ha
    rcases ha with rfl | rfl | rfl <;> exact ⟨_, rfl⟩
  obtain ⟨v, hv⟩ := hV
  obtain ⟨a, ha⟩ := hA
  rcases hk with rfl | rfl <;> simp [start, driverKernel, hv, ha, library, initKernel]

/-- ... and one parameter would not be enough: without turbulent coalescence they throw whatever is given. -/
theorem onishi_needs_switch (tab : Table → List ℝ) (user : List ℝ) (v : Vt) (a : As) :
    library tab .onishi_hall user v a = .throws ∧ library tab .onishi_hall_davis_no_waals user v a = .throws := by
  constructor <;> (unfold library initKernel; split_ifs <;> simp_all)

/-- **C142.** Kernels and fall speeds that are not in the help text never run, with or without assertions. -/
theorem undocumented_never_runs (dbg : Bool) (tab : Table → List ℝ) (kernel vt adve : String) (h : kernel ∉ helpKernels ∨ vt ∉ helpVts) (K : Kern) (v : Vt) (a : As) :
    start dbg tab kernel vt adve ≠ .runs K v a := by
  unfold start
  split_ifs
  · simp
  rcases h with h | h
  · have : driverKernel kernel = none := by
      simp only [helpKernels, List.mem_cons, List.not_mem_nil, or_false, not_or] at h
      simp [driverKernel, h]
    simp only [this, Option.getD_none]
    unfold library
    split_ifs with h1 h2
    · simp
    · simp
    · exact absurd rfl h2
  · have : driverVt vt = none := by
      simp only [helpVts, List.mem_cons, List.not_mem_nil, or_false, not_or] at h
      simp [driverVt, h]
    simp [this, library]

/-- **C142 (negation).** Without assertions a scheme that is not in the help text runs, as the implicit one. -/
theorem unknown_scheme_runs (tab : Table → List ℝ) (adve : String) (h : adve ∉ helpAs) :
    start false tab "geometric" "beard76" adve = .runs (.geometricWithMultiplier [1 / 2]) .beard76 .implicit := by
  have : driverAs adve = none := by
    simp only [helpAs, List.mem_cons, List.not_mem_nil, or_false, not_or] at h
    simp [driverAs, h]
  simp [start, this, driverKernel, driverVt, library, initKernel]
  norm_num

example (tab : Table → List ℝ) : start false tab "geometric" "beard76" "predcorr" = .runs (.geometricWithMultiplier [1 / 2]) .beard76 .implicit :=
  unknown_scheme_runs tab _ (by decide)
example (tab : Table → List ℝ) : start true tab "onishi_hall" "beard77fast" "implicit" = .throws := onishi_never_runs _ _ _ _ _ (Or.inl rfl) (by decide) (by decide)
example (tab : Table → List ℝ) : ∃ K v a, start true tab "hall" "beard77fast" "euler" = .runs K v a :=
  let ⟨K, v, a, h, _⟩ := documented_runs_partial true tab "hall" "beard77fast" "euler" (by decide) (by decide) (by decide) (by decide) (by decide)
  ⟨K, v, a, h⟩

end LCP.Icicle.Choices
