import Verif.Step.SkeletonProps
/-
C89, C90: the exceptions are real (for the data flow of the code), and the hypotheses of the
theorems of SkeletonProps.lean are met by realistic histories.
-/
namespace LCP.Skel

deriving instance Inhabited for Fns
deriving instance Inhabited for Cfg
deriving instance Inhabited for Opts
deriving instance Inhabited for Sim
deriving instance Inhabited for Scr
deriving instance Inhabited for Aux
deriving instance Inhabited for St
deriving instance DecidableEq for Out
deriving instance DecidableEq for Sim

/-- Dry `th`, otherwise plain. -/
def cfg0 : Cfg := { (default : Cfg) with thDry := true, coalSw := true, sediSw := true, rlxSw := true }

/-- A step with condensation, coalescence, sedimentation and advection. -/
def opts0 : Opts ℕ := { (default : Opts ℕ) with cond := true, coal := true, sedi := true, adve := true }

/-- An interpretation in which condensation depends on the mean free paths, which depend on the
temperature (housekeeping/particles_impl_hskpng_mfp.ipp), and hands the result back. -/
def fnsT : Fns ℕ := { (default : Fns ℕ) with
  tpr := fun a => a
  syncAir := fun x _ => x
  mfp := fun s => s.tpr
  nCond := fun _ => 1
  condRw := fun _ _ _ lam => lam
  thrv := fun x _ => x.rest
  outAir := fun a => a
  keysOf := fun o => o }

/-- **C89, what is missing.**  `diag_temperature` between `sync_in` and `step_cond` changes what
`step_cond` hands back: the mean free paths are then those of the new temperature instead of
those of the end of the last step. -/
theorem temperature_diagnostic_interferes :
    ∃ (F : Fns ℕ) (c : Cfg) (x : ℕ) (g : St ℕ) (ks : List (Call ℕ)),
      (c.thDry || c.constP) = true ∧ VtFull F c ∧
      answers ks (run F c ks (init F c x g)).2 ≠
        (run F c (ks.filter fun k => !k.isDiag) (init F c x g)).2 := by
  refine ⟨fnsT, cfg0, 0, default, [.syncIn false 7, .diag (.tpr 1), .stepCond opts0], rfl, Or.inr (fun _ _ _ => rfl), ?_⟩
  decide +kernel

/-- An interpretation in which condensation depends on the terminal velocities (ventilation). -/
def fnsV : Fns ℕ := { (default : Fns ℕ) with
  vtWater := fun _ _ => 1
  coalVt := fun _ _ _ _ _ => 0
  nCond := fun _ => 1
  nCoal := fun _ => 1
  condRw := fun _ _ x _ => x.vt
  thrv := fun x _ => x.rest
  dropVt := fun _ x => x.vt
  srcVt := fun _ x => x.vt
  mpiVt := fun x => x.vt
  outAir := fun a => a }

/-- **C89, what is missing.**  `diag_precip_rate` at the usual place, after `step_async`,
changes what the next `step_cond` hands back: it recomputes the terminal velocities that
coalescence left marked as out of date, and condensation uses them as they are. -/
theorem precipitation_diagnostic_interferes :
    ∃ (F : Fns ℕ) (c : Cfg) (x : ℕ) (g : St ℕ) (ks : List (Call ℕ)),
      (c.thDry || c.constP) = true ∧ VtFull F c ∧
      answers ks (run F c ks (init F c x g)).2 ≠
        (run F c (ks.filter fun k => !k.isDiag) (init F c x g)).2 := by
  refine ⟨fnsV, cfg0, 0, default,
    [.syncIn false 7, .stepCond opts0, .stepAsync opts0, .diag .precip, .syncIn false 7, .stepCond opts0], rfl,
    Or.inr (fun _ _ _ => rfl), ?_⟩
  decide +kernel

/-- An interpretation that keeps track of the stale end of `count_num`. -/
def fnsM : Fns ℕ := { (default : Fns ℕ) with
  cntTail := fun _ _ t => t + 1
  massDens := fun _ _ _ _ t => t
  outbuf := fun _ m => m }

/-- **C90, what is missing.**  `diag_wet_mass_dens` depends on what earlier calls left in
`count_num` behind the counted cells. -/
theorem mass_density_depends_on_earlier_diagnostics :
    ∃ (F : Fns ℕ) (c : Cfg) (s : St ℕ) (ds : List Diag), s.sim.sorted = true ∧ (∀ d ∈ ds, d.quiet = true) ∧
      lastAnswer F c (ds.map Call.diag ++ [.diag (.sel 0), .diag (.massDens 0), .diag .outbuf]) s ≠
      lastAnswer F c [.diag (.sel 0), .diag (.massDens 0), .diag .outbuf] s := by
  refine ⟨fnsM, cfg0, init fnsM cfg0 0 default, [.outbuf], rfl, by decide, ?_⟩
  decide +kernel

/-- An interpretation in which the buffer shows which cells it is written to. -/
def fnsB : Fns ℕ := { (default : Fns ℕ) with
  keysOf := fun _ => 1
  allCells := 2
  outbuf := fun k m => k + 10 * m
  diagTpr := fun _ _ => 3 }

/-- **C90, what is missing.**  Reading the buffer twice after `diag_temperature` gives two
different answers: the first reading ends by restoring the list of cells that hold droplets, so
the second writes the temperatures of the first cells to the cells that hold droplets. -/
theorem outbuf_twice_after_temperature_differs :
    ∃ (F : Fns ℕ) (c : Cfg) (s : St ℕ) (a b : ℕ), s.sim.sorted = true ∧ a ≠ b ∧
      (run F c [.diag (.tpr 0), .diag .outbuf, .diag .outbuf] s).2 = [.ok [], .ok [a], .ok [b]] := by
  refine ⟨fnsB, cfg0, init fnsB cfg0 0 default, 32, 31, rfl, by decide, ?_⟩
  decide +kernel

/-! ### the hypotheses are met -/

/-- The usual history: report after each step, temperature included, precipitation rate between
`step_cond` and `step_async`. -/
def usual : List (Call ℕ) :=
  report 0 [1, 2] 3 ++
  [.diag (.tpr 0), .diag .outbuf, .diag .maxRw, .diag .outbuf,
   .syncIn false 5, .diag .sdConc, .stepCond opts0, .diag .precip, .diag .outbuf, .stepAsync opts0] ++
  report 2 [] 1 ++ [.diag (.tpr 2), .diag .outbuf, .syncIn false 6, .stepCond opts0, .diag (.tpr 1), .stepAsync opts0]

example : placeAll cfg0 usual Track.start = some ⟨true, false, false, false, false⟩ := rfl

example : VtFull fnsV cfg0 := Or.inr (fun _ _ _ => rfl)

/-- The history does change the state: the theorem does not speak of a frozen simulation. -/
example : let F := { fnsT with ijk := fun s => s.air + 1 }
    (run F cfg0 usual (init F cfg0 0 default)).1.sim ≠ (init F cfg0 0 default).sim := by decide +kernel

/-- All steps of the usual history are accepted. -/
example : Out.threw ∉ (run fnsV cfg0 usual (init fnsV cfg0 0 default)).2 := by decide +kernel

/-- A history with diagnostics everywhere for the theorem on quiet ones. -/
example : ∃ ks : List (Call ℕ), ks.length = 12 ∧ (∀ d, Call.diag d ∈ ks → d.quiet = true) ∧
    (∀ o, Call.stepAsync o ∈ ks → halfway cfg0 o = false) :=
  ⟨[.diag (.sel 0), .syncIn false 5, .diag (.mom 0), .stepCond opts0, .diag .outbuf, .stepAsync opts0,
    .diag .maxRw, .syncIn false 5, .diag .outbuf, .stepCond opts0, .diag (.massDens 1), .stepAsync opts0], rfl,
   by simp [Diag.quiet], by intro o ho; simp at ho; subst ho; rfl⟩

/-- The placement of the two counter-examples is indeed excluded. -/
example : placeAll cfg0 [.syncIn false 7, .diag (.tpr 1), .stepCond opts0] Track.start = none := rfl
example : placeAll cfg0 [.syncIn false 7, .stepCond opts0, .stepAsync opts0, .diag .precip, .syncIn false 7,
    .stepCond opts0] Track.start = none := rfl

end LCP.Skel
