import Verif.Adve.Props

/-!
# The transport part of a time step, and the choice of the advection scheme (C45, C56)

Sources: src/particles_step.ipp:104-112, 130-145 (sync_in), 428-446 (step_async);
src/impl/advection/particles_impl_turb_adve.ipp; src/impl/sedimentation/particles_impl_sedi.ipp; src/impl/subsidence/particles_impl_subs.ipp.
-/
namespace LCP.Adve
open LCP.Grid

/-- what persists between calls: the scheme for the next step (`impl::adve_scheme`) and the stored Courant numbers -/
structure TrSt where
  scheme : Scheme
  C : Courants

open Classical in
/-- `sync_in`, its part concerning advection (particles_step.ipp:104-112, 130-145).  `init` is `opts_init.adve_scheme`; `arg` the Courant numbers
passed (`none`: null arrays), already laid out with halo.  Each of the two tests is skipped if the array is null. -/
noncomputable def syncTr (init : Scheme) (hs : ℕ) (d : Dims) (st : TrSt) (arg : Option Courants) : TrSt :=
  let C := arg.getD st.C
  let s := if ¬ (init ≠ .predCorr ∨ (arg = none ∨ ∀ f < sizeX d hs, C.cx f ≥ -2)) then .euler else st.scheme
  let s := if ¬ (init ≠ .predCorr ∨ (arg = none ∨ ∀ f < sizeX d hs, C.cx f ≤ 2)) then .euler else s
  ⟨s, C⟩

/-- `turb_adve` (particles_impl_turb_adve.ipp:13-34): the order of components is x, z, y -/
noncomputable def turbAdve (d : Dims) (dt : ℝ) (u : Pos) (p : Pos) : Pos :=
  { x := if d.nDims > 0 then p.x + u.x * dt else p.x
    z := if d.nDims > 1 then p.z + u.z * dt else p.z
    y := if d.nDims > 2 then p.y + u.y * dt else p.y }

/-- the level index `k` of the super-droplet after `adve` (particles_impl_adve.ipp:167-308): `hskpng_ijk` is called before the
predictor and before the corrector, never after -/
noncomputable def kAfter (s : Scheme) (hs : ℕ) (d : Dims) (b : Box) (C : Courants) (p : Pos) : Option ℕ :=
  match s with
  | .predCorr => do
    let p0 : Pos := { p with x := p.x + hs * b.dx }
    let q0 ← cellOf d b p0
    let p1 := adveCalc (helperExpl true) 0 d b C q0 p0
    let p1 : Pos := if d.nDims > 1 then { p1 with z := clampZ b p1.z } else p1
    let p1 : Pos := if d.nDims = 3 then { p1 with y := Bcnd.periodic b.y0 b.y1 p1.y } else p1
    let q1 ← cellOf d b p1
    pure q1.2.2.1
  | _ => do
    let q ← cellOf d b p
    pure q.2.2.1

/-- options of a step concerning transport -/
structure TrOpts where
  adve : Bool
  turbAdve : Bool
  sedi : Bool
  subs : Bool

/-- transport part of `step_async` for one super-droplet (particles_step.ipp:428-446): new state and position.
`vt`: its terminal velocity, `u`: its turbulent velocity, `wLS`: profile of subsidence velocity.  Without advection `k` is the
level of the departure position. -/
noncomputable def transport (init : Scheme) (hs : ℕ) (d : Dims) (b : Box) (o : TrOpts) (dt vt : ℝ) (u : Pos) (wLS : ℕ → ℝ) (st : TrSt) (p : Pos) :
    Option (TrSt × Pos) := do
  let q ← (if o.adve then adve st.scheme hs d b st.C p else some p)
  let k ← (if o.adve then kAfter st.scheme hs d b st.C p else (cellOf d b p).map fun c => c.2.2.1)
  let q := if o.turbAdve then turbAdve d dt u q else q
  let q := if o.sedi then sedi dt vt q else q
  let q := if o.subs then subs dt wLS k q else q
  pure ({ st with scheme := init }, q)

end LCP.Adve
