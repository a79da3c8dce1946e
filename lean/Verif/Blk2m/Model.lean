import Verif.Blk2m.Formulae

/-!
# Model of the double-moment scheme

Sources: include/libcloudph++/blk_2m/{options,rhs_cellwise,rhs_columnwise}.hpp. Assertions (NDEBUG) are not modelled.
-/
namespace LCP.Blk2m
open LCP.Common

/-- lognormal_mode_t (options.hpp:37-44) -/
structure Mode where
  mean_rd : ℝ
  sdev_rd : ℝ
  N_stp : ℝ
  chem_b : ℝ

/-- opts_t (options.hpp:18-51) -/
structure Opts where
  acti : Bool := true
  cond : Bool := true
  acnv : Bool := true
  accr : Bool := true
  sedi : Bool := true
  RH_max : ℝ := 44
  acnv_A : ℝ := 1350
  acnv_b : ℝ := 2.47
  acnv_c : ℝ := -1.79
  modes : List Mode := []
  th_dry : Bool := true
  const_p : Bool := false

/-- contents of one cell -/
structure Cell where
  rhod : ℝ
  th : ℝ
  rv : ℝ
  rc : ℝ
  nc : ℝ
  rr : ℝ
  nr : ℝ
  p : ℝ

/-- tendencies of one cell -/
structure Dots where
  th : ℝ
  rv : ℝ
  rc : ℝ
  nc : ℝ
  rr : ℝ
  nr : ℝ

/-- temperature and pressure (rhs_cellwise.hpp:96-109) -/
noncomputable def Tp (o : Opts) (c : Cell) : Option (ℝ × ℝ) :=
  if !o.const_p && o.th_dry then some (Tdry c.th c.rhod, pDry c.rhod c.rv (Tdry c.th c.rhod))
  else if o.const_p && !o.th_dry then some (c.th * exner c.p, c.p)
  else none

/-- rate of activation (rhs_cellwise.hpp:123-146); 0 if not activated -/
noncomputable def actRate (o : Opts) (dt T p : ℝ) (c : Cell) : ℝ :=
  if o.acti = true ∧ r_vs T p < c.rv then
    activation_rate ((o.modes.map fun m => n_c_p p T c.rv m.mean_rd m.sdev_rd m.N_stp m.chem_b o.RH_max).sum) c.nc dt
  else 0

/-- condensation rate of cloud water (rhs_cellwise.hpp:152-165) -/
noncomputable def condRate (epsm : ℝ) (o : Opts) (T p : ℝ) (c : Cell) : ℝ :=
  if o.cond = true ∧ rc_eps epsm < c.rc ∧ nc_eps epsm < c.nc then
    cond_evap_rate T p c.rv (tau_relax_c (r_drop_c c.rc c.nc c.rhod) (c.rhod * c.nc))
  else 0

/-- evaporation rate of rain, non-positive (rhs_cellwise.hpp:168-178) -/
noncomputable def evapRate (epsm : ℝ) (o : Opts) (T p : ℝ) (c : Cell) : ℝ :=
  if o.cond = true ∧ rr_eps epsm < c.rr ∧ nr_eps epsm < c.nr then
    min (cond_evap_rate T p c.rv (tau_relax_r T c.rhod c.rr c.nr)) 0
  else 0

/-- phase changes: local tendencies of rc, nc, rr, nr and the two flags (rhs_cellwise.hpp:111-199) -/
structure Local where
  rc : ℝ
  nc : ℝ
  rr : ℝ
  nr : ℝ
  cloudLim : Prop
  rainLim : Prop

open Classical in
/-- first part of the loop body: activation, condensation and evaporation with limiters (rhs_cellwise.hpp:111-199) -/
noncomputable def phase1 (epsm : ℝ) (o : Opts) (dt T p : ℝ) (c : Cell) : Local :=
  let act := actRate o dt T p c
  let ev := evapRate epsm o T p c
  let rc := max (act * ccnmass + condRate epsm o T p c) (-c.rc / dt)
  let rr := max ev (-c.rr / dt)
  let nr := max (ev * c.nr / c.rr) (-c.nr / dt)
  { rc := rc
    rr := rr
    nc := if rc = -c.rc / dt then -c.nc / dt else act
    nr := if rr = -c.rr / dt then -c.nr / dt else nr
    cloudLim := rc = -c.rc / dt
    rainLim := rr = -c.rr / dt }

open Classical in
/-- autoconversion rate after its limiter; 0 if skipped (rhs_cellwise.hpp:217-230) -/
noncomputable def acnvRate (epsm : ℝ) (o : Opts) (dt : ℝ) (c : Cell) : ℝ :=
  if o.acnv = true ∧ rc_eps epsm < c.rc ∧ nc_eps epsm < c.nc then
    min (autoconv_rate c.rc c.nc c.rhod o.acnv_A o.acnv_b o.acnv_c) (c.rc / dt)
  else 0

open Classical in
/-- second part of the loop body: collisions, executed unless all cloud water has evaporated (rhs_cellwise.hpp:208-290) -/
noncomputable def phase2 (epsm : ℝ) (o : Opts) (dt : ℝ) (c : Cell) (rainLim : Prop) : Local :=
  let a := acnvRate epsm o dt c
  let lim1 := o.acnv = true ∧ rc_eps epsm < c.rc ∧ nc_eps epsm < c.nc ∧ a = c.rc / dt
  let doAccr := o.accr = true ∧ ¬ lim1 ∧ ¬ rainLim ∧ rc_eps epsm < c.rc ∧ nc_eps epsm < c.nc ∧ rr_eps epsm < c.rr
  let b := if doAccr then accretion_rate c.rc c.rr else 0
  let rc := if doAccr then max (-a - b) (-c.rc / dt) else -a
  let rr := a + b
  let lim2 := lim1 ∨ (doAccr ∧ rc = -c.rc / dt)
  let nr := a / (4 / 3 * Real.pi * rho_w * drizzle_radius * drizzle_radius * drizzle_radius)
  let nc := if o.acnv = true ∨ o.accr = true then
      if lim2 then -c.nc / dt
      else if nc_eps epsm < c.nc ∧ rr_eps epsm < rr then
        -min (collision_sink_rate rr (r_drop_c c.rc c.nc c.rhod)) (c.nc / dt)
      else 0
    else 0
  { rc := rc, nc := nc, rr := rr, nr := nr, cloudLim := lim2, rainLim := rainLim }

open Classical in
/-- one iteration of the loop of `rhs_cellwise` (rhs_cellwise.hpp:57-297); `none`: exception -/
noncomputable def rhsCell (epsm : ℝ) (o : Opts) (dt : ℝ) (c : Cell) (d : Dots) : Option Dots :=
  match Tp o c with
  | none => none
  | some (T, p) =>
    let l := phase1 epsm o dt T p c
    let d1 : Dots :=
      { rv := d.rv - (l.rc + l.rr)
        th := d.th - (l.rc + l.rr) * d_th_d_rv T c.th
        rc := d.rc + l.rc
        rr := d.rr + l.rr
        nc := d.nc + l.nc
        nr := d.nr + l.nr }
    if l.cloudLim then some d1 else
    let m := phase2 epsm o dt c l.rainLim
    some { d1 with rc := d1.rc + m.rc, rr := d1.rr + m.rr, nc := d1.nc + m.nc, nr := d1.nr + m.nr }

/-! ### rhs_columnwise -/

/-- one level of the column -/
structure Lev where
  rhod : ℝ
  rr : ℝ
  nr : ℝ
  dotR : ℝ
  dotN : ℝ

/-- limited outgoing flux, negative downwards (rhs_columnwise.hpp:102-106, 134-141): `x` content, `dot` its tendency so far -/
noncomputable def fluxOut (dt dz rhod mom x dot : ℝ) : ℝ := -min (-(mom * x / dz)) (rhod * (x + dt * dot) / dt)

/-- the loop from the level `c` downwards with inflow `fr`, `fn` from above; `below` lists the lower levels from top to bottom.
Result: new tendencies of `c :: below`, the fluxes through the bottom (rhs_columnwise.hpp:57-143). -/
noncomputable def colLoop (vm vn : ℝ → ℝ → ℝ → ℝ) (dt dz : ℝ) : ℝ → ℝ → Lev → List Lev → List (ℝ × ℝ) × ℝ × ℝ
  | fr, fn, c, [] =>
    let r := fluxOut dt dz c.rhod (-(c.rhod * vm c.rhod c.rr c.nr)) c.rr c.dotR
    let n := fluxOut dt dz c.rhod (-(c.rhod * vn c.rhod c.rr c.nr)) c.nr c.dotN
    ([(c.dotR - (fr - r) / c.rhod, c.dotN - (fn - n) / c.rhod)], r, n)
  | fr, fn, c, b :: rest =>
    let mm := -0.5 * (b.rhod * vm b.rhod b.rr b.nr + c.rhod * vm c.rhod c.rr c.nr)
    let mn := -0.5 * (b.rhod * vn b.rhod b.rr b.nr + c.rhod * vn c.rhod c.rr c.nr)
    let r := fluxOut dt dz c.rhod mm c.rr c.dotR
    let n := fluxOut dt dz c.rhod mn c.nr c.dotN
    let res := colLoop vm vn dt dz r n b rest
    ((c.dotR - (fr - r) / c.rhod, c.dotN - (fn - n) / c.rhod) :: res.1, res.2)

/-- `rhs_columnwise` (rhs_columnwise.hpp:21-145) on a column listed from the top: new tendencies (rain mass, rain number) and the
returned flux; `none` for an empty column (dereferences before the beginning) -/
noncomputable def column (epsm : ℝ) (o : Opts) (dt dz : ℝ) (col : List Lev) : Option (List (ℝ × ℝ) × ℝ) :=
  if o.sedi = false then some (col.map fun l => (l.dotR, l.dotN), 0) else
  match col with
  | [] => none
  | c :: rest =>
    let res := colLoop (v_term_m epsm) (v_term_n epsm) dt dz 0 0 c rest
    some (res.1, res.2.1)

end LCP.Blk2m
