import Verif.Blk1m.Formulae

/-!
# Model of the single-moment scheme

Sources: include/libcloudph++/blk_1m/{options,adj_cellwise,rhs_cellwise,rhs_columnwise}.hpp.
The cell-wise functions loop over cells that do not influence each other (`zip`); they are modelled per cell and lifted with
`mapM` (an exception thrown for one cell ends the call: `none`).
-/
namespace LCP.Blk1m
open LCP.Common

/-- opts_t (options.hpp:16-45) -/
structure Opts where
  cond : Bool := true
  cevp : Bool := true
  revp : Bool := true
  conv : Bool := true
  accr : Bool := true
  sedi : Bool := true
  homA1 : Bool := true
  homA2 : Bool := true
  hetA : Bool := true
  hetB : Bool := true
  depA : Bool := true
  depB : Bool := true
  rimA : Bool := true
  rimB : Bool := true
  melA : Bool := true
  melB : Bool := true
  r_c0 : ℝ := 5e-4
  k_acnv : ℝ := 0.001
  r_eps : ℝ := 2e-5
  adj_nwtrph : Bool := true
  nwtrph_iters : ℤ := 3
  th_dry : Bool := true
  const_p : Bool := false

/-- contents of one cell -/
structure Cell where
  rhod : ℝ
  p : ℝ
  th : ℝ
  rv : ℝ
  rc : ℝ
  rr : ℝ
  ria : ℝ
  rib : ℝ

/-- temperature and pressure of a cell for a given potential temperature and vapour mixing ratio; `none` is the exception
(adj_cellwise.hpp:60-70, 125-136; rhs_cellwise.hpp:119-129, 222-232) -/
noncomputable def Tp (o : Opts) (rhod pIn th rv : ℝ) : Option (ℝ × ℝ) :=
  if !o.const_p && o.th_dry then some (Tdry th rhod, pDry rhod rv (Tdry th rhod))
  else if o.const_p && !o.th_dry then some (th * exner pIn, pIn)
  else none

/-! ### adj_cellwise_nwtrph -/

/-- variables of the Newton-Raphson loop -/
structure Nwt where
  drc : ℝ
  rvTmp : ℝ
  thTmp : ℝ
  TTmp : ℝ
  p : ℝ

/-- one Newton-Raphson iteration (adj_cellwise.hpp:142-166) -/
noncomputable def nwtIter (o : Opts) (c : Cell) (L0 : ℝ) (s : Nwt) : Nwt :=
  let pvs := p_vs s.TTmp
  let L := l_v s.TTmp
  let coeff := L * L0 / (c_pd * R_v) / (s.TTmp * s.TTmp) / (1 - pvs / s.p)
  let rvs := r_vs s.TTmp s.p
  let drc := s.drc + (s.rvTmp - rvs) / (1 + coeff * rvs)
  let rvTmp := c.rv - drc
  let thTmp := c.th + s.thTmp / s.TTmp * L0 / c_pd * drc
  let TTmp := if o.th_dry then Tdry thTmp c.rhod else thTmp * exner c.p
  let p := if o.const_p then s.p else pDry c.rhod rvTmp TTmp
  ⟨drc, rvTmp, thTmp, TTmp, p⟩

/-- adj_cellwise_nwtrph for one cell (adj_cellwise.hpp:104-182) -/
noncomputable def nwtCell (o : Opts) (c : Cell) : Option Cell :=
  if !o.cond then some c else
  match Tp o c.rhod c.p c.th c.rv with
  | none => none
  | some (T, p) =>
    let L0 := l_v T
    let s := (nwtIter o c L0)^[o.nwtrph_iters.toNat] ⟨0, c.rv, c.th, T, p⟩
    let drc := min c.rv (max (-c.rc) s.drc)
    some { c with rv := c.rv - drc, rc := c.rc + drc, th := c.th + c.th / T * L0 / c_pd * drc }

/-! ### adj_cellwise_rk4 -/

/-- loop variables of the RK4 variant; `rs` is the functor's member `F.rs` -/
structure Rk where
  th : ℝ
  rv : ℝ
  rc : ℝ
  rr : ℝ
  drrMax : ℝ
  rs : ℝ

/-- thermodynamics seen by the loop: right-hand side `d th / d rv` and saturation mixing ratio, as functions of potential
temperature and vapour mixing ratio (adj_cellwise.hpp:54-86) -/
structure Thermo where
  F : ℝ → ℝ → ℝ
  rs : ℝ → ℝ → ℝ

/-- the thermodynamics of a cell (adj_cellwise.hpp:54-86) -/
noncomputable def thermo (o : Opts) (rhod pIn : ℝ) : Thermo where
  F := fun th rv => match Tp o rhod pIn th rv with
    | none => 0
    | some (T, _) => d_th_d_rv T th
  rs := fun th rv => match Tp o rhod pIn th rv with
    | none => 0
    | some (T, p) => r_vs T p

/-- classical fourth-order Runge-Kutta step (boost::numeric::odeint::runge_kutta4, called at adj_cellwise.hpp:279-284): new
potential temperature, and argument of the last evaluation of the functor (which leaves its saturation mixing ratio in
`F.rs`) -/
noncomputable def rk4 (F : ℝ → ℝ → ℝ) (th rv d : ℝ) : ℝ × ℝ :=
  let k1 := F th rv
  let k2 := F (th + d / 2 * k1) (rv + d / 2)
  let k3 := F (th + d / 2 * k2) (rv + d / 2)
  let k4 := F (th + d * k3) (rv + d)
  (th + d / 6 * k1 + d / 3 * k2 + d / 3 * k3 + d / 6 * k4, th + d * k3)

/-- the loop condition (adj_cellwise.hpp:256-266) -/
def rkGuard (o : Opts) (s : Rk) : Prop :=
  s.rv - s.rs > o.r_eps ∨
  (o.cevp = true ∧ s.rv - s.rs < -o.r_eps ∧ (s.rc > 0 ∨ (o.revp = true ∧ s.rr > 0 ∧ s.drrMax > 0)))

open Classical in
/-- `copysign(x, y)` -/
noncomputable def copysign (x y : ℝ) : ℝ := if y < 0 then -|x| else |x|

open Classical in
/-- the change of rv attempted (adj_cellwise.hpp:268-274) -/
noncomputable def rkDrv (o : Opts) (s : Rk) : ℝ :=
  let excess := s.rv - s.rs
  let drv := -copysign (min (0.5 * o.r_eps) (0.5 * excess)) excess
  if excess < 0 then (if s.rc > 0 then min s.rc drv else min s.drrMax (min s.rr drv)) else drv

open Classical in
/-- loop body (adj_cellwise.hpp:267-309); the flag tells that the loop is left by `break` -/
noncomputable def rkStep (o : Opts) (t : Thermo) (s : Rk) : Rk × Prop :=
  let drv := rkDrv o s
  let r := rk4 t.F s.th s.rv drv
  let rs' := t.rs r.2 (s.rv + drv)
  if s.rv - s.rs > 0 ∨ s.rc > 0 then
    ({ th := r.1, rv := s.rv + drv, rc := s.rc - drv, rr := s.rr, drrMax := s.drrMax, rs := rs' }, False)
  else
    ({ th := r.1, rv := s.rv + drv, rc := s.rc, rr := s.rr - drv, drrMax := s.drrMax - drv, rs := rs' }, s.drrMax - drv = 0)

/-- states at the top of the loop reachable from `s` -/
inductive Reach (o : Opts) (t : Thermo) (s : Rk) : Rk → Prop
  | start : Reach o t s s
  | next {s'} : Reach o t s s' → rkGuard o s' → ¬ (rkStep o t s').2 → Reach o t s (rkStep o t s').1

/-- the loop run from `s` ends in `s'` -/
def Run (o : Opts) (t : Thermo) (s s' : Rk) : Prop :=
  (Reach o t s s' ∧ ¬ rkGuard o s') ∨ ∃ u, Reach o t s u ∧ rkGuard o u ∧ (rkStep o t u).2 ∧ s' = (rkStep o t u).1

open Classical in
/-- state on entry to the loop (adj_cellwise.hpp:238-253) -/
noncomputable def rkInit (o : Opts) (c : Cell) (dt : ℝ) : Option Rk :=
  match Tp o c.rhod c.p c.th c.rv with
  | none => none
  | some (T, p) =>
    let rs := r_vs T p
    some ⟨c.th, c.rv, c.rc, c.rr,
      if rs > c.rv ∧ c.rr > 0 ∧ o.revp = true then dt * evaporation c.rv rs c.rr c.rhod p else 0, rs⟩

/-- adj_cellwise_rk4 on one cell may end with `c'` (adj_cellwise.hpp:188-320) -/
def RkCell (o : Opts) (dt : ℝ) (c c' : Cell) : Prop :=
  if o.cond then
    ∃ s s', rkInit o c dt = some s ∧ Run o (thermo o c.rhod c.p) s s' ∧
      c' = { c with th := s'.th, rv := s'.rv, rc := s'.rc, rr := s'.rr }
  else c' = c

/-- adj_cellwise (adj_cellwise.hpp:324-341) on one cell may end with `c'` -/
def AdjCell (o : Opts) (dt : ℝ) (c c' : Cell) : Prop :=
  if o.adj_nwtrph then nwtCell o c = some c' else RkCell o dt c c'

/-! ### rhs_cellwise -/

/-- tendencies of a cell -/
structure Dots where
  th : ℝ
  rv : ℝ
  rc : ℝ
  rr : ℝ
  ria : ℝ
  rib : ℝ

/-- rhs_cellwise_hlpr, rhs_cellwise (rhs_cellwise.hpp:18-75) -/
noncomputable def rhsWarm (o : Opts) (c : Cell) (d : Dots) : Dots :=
  let x := (if o.conv then autoconversion c.rc o.r_c0 o.k_acnv else 0) + (if o.accr then collection c.rc c.rr else 0)
  { d with rr := d.rr + x, rc := d.rc - x }

/-- rhs_cellwise_revap (rhs_cellwise.hpp:78-155); the product with `dt` at line 143 is in the code -/
noncomputable def rhsRevap (o : Opts) (dt : ℝ) (c : Cell) (d : Dots) : Option Dots :=
  let d := rhsWarm o c d
  match Tp o c.rhod c.p c.th c.rv with
  | none => none
  | some (T, p) =>
    let x := min (c.rr / dt) (evaporation c.rv (r_vs T p) c.rr c.rhod p * dt)
    some { d with rv := d.rv + x, rr := d.rr - x, th := d.th + d_th_d_rv T c.th * x }

/-- rhs_cellwise_ice (rhs_cellwise.hpp:159-424) -/
noncomputable def rhsIce (epsm oob : ℝ) (o : Opts) (dt : ℝ) (c : Cell) (d : Dots) : Option Dots :=
  match (if o.adj_nwtrph then rhsRevap o dt c d else some (rhsWarm o c d)) with
  | none => none
  | some d =>
  match Tp o c.rhod c.p c.th c.rv with
  | none => none
  | some (T, p) =>
    let rvs := r_vs T p
    let rvsi := r_vsi T p
    let rc_to_ria := (if o.hetA then hetA c.ria c.rc T c.rhod else 0) + (if o.homA2 then homA2 c.rc T else 0)
      + (if o.rimA then rimA epsm oob c.ria c.rc c.rv rvs rvsi T c.rhod else 0)
    let rv_to_ria := (if o.homA1 then homA1 c.rv rvs rvsi T else 0)
      + (if o.depA then depA epsm oob c.ria c.rv rvs rvsi T c.rhod else 0)
    let rr_to_rib := (if o.hetB then hetB1 c.rr c.ria T c.rhod else 0)
      + (if o.rimB then rimB2 epsm oob c.rib c.rc c.rr c.rv rvs rvsi T c.rhod else 0)
    let ria_to_rib := if o.hetB then hetB2 c.rr c.ria T c.rhod else 0
    let ria_to_rr := if o.melA then meltA c.ria T c.rhod dt else 0
    let rib_to_rr := if o.melB then meltB epsm c.rib T c.rhod dt else 0
    let rv_to_rib := if o.depB then depB epsm oob c.rib c.rv rvs rvsi T c.rhod else 0
    let rc_to_rib := if o.rimB then rimB1 epsm oob c.rib c.rc c.rr c.rv rvs rvsi T c.rhod else 0
    -- limiting
    let rv_to_ria := min (c.rv / dt) rv_to_ria
    let rv_to_rib := min (c.rv / dt) rv_to_rib
    let rc_to_ria := min (c.rc / dt) rc_to_ria
    let rc_to_rib := min (c.rc / dt) rc_to_rib
    let rr_to_rib := min (c.rr / dt) rr_to_rib
    let ria_to_rib := min (c.ria / dt) ria_to_rib
    let ria_to_rr := min (c.ria / dt) ria_to_rr
    let rib_to_rr := min (c.rib / dt) rib_to_rr
    some {
      rc := d.rc + (-rc_to_ria - rc_to_rib)
      rv := d.rv + (-rv_to_ria - rv_to_rib)
      rr := d.rr + (ria_to_rr - rr_to_rib + rib_to_rr)
      ria := d.ria + (rc_to_ria + rv_to_ria - ria_to_rib - ria_to_rr)
      rib := d.rib + (rr_to_rib + ria_to_rib + rv_to_rib + rc_to_rib - rib_to_rr)
      th := d.th + c.th / T * l_s T / c_pd * (rv_to_ria + rv_to_rib)
        + c.th / T * l_f T / c_pd * (rc_to_ria + rc_to_rib + rr_to_rib - rib_to_rr - ria_to_rr) }

/-- the loops over cells (`zip`) -/
noncomputable def onCells (f : Cell → Dots → Option Dots) (cells : List (Cell × Dots)) : Option (List Dots) :=
  cells.mapM (fun x => f x.1 x.2)

/-! ### rhs_columnwise -/

/-- one level of a column: density, mixing ratio, tendency -/
structure Lev where
  rhod : ℝ
  r : ℝ
  dot : ℝ

/-- loop over the column from the top (rhs_columnwise.hpp:47-88, 120-186): `fin` is the flux into the current level, the
list holds the levels below it, highest first; `v r rhod` is the fall speed.  Returns the new tendencies, highest
first, and the flux out of the lowest level -/
noncomputable def colLoop (v : ℝ → ℝ → ℝ) (dz : ℝ) : ℝ → Lev → List Lev → List ℝ × ℝ
  | fin, c, [] =>
    let fout := -(c.rhod * v c.r c.rhod) * c.r / dz
    ([c.dot - (fin - fout) / c.rhod], fout)
  | fin, c, b :: rest =>
    let fout := -0.5 * (b.rhod * v b.r b.rhod + c.rhod * v c.r c.rhod) * c.r / dz
    let x := colLoop v dz fout b rest
    ((c.dot - (fin - fout) / c.rhod) :: x.1, x.2)

/-- rhs_columnwise / rhs_columnwise_ice with fall speed `v` (rhs_columnwise.hpp:22-90, 94-188); the column is given lowest
level first, as are the new tendencies.  An empty column dereferences invalid iterators: `none` -/
noncomputable def column (sedi : Bool) (v : ℝ → ℝ → ℝ) (dz : ℝ) (col : List Lev) : Option (List ℝ × ℝ) :=
  if !sedi then some (col.map (·.dot), 0) else
  match col.reverse with
  | [] => none
  | c :: rest =>
    let x := colLoop v dz 0 c rest
    some (x.1.reverse, x.2)

/-- rain (rhs_columnwise.hpp:22-90): the reference density is that of the lowest level -/
noncomputable def columnRain (o : Opts) (dz : ℝ) (col : List Lev) : Option (List ℝ × ℝ) :=
  column o.sedi (fun rr rhod => vTerm rr rhod (col.head?.elim 0 (·.rhod))) dz col
/-- ice A (rhs_columnwise.hpp:94-188) -/
noncomputable def columnIceA (o : Opts) (dz : ℝ) (col : List Lev) : Option (List ℝ × ℝ) := column o.sedi velA dz col
/-- ice B (rhs_columnwise.hpp:94-188) -/
noncomputable def columnIceB (epsm : ℝ) (o : Opts) (dz : ℝ) (col : List Lev) : Option (List ℝ × ℝ) :=
  column o.sedi (velB epsm) dz col

end LCP.Blk1m
