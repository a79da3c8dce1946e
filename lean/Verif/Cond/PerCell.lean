import Verif.Cond.Droplet
import Verif.Common.Tpr
import Verif.Diag.Model

/-!
# Model of condensation with per-cell substepping

Sources: src/particles_step.ipp (step_cond, per-cell branch, lines 245-266), src/impl/condensation/percell/*.ipp,
src/impl/condensation/common/{apply_perparticle_sgs_supersat,sstp_save}.ipp, src/impl/ice/particles_impl_ice_dep.ipp,
src/impl/common/{save_liq_ice_content_before_change,calc_liq_ice_content_change,particles_impl_update_th_rv}.ipp.

Arrays over cells are functions of the cell index (values at indices ≥ n_cell have no meaning).  Temporary arrays from the pool
hold arbitrary values when acquired: those of the initial state.
-/
namespace LCP.Cond
open LCP.Common

/-- options: number of substeps, time step, limits, switches (`varRho`: sync_in received a density) -/
structure Cfg where
  num : Num
  sstp : ℕ
  dt : ℝ
  RHmax : ℝ
  turb : Bool
  ice : Bool
  varRho : Bool
  tpr : TprOpts

/-- state: `d` holds the particles' cells and multiplicities, the counting arrays, cell volumes and density -/
structure St where
  d : Diag.St
  rv : ℕ → ℝ
  th : ℕ → ℝ
  p : ℕ → ℝ
  T : ℕ → ℝ
  RH : ℕ → ℝ
  RHi : ℕ → ℝ
  eta : ℕ → ℝ
  lamD : ℕ → ℝ
  lamK : ℕ → ℝ
  tRv : ℕ → ℝ
  tTh : ℕ → ℝ
  tRh : ℕ → ℝ
  rw2 : ℕ → ℝ
  rd3 : ℕ → ℝ
  kpa : ℕ → ℝ
  vt : ℕ → ℝ
  iceA : ℕ → ℝ
  iceC : ℕ → ℝ
  iceRho : ℕ → ℝ
  ssp : ℕ → ℝ
  dotSsp : ℕ → ℝ
  drw : ℕ → ℝ
  rwM : ℕ → ℝ
  dIce : ℕ → ℝ
  iceM : ℕ → ℝ

/-- the first `count_n` entries of the counting arrays -/
def entries (t : Diag.St) : List (ℕ × ℝ) := (List.range t.countN).map fun p => (t.countIjk p, t.countMom p)

/-- `thrust::transform` of `count_mom` with an array accessed through `count_ijk`, written back through it -/
def permMap (op : ℝ → ℝ → ℝ) (t : Diag.St) (a : ℕ → ℝ) : ℕ → ℝ :=
  scatter a ((entries t).map fun kv => (kv.1, op kv.2 (a kv.1)))

/-- moms_all, moms_calc(rw2, 3/2) (e.g. save_liq_ice_content_before_change.ipp:20-21) -/
noncomputable def mom3 (d : Diag.St) (rw2 : ℕ → ℝ) : Option Diag.St :=
  (Diag.select d .all).bind fun d => Diag.momsCalc d rw2 (3 / 2) true

/-- detail::ice_mass (particles_diag.ipp:126-143) -/
noncomputable def iceMass (a c rho : ℝ) : ℝ := 4 / 3 * Real.pi * a * a * c * rho

/-- moms_gt0(ice_a), moms_calc(ice_mass, 1) (e.g. save_liq_ice_content_before_change.ipp:39-45) -/
noncomputable def momIce (d : Diag.St) (a c rho : ℕ → ℝ) : Option Diag.St :=
  (Diag.select d (.gt0 a false)).bind fun d => Diag.momsCalc d (fun i => iceMass (a i) (c i) (rho i)) 1 true

/-- sstp_percell_step (sstp_percell_step.ipp:6-50) for one field and its saved copy: (field, saved) -/
noncomputable def sstpField (n : ℕ) (step : ℕ) (f t : ℕ → ℝ) : (ℕ → ℝ) × (ℕ → ℝ) :=
  if step = 0 then
    let t' := fun c => f c - t c
    (fun c => f c - ((n : ℝ) - 1) * t' c / n, t')
  else (fun c => f c + t c / n, t)

/-- sstp_percell_step (sstp_percell_step.ipp:6-50) -/
noncomputable def sstpStep (o : Cfg) (step : ℕ) (s : St) : St :=
  if o.sstp = 1 then s else
  let rv := sstpField o.sstp step s.rv s.tRv
  let th := sstpField o.sstp step s.th s.tTh
  let rh := sstpField o.sstp step s.d.rhod s.tRh
  { s with rv := rv.1, tRv := rv.2, th := th.1, tTh := th.2
           d := if o.varRho then { s.d with rhod := rh.1 } else s.d
           tRh := if o.varRho then rh.2 else s.tRh }

/-- apply_perparticle_sgs_supersat (apply_perparticle_sgs_supersat.ipp:6-16) -/
noncomputable def sgsSupersat (o : Cfg) (s : St) : St := { s with ssp := fun i => s.ssp i + o.dt / o.sstp * s.dotSsp i }

/-- hskpng_Tpr (hskpng_Tpr.ipp:217-300) -/
noncomputable def hskpngTpr (o : Cfg) (s : St) : St :=
  let T := fun c => TofCell o.tpr (s.th c) (s.d.rhod c) (s.p c)
  let p := fun c => pOfCell o.tpr (s.d.rhod c) (s.rv c) (T c) (s.p c)
  { s with T := T, p := p
           RH := fun c => RHof o.tpr.RH_formula (p c) (s.rv c) (T c)
           RHi := if o.ice then fun c => RHiOf o.tpr.RH_formula (p c) (s.rv c) (T c) else s.RHi
           eta := fun c => visc (T c)
           d := if s.d.nDims = 0 then { s.d with dv := fun c => 1 / s.d.rhod c } else s.d }

open Classical in
/-- save_liq_ice_content_before_change (save_liq_ice_content_before_change.ipp:13-62) -/
noncomputable def saveContent (o : Cfg) (s : St) : Option St := do
  let d ← mom3 s.d s.rw2
  let drw := if d.countN ≠ d.nCell then fun _ => 0 else s.drw
  let drw := permMap (fun m _ => -m) d drw
  if o.ice then
    let d ← momIce d s.iceA s.iceC s.iceRho
    let di := if d.countN ≠ d.nCell then fun _ => 0 else s.dIce
    let di := permMap (fun m _ => -m) d di
    some { s with d := d, drw := drw, dIce := di }
  else some { s with d := d, drw := drw }

/-- conditions read by the growth functor for super-droplet `i` (particles_impl_cond.ipp:51-62, 68-108) -/
noncomputable def envOf (o : Cfg) (s : St) (RH : ℕ → ℝ) (i : ℕ) : Env :=
  let c := s.d.ijk i
  { rhod := s.d.rhod c, rv := s.rv c, T := s.T c, p := s.p c, RH := RH i, eta := s.eta c, rd3 := s.rd3 i, kpa := s.kpa i,
    vt := s.vt i, lamD := s.lamD c, lamK := s.lamK c, RHmax := o.RHmax }

open Classical in
/-- cond (particles_impl_cond.ipp:13-142) -/
noncomputable def cond (o : Cfg) (step : ℕ) (s : St) : Option St := do
  let rwM := if step = 0 then (if s.d.countN ≠ s.d.nCell then fun _ => 0 else s.rwM) else s.rwM
  let drw := if step = 0 then s.drw else fun c => -s.rwM c
  let RH := fun i => if o.turb then s.ssp i + s.RH (s.d.ijk i) else s.RH (s.d.ijk i)
  let rw2 := fun i => advance o.num (envOf o s RH i) (o.dt / o.sstp) (s.rw2 i)
  let d ← mom3 s.d rw2
  if step < o.sstp - 1 then
    let rwM := permMap (fun m _ => m) d rwM
    some { s with d := d, rw2 := rw2, rwM := rwM, drw := fun c => rwM c + drw c }
  else
    some { s with d := d, rw2 := rw2, rwM := rwM, drw := permMap (fun m x => m + x) d drw }

open Classical in
/-- ice_dep (particles_impl_ice_dep.ipp:13-135) -/
noncomputable def iceDep (o : Cfg) (step : ℕ) (s : St) : Option St := do
  let iM := if step = 0 then (if s.d.countN ≠ s.d.nCell then fun _ => 0 else s.iceM) else s.iceM
  let di := if step = 0 then s.dIce else fun c => -s.iceM c
  let ac := fun i => advanceIce (envOf o s (fun i => s.RHi (s.d.ijk i)) i) (o.dt / o.sstp) (s.iceA i, s.iceC i)
  let a := fun i => (ac i).1
  let c := fun i => (ac i).2
  let d ← momIce s.d a c s.iceRho
  if step < o.sstp - 1 then
    let iM := permMap (fun m _ => m) d iM
    some { s with d := d, iceA := a, iceC := c, iceM := iM, dIce := fun c => iM c + di c }
  else
    some { s with d := d, iceA := a, iceC := c, iceM := iM, dIce := permMap (fun m x => m + x) d di }

/-- update_th_rv (particles_impl_update_th_rv.ipp:77-186) -/
noncomputable def updateThRv (o : Cfg) (s : St) : St :=
  let drw := fun c => s.drw c * mltW
  let rv := fun c => s.rv c - drw c
  let rv := if o.ice then fun c => rv c - s.dIce c else rv
  let th := fun c => s.th c - drw c * d_th_d_rv (s.T c) (s.th c)
  let th := if o.ice then fun c => th c - s.dIce c * d_th_d_rv_dep (s.T c) (th c) else th
  { s with drw := drw, rv := rv, th := th }

/-- sstp_save for per-cell substepping with substeps allowed (sstp_save.ipp:6-32); `allow`: `allow_sstp_cond` -/
def sstpSave (allow : Bool) (s : St) : St :=
  if allow then { s with tRv := s.rv, tTh := s.th, tRh := s.d.rhod } else s

/-- one substep (particles_step.ipp:249-265) -/
noncomputable def substep (o : Cfg) (step : ℕ) (s : St) : Option St := do
  let s := sstpStep o step s
  let s := if o.turb then sgsSupersat o s else s
  let s := hskpngTpr o s
  let s ← (if step = 0 then saveContent o s else some s)
  let s ← cond o step s
  let s ← (if o.ice then iceDep o step s else some s)
  some (updateThRv o s)

/-- the first `k` substeps -/
noncomputable def run (o : Cfg) (s : St) : ℕ → Option St
  | 0 => some s
  | k + 1 => (run o s k).bind (substep o k)

/-- condensation with per-cell substepping (particles_step.ipp:208-277) -/
noncomputable def condPerCell (o : Cfg) (allow : Bool) (s : St) : Option St :=
  (run o { s with lamD := fun c => lambda_D (s.T c), lamK := fun c => lambda_K (s.T c) (s.p c) } o.sstp).map (sstpSave allow)

end LCP.Cond
