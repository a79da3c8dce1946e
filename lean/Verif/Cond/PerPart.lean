import Verif.Cond.PerCell

/-!
# Model of condensation with per-particle substepping (same number of substeps for all super-droplets)

Sources: src/particles_step.ipp (step_cond, lines 196-236), src/impl/condensation/perparticle/*.ipp (except the adaptive variant),
src/impl/common/calc_liq_ice_content_change.ipp, particles_impl_update_th_rv.ipp (update_pstate, update_state),
src/impl/condensation/common/sstp_save.ipp.

The vectors `sstp_tmp_*` have one entry per super-droplet in this mode: `tRv`, `tTh`, `tRh` of `St` are indexed by
super-droplets here, and `tP` is added.  Ice is excluded by init_sanity_check (lines 173-174).
-/
namespace LCP.Cond
open LCP.Common

/-- state: `St` plus the per-particle pressure, the ambient changes, the stored third powers of radii, the temperatures -/
structure PSt where
  s : St
  tP : ℕ → ℝ
  dRv : ℕ → ℝ
  dTh : ℕ → ℝ
  dRh : ℕ → ℝ
  dP : ℕ → ℝ
  rw3 : ℕ → ℝ
  Tp : ℕ → ℝ

/-- calculate_noncond_perparticle_sstp_delta (calculate_noncond_perparticle_sstp_delta.ipp:7-36) -/
def calcDelta (o : Cfg) (q : PSt) : PSt :=
  { q with dRv := fun i => q.s.rv (q.s.d.ijk i) - q.s.tRv i
           dTh := fun i => q.s.th (q.s.d.ijk i) - q.s.tTh i
           dRh := fun i => q.s.d.rhod (q.s.d.ijk i) - q.s.tRh i
           dP := if o.tpr.const_p then fun i => q.s.p (q.s.d.ijk i) - q.tP i else q.dP }

/-- apply_noncond_perparticle_sstp_delta (apply_noncond_perparticle_sstp_delta.ipp:7-32) -/
noncomputable def applyDelta (o : Cfg) (q : PSt) : PSt :=
  { q with s := { q.s with tRv := fun i => q.s.tRv i + q.dRv i / o.sstp
                           tTh := fun i => q.s.tTh i + q.dTh i / o.sstp
                           tRh := fun i => q.s.tRh i + q.dRh i / o.sstp }
           tP := if o.tpr.const_p then fun i => q.tP i + q.dP i / o.sstp else q.tP }

/-- conditions read by the growth functor for super-droplet `i` (cond_perparticle_advance_rw2.ipp, perparticle_advance_rw2.ipp) -/
noncomputable def envP (o : Cfg) (q : PSt) (i : ℕ) : Env :=
  let T := TofCell o.tpr (q.s.tTh i) (q.s.tRh i) (q.tP i)
  let p := pOfCell o.tpr (q.s.tRh i) (q.s.tRv i) T (q.tP i)
  let RH := RHof o.tpr.RH_formula p (q.s.tRv i) T
  { rhod := q.s.tRh i, rv := q.s.tRv i, T := T, p := p, RH := if o.turb then RH + q.s.ssp i else RH, eta := visc T, rd3 := q.s.rd3 i, kpa := q.s.kpa i
    vt := q.s.vt i, lamD := q.s.lamD (q.s.d.ijk i), lamK := q.s.lamK (q.s.d.ijk i), RHmax := o.RHmax }

/-- cond_perparticle_advance_rw2 (cond_perparticle_advance_rw2.ipp:26-125): temperatures and new radii -/
noncomputable def advP (o : Cfg) (q : PSt) : PSt :=
  { q with s := { q.s with rw2 := fun i => advance o.num (envP o q i) (o.dt / o.sstp) (q.s.rw2 i) }
           Tp := fun i => TofCell o.tpr (q.s.tTh i) (q.s.tRh i) (q.tP i) }

/-- update_pstate (particles_impl_update_th_rv.ipp:240-283): sums over cells by `reduce_by_key`, added to every super-droplet's value -/
noncomputable def updPstate (d : Diag.St) (ps pd : ℕ → ℝ) : Diag.St × (ℕ → ℝ) :=
  let d := Diag.reduceToCount d pd
  let ds := permMap (fun m x => m + x) d (fun _ => 0)
  (d, fun i => ps i + ds (d.ijk i))

/-- apply_perparticle_drw3_to_perparticle_rv_and_th (apply_perparticle_drw3_to_perparticle_rv_and_th.ipp:6-60) -/
noncomputable def applyDrw3 (mix : Bool) (drw3 : ℕ → ℝ) (q : PSt) : PSt :=
  let drv := fun i => rw3diff2drv q.s.d.nDims (drw3 i) (q.s.tRh i) (q.s.d.n i) (q.s.d.dv (q.s.d.ijk i))
  if mix then
    let r := updPstate q.s.d q.s.tRv drv
    let dth := fun i => drv i * d_th_d_rv (q.Tp i) (q.s.tTh i)
    let t := updPstate r.1 q.s.tTh dth
    { q with s := { q.s with d := t.1, tRv := r.2, tTh := t.2 } }
  else
    { q with s := { q.s with tRv := fun i => drv i + q.s.tRv i
                             tTh := fun i => drv i * d_th_d_rv (q.Tp i) (q.s.tTh i) + q.s.tTh i } }

/-- one substep (particles_step.ipp:221-231): `set_perparticle_drwX_to_minus_rwX` (stored values after the first substep),
growth, `add_perparticle_rwX_to_drwX` (storing the values except in the last substep), update of the per-particle fields -/
noncomputable def substepP (o : Cfg) (mix : Bool) (step : ℕ) (q : PSt) : PSt :=
  let q := applyDelta o q
  let q := if o.turb then { q with s := sgsSupersat o q.s } else q
  let ante := fun i => if 0 < step then -q.rw3 i else -rw3of (q.s.rw2 i)
  let q := advP o q
  let post := fun i => rw3of (q.s.rw2 i)
  let q := if step < o.sstp - 1 then { q with rw3 := post } else q
  applyDrw3 mix (fun i => post i + ante i) q

/-- the first `k` substeps -/
noncomputable def runP (o : Cfg) (mix : Bool) (q : PSt) : ℕ → PSt
  | 0 => q
  | k + 1 => substepP o mix k (runP o mix q k)

/-- update_state (particles_impl_update_th_rv.ipp:285-303): every super-droplet writes its value to its cell, in the order `ord`
(the threads' order: any permutation) -/
def updState (ord : List ℕ) (ijk : ℕ → ℕ) (st ps : ℕ → ℝ) : ℕ → ℝ := scatter st (ord.map fun i => (ijk i, ps i))

/-- calc_liq_ice_content_change without ice (calc_liq_ice_content_change.ipp:11-25) -/
noncomputable def calcChange (s : St) : Option St := do
  let d ← mom3 s.d s.rw2
  some { s with d := d, drw := permMap (fun m x => m + x) d s.drw }

/-- sstp_save, per-particle version (sstp_save.ipp:11-32) -/
def saveP (o : Cfg) (allow : Bool) (q : PSt) : PSt :=
  if allow then
    { q with s := { q.s with tRv := fun i => q.s.rv (q.s.d.ijk i), tTh := fun i => q.s.th (q.s.d.ijk i), tRh := fun i => q.s.d.rhod (q.s.d.ijk i) }
             tP := if o.tpr.const_p then fun i => q.s.p (q.s.d.ijk i) else q.tP }
  else q

/-- beginning of condensation with per-particle substepping (particles_step.ipp:188-209): mean free paths, liquid water before the
change unless mixing, ambient changes -/
noncomputable def startP (o : Cfg) (mix : Bool) (q : PSt) : Option PSt := do
  let q := { q with s := { q.s with lamD := fun c => lambda_D (q.s.T c), lamK := fun c => lambda_K (q.s.T c) (q.s.p c) } }
  let s ← (if mix then some q.s else saveContent { o with ice := false } q.s)
  some (calcDelta o { q with s := s })

/-- condensation with per-particle substepping (particles_step.ipp:186-236, 268-269) -/
noncomputable def condPerPart (o : Cfg) (mix allow : Bool) (ordRv ordTh : List ℕ) (q : PSt) : Option PSt := do
  let q ← startP o mix q
  let q := runP o mix q o.sstp
  if mix then
    some (saveP o allow { q with s := { q.s with rv := updState ordRv q.s.d.ijk q.s.rv q.s.tRv, th := updState ordTh q.s.d.ijk q.s.th q.s.tTh } })
  else
    let s ← calcChange q.s
    some (saveP o allow { q with s := updateThRv { o with ice := false } s })

end LCP.Cond
