import Verif.Cond.PerPart

/-!
# Model of condensation with per-particle, adaptive substepping

Source: src/impl/condensation/perparticle/perparticle_nomixing_adaptive_sstp_cond.ipp (the functor and its `for_each`), called from
src/particles_step.ipp:209-215, and followed by the same steps as the variant with a fixed number of substeps without mixing.

Simplifications: real numbers; the number of tried substeps does not overflow `int`; the literal 3.14159265358979323846264338 is `Real.pi`
(one constant in the model).
-/
namespace LCP.Cond
open LCP.Common

/-- options: `cfg` holds `sstp_cond` (the maximum) and the rest, `eps`, `mx`: `sstp_cond_adapt_drw2_eps`, `_max`, `act`: `sstp_cond_act`
(adaptive_sstp_cond.ipp:10-42) -/
structure ACfg where
  cfg : Cfg
  eps : ℝ
  mx : ℝ
  act : ℕ
  nDims : ℕ

/-- variables of the functor that are not modified (adaptive_sstp_cond.ipp:54-66, 183) -/
structure AIn where
  dRv : ℝ
  dTh : ℝ
  dRh : ℝ
  dP : ℝ
  n : ℝ
  dv : ℝ
  lamD : ℝ
  lamK : ℝ
  rd3 : ℝ
  kpa : ℝ
  vt : ℝ
  rc2 : ℝ
  dotSsp : ℝ

/-- local copies of modified variables (adaptive_sstp_cond.ipp:68-75) -/
structure ASt where
  rv : ℝ
  th : ℝ
  rh : ℝ
  p : ℝ
  ssp : ℝ
  rw2 : ℝ

/-- _apply_noncond_perparticle_sstp_delta (adaptive_sstp_cond.ipp:80-89) -/
noncomputable def applyF (c : ACfg) (x : AIn) (m : ℝ) (s : ASt) : ASt :=
  { s with rv := s.rv + x.dRv * m, th := s.th + x.dTh * m, rh := s.rh + x.dRh * m
           p := if c.cfg.tpr.const_p then s.p + x.dP * m else s.p
           ssp := if c.cfg.turb then s.ssp + x.dotSsp * c.cfg.dt * m else s.ssp }

/-- _calc_Tp (adaptive_sstp_cond.ipp:91-99) -/
noncomputable def TpA (c : ACfg) (s : ASt) : ℝ := TofCell c.cfg.tpr s.th s.rh s.p

/-- _calc_Tp, _calc_sstp_tmp_p (adaptive_sstp_cond.ipp:91-107) -/
noncomputable def calcP (c : ACfg) (s : ASt) : ASt := { s with p := pOfCell c.cfg.tpr s.rh s.rv (TpA c s) s.p }

/-- arguments of the growth functor, with temperature `T`, after `_calc_RH` (adaptive_sstp_cond.ipp:109-118, 143-162, 222-239) -/
noncomputable def envA (c : ACfg) (x : AIn) (T : ℝ) (s : ASt) : Env :=
  let RH := RHof c.cfg.tpr.RH_formula s.p s.rv T
  { rhod := s.rh, rv := s.rv, T := T, p := s.p, RH := if c.cfg.turb then RH + s.ssp else RH, eta := visc T, rd3 := x.rd3, kpa := x.kpa, vt := x.vt
    lamD := x.lamD, lamK := x.lamK, RHmax := c.cfg.RHmax }

/-- variables of the search for the number of substeps (adaptive_sstp_cond.ipp:77, 120-132) -/
structure Try where
  st : ASt
  drw2 : ℝ
  Tp : ℝ
  frac : ℝ
  sstp : ℕ
  first : Bool

open Classical in
/-- the loop over tried numbers of substeps, from `t` (adaptive_sstp_cond.ipp:135-178) -/
noncomputable def tryLoop (c : ACfg) (x : AIn) (t : ℕ) (r : Try) : Try :=
  if h : 0 < t ∧ t ≤ c.cfg.sstp then
    let frac : ℝ := if t = 1 then 1 else -1 / t
    let s := applyF c x frac r.st
    let T := TpA c s
    let s := calcP c s
    let new := advanceD c.cfg.num (drw2dt (envA c x T s)) x.rd3 (c.cfg.dt / t) s.rw2
    if t = 1 then tryLoop c x (t * 2) { r with st := s, drw2 := new, Tp := T, frac := frac }
    else if |new * 2 - r.drw2| ≤ c.eps * s.rw2 ∧ |r.drw2| < c.mx * s.rw2 then
      { st := applyF c x (-frac) s, drw2 := r.drw2, Tp := T, frac := frac, sstp := t / 2, first := true }
    else tryLoop c x (t * 2) { r with st := s, drw2 := new, Tp := T, frac := frac }
  else r
termination_by c.cfg.sstp + 1 - t
decreasing_by all_goals omega

/-- the loop over tried numbers, from the start (adaptive_sstp_cond.ipp:120-135; what is uninitialised there is arbitrary) -/
noncomputable def tries (c : ACfg) (x : AIn) (junk : ℝ × ℝ × ℝ) (s : ASt) : Try :=
  tryLoop c x 1 { st := s, drw2 := junk.1, Tp := junk.2.1, frac := junk.2.2, sstp := c.cfg.sstp, first := c.cfg.sstp == 1 }

open Classical in
/-- number of substeps overridden for droplets that (de)activate, return to the state before the search (adaptive_sstp_cond.ipp:180-195) -/
noncomputable def override (c : ACfg) (x : AIn) (r : Try) : Try :=
  let r := if 1 < c.act ∧ ((r.st.rw2 < x.rc2 ∧ r.st.rw2 + r.sstp * r.drw2 > x.rc2) ∨ (r.st.rw2 > x.rc2 ∧ r.st.rw2 + r.sstp * r.drw2 < x.rc2)) then
    { r with sstp := c.act, first := false } else r
  if r.first then r else { r with st := applyF c x (if c.cfg.sstp = 1 then -r.frac else r.frac) r.st }

/-- variables of the substepping: `rw3` is the alias of `drw2` (adaptive_sstp_cond.ipp:198-203) -/
structure Loop where
  st : ASt
  rw3 : ℝ
  Tp : ℝ

/-- one substep (adaptive_sstp_cond.ipp:206-263) -/
noncomputable def bodyA (c : ACfg) (x : AIn) (m : ℕ) (first : Bool) (step : ℕ) (l : Loop) : Loop :=
  let ante := if 0 < step then -l.rw3 else -rw3of l.st.rw2
  let l := if first && step == 0 then { l with st := { l.st with rw2 := l.st.rw2 + l.rw3 } } else
    let s := applyF c x (1 / m) l.st
    let T := TpA c s
    let s := calcP c s
    { l with st := { s with rw2 := advance c.cfg.num (envA c x T s) (c.cfg.dt / m) s.rw2 }, Tp := T }
  let post := rw3of l.st.rw2
  let l := if step < m - 1 then { l with rw3 := post } else l
  let drv := rw3diff2drv c.nDims (ante + post) l.st.rh x.n x.dv
  let l := { l with st := { l.st with rv := l.st.rv + drv } }
  { l with st := { l.st with th := l.st.th + drv * d_th_d_rv l.Tp l.st.th } }

/-- the first `k` substeps (adaptive_sstp_cond.ipp:206) -/
noncomputable def loopA (c : ACfg) (x : AIn) (m : ℕ) (first : Bool) (l : Loop) : ℕ → Loop
  | 0 => l
  | k + 1 => bodyA c x m first k (loopA c x m first l k)

/-- the functor (adaptive_sstp_cond.ipp:45-275): number of substeps and the modified variables -/
noncomputable def adaptiveF (c : ACfg) (x : AIn) (junk : ℝ × ℝ × ℝ) (s : ASt) : ℕ × ASt :=
  let r := override c x (tries c x junk s)
  (r.sstp, (loopA c x r.sstp r.first { st := r.st, rw3 := r.drw2, Tp := r.Tp } r.sstp).st)

/-- arguments of super-droplet `i` (adaptive_sstp_cond.ipp:282-325) -/
noncomputable def inA (q : PSt) (rc2 : ℕ → ℝ) (i : ℕ) : AIn :=
  { dRv := q.dRv i, dTh := q.dTh i, dRh := q.dRh i, dP := q.dP i, n := q.s.d.n i, dv := q.s.d.dv (q.s.d.ijk i), lamD := q.s.lamD (q.s.d.ijk i)
    lamK := q.s.lamK (q.s.d.ijk i), rd3 := q.s.rd3 i, kpa := q.s.kpa i, vt := q.s.vt i, rc2 := rc2 i, dotSsp := q.s.dotSsp i }

/-- local copies of super-droplet `i`'s variables (adaptive_sstp_cond.ipp:68-75) -/
noncomputable def stA (o : Cfg) (q : PSt) (i : ℕ) : ASt :=
  { rv := q.s.tRv i, th := q.s.tTh i, rh := q.s.tRh i, p := if o.tpr.const_p then q.tP i else 0, ssp := if o.turb then q.s.ssp i else 0, rw2 := q.s.rw2 i }

/-- perparticle_nomixing_adaptive_sstp_cond (adaptive_sstp_cond.ipp:279-333): every super-droplet in turn; nothing shared is written -/
noncomputable def adaptiveRun (o : Cfg) (eps mx : ℝ) (act : ℕ) (rc2 : ℕ → ℝ) (junk : ℕ → ℝ × ℝ × ℝ) (q : PSt) : PSt :=
  let f := fun i => (adaptiveF ⟨o, eps, mx, act, q.s.d.nDims⟩ (inA q rc2 i) (junk i) (stA o q i)).2
  { q with s := { q.s with tRv := fun i => (f i).rv, tTh := fun i => (f i).th, tRh := fun i => (f i).rh, rw2 := fun i => (f i).rw2
                           ssp := if o.turb then fun i => (f i).ssp else q.s.ssp }
           tP := if o.tpr.const_p then fun i => (f i).p else q.tP }

/-- condensation with adaptive substepping (particles_step.ipp:186-236, 268-269) -/
noncomputable def condAdaptive (o : Cfg) (eps mx : ℝ) (act : ℕ) (rc2 : ℕ → ℝ) (junk : ℕ → ℝ × ℝ × ℝ) (allow : Bool) (q : PSt) : Option PSt := do
  let q ← startP o false q
  let q := adaptiveRun o eps mx act rc2 junk q
  let s ← calcChange q.s
  some (saveP o allow { q with s := updateThRv { o with ice := false } s })

end LCP.Cond
