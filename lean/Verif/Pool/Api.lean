import Verif.Pool.ApiLang

/-!
# The API calls as programs over guards

For each API call of the single-process driver (src/particles_*.ipp) the order in which guards of temporary vectors are acquired,
dereferenced and released.  `if` on configuration options; `alt`/`opt` for anything decided by run-time options or data;
`star` for loops; `mayThrow` for the places where an exception can be thrown.  Operations on ordinary arrays are left out.
-/
namespace LCP.PoolApi

/-- the options that decide which guards are used (opts_init and the number of processes) -/
structure Flags where
  /-- number of dimensions: 1 is x, 2 is x and z, 3 is x, y and z -/
  nDims : Fin 4
  /-- allow_sstp_cond: sstp_cond > 1 or sstp_cond_act > 1 (particles_impl.ipp:376) -/
  allow : Bool
  exact : Bool
  adaptive : Bool
  mix : Bool
  ice : Bool
  timeDep : Bool
  chem : Bool
  turbCond : Bool
  distmem : Bool
  predCorr : Bool
  vtFast : Bool
  incloud : Bool
  noCcn : Bool
  rlx : Bool
  /-- src_type != off -/
  src : Bool
  /-- src_type == matching -/
  matching : Bool
deriving DecidableEq

/-- number of dimensions at least 1, 2, 3 -/
def Flags.d1 (f : Flags) : Bool := decide (1 ≤ f.nDims.val)
def Flags.d2 (f : Flags) : Bool := decide (2 ≤ f.nDims.val)
def Flags.d3 (f : Flags) : Bool := decide (3 ≤ f.nDims.val)

/-- combinations of options that pass init_sanity_check (src/impl/initialization/particles_impl_init_sanity_check.ipp:57-174);
a distributed-memory run needs the x dimension -/
def Flags.sane (f : Flags) : Bool :=
  (!f.chem || !f.src) &&                                   -- :57
  (!f.src || f.d2) &&                                      -- :63
  (!f.matching || f.src) &&
  (!f.turbCond || f.d2) &&                                 -- :111
  (!f.distmem || (!f.chem && f.d1)) &&                     -- :131
  (!f.rlx || f.d2) && (!f.rlx || !f.chem) &&               -- :134, :142
  (!f.adaptive || f.exact) && (f.mix || f.exact) &&        -- :152, :156
  !(f.mix && f.adaptive && f.exact) &&                     -- :158
  (!f.ice || (!f.rlx && !f.matching && !f.turbCond && !f.exact)) -- :163-174

/-- the sizing of tmp_device_real_part (particles_impl.ipp:496-520): `Pool.drpNo` -/
def Flags.cfg (f : Flags) : Pool.Cfg :=
  { nDims := f.nDims.val, sstpCond := if f.allow then 2 else 1, sstpCondAct := 1, exactSstp := f.exact, adaptive := f.adaptive,
    ice := f.ice, timeDepIceNucl := f.timeDep, chem := f.chem, turbCond := f.turbCond, distmem := f.distmem,
    predCorr := f.predCorr, vtFast := f.vtFast }

/-- vectors in each pool: tmp_device_real_part :496-520, tmp_device_real_cell 4 (+2) (:264-266, :523), tmp_device_n_part 1 (+2) (:526),
tmp_device_size_part 1 (+1) (+1) (:536-539), the others 1 -/
def poolSize (f : Flags) : PoolId → ℕ
  | .realPart => Pool.drpNo f.cfg
  | .realCell => if f.ice then 6 else 4
  | .nPart => if f.exact && f.adaptive then 3 else 1
  | .sizePart => 1 + (if f.d2 || f.distmem then 1 else 0) + (if f.d3 then 1 else 0)
  | _ => 1

/-- the pools after construction (particles_impl.ipp:264-276, 518-539) -/
def w0 (f : Flags) : W := fun p => Pool.fresh (poolSize f p)

/-! ### Building blocks -/

/-- sync with an external array (src/impl/particles_impl_sync.ipp:24, 50) -/
def sync : Prog := .scope .g1 .skip
/-- hskpng_vterm_all, hskpng_vterm_invalid (src/impl/housekeeping/particles_impl_hskpng_vterm.ipp:198, 279) -/
def vterm (f : Flags) : Prog := when f.vtFast (.scope .a1 .skip)
/-- selecting particles: moms_all, moms_rng, moms_gt0, ... (src/impl/diagnose_SD_attributes/particles_impl_moms.ipp:55-56, 78-80, 119, 142, 168, 207) -/
def momsSel : Prog := .seq (reset .nF) (use .nF)
/-- moms_calc (particles_impl_moms.ipp:286), consecutive selections (:80, 170, 209) -/
def momsCalc : Prog := use .nF
/-- save_liq_ice_content_before_change (src/impl/common/save_liq_ice_content_before_change.ipp:17-54) -/
def saveLiqIce (f : Flags) : Prog :=
  sq [reset .drw, use .drw, momsSel, momsCalc, when f.ice (sq [reset .dIce, use .dIce, momsSel, momsCalc])]
/-- calc_liq_ice_content_change (src/impl/common/calc_liq_ice_content_change.ipp:16-46) -/
def calcChange (f : Flags) : Prog :=
  sq [use .drw, momsSel, momsCalc, when f.ice (sq [use .dIce, momsSel, momsCalc])]
/-- update_th_rv (src/impl/common/particles_impl_update_th_rv.ipp:89-189) -/
def updateThRv (f : Flags) : Prog :=
  sq [use .drw, when f.ice (use .dIce), release .drw, release .dIce]
/-- hskpng_mfp (src/impl/housekeeping/particles_impl_hskpng_mfp.ipp:44-47) -/
def mfp : Prog := sq [reset .lamD, reset .lamK, use .lamD, use .lamK]

/-! ### Condensation -/

/-- cond, one substep (src/impl/condensation/percell/particles_impl_cond.ipp:22-134) -/
def condStep (f : Flags) (first last : Bool) : Prog :=
  sq [use .lamD, use .lamK,
      if first then .seq (reset .rwm) (use .rwm) else sq [use .rwm, reset .drw, use .drw],
      when f.turbCond (opt (.scope .a1 .skip)),
      use .drw, momsSel, momsCalc,
      when last (release .rwm)]
/-- ice_dep, one substep (src/impl/ice/particles_impl_ice_dep.ipp:22-129) -/
def iceDep (first last : Bool) : Prog :=
  sq [use .lamD, use .lamK,
      if first then .seq (reset .iceM) (use .iceM) else sq [use .iceM, reset .dIce, use .dIce],
      momsSel, momsCalc, use .dIce,
      when last (release .iceM)]
/-- one substep of the per-cell loop (src/particles_step.ipp:239-255) -/
def perCellStep (f : Flags) (first last : Bool) : Prog :=
  sq [when first (saveLiqIce f),
      condStep f first last,
      when f.ice (iceDep first last),
      updateThRv f]
/-- the per-cell loop: one substep, or a first, any number of inner ones and a last (src/particles_step.ipp:238-256) -/
def perCell (f : Flags) : Prog :=
  .alt (perCellStep f true true)
    (sq [perCellStep f true false, .star (perCellStep f false false), perCellStep f false true])

/-- acquire_arrays_for_perparticle_sstp (src/impl/condensation/perparticle/acquire_arrays_for_perparticle_sstp.ipp:9-24) -/
def acquirePP (f : Flags) : Prog :=
  sq [reset .dRv, reset .dTh, reset .dRh, reset .dP,
      when (!(f.exact && f.allow && f.adaptive)) (sq [reset .rwX, reset .drwX, reset .Tp]),
      when f.adaptive (reset .pps)]
/-- release_arrays_for_perparticle_sstp (release_arrays_for_perparticle_sstp.ipp:9-24) -/
def releasePP (f : Flags) : Prog :=
  sq [release .dRv, release .dTh, release .dRh, release .dP,
      when (!(f.exact && f.allow && f.adaptive)) (sq [release .rwX, release .drwX, release .Tp]),
      when f.adaptive (release .pps)]
def useDlt : Prog := sq [use .dRv, use .dTh, use .dRh, use .dP]
/-- one substep without adaptation (src/particles_step.ipp:222-231): apply_noncond_perparticle_sstp_delta.ipp:17-21,
set_perparticle_drwX_to_minus_rwX.ipp:9-22, cond_perparticle_advance_rw2.ipp:34, perparticle_advance_rw2.ipp:13-14,
add_perparticle_rwX_to_drwX.ipp:9-13, apply_perparticle_drw3_to_perparticle_rv_and_th.ipp:9-58 -/
def ppStep (f : Flags) : Prog :=
  sq [useDlt, use .drwX, opt (use .rwX), use .Tp, use .lamD, use .lamK, use .drwX, opt (use .rwX), use .drwX, use .Tp,
      when f.mix (.scope .c1 .skip), when f.mix (.scope .c1 .skip)]
/-- per-particle substepping (src/particles_step.ipp:199-236); adaptive: perparticle_nomixing_adaptive_sstp_cond.ipp:282-291;
at the end apply_perparticle_cond_change_to_percell_rv_and_th.ipp:6-25 -/
def perParticle (f : Flags) : Prog :=
  sq [when (!f.mix) (.seq (saveLiqIce f) (release .nF)),
      acquirePP f, useDlt,
      if f.adaptive then sq [use .pps, useDlt, use .lamD, use .lamK] else .star (ppStep f),
      releasePP f,
      when (!f.mix) (.seq (calcChange f) (updateThRv f)),
      release .nF]
/-- ice_nucl_melt (src/impl/ice/particles_impl_ice_nucl_melt.ipp:117-260) -/
def iceNucl (f : Flags) : Prog :=
  .scope .c1 (sq [momsSel, momsCalc, when f.timeDep (.scope .a1 .skip), momsSel, momsCalc])
/-- condensation in step_cond (src/particles_step.ipp:186-266); the per-particle branch is taken if exact_sstp_cond and the current
sstp_cond or sstp_cond_act exceeds 1, which variable time steps can change -/
def condensation (f : Flags) : Prog :=
  sq [mfp, if f.exact && f.allow then .alt (perParticle f) (perCell f) else perCell f, release .lamD, release .lamK]
/-- one chemistry substep (src/particles_step.ipp:275-306): chem_vol_ante (particles_impl_chem_ante.ipp:73-74), chem_flag_ante
(particles_impl_chem_strength.ipp:73-75), chem_henry (particles_impl_chem_henry.ipp:252-253, 333-334), chem_dissoc (particles_impl_chem_dissoc.ipp:148-149),
chem_react (particles_impl_chem_react.ipp:263-269), chem_post_step (particles_impl_chem_ante.ipp:63-64) -/
def chemStep : Prog :=
  sq [reset .V, use .V, reset .chemFlag, use .chemFlag, use .V,
      opt (sq [use .chemFlag, use .V, .scope .c1 (.scope .c2 .skip)]),
      opt (sq [use .V, use .chemFlag]),
      opt (sq [use .V, use .chemFlag, .scope .a1 .skip]),
      release .V, release .chemFlag]
/-- step_cond after its first check (src/particles_step.ipp:168-335).  Without the chemistry switch, requested chemistry throws in
chem_vol_ante, after condensation -/
def stepCond (f : Flags) : Prog :=
  sq [mayThrow,
      when f.incloud (.scope .a1 .skip),
      when f.ice (opt (iceNucl f)),
      opt (condensation f),
      opt (if f.chem then .star chemStep else .throw),
      .star sync]

/-! ### The asynchronous step -/

/-- coal (src/impl/coalescence/particles_impl_coal.ipp:276-290; shuffling: src/impl/housekeeping/particles_impl_hskpng_sort.ipp:31) -/
def coal (f : Flags) : Prog :=
  .star (sq [.scope .n1 .skip, .scope .c1 (.scope .a1 (.scope .s1 .skip)), opt (vterm f)])
/-- hskpng_ijk (src/impl/housekeeping/particles_impl_hskpng_ijk.ipp:176-193); unravel_ijk resets the same guards (:90-145) -/
def ijk (f : Flags) : Prog :=
  sq [when f.d1 (.seq (reset .i) (use .i)), when f.d3 (.seq (reset .j) (use .j)), when f.d2 (.seq (reset .k) (use .k))]
/-- cell indices read: ravel_ijk (particles_impl_hskpng_ijk.ipp:36-80), adve_calc (src/impl/advection/particles_impl_adve.ipp:99-165) -/
def useIjk (f : Flags) : Prog := sq [when f.d1 (use .i), when f.d3 (use .j), when f.d2 (use .k)]
/-- adve (src/impl/advection/particles_impl_adve.ipp:170-300); a predictor-corrector run falls back to the explicit scheme for
Courant numbers beyond 2 (src/particles_step.ipp:128-141) -/
def adve (f : Flags) : Prog :=
  when f.d1 (if f.predCorr then
      .alt (useIjk f) (.scope .a1 (.scope .a2 (.scope .a3 (sq [ijk f, useIjk f, useIjk f, ijk f, useIjk f, useIjk f]))))
    else useIjk f)
/-- init_xyz (src/impl/initialization/particles_impl_init_xyz.ipp:48-76) -/
def initXyz (f : Flags) : Prog :=
  sq [when f.d1 (.scope .a2 (use .i)), when f.d3 (.scope .a2 (use .j)), when f.d2 (.scope .a2 (use .k))]
/-- T_freeze (src/impl/initialization/particles_impl_init_T_freeze.ipp:21) -/
def initTFreeze (f : Flags) : Prog := when (f.ice && !f.timeDep) (.scope .a2 .skip)
/-- number of super-droplets, resizing (may exceed n_sd_max: exception), cells (particles_impl_init_count_num.ipp:80, particles_impl_init_ijk.ipp:38) -/
def newSds : Prog := sq [opt (.scope .c1 .skip), mayThrow, .scope .s1 .skip]
/-- dry radii (particles_impl_init_dry_sd_conc.ipp:46-53, particles_impl_init_dry_const_multi.ipp:58) -/
def initDry : Prog := .alt .skip (.alt (.scope .a2 .skip) (.scope .a2 (.scope .s1 .skip)))
/-- multiplicities (particles_impl_init_n.ipp:53-59, 155) -/
def initN : Prog := .alt .skip (.alt (.scope .o3 (.scope .o4 (.scope .o1 .skip))) (.scope .c1 .skip))
/-- one group of new super-droplets at initialisation (particles_impl_init_SD_with_distros*.ipp, particles_impl_init_SD_with_sizes.ipp) -/
def initGroup (f : Flags) : Prog :=
  sq [newSds, initDry, initN, initTFreeze f, initN, when f.chem (.seq (reset .V) (use .V)), ijk f, initXyz f]
/-- src_dry_distros_simple, src_dry_sizes (src/impl/sources_and_relaxation_of_SDs/particles_impl_src_dry_distros_simple.ipp:13-80,
particles_impl_src_dry_sizes.ipp:14-95); the source is not combined with chemistry -/
def srcGroup (f : Flags) : Prog :=
  sq [newSds, initDry, initN, initTFreeze f, initN, ijk f, initXyz f]
/-- src_dry_distros_matching (particles_impl_src_dry_distros_matching.ipp:50-417) -/
def srcMatching (f : Flags) : Prog :=
  sq [opt (.scope .c1 .skip),
      .scope .a1 (sq [mayThrow, .scope .s1 .skip, .scope .a2 (.scope .s1 .skip),
        opt (sq [mayThrow, initTFreeze f, initN, ijk f, initXyz f]),
        .scope .a2 (sq [mayThrow, initN, mayThrow])])]
/-- src (src/particles_step.ipp:444-452, particles_impl_src.ipp, particles_impl_src_dry_distros.ipp) -/
def src (f : Flags) : Prog :=
  if f.src then
    sq [mayThrow, opt (if f.matching then srcMatching f else srcGroup f), .star (srcGroup f)]
  else .throw
/-- one size bin of the relaxation (particles_impl_rlx_dry_distros.ipp:152-290) -/
def rlxBin (f : Flags) : Prog :=
  sq [momsSel, momsCalc, momsCalc, release .nF, .scope .s1 .skip, mayThrow, .scope .s1 (use .k),
      .scope .a1 (sq [use .i, when f.d3 (use .j), useIjk f])]
/-- relaxation (src/particles_step.ipp:456-467, particles_impl_rlx_dry_distros.ipp:86-310); not combined with chemistry or ice -/
def rlx (f : Flags) : Prog :=
  if f.rlx then .star (sq [.star (rlxBin f), initXyz f]) else .throw
/-- bcnd (src/impl/boundary_conditions/particles_impl_bcnd.ipp:118-157, 244) -/
def bcnd (f : Flags) : Prog :=
  sq [when f.distmem (sq [release .i, release .k, reset .lft, use .lft, reset .rgt, use .rgt, opt (use .lft), opt (use .rgt)]),
      when f.d2 (opt (.scope .a1 .skip))]
/-- mpi_exchange (src/impl/distributed_memory/particles_impl_pack.ipp:35-125, particles_impl_unpack.ipp:20-140): unpacking resizes, which may throw -/
def mpi (f : Flags) : Prog :=
  when f.distmem (opt (sq [use .lft, use .rgt, mayThrow, use .lft, use .rgt]))
/-- post_copy (src/impl/distributed_memory/particles_impl_post_copy.ipp:19-38) -/
def postCopy (f : Flags) : Prog := sq [release .lft, release .rgt, ijk f, useIjk f]
/-- step_async after its first check (src/particles_step.ipp:346-495) -/
def stepAsync (f : Flags) : Prog :=
  sq [mayThrow, release .nF, mayThrow,
      opt (vterm f),
      opt (coal f),
      opt (.scope .c1 (.scope .a1 .skip)),                                  -- hskpng_turb_vel (particles_impl_hskpng_turb_vel.ipp:56, 71)
      opt (.scope .c1 (sq [momsSel, momsCalc, release .nF])),               -- hskpng_turb_dot_ss (particles_impl_hskpng_turb_ss.ipp:47-57)
      opt (adve f),
      when f.d2 (opt (use .k)),                                             -- subs (src/impl/subsidence/particles_impl_subs.ipp:16)
      opt (src f),
      opt (rlx f),
      bcnd f, mpi f, postCopy f]

/-! ### Other calls -/

/-- init (src/particles_init.ipp:15-130); sanity checks throw before any guard is acquired -/
def init (f : Flags) : Prog :=
  sq [mayThrow, .star sync,
      when (!f.noCcn) (.seq (initGroup f) (.star (initGroup f))),
      vterm f]
/-- sync_in (src/particles_step.ipp:15-155): all exceptions are thrown before the release at :94 -/
def syncIn : Prog := sq [mayThrow, release .nF, .star sync]

/-- the API calls; the diagnostics grouped by what they do to the guards (src/particles_diag.ipp) -/
inductive Call where
  | init
  | syncIn
  | stepCond
  | stepAsync
  /-- diag_all, diag_dry_rng, diag_wet_rng, diag_kappa_rng, diag_ice, diag_water, ... -/
  | select
  /-- diag_*_cons -/
  | selectCons
  /-- diag_RH_ge_Sc, diag_rw_ge_rc (:352-410) -/
  | selectCmp
  /-- diag_*_mom, diag_ice_mix_ratio, diag_chem -/
  | moment
  /-- diag_sd_conc (:199-222) -/
  | sdConc
  /-- diag_wet_mass_dens (:506-510, particles_impl_mass_dens.ipp:40-43) -/
  | massDens
  /-- diag_precip_rate (:561-590) -/
  | precip
  /-- diag_precip_rate_ice_mass (:593-611) -/
  | precipIce
  /-- outbuf (src/particles_ctor.ipp:83-93, particles_impl_fill_outbuf.ipp:20) -/
  | outbuf
  /-- diag_pressure, diag_temperature, diag_RH, diag_vel_div, diag_max_rw, diag_puddle, get_attr -/
  | other
deriving DecidableEq

/-- flags between calls.  cond/async: should_now_run_cond/async (src/particles_step.ipp:158-178, 336, 346-349).  Ghosts: `sel`: a selection was made since the
last sync_in or step and not released; `nf`: n_filtered may hold a vector; `ijk`: the cell indices were calculated; `up`: init was called -/
structure G where
  up : Bool
  cond : Bool
  async : Bool
  sel : Bool
  nf : Bool
  ijk : Bool
deriving DecidableEq

/-- a new object -/
def g0 : G := ⟨false, false, false, false, false, false⟩

/-- the program run by a call; step_cond and step_async throw at once if called out of order (src/particles_step.ipp:165-167, 346-348); the ice diagnostics
throw if ice is off -/
def prog (f : Flags) (g : G) : Call → Prog
  | .init => init f
  | .syncIn => syncIn
  | .stepCond => if g.cond then stepCond f else .throw
  | .stepAsync => if g.async then stepAsync f else .throw
  | .select => .seq mayThrow momsSel
  | .selectCons => .seq mayThrow momsCalc
  | .selectCmp => .scope .a1 momsSel
  | .moment => .seq mayThrow momsCalc
  | .sdConc => use .nF
  | .massDens => .seq (use .nF) (.scope .c1 .skip)
  | .precip => sq [vterm f, .scope .a1 momsCalc]
  | .precipIce => if f.ice then sq [vterm f, momsSel, momsCalc] else .throw
  | .outbuf => .scope .o1 (.scope .o2 .skip)
  | .other => .skip

/-- the flags after a call (second argument: it threw) -/
def next (f : Flags) (g : G) : Call → Bool → G
  | .init, false => { g with up := true, ijk := !f.noCcn, sel := false }
  | .init, true => { g with up := false }
  | .syncIn, false => { g with cond := true, sel := false, nf := false }
  | .syncIn, true => g
  | .stepCond, t =>
    if g.cond then { g with cond := false, async := g.async || !t, sel := false, nf := true } else g
  | .stepAsync, t =>
    if g.async then { g with async := false, sel := false, nf := true, ijk := g.ijk || !t } else g
  | .select, false => { g with sel := true, nf := true }
  | .selectCmp, false => { g with sel := true, nf := true }
  | .precipIce, false => { g with sel := true, nf := true }
  | _, _ => g

/-! ### Histories -/

/-- one call of a history: what was called, the actions on guards it did, whether it threw -/
structure Event where
  call : Call
  acts : List Act
  thrown : Bool

/-- every event of the history is a run of the program of its call -/
def IsHist (f : Flags) : G → List Event → Prop
  | _, [] => True
  | g, e :: l => Runs (prog f g e.call) e.acts e.thrown ∧ IsHist f (next f g e.call e.thrown) l

/-- all actions of a history -/
def actions (l : List Event) : List Act := l.flatMap Event.acts

/-- an acquisition found no free vector somewhere in the history -/
def Exhausts (f : Flags) (l : List Event) : Prop := exec (w0 f) (actions l) = .exhausted

/-- a guard holding no vector was dereferenced somewhere in the history -/
def DerefsNull (f : Flags) (l : List Event) : Prop := exec (w0 f) (actions l) = .null

end LCP.PoolApi
