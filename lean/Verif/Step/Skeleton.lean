import Mathlib.Data.Nat.Notation
/-
Data flow of the whole API of `particles_t`: which part of the object each call reads and
which part it writes (src/particles_step.ipp, src/particles_diag.ipp, src/particles_ctor.ipp).

The physics is left uninterpreted: every function of `impl` that computes something is a
field of `Fns`, an arbitrary function of what it reads.  The control flow, the order of the
calls, the flags, the arrays written and the arrays read are those of the code.  Because the
physics is arbitrary, what is proved holds for the real formulas too.
-/
namespace LCP.Skel

/-- Options given to the constructor that steer the control flow
(include/libcloudph++/lgrngn/opts_init.hpp). -/
structure Cfg where
  thDry : Bool
  constP : Bool
  ice : Bool
  incloud : Bool
  exact : Bool
  adaptive : Bool
  mix : Bool
  chem : Bool
  coalSw : Bool
  sediSw : Bool
  subsSw : Bool
  turbCondSw : Bool
  turbAdveSw : Bool
  rlxSw : Bool
  /-- `src_type == off` -/
  srcOff : Bool
  /-- `src_x0 == 0 && src_x1 == 0` -/
  srcNowhere : Bool
  zeroDim : Bool

/-- Options of a step (include/libcloudph++/lgrngn/opts.hpp); `par` stands for the numerical
ones: `RH_max`, `dt`, the distributions of the source. -/
structure Opts (V : Type) where
  cond : Bool
  coal : Bool
  sedi : Bool
  subs : Bool
  adve : Bool
  src : Bool
  rlx : Bool
  rcyc : Bool
  iceNucl : Bool
  turbCond : Bool
  turbAdve : Bool
  chemDsl : Bool
  chemDsc : Bool
  chemRct : Bool
  par : V

/-- The part of the object that decides how the simulation goes on
(src/impl/particles_impl.ipp:50-240). -/
structure Sim (V : Type) where
  /-- `th, rv, rhod`, and `p` when `const_p` -/
  air : V
  /-- `T, p, RH, RH_i, eta, dv`: written by `hskpng_Tpr` -/
  tpr : V
  /-- `vt` -/
  vt : V
  /-- `sorted_id, sorted_ijk` -/
  order : V
  sorted : Bool
  /-- everything else that lives from step to step: attributes and positions of the droplets,
  Courant numbers, dissipation, gases, `_old` values of sub-stepping, numbers of sub-steps,
  counters, puddle, state of the generator of random numbers -/
  rest : V
  needCond : Bool
  needAsync : Bool

/-- Arrays borrowed from the pools of temporary arrays and kept across functions of one step
(src/impl/particles_impl.ipp:205-240).  Between calls their content is whatever the last user
of the array left there. -/
structure Scr (V : Type) where
  /-- `lambda_D, lambda_K`, filled by `hskpng_mfp` -/
  lam : V
  /-- `drw_mom3`, and the local `drw` of `ice_nucl_melt` -/
  drw : V
  /-- `d_ice_mass` -/
  dIce : V
  /-- `rw_mom3` -/
  rwm : V
  /-- `ice_mass` -/
  iceM : V
  /-- `sstp_dlt_rv, ..., rwX, drwX, Tp` -/
  pp : V
  /-- volumes and flags of droplets for chemistry -/
  chemV : V
  /-- `mass_old` of `chem_henry` -/
  massOld : V

/-- The arrays that serve as output of diagnostics (src/impl/particles_impl.ipp:110-119,218):
the first `count_n` entries of `count_ijk` (`keys`), of `count_mom` (`mom`) and of `count_num`
(`num`), what is left behind in `count_num` (`tail`), `n_filtered` (`nf`, null after a
reset) and `selected_before_counting`. -/
structure Aux (V : Type) where
  keys : V
  mom : V
  num : V
  tail : V
  nf : Option V
  sel : Bool

structure St (V : Type) where
  sim : Sim V
  scr : Scr V
  aux : Aux V

/-- The uninterpreted computations.  A `Sim V` argument means that the function may read
anything in it; reads of diagnostic arrays are explicit arguments. -/
structure Fns (V : Type) where
  tpr : V → V
  tprStd : V → V → V
  sortPerm : V → V
  shufPerm : Sim V → V
  shufRest : Sim V → V
  /-- the cells that hold droplets, from `sorted_ijk` -/
  keysOf : V → V
  cntNum : V → V
  cntTail : V → V → V → V
  /-- what a selection writes to `n_filtered` -/
  selNew : ℕ → Sim V → V
  selCons : ℕ → Sim V → Option V → V
  momCalc : ℕ → Sim V → Option V → V
  -- step_cond
  adjust : Opts V → V → V
  incloud : Sim V → V
  negScat : Sim V → V → V → V
  addScat : V → V → V → V
  freeze : Opts V → Sim V → V
  thFreeze : Sim V → V → V
  mfp : Sim V → V
  deltas : Sim V → V
  adaptive : Opts V → Sim V → V → V → V
  applyDelta : Sim V → V → V
  sgs : Sim V → V
  advance : Opts V → ℕ → Sim V → V → V → V
  advPp : Opts V → ℕ → Sim V → V → V → V
  pstMom : ℕ → Sim V → V → V
  pstate : ℕ → Sim V → V → V → V
  pstNoMix : Sim V → V → V
  updState : Sim V → V
  thrv : Sim V → V → V
  thrvIce : Sim V → V → V → V
  percellAir : ℕ → Sim V → V
  percellRest : ℕ → Sim V → V
  zeroFill : Sim V → V → V
  negCopy : V → V
  condRw : Opts V → ℕ → Sim V → V → V
  putMom : V → V → V → V
  addArr : V → V → V
  depIce : Opts V → ℕ → Sim V → V → V
  sstpSave : Sim V → V
  chemAnte : Sim V → V
  chemSstp : ℕ → Sim V → V
  henryOld : ℕ → Sim V → V
  henryDrops : Opts V → ℕ → Sim V → V → V
  henryGas : Opts V → ℕ → Sim V → V → V → V
  chemClean : Sim V → V
  chemDissoc : Sim V → V → V
  chemReact : Opts V → Sim V → V → V
  chemPost : Sim V → V
  nCond : V → ℕ
  nCondAct : V → ℕ
  nChem : V → ℕ
  nCoal : V → ℕ
  -- step_async
  saveChem : V → V
  vtIce : Sim V → V
  vtWater : Sim V → V → V
  vtInvalid : Sim V → V
  coalScl : V → V → V
  coalRest : Opts V → Sim V → V → V → V → V
  coalVt : Opts V → Sim V → V → V → V → V
  bump : Sim V → V
  rc2 : Sim V → V
  tke : Sim V → V
  turbVel : Opts V → Sim V → V
  turbMom : Sim V → V → V → V
  turbSs : Sim V → V → V → V
  adveRest : Sim V → V
  adveSorted : Sim V → Bool
  scheme : Sim V → V
  turbAdve : Sim V → V
  sedi : Sim V → V
  subs : Sim V → V
  srcRest : Opts V → Sim V → V
  srcVt : Opts V → Sim V → V
  srcOrder : Opts V → Sim V → V
  srcNum : Opts V → Sim V → V
  srcTail : Opts V → Sim V → V
  rlxDue : V → Bool
  rlxKeys : ℕ → Sim V → V
  rlxBins : V → ℕ
  rlxRest : ℕ → Sim V → V → V → V
  rlxVt : ℕ → Sim V → V → V → V
  rlxOrder : ℕ → Sim V → V → V → V
  rlxNum : ℕ → Sim V → V → V → V
  rlxTail : ℕ → Sim V → V → V → V
  counters : Opts V → Sim V → V
  bcndRest : Sim V → V
  mpiRest : Sim V → V
  mpiVt : Sim V → V
  mpiOrder : Sim V → V
  mpiSorted : Sim V → Bool
  dropRest : Opts V → Sim V → V
  dropVt : Opts V → Sim V → V
  dropOrder : Opts V → Sim V → V
  ijk : Sim V → V
  -- init
  initAir : V → V
  initRest : V → V
  initTpr : V → V
  initSd : Sim V → V
  initVt : Sim V → V
  initOrder : Sim V → V
  initSave : Sim V → V
  -- sync_in
  syncAir : V → V → V
  syncRest : V → V → V
  -- output
  outAir : V → V
  outGas : V → V
  outbuf : V → V → V
  puddle : V → V
  attr : ℕ → V → V
  -- diagnostics
  diagTpr : ℕ → V → V
  allCells : V
  sdConc : Sim V → Option V → V
  velDiv : Sim V → V
  precip : Sim V → Option V → V
  precipIce : Sim V → Option V → V
  maxRw : Sim V → V
  massDens : ℕ → Sim V → Option V → V → V → V

variable {V : Type} (F : Fns V) (c : Cfg)

/-! ### housekeeping -/

/-- `hskpng_Tpr` (housekeeping/particles_impl_hskpng_Tpr.ipp:219-305): temperature from `th`
and `rhod` (dry `th`) or from `th` and the pressure; pressure unless `const_p`; humidity,
viscosity, `dv` in 0D.  With the standard `th` and without `const_p` the temperature uses the
pressure of the previous call. -/
def tprNew (s : Sim V) : V :=
  if c.thDry || c.constP then F.tpr s.air else F.tprStd s.air s.tpr

def hskpngTpr (s : St V) : St V :=
  { s with sim := { s.sim with tpr := tprNew F c s.sim } }

/-- `hskpng_sort` (housekeeping/particles_impl_hskpng_sort.ipp:60-64 and 15-57 with
`shuffle = false`): nothing if already sorted. -/
def hskpngSort (s : St V) : St V :=
  if s.sim.sorted then s
  else { s with sim := { s.sim with order := F.sortPerm s.sim.rest, sorted := true } }

/-- `hskpng_shuffle_and_sort` (hskpng_sort.ipp:67-70): draws random numbers. -/
def hskpngShuffle (s : St V) : St V :=
  { s with sim := { s.sim with order := F.shufPerm s.sim, rest := F.shufRest s.sim, sorted := true } }

/-- `hskpng_count` (housekeeping/particles_impl_hskpng_count.ipp:16-48): sorts, then
overwrites the first `count_n` entries of `count_ijk` and `count_num`. -/
def hskpngCount (s : St V) : St V :=
  let s := hskpngSort F s
  { s with aux := { s.aux with
      keys := F.keysOf s.sim.order
      num := F.cntNum s.sim.order
      tail := F.cntTail s.sim.order s.aux.num s.aux.tail } }

/-- `moms_all, moms_rng, moms_cmp, moms_ge0, moms_gt0, moms_eq0` without `cons`
(diagnose_SD_attributes/particles_impl_moms.ipp:50-235); `i` names the criterion. -/
def momsSel (i : ℕ) (s : St V) : St V :=
  let s := hskpngSort F s
  { s with aux := { s.aux with nf := some (F.selNew i s.sim), sel := true } }

/-- `moms_rng, moms_gt0` with `cons = true` (moms.ipp:67-100,160-195): narrows the selection. -/
def momsCons (i : ℕ) (s : St V) : St V :=
  let s := hskpngSort F s
  { s with aux := { s.aux with nf := some (F.selCons i s.sim s.aux.nf), sel := true } }

/-- `moms_calc` (moms.ipp:277-398): does not sort. -/
def momsCalc (i : ℕ) (s : St V) : St V :=
  { s with aux := { s.aux with
      keys := F.keysOf s.sim.order
      mom := F.momCalc i s.sim s.aux.nf } }

/-- `n_filtered_gp.reset()` -/
def resetNf (s : St V) : St V := { s with aux := { s.aux with nf := none } }

def setRest (f : Sim V → V) (s : St V) : St V :=
  { s with sim := { s.sim with rest := f s.sim } }

def setAir (f : Sim V → V) (s : St V) : St V :=
  { s with sim := { s.sim with air := f s.sim } }

def setVt (f : Sim V → V) (s : St V) : St V :=
  { s with sim := { s.sim with vt := f s.sim } }

/-- `for (int i = 0; i < n; ++i) f(i)` -/
def loop (f : ℕ → St V → St V) : ℕ → St V → St V
  | 0, s => s
  | n + 1, s => f n (loop f n s)

/-- `if (b) f()` -/
def when_ (b : Bool) (f : St V → St V) (s : St V) : St V := if b then f s else s

/-! ### step_cond -/

/-- `save_liq_ice_content_before_change` (common/save_liq_ice_content_before_change.ipp:13-64). -/
def saveLiq (s : St V) : St V :=
  let s := hskpngSort F s
  let s := momsCalc F 0 (momsSel F 0 s)
  let s := { s with scr := { s.scr with drw := F.negScat s.sim s.aux.keys s.aux.mom } }
  if c.ice then
    let s := momsCalc F 1 (momsSel F 1 s)
    { s with scr := { s.scr with dIce := F.negScat s.sim s.aux.keys s.aux.mom } }
  else s

/-- `calc_liq_ice_content_change` (common/calc_liq_ice_content_change.ipp:13-50). -/
def calcChange (s : St V) : St V :=
  let s := momsCalc F 0 (momsSel F 0 s)
  let s := { s with scr := { s.scr with drw := F.addScat s.scr.drw s.aux.keys s.aux.mom } }
  if c.ice then
    let s := momsCalc F 1 (momsSel F 1 s)
    { s with scr := { s.scr with dIce := F.addScat s.scr.dIce s.aux.keys s.aux.mom } }
  else s

/-- `ice_nucl_melt` (ice/particles_impl_ice_nucl_melt.ipp:117-228). -/
def iceNuclMelt (o : Opts V) (s : St V) : St V :=
  let s := hskpngSort F s
  let s := momsCalc F 0 (momsSel F 2 s)
  let s := { s with scr := { s.scr with drw := F.negScat s.sim s.aux.keys s.aux.mom } }
  let s := setRest (F.freeze o) s
  let s := momsCalc F 0 (momsSel F 2 s)
  let s := { s with scr := { s.scr with drw := F.addScat s.scr.drw s.aux.keys s.aux.mom } }
  setAir (fun x => F.thFreeze x s.scr.drw) s

/-- `update_th_rv` (common/particles_impl_update_th_rv.ipp:95-200). -/
def updThRv (s : St V) : St V :=
  if c.ice then setAir (fun x => F.thrvIce x s.scr.drw s.scr.dIce) s
  else setAir (fun x => F.thrv x s.scr.drw) s

/-- `update_pstate` (common/particles_impl_update_th_rv.ipp:238-284): uses the diagnostic
arrays as scratch. -/
def updPstate (i : ℕ) (s : St V) : St V :=
  let s := { s with aux := { s.aux with keys := F.keysOf s.sim.order, mom := F.pstMom i s.sim s.scr.pp } }
  { s with sim := { s.sim with rest := F.pstate i s.sim s.aux.keys s.aux.mom } }

/-- One sub-step of per-particle condensation without adaptation
(particles_step.ipp:219-230). -/
def perParticleStep (o : Opts V) (step : ℕ) (s : St V) : St V :=
  let s := setRest (fun x => F.applyDelta x s.scr.pp) s
  let s := when_ o.turbCond (setRest F.sgs) s
  let s := { s with
      sim := { s.sim with rest := F.advance o step s.sim s.scr.pp s.scr.lam }
      scr := { s.scr with pp := F.advPp o step s.sim s.scr.pp s.scr.lam } }
  if c.mix then updPstate F 1 (updPstate F 0 s) else setRest (fun x => F.pstNoMix x s.scr.pp) s

/-- Per-particle sub-stepping, before the sub-steps (particles_step.ipp:200-208). -/
def ppHead (s : St V) : St V :=
  let s := if c.mix then s else resetNf (saveLiq F c s)
  { s with scr := { s.scr with pp := F.deltas s.sim } }

/-- Per-particle sub-steps (particles_step.ipp:210-231). -/
def ppSteps (o : Opts V) (s : St V) : St V :=
  if c.adaptive then setRest (fun x => F.adaptive o x s.scr.pp s.scr.lam) s
  else loop (perParticleStep F c o) (F.nCond s.sim.rest) s

/-- After the sub-steps (particles_step.ipp:232-235,
condensation/perparticle/apply_perparticle_cond_change_to_percell_rv_and_th.ipp:5-18). -/
def ppTail (s : St V) : St V :=
  resetNf (if c.mix then setAir F.updState s else updThRv F c (calcChange F c s))

/-- Per-particle sub-stepping (particles_step.ipp:198-236). -/
def perParticle (o : Opts V) (s : St V) : St V := ppTail F c (ppSteps F c o (ppHead F c s))

/-- `cond` (condensation/percell/particles_impl_cond.ipp:13-140).  Line 33 looks at `count_n`
of the preceding moment.  `rw_mom3` is a scratch array: when `count_n = n_cell` its old content
is all overwritten, hence `zeroFill` does not read it. -/
def condCell (o : Opts V) (step n : ℕ) (s : St V) : St V :=
  let s := hskpngSort F s
  let s := if step = 0 then { s with scr := { s.scr with rwm := F.zeroFill s.sim s.aux.keys } }
           else { s with scr := { s.scr with drw := F.negCopy s.scr.rwm } }
  let s := setRest (fun x => F.condRw o step x s.scr.lam) s
  let s := momsCalc F 0 (momsSel F 0 s)
  if step + 1 < n then
    let s := { s with scr := { s.scr with rwm := F.putMom s.scr.rwm s.aux.keys s.aux.mom } }
    { s with scr := { s.scr with drw := F.addArr s.scr.rwm s.scr.drw } }
  else { s with scr := { s.scr with drw := F.addScat s.scr.drw s.aux.keys s.aux.mom } }

/-- `ice_dep` (ice/particles_impl_ice_dep.ipp:13-140), same pattern. -/
def iceDep (o : Opts V) (step n : ℕ) (s : St V) : St V :=
  let s := hskpngSort F s
  let s := if step = 0 then { s with scr := { s.scr with iceM := F.zeroFill s.sim s.aux.keys } }
           else { s with scr := { s.scr with dIce := F.negCopy s.scr.iceM } }
  let s := setRest (fun x => F.depIce o step x s.scr.lam) s
  let s := momsCalc F 1 (momsSel F 1 s)
  if step + 1 < n then
    let s := { s with scr := { s.scr with iceM := F.putMom s.scr.iceM s.aux.keys s.aux.mom } }
    { s with scr := { s.scr with dIce := F.addArr s.scr.iceM s.scr.dIce } }
  else { s with scr := { s.scr with dIce := F.addScat s.scr.dIce s.aux.keys s.aux.mom } }

/-- One sub-step of per-cell condensation (particles_step.ipp:239-258). -/
def perCellStep (o : Opts V) (n step : ℕ) (s : St V) : St V :=
  let s := { s with sim := { s.sim with air := F.percellAir step s.sim, rest := F.percellRest step s.sim } }
  let s := when_ o.turbCond (setRest F.sgs) s
  let s := hskpngTpr F c s
  let s := if step = 0 then saveLiq F c s else s
  let s := condCell F o step n s
  let s := when_ c.ice (iceDep F o step n) s
  updThRv F c s

/-- The `if (opts.cond)` block (particles_step.ipp:188-272). -/
def condBlock (o : Opts V) (s : St V) : St V :=
  let s := hskpngSort F s
  let s := { s with scr := { s.scr with lam := F.mfp s.sim } }
  let s :=
    if c.exact && (decide (1 < F.nCond s.sim.rest) || decide (1 < F.nCondAct s.sim.rest)) then perParticle F c o s
    else loop (perCellStep F c o (F.nCond s.sim.rest)) (F.nCond s.sim.rest) s
  setRest F.sstpSave s

/-- One gas in `chem_henry` (chemistry/particles_impl_chem_henry.ipp:337-425): writes `count_ijk`
and then reads it. -/
def henryOne (o : Opts V) (i : ℕ) (s : St V) : St V :=
  let s := { s with aux := { s.aux with keys := F.keysOf s.sim.order }
                    scr := { s.scr with massOld := F.henryOld i s.sim } }
  let s := setRest (fun x => F.henryDrops o i x s.scr.chemV) s
  let s := { s with aux := { s.aux with keys := F.keysOf s.sim.order } }
  setRest (fun x => F.henryGas o i x s.aux.keys s.scr.massOld) s

/-- `chem_henry` (chemistry/particles_impl_chem_henry.ipp:305-430): six gases. -/
def chemHenry (o : Opts V) (s : St V) : St V := loop (henryOne F o) 6 (hskpngSort F s)

/-- One chemical sub-step (particles_step.ipp:279-312). -/
def chemStep (o : Opts V) (step : ℕ) (s : St V) : St V :=
  let s := { s with scr := { s.scr with chemV := F.chemAnte s.sim } }
  let s := if o.chemDsl then setRest F.chemClean (chemHenry F o (setRest (F.chemSstp step) s)) else s
  let s := if o.chemDsc then setRest F.chemClean (setRest (fun x => F.chemDissoc x s.scr.chemV) s) else s
  let s := if o.chemRct then setRest F.chemClean (setRest (fun x => F.chemReact o x s.scr.chemV) s) else s
  setRest F.chemPost s

/-- What a call answers. -/
inductive Out (V : Type) where
  | ok (v : List V)
  | threw

/-- `step_cond` (particles_step.ipp:155-335). -/
def stepCond (o : Opts V) (s : St V) : St V × Out V :=
  if !s.sim.needCond then (s, .threw)
  else if o.turbCond && !c.turbCondSw then (s, .threw)
  else
    let s := { s with sim := { s.sim with needCond := false } }
    let s := setRest (fun x => F.adjust o x.rest) s
    let s := when_ c.incloud (setRest F.incloud) s
    let s := when_ (c.ice && o.iceNucl) (iceNuclMelt F o) s
    let s := when_ o.cond (condBlock F c o) s
    -- chem_vol_ante throws when chemistry is switched off (chem_ante.ipp:70)
    if (o.chemDsl || o.chemDsc || o.chemRct) && !c.chem then (s, .threw) else
    let s := if o.chemDsl || o.chemDsc || o.chemRct then loop (chemStep F o) (F.nChem s.sim.rest) s else s
    let out := (if o.cond then [F.outAir s.sim.air] else []) ++ (if o.chemDsl then [F.outGas s.sim.rest] else [])
    ({ s with sim := { s.sim with needAsync := true }, aux := { s.aux with sel := false } }, .ok out)

/-! ### step_async -/

/-- `hskpng_vterm_all` (housekeeping/particles_impl_hskpng_vterm.ipp:265-342): every droplet
with `rw2 > 0`; with ice also those with `rw2 = 0`; without ice the latter keep what they had. -/
def vtNew (s : Sim V) : V :=
  if c.ice then F.vtIce { s with vt := F.allCells } else F.vtWater { s with vt := F.allCells } s.vt

/-- One coalescence sub-step (coalescence/particles_impl_coal.ipp:270-550 and
particles_step.ipp:385-392). -/
def coalStep (o : Opts V) (n step : ℕ) (s : St V) : St V :=
  let s := hskpngCount F (hskpngShuffle F s)
  let s := { s with aux := { s.aux with mom := F.coalScl s.aux.keys s.aux.num } }
  let s := { s with sim := { s.sim with
      rest := F.coalRest o s.sim s.aux.keys s.aux.num s.aux.mom
      vt := F.coalVt o s.sim s.aux.keys s.aux.num s.aux.mom } }
  if step + 1 = n then s else setVt F.vtInvalid s

/-- The `if (opts.coal)` block (particles_step.ipp:382-405). -/
def coalBlock (o : Opts V) (s : St V) : St V :=
  let s := loop (coalStep F o (F.nCoal s.sim.rest)) (F.nCoal s.sim.rest) s
  setRest F.rc2 (setRest F.bump s)

/-- `hskpng_turb_dot_ss` (housekeeping/particles_impl_hskpng_turb_ss.ipp:48-100). -/
def turbDotSs (s : St V) : St V :=
  let s := resetNf (momsCalc F 3 (momsSel F 0 s))
  let s := { s with aux := { s.aux with mom := F.turbMom s.sim s.aux.keys s.aux.mom } }
  { s with sim := { s.sim with rest := F.turbSs s.sim s.aux.keys s.aux.mom } }

/-- `adve` (advection/particles_impl_adve.ipp): the schemes that look up cells on the way call
`hskpng_ijk`, which clears `sorted`. -/
def adve (s : St V) : St V :=
  { s with sim := { s.sim with rest := F.adveRest s.sim, sorted := s.sim.sorted && F.adveSorted s.sim } }

/-- `src` (sources_and_relaxation_of_SDs/particles_impl_src*.ipp): uses `count_num` as scratch,
after overwriting all of it, and `sorted_id, sorted_ijk` (src_dry_distros_matching.ipp). -/
def src (o : Opts V) (s : St V) : St V :=
  { s with sim := { s.sim with rest := F.srcRest o s.sim, vt := F.srcVt o s.sim, order := F.srcOrder o s.sim },
           aux := { s.aux with num := F.srcNum o s.sim, tail := F.srcTail o s.sim } }

/-- One bin of relaxation (particles_impl_rlx_dry_distros.ipp:153-305); the moment is taken over
the droplets that were there before relaxation began. -/
def rlxBin (i : ℕ) (s : St V) : St V :=
  let s := momsCalc F 4 (momsCons F (2 * i + 1) (momsSel F (2 * i) s))
  let s := resetNf { s with aux := { s.aux with keys := F.rlxKeys i s.sim } }
  { s with sim := { s.sim with
      rest := F.rlxRest i s.sim s.aux.keys s.aux.mom
      vt := F.rlxVt i s.sim s.aux.keys s.aux.mom
      order := F.rlxOrder i s.sim s.aux.keys s.aux.mom },
           aux := { s.aux with num := F.rlxNum i s.sim s.aux.keys s.aux.mom, tail := F.rlxTail i s.sim s.aux.keys s.aux.mom } }

/-- `rlx` (particles_impl_rlx_dry_distros.ipp:85-312, particles_step.ipp:454-464). -/
def rlx (s : St V) : St V :=
  if F.rlxDue s.sim.rest then
    let s := loop (rlxBin F) (F.rlxBins s.sim.rest) s
    { s with sim := { s.sim with sorted := false } }
  else s

/-- `mpi_exchange` (distributed_memory/particles_impl_mpi_exchange.ipp). -/
def mpi (s : St V) : St V :=
  { s with sim := { s.sim with
      rest := F.mpiRest s.sim, vt := F.mpiVt s.sim, order := F.mpiOrder s.sim
      sorted := s.sim.sorted && F.mpiSorted s.sim } }

/-- `post_copy` (distributed_memory/particles_impl_post_copy.ipp:16-36): recycling or removal,
`hskpng_ijk`, `hskpng_count`. -/
def postCopy (o : Opts V) (s : St V) : St V :=
  let s := { s with sim := { s.sim with rest := F.dropRest o s.sim, vt := F.dropVt o s.sim, order := F.dropOrder o s.sim } }
  let s := { s with sim := { s.sim with rest := F.ijk s.sim, sorted := false } }
  hskpngCount F s

/-- The checks at the head of `step_async` (particles_step.ipp:349-360). -/
def asyncRefused (o : Opts V) : Bool :=
  ((o.chemDsl || o.chemDsc || o.chemRct) && !c.chem) || (o.coal && !c.coalSw) || (o.sedi && !c.sediSw)
    || (o.subs && !c.subsSw) || (o.turbAdve && !c.turbAdveSw) || (o.turbAdve && c.zeroDim)

/-- The source runs (particles_step.ipp:441). -/
def srcRuns (o : Opts V) : Bool := o.src && !c.srcNowhere

/-- `step_async` up to the source (particles_step.ipp:362-439). -/
def asyncHead (o : Opts V) (s : St V) : St V :=
  let s := resetNf s
  let s := setRest (fun x => F.adjust o x.rest) s
  let s := when_ o.chemDsl (setRest (fun x => F.saveChem x.rest)) s
  let s := hskpngTpr F c s
  let s := when_ (o.sedi || o.coal || o.cond) (setVt (vtNew F c)) s
  let s := when_ o.coal (coalBlock F o) s
  let s := when_ (o.turbAdve || o.turbCond) (setRest F.tke) s
  let s := when_ (o.turbAdve || o.turbCond) (setRest (F.turbVel o)) s
  let s := when_ o.turbCond (turbDotSs F) s
  let s := when_ o.adve (adve F) s
  let s := setRest F.scheme s
  let s := when_ o.turbAdve (setRest F.turbAdve) s
  let s := when_ o.sedi (setRest F.sedi) s
  when_ o.subs (setRest F.subs) s

/-- `step_async` after relaxation (particles_step.ipp:466-493). -/
def asyncTail (o : Opts V) (s : St V) : St V :=
  let s := setRest (F.counters o) s
  let s := setRest F.bcndRest s
  let s := when_ (o.adve || o.turbAdve) (mpi F) s
  let s := postCopy F o s
  { s with aux := { s.aux with sel := false } }

/-- `step_async` (particles_step.ipp:337-494), single device. -/
def stepAsync (o : Opts V) (s : St V) : St V × Out V :=
  if !s.sim.needAsync then (s, .threw)
  else
    let s := { s with sim := { s.sim with needAsync := false } }
    if asyncRefused c o then (s, .threw)
    else
      let s := asyncHead F c o s
      if srcRuns c o && c.srcOff then (s, .threw)
      else
        let s := when_ (srcRuns c o) (src F o) s
        if o.rlx && !c.rlxSw then (s, .threw)
        else
          let s := when_ o.rlx (rlx F) s
          (asyncTail F o s, .ok [])

/-! ### init and sync_in -/

/-- `init` (particles_init.ipp:52-131) with the user's arrays `x`: the state left by an object
whose arrays held `g` before.  `hskpng_vterm_invalid` and `init_hskpng_ncell` are part of
`initVt` and `initSd`. -/
def init (x : V) (g : St V) : St V :=
  let s := { g with sim := { g.sim with
      air := F.initAir x, rest := F.initRest x, tpr := F.initTpr x, sorted := false
      needCond := false, needAsync := false }
                    aux := { g.aux with nf := none, sel := false } }
  let s := hskpngTpr F c s
  let s := { s with sim := { s.sim with rest := F.initSd { s.sim with vt := F.allCells, order := F.allCells } } }
  let s := { s with sim := { s.sim with order := F.initOrder { s.sim with vt := F.allCells, order := F.allCells } } }
  let s := { s with sim := { s.sim with vt := F.initVt { s.sim with vt := F.allCells } } }
  let s := setRest F.initSave s
  hskpngCount F s


/-- `sync_in` (particles_step.ipp:31-152) with the user's arrays `x`; `bad` says that a check of
the arguments fails. -/
def syncIn (bad : Bool) (x : V) (s : St V) : St V × Out V :=
  if s.sim.needAsync || bad then (s, .threw)
  else
    let s := resetNf s
    ({ s with sim := { s.sim with
        air := F.syncAir x s.sim.air, rest := F.syncRest x s.sim.rest, needCond := true } }, .ok [])

/-! ### diagnostics -/

/-- The diagnostic calls (particles_diag.ipp, particles_ctor.ipp:82-99). -/
inductive Diag where
  /-- `diag_pressure, diag_temperature, diag_RH` -/
  | tpr (k : ℕ)
  | sdConc
  /-- `diag_all, diag_dry_rng, diag_wet_rng, diag_kappa_rng, diag_water, diag_RH_ge_Sc,
  diag_rw_ge_rc` -/
  | sel (k : ℕ)
  /-- `diag_ice, diag_ice_a_rng, diag_ice_c_rng` -/
  | selIce (k : ℕ)
  /-- the `_cons` selections -/
  | cons (k : ℕ)
  | consIce (k : ℕ)
  /-- `diag_dry_mom, diag_wet_mom, diag_kappa_mom, diag_up_mom, ..., diag_incloud_time_mom` -/
  | mom (k : ℕ)
  /-- `diag_ice_a_mom, diag_ice_c_mom, diag_ice_mix_ratio` -/
  | momIce (k : ℕ)
  | chem (k : ℕ)
  | massDens (k : ℕ)
  | velDiv
  | precip
  | precipIce
  | maxRw
  | puddle
  | attr (k : ℕ)
  | outbuf

def guard_ (b : Bool) (f : St V → St V) (s : St V) : St V × Out V :=
  if b then (f s, .ok []) else (s, .threw)

/-- A diagnostic call. -/
def diag : Diag → St V → St V × Out V
  -- particles_diag.ipp:140-186
  | .tpr k, s =>
    let s := hskpngTpr F c s
    ({ s with aux := { s.aux with mom := F.diagTpr k s.sim.tpr, keys := F.allCells } }, .ok [])
  -- particles_diag.ipp:189-216
  | .sdConc, s =>
    let nf := s.aux.nf
    let s := hskpngSort F s
    ({ s with aux := { s.aux with mom := F.sdConc s.sim nf, keys := F.keysOf s.sim.order } }, .ok [])
  -- particles_diag.ipp:219-408
  | .sel k, s => (momsSel F k s, .ok [])
  | .selIce k, s => guard_ c.ice (momsSel F k) s
  | .cons k, s => (momsCons F k s, .ok [])
  | .consIce k, s => guard_ c.ice (momsCons F k) s
  -- particles_diag.ipp:411-494
  | .mom k, s => (momsCalc F k s, .ok [])
  | .momIce k, s => guard_ c.ice (momsCalc F k) s
  -- particles_diag.ipp:643-649
  | .chem k, s => guard_ c.chem (momsCalc F k) s
  -- particles_diag.ipp:497-501, particles_impl_mass_dens.ipp:31-112
  | .massDens k, s =>
    let nf := s.aux.nf
    let s := hskpngCount F s
    ({ s with aux := { s.aux with
        mom := F.massDens k s.sim nf s.aux.num s.aux.tail, keys := F.keysOf s.sim.order } }, .ok [])
  -- particles_diag.ipp:504-562
  | .velDiv, s =>
    if c.zeroDim then (s, .ok [])
    else ({ s with aux := { s.aux with mom := F.velDiv s.sim, keys := F.allCells } }, .ok [])
  -- particles_diag.ipp:565-590: velocities are recomputed, used and left recomputed
  | .precip, s =>
    let s := setVt (vtNew F c) s
    ({ s with aux := { s.aux with mom := F.precip s.sim s.aux.nf, keys := F.keysOf s.sim.order } }, .ok [])
  -- particles_diag.ipp:593-608
  | .precipIce, s => guard_ c.ice (fun s =>
      let s := momsSel F 0 (setVt (vtNew F c) s)
      { s with aux := { s.aux with mom := F.precipIce s.sim s.aux.nf, keys := F.keysOf s.sim.order } }) s
  -- particles_diag.ipp:611-641
  | .maxRw, s =>
    let s := hskpngSort F s
    ({ s with aux := { s.aux with mom := F.maxRw s.sim, keys := F.keysOf s.sim.order } }, .ok [])
  -- particles_diag.ipp:652-656
  | .puddle, s => (s, .ok [F.puddle s.sim.rest])
  -- particles_ctor.ipp:95-99
  | .attr k, s => (s, .ok [F.attr k s.sim.rest])
  -- particles_ctor.ipp:82-92
  | .outbuf, s =>
    let v := F.outbuf s.aux.keys s.aux.mom
    (hskpngCount F s, .ok [v])

/-! ### histories -/

inductive Call (V : Type) where
  | syncIn (bad : Bool) (x : V)
  | stepCond (o : Opts V)
  | stepAsync (o : Opts V)
  | diag (d : Diag)

def exec : Call V → St V → St V × Out V
  | .syncIn b x, s => syncIn F b x s
  | .stepCond o, s => stepCond F c o s
  | .stepAsync o, s => stepAsync F c o s
  | .diag d, s => diag F c d s

/-- A history of calls: the state at its end and what each call answered. -/
def run : List (Call V) → St V → St V × List (Out V)
  | [], s => (s, [])
  | k :: ks, s =>
    let r := exec F c k s
    let q := run ks r.1
    (q.1, r.2 :: q.2)

end LCP.Skel
