import Verif.Sanity.Model

/-!
# Model: which optional arrays are allocated, and which elements of them each API call touches

Source: the constructor of src/impl/particles_impl.ipp, src/impl/initialization/particles_impl_init_sync.ipp, particles_impl_init_hskpng_ncell.ipp, particles_impl_init_chem.ipp,
src/impl/housekeeping/particles_impl_hskpng_resize.ipp for the allocation; src/particles_init.ipp, src/particles_step.ipp and the files of the processes they call for the accesses.
`opts_init_t` and the checks made by `init` are those of `Verif/Sanity/Model.lean`. Not modelled: the arrays of Courant numbers (C45), the pools of temporary arrays (C87, C88) and the
arrays that do not depend on options. Array accesses are recorded as "the first k elements of array a are touched".
-/
namespace LCP.Arrays
open LCP.Sanity

/-- the arrays whose existence depends on options (members of `impl`, src/impl/particles_impl.ipp:60-180) -/
inductive Arr where
  | x | y | z | up | vp | wp | ssp | dotSsp | incloud | rd2Insol | iceA | iceC | iceRho | tFreeze | rc2
  | tmpRv | tmpTh | tmpRh | tmpP | dissRate | ambChem | rhI | tmpChem | chemPtr | chem | mixLen | wLS
  deriving DecidableEq

/-- `opts_init` with the members not needed for the checks: `turb_coal_switch`, `time_dep_ice_nucl`, `diag_incloud_time`, `no_ccn_at_init`, `periodic_topbot_walls`, `sstp_chem`, `sstp_coal`
(include/libcloudph++/lgrngn/opts_init.hpp:60-220) -/
structure Conf where
  o : Opts
  turbCoal : Bool := false
  timeDepIce : Bool := false
  incloudTime : Bool := false
  noCcn : Bool := false
  periodicTopBot : Bool := false
  sstpChem : ℤ := 1
  sstpCoal : ℤ := 1

/-- the run-time options (include/libcloudph++/lgrngn/opts.hpp:20-60); defaults as there -/
structure Opt where
  adve : Bool := true
  sedi : Bool := true
  subs : Bool := false
  cond : Bool := true
  coal : Bool := true
  rcyc : Bool := false
  turbAdve : Bool := false
  turbCond : Bool := false
  turbCoal : Bool := false
  iceNucl : Bool := false
  dsl : Bool := false
  dsc : Bool := false
  rct : Bool := false

/-- population and the numbers of substeps in force: number of super-droplets, the largest index of an occupied cell, the largest index of a cell with two super-droplets that meet in
coalescence, `sstp_cond`, `sstp_cond_act`, `sstp_chem`, `sstp_coal`, and whether the density was passed (`var_rho`) -/
structure Pop where
  nPart : ℕ
  cell : Option ℕ
  pair : Option ℕ
  sc : ℤ
  sAct : ℤ
  sChem : ℤ
  sCoal : ℤ
  varRho : Bool

/-- `n_cell` (particles_impl.ipp:341-345) -/
def nCell (c : Conf) : ℕ := (m1 c.o.nx * m1 c.o.ny * m1 c.o.nz).toNat

/-- `allow_sstp_cond` (particles_impl.ipp:376) -/
def allowCond (c : Conf) : Bool := decide (1 < c.o.sstpCond) || decide (1 < c.o.sstpCondAct)
/-- `allow_sstp_chem` (particles_impl.ipp:377) -/
def allowChem (c : Conf) : Bool := decide (1 < c.sstpChem)

/-- `k` if the condition holds, else an empty vector -/
def iff_ (b : Bool) (k : ℕ) : ℕ := if b then k else 0

/-- lengths of the arrays with `np` super-droplets (particles_impl.ipp:440-497 and hskpng_resize.ipp:13-24 for those in `distmem_real_vctrs`; init_sync.ipp:18-25; init_hskpng_ncell.ipp:17-37;
init_chem.ipp:144-148, called from init_SD_with_distros.ipp:72 and init_SD_with_sizes.ipp:68, i.e. not with no_ccn_at_init (particles_init.ipp:96-103), and re-done when super-droplets are
removed (hskpng_remove.ipp:71), which changes `n_part` only; sstp_chem.ipp:41-46, called from the same two places; particles_impl.ipp:372-373) -/
def size (c : Conf) (np : ℕ) : Arr → ℕ
  | .x => iff_ (decide (c.o.nx ≠ 0)) np
  | .y => iff_ (decide (c.o.ny ≠ 0)) np
  | .z => iff_ (decide (c.o.nz ≠ 0)) np
  | .up => iff_ (c.o.turbAdve && decide (c.o.nx ≠ 0)) np
  | .vp => iff_ (c.o.turbAdve && decide (c.o.ny ≠ 0)) np
  | .wp => iff_ (c.o.turbAdve && decide (c.o.nz ≠ 0) || c.o.turbCond) np
  | .ssp => iff_ c.o.turbCond np
  | .dotSsp => iff_ c.o.turbCond np
  | .incloud => iff_ c.incloudTime np
  | .rd2Insol => iff_ c.o.ice np
  | .iceA => iff_ c.o.ice np
  | .iceC => iff_ c.o.ice np
  | .iceRho => iff_ c.o.ice np
  | .tFreeze => iff_ (c.o.ice && !c.timeDepIce) np
  | .rc2 => iff_ (decide (1 < c.o.sstpCondAct) && allowCond c) np
  | .tmpRv => if allowCond c then (if c.o.exact then np else nCell c) else 0
  | .tmpTh => if allowCond c then (if c.o.exact then np else nCell c) else 0
  | .tmpRh => if allowCond c then (if c.o.exact then np else nCell c) else 0
  | .tmpP => iff_ (allowCond c && c.o.exact && c.o.constP) np
  | .dissRate => iff_ (c.o.turbCond || c.o.turbAdve || c.turbCoal) (nCell c)
  | .ambChem => iff_ c.o.chem (nCell c)
  | .rhI => iff_ c.o.ice (nCell c)
  | .tmpChem => iff_ (c.o.chem && !c.noCcn && decide (0 < c.o.nDistros + c.o.nSizes) && allowChem c) (nCell c)
  | .chemPtr => iff_ (c.o.chem && !c.noCcn && decide (0 < c.o.nDistros + c.o.nSizes)) 8
  | .chem => iff_ (c.o.chem && !c.noCcn && decide (0 < c.o.nDistros + c.o.nSizes)) np
  | .mixLen => c.o.mixLen.length
  | .wLS => c.o.wLS.length

/-- one access: the first `k` elements of an array are read or written, or an integer is divided by `d` -/
inductive Acc where
  | use (a : Arr) (k : ℕ)
  | mod (d : ℤ)

/-- accesses made if a condition holds -/
def when_ (b : Bool) (l : List Acc) : List Acc := if b then l else []
/-- the first `k` elements of each of the arrays -/
def all_ (l : List Arr) (k : ℕ) : List Acc := l.map fun a => .use a k
/-- an access at the index of a cell, if there is such a cell -/
def at_ (a : Arr) : Option ℕ → List Acc
  | none => []
  | some i => [.use a (i + 1)]

/-- hskpng_Tpr.ipp:272-285: RH_i for all cells -/
def tpr (c : Conf) : List Acc := when_ c.o.ice [.use .rhI (nCell c)]
/-- hskpng_vterm.ipp:238-262, 318-342: the ice attributes of every super-droplet -/
def vterm (c : Conf) (np : ℕ) : List Acc := when_ c.o.ice (all_ [.iceA, .iceC, .iceRho] np)
/-- hskpng_approximate_rc2_invalid (hskpng_rc2.ipp:14-31) -/
def rc2Invalid (c : Conf) (s : Pop) : List Acc :=
  if s.sAct = 1 ∨ allowCond c = false then [] else [.use .rc2 s.nPart]
/-- sstp_save.ipp:7-30 -/
def sstpSave (c : Conf) (np : ℕ) : List Acc :=
  when_ (allowCond c) (all_ [.tmpRv, .tmpTh, .tmpRh] (if c.o.exact then np else nCell c) ++
    when_ (c.o.constP && c.o.exact) (all_ [.tmpP] (if c.o.exact then np else nCell c)))
/-- the same variables of new super-droplets: init_perparticle_sstp.ipp:7-30 -/
def initPerPart (c : Conf) (np : ℕ) : List Acc :=
  when_ (allowCond c && c.o.exact) (all_ [.tmpRv, .tmpTh, .tmpRh] np ++ when_ c.o.constP (all_ [.tmpP] np))

/-- the attributes of new super-droplets (init_xyz.ipp:38-75, init_SD_with_distros.ipp:30-95, init_SD_with_sizes.ipp:40-95, src_dry_sizes.ipp:45-97, src_dry_distros_simple.ipp:55-72,
particles_init.ipp:104) -/
def newSd (c : Conf) (np : ℕ) : List Acc :=
  when_ (decide (c.o.nx ≠ 0)) (all_ [.x] np) ++ when_ (decide (c.o.ny ≠ 0)) (all_ [.y] np) ++ when_ (decide (c.o.nz ≠ 0)) (all_ [.z] np) ++
  when_ c.o.ice (all_ [.rd2Insol, .iceA, .iceC, .iceRho] np ++ when_ (!c.timeDepIce) (all_ [.tFreeze] np)) ++
  when_ c.incloudTime (all_ [.incloud] np)

/-- `init` (particles_init.ipp:27-131) after the checks -/
def init (c : Conf) (s : Pop) : List Acc :=
  when_ c.o.chem [.use .ambChem (nCell c)] ++ tpr c ++
  when_ (!c.noCcn) (newSd c s.nPart ++ initPerPart c s.nPart ++
    when_ (c.o.chem && decide (0 < c.o.nDistros + c.o.nSizes))
      ([.use .chemPtr 8, .use .chem s.nPart] ++ when_ (allowChem c) [.use .tmpChem (nCell c), .use .ambChem (nCell c)])) ++
  vterm c s.nPart ++ rc2Invalid c s ++ sstpSave c s.nPart

/-- `sync_in` (particles_step.ipp:31-170); the checks reject a dissipation rate without a turbulence switch, a switch without a dissipation rate, and likewise for trace gases (69-79) -/
def syncIn (c : Conf) (diss : Bool) (gases : Bool) : Option (List Acc) :=
  if c.o.chem ≠ gases ∨ (c.o.turbCond || c.o.turbAdve || c.turbCoal) ≠ diss then none
  else some (when_ diss [.use .dissRate (nCell c)] ++ when_ c.o.chem [.use .ambChem (nCell c)])

/-- apply_perparticle_sgs_supersat.ipp:9-16 loops over `ssp`; the result is then used for every super-droplet (particles_impl_cond.ipp:63-83, cond_perparticle_advance_rw2.ipp:60-110,
perparticle_nomixing_adaptive_sstp_cond.ipp:66, 74) -/
def sgs (c : Conf) (np : ℕ) : List Acc := [.use .dotSsp (size c np .ssp), .use .ssp np]

/-- condensation in `step_cond` (particles_step.ipp:187-263) -/
def condAcc (c : Conf) (o : Opt) (s : Pop) : List Acc :=
  (if c.o.exact = true ∧ (1 < s.sc ∨ 1 < s.sAct) then
    all_ [.tmpRv, .tmpTh, .tmpRh] s.nPart ++ when_ c.o.constP (all_ [.tmpP] s.nPart) ++
    when_ (!c.o.mix && c.o.ice) (all_ [.iceA, .iceC, .iceRho] s.nPart) ++
    when_ o.turbCond (sgs c s.nPart) ++
    when_ (c.o.adaptive && decide (1 < s.sAct)) (all_ [.rc2] s.nPart)
  else if s.sc ≤ 0 then []
  else
    (if s.sc = 1 then [] else all_ [.tmpRv, .tmpTh] (nCell c) ++ when_ s.varRho (all_ [.tmpRh] (nCell c))) ++
    when_ o.turbCond (sgs c s.nPart) ++ tpr c ++
    when_ c.o.ice (all_ [.iceA, .iceC, .iceRho] s.nPart ++ [.use .rhI (nCell c)])) ++
  sstpSave c s.nPart

/-- chemistry in `step_cond` (particles_step.ipp:268-311) with sstp_percell_step_chem (sstp_chem.ipp:52-101), chem_henry.ipp:300-405, chem_dissoc.ipp:165-192, chem_react.ipp:260-322,
chem_cleanup (chem_ante.ipp:47-58) -/
def chemAcc (c : Conf) (o : Opt) (s : Pop) : List Acc :=
  if s.sChem ≤ 0 then [] else
    when_ o.dsl (when_ (allowChem c) [.use .ambChem (nCell c), .use .tmpChem (nCell c)] ++ [.use .ambChem (nCell c)]) ++
    [.use .chemPtr 8, .use .chem s.nPart]

/-- `step_cond` (particles_step.ipp:150-335): `none` = throws -/
def stepCond (c : Conf) (o : Opt) (s : Pop) : Option (List Acc) :=
  if (o.turbCond && !c.o.turbCond) = true then none
  else if ((o.dsl || o.dsc || o.rct) && !c.o.chem) = true then none
  else some (
    when_ c.incloudTime (all_ [.incloud] s.nPart) ++
    when_ (c.o.ice && o.iceNucl) (all_ [.iceA, .iceC, .iceRho] s.nPart ++ (if c.timeDepIce then all_ [.rd2Insol] s.nPart else all_ [.tFreeze] s.nPart)) ++
    when_ o.cond (condAcc c o s) ++
    when_ (o.dsl || o.dsc || o.rct) (chemAcc c o s) ++
    when_ o.dsl [.use .ambChem (nCell c)])

/-- coalescence (coal.ipp:392-416 the dissipation rate of the cell of a pair, 459-479 dissolved chemicals, 507-520 time in cloud, 528-545 critical radii) -/
def coalAcc (c : Conf) (o : Opt) (s : Pop) : List Acc :=
  (if s.sCoal ≤ 0 then [] else
    when_ o.turbCoal (at_ .dissRate s.pair) ++
    when_ c.o.chem [.use .chemPtr 8, .use .chem s.nPart] ++
    when_ c.incloudTime (all_ [.incloud] s.nPart) ++
    when_ (decide (1 < c.o.sstpCondAct) && allowCond c) (all_ [.rc2] s.nPart)) ++
  rc2Invalid c s

/-- the profile of mixing lengths at `ix % nz` for every element of `diss_rate` (hskpng_tke.ipp:36-44, hskpng_turb_vel.ipp:58-69) -/
def mixAcc (c : Conf) (np : ℕ) : List Acc :=
  if size c np .dissRate = 0 then [] else [.mod c.o.nz, .use .mixLen (min (size c np .dissRate) c.o.nz.toNat)]

/-- the order of the velocity components: `{&up, &wp, &vp}` (hskpng_turb_vel.ipp:73, turb_adve.ipp:19) -/
def velList : List Arr := [.up, .wp, .vp]
/-- the order of the coordinates: `{&x, &z, &y}` (turb_adve.ipp:16) -/
def posList : List Arr := [.x, .z, .y]

/-- hskpng_turb_vel (hskpng_turb_vel.ipp:52-95): the first `n_dims` components, or only the second -/
def turbVel (c : Conf) (s : Pop) (onlyVertical : Bool) : List Acc :=
  mixAcc c s.nPart ++
  (if onlyVertical then all_ [.wp] s.nPart else all_ (velList.take (nDims c.o).toNat) s.nPart) ++
  (if onlyVertical = true ∨ 0 < nDims c.o then at_ .dissRate s.cell else [])

/-- turb_adve (turb_adve.ipp:14-35): loops over each coordinate array -/
def turbAdveAcc (c : Conf) (np : ℕ) : List Acc :=
  ((posList.zip velList).take (nDims c.o).toNat).map fun q => .use q.2 (size c np q.1)

/-- bcnd (bcnd.ipp:114-366) in a run without distributed memory -/
def bcnd (c : Conf) (np : ℕ) : List Acc :=
  when_ (decide (1 < nDims c.o) && !c.periodicTopBot)
    (all_ [.z] np ++ when_ c.o.ice (all_ [.iceA, .iceC, .iceRho] np) ++ when_ c.o.chem [.use .chemPtr 8, .use .chem np])

/-- `step_async` (particles_step.ipp:337-500) without sources and relaxation: `none` = throws (347-364) -/
def stepAsync (c : Conf) (o : Opt) (s : Pop) : Option (List Acc) :=
  if ((o.dsl || o.dsc || o.rct) && !c.o.chem || o.coal && !c.o.coal || o.sedi && !c.o.sedi || o.subs && !c.o.subs || o.turbAdve && !c.o.turbAdve || o.turbAdve && decide (nDims c.o = 0)) = true then none
  else some (
    when_ (o.dsl && allowChem c) [.use .ambChem (nCell c), .use .tmpChem (nCell c)] ++
    tpr c ++ when_ (o.sedi || o.coal || o.cond) (vterm c s.nPart) ++
    when_ o.coal (coalAcc c o s) ++
    when_ (o.turbAdve || o.turbCond) (mixAcc c s.nPart) ++
    (if o.turbAdve then turbVel c s false else when_ o.turbCond (turbVel c s true)) ++
    when_ o.turbCond (all_ [.ssp, .wp, .dotSsp] s.nPart) ++
    when_ o.turbAdve (turbAdveAcc c s.nPart) ++
    when_ (o.subs && decide (0 < size c s.nPart .z)) [.use .wLS c.o.nz.toNat] ++
    bcnd c s.nPart ++
    -- post_copy.ipp:18-38: recycling (rcyc.ipp:104-107) or removal (hskpng_remove.ipp:25-46, 71-72)
    when_ c.o.chem [.use .chemPtr 8, .use .chem s.nPart])

/-- sources and relaxation add super-droplets (src.ipp, rlx.ipp): the attributes of the new ones, with the new number; the ice content, the terminal velocities and the substepping variables
(post_adding_SD.ipp:13-45) -/
def addSd (c : Conf) (np : ℕ) : List Acc :=
  newSd c np ++ when_ c.o.ice (all_ [.iceA, .iceC, .iceRho] np) ++ vterm c np ++ initPerPart c np

/-- the access stays within the array, the divisor is not zero -/
def Ok (c : Conf) (np : ℕ) : Acc → Prop
  | .use a k => k ≤ size c np a
  | .mod d => d ≠ 0

end LCP.Arrays
