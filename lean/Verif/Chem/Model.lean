import Verif.Cond.PerCell
import Verif.Toms.Model

/-!
# Model of aqueous chemistry

Sources: include/libcloudph++/common/{chem,molar_mass,henry,dissoc,react}.hpp, src/impl/chemistry/*.ipp, src/particles_step.ipp:269-310,
319-328, 367-372, src/impl/initialization/particles_impl_init_chem.ipp.  Units are dropped (everything is SI).
-/
namespace LCP.Chem
open LCP.Common

/-- chem_species_t (chem.hpp:9-17) -/
inductive Sp where
  | HNO3 | NH3 | CO2 | SO2 | H2O2 | O3 | S_VI | H
  deriving DecidableEq, Repr

/-- species which are also trace gases: index below chem_gas_n (chem.hpp:11, 18) -/
def gases : List Sp := [.HNO3, .NH3, .CO2, .SO2, .H2O2, .O3]

/-- all species in the order of the enumeration, index below chem_all (chem.hpp:11-21) -/
def species : List Sp := [.HNO3, .NH3, .CO2, .SO2, .H2O2, .O3, .S_VI, .H]

/-- species in the vector integrated by odeint: index in `[chem_rhs_beg, chem_rhs_fin)` (chem.hpp:19-20) -/
def inRhs : Sp → Bool
  | .SO2 | .H2O2 | .O3 | .S_VI => true
  | _ => false

/-! ### molar masses (molar_mass.hpp:14-47); M_H and M_OH are in `Common` -/
noncomputable def M_SO2 : ℝ := 64 * 1e-3
noncomputable def M_H2O2 : ℝ := 34 * 1e-3
noncomputable def M_O3 : ℝ := 48 * 1e-3
noncomputable def M_NH3 : ℝ := 17 * 1e-3
noncomputable def M_HNO3 : ℝ := 63 * 1e-3
noncomputable def M_CO2 : ℝ := 44 * 1e-3
noncomputable def M_SO2_H2O : ℝ := 82 * 1e-3
noncomputable def M_NH3_H2O : ℝ := 35 * 1e-3
noncomputable def M_NH4 : ℝ := 18 * 1e-3
noncomputable def M_CO2_H2O : ℝ := 62 * 1e-3
noncomputable def M_H2SO4 : ℝ := 98 * 1e-3
noncomputable def M_HSO4 : ℝ := 97 * 1e-3

/-- standard pressure (earth.hpp:19) -/
noncomputable def p_stp : ℝ := 101325

/-- Henry constants at 298 K (henry.hpp:29-34), in the array H_ (chem_henry.ipp:258-265) -/
noncomputable def Hc : Sp → ℝ
  | .HNO3 => 2.1 * 1e5 * 1e3 / p_stp
  | .NH3 => 62 * 1e3 / p_stp
  | .CO2 => 3.4 * 1e-2 * 1e3 / p_stp
  | .SO2 => 1.23 * 1e3 / p_stp
  | .H2O2 => 7.45e4 * 1e3 / p_stp
  | .O3 => 1.13 * 1e-2 * 1e3 / p_stp
  | _ => 0

/-- their temperature coefficients (henry.hpp:37-42; dHR_, chem_henry.ipp:267-274) -/
noncomputable def dHR : Sp → ℝ
  | .HNO3 => 8700
  | .NH3 => 4100
  | .CO2 => 2440
  | .SO2 => 3150
  | .H2O2 => 7300
  | .O3 => 2540
  | _ => 0

/-- molar masses of gases (M_gas_, chem_henry.ipp:276-283) -/
noncomputable def Mgas : Sp → ℝ
  | .HNO3 => M_HNO3
  | .NH3 => M_NH3
  | .CO2 => M_CO2
  | .SO2 => M_SO2
  | .H2O2 => M_H2O2
  | .O3 => M_O3
  | _ => 0

/-- molar masses of dissolved species (M_aq_, chem_henry.ipp:285-292) -/
noncomputable def Maq : Sp → ℝ
  | .HNO3 => M_HNO3
  | .NH3 => M_NH3_H2O
  | .CO2 => M_CO2_H2O
  | .SO2 => M_SO2_H2O
  | .H2O2 => M_H2O2
  | .O3 => M_O3
  | _ => 0

/-- diffusivities (henry.hpp:52-57; D_, chem_henry.ipp:294-301) -/
noncomputable def Dg : Sp → ℝ
  | .HNO3 => 0.6525 * 1e-4
  | .NH3 => 0.1978 * 1e-4
  | .CO2 => 0.1381 * 1e-4
  | .SO2 => 0.1089 * 1e-4
  | .H2O2 => 0.8700 * 1e-4
  | .O3 => 0.1444 * 1e-4
  | _ => 0

/-- accommodation coefficients (henry.hpp:60-65; ac_, chem_henry.ipp:303-310) -/
noncomputable def acc : Sp → ℝ
  | .HNO3 => 0.05
  | .NH3 => 0.05
  | .CO2 => 0.05
  | .SO2 => 0.035
  | .H2O2 => 0.018
  | .O3 => 0.00053
  | _ => 0

/-- correction for temperature: H_temp (henry.hpp:116-126), K_temp (dissoc.hpp:51-60), R_temp_H2O2, R_temp_O3 (react.hpp:48-67) -/
noncomputable def atT (T k dR : ℝ) : ℝ := k * Real.exp (dR * (1 / T - 1 / 298))

/-! ### dissociation constants (dissoc.hpp:20-48) -/
noncomputable def K_H2O : ℝ := 1e-14 * 1e6
noncomputable def KtSO2 (T : ℝ) : ℝ := atT T (1.3e-2 * 1e3) 1960
noncomputable def KtHSO3 (T : ℝ) : ℝ := atT T (6.6e-8 * 1e3) 1500
noncomputable def KtHSO4 (T : ℝ) : ℝ := atT T (1.2e-2 * 1e3) 2720
noncomputable def KtCO2 (T : ℝ) : ℝ := atT T (4.3e-7 * 1e3) (-1000)
noncomputable def KtHCO3 (T : ℝ) : ℝ := atT T (4.68e-11 * 1e3) (-1760)
noncomputable def KtNH3 (T : ℝ) : ℝ := atT T (1.7e-5 * 1e3) (-450)
noncomputable def KtHNO3 (T : ℝ) : ℝ := atT T (15.4 * 1e3) 8700

/-- molec_vel (henry.hpp:70-92) -/
noncomputable def molecVel (T M : ℝ) : ℝ := Real.sqrt (8 / Real.pi * (kaBoNA * T / M))

/-- mass_trans (henry.hpp:96-113) -/
noncomputable def massTrans (rw2 D a T M : ℝ) : ℝ := 1 / (rw2 / 3 / D + 4 / 3 / a * Real.sqrt rw2 / molecVel T M)

/-! ### volume and flag -/

/-- chem_vol_fun (chem_ante.ipp:15-31) -/
noncomputable def dropVol (rw2 : ℝ) : ℝ := 4 / 3 * Real.pi * rw2 ^ (3 / 2 : ℝ)

/-- masses of species in one droplet -/
abbrev Masses := Sp → ℝ

/-- the ionic strength computed by set_chem_flag (chem_strength.ipp:21-64) -/
noncomputable def ionStrength (m : Masses) (V T : ℝ) : ℝ :=
  let cSIV := m .SO2 / M_SO2_H2O / V
  let cCIV := m .CO2 / M_CO2_H2O / V
  let cNV := m .HNO3 / M_HNO3 / V
  let cNIII := m .NH3 / M_NH3_H2O / V
  let cSVI := m .S_VI / M_H2SO4 / V
  let h := m .H / M_H / V
  0.5 * (h + K_H2O / h + h * cSVI / (h + KtHSO4 T) + 4 * KtHSO4 T * cSVI / (h + KtHSO4 T)
    + KtCO2 T * h * cCIV / (h * h + KtCO2 T * h + KtCO2 T * KtHCO3 T) + 4 * KtCO2 T * KtHCO3 T * cCIV / (h * h + KtCO2 T * h + KtCO2 T * KtHCO3 T)
    + KtSO2 T * h * cSIV / (h * h + KtSO2 T * h + KtSO2 T * KtHSO3 T) + 4 * KtSO2 T * KtHSO3 T * cSIV / (h * h + KtSO2 T * h + KtSO2 T * KtHSO3 T)
    + KtHNO3 T * cNV / (h + KtHNO3 T) + KtNH3 T * h * cNIII / (K_H2O + KtNH3 T * h))

open Classical in
/-- set_chem_flag (chem_strength.ipp:17-67).  Without H⁺ the term `K_H2O / conc_H` is infinite and without volume the concentrations are infinite or not a
number: the comparison is false (the model's division by zero gives zero, hence the two extra conditions) -/
noncomputable def setFlag (m : Masses) (V T : ℝ) : Bool := decide (m .H ≠ 0 ∧ V ≠ 0 ∧ ionStrength m V T < 0.02 * 1000)

/-! ### Henry's law -/

/-- the correction of the Henry constant for dissociation: `hlp` (chem_henry.ipp:125-186) -/
noncomputable def hlp (g : Sp) (T h : ℝ) : ℝ :=
  match g with
  | .SO2 => 1 + KtSO2 T / h + KtSO2 T * KtHSO3 T / h / h
  | .CO2 => 1 + KtCO2 T / h + KtCO2 T * KtHCO3 T / h / h
  | .HNO3 => 1 + KtHNO3 T / h
  | .NH3 => 1 + KtNH3 T / K_H2O * h
  | _ => 1

/-- chem_Henry_fun (chem_henry.ipp:62-235): new dissolved mass of gas `g` -/
noncomputable def henryFun (g : Sp) (dt V T c mOld rw2 rhod mH : ℝ) : ℝ :=
  let h := mH / M_H / V
  let Henry := atT T (Hc g) (dHR g) * hlp g T h
  let k := massTrans rw2 (Dg g) (acc g) T (Mgas g)
  (mOld + dt * V * k * c * rhod * (Maq g / Mgas g)) / (1 + dt * k / Henry / kaBoNA / T)

open Classical in
/-- ambient_chem_calculator (chem_henry.ipp:28-60) -/
noncomputable def ambientCalc (Maq Mgas mNew mOld rhod dv c : ℝ) : ℝ :=
  let newC := c - (mNew - mOld) / Maq * Mgas / dv / rhod
  if newC > 0 then newC else newC * 0

/-- state: cells and super-droplets (`d`), temperature of cells, wet radii, dry radii, masses of species in droplets, mixing ratios
of trace gases, their values saved for substepping -/
structure CSt where
  d : Diag.St
  T : ℕ → ℝ
  rw2 : ℕ → ℝ
  rd3 : ℕ → ℝ
  chem : Sp → ℕ → ℝ
  amb : Sp → ℕ → ℝ
  tmp : Sp → ℕ → ℝ

/-- volume of droplet `i` (chem_vol_ante, chem_ante.ipp:65-86) -/
noncomputable def CSt.vol (x : CSt) (i : ℕ) : ℝ := dropVol (x.rw2 i)

/-- flag of droplet `i` (chem_flag_ante, chem_strength.ipp:73-108) -/
noncomputable def CSt.flag (x : CSt) (i : ℕ) : Bool := setFlag (fun s => x.chem s i) (x.vol i) (x.T (x.d.ijk i))

/-- one pass of the loop over gases in chem_henry (chem_henry.ipp:336-426): total mass per cell before, new masses in flagged droplets,
total mass per cell after, new mixing ratio in occupied cells.  The arrays are sorted (hskpng_sort, line 326) -/
noncomputable def henryGas (dt : ℝ) (vol : ℕ → ℝ) (flag : ℕ → Bool) (x : CSt) (g : Sp) : CSt :=
  let r0 := Diag.reduceToCount x.d (fun i => (x.d.n i : ℝ) * x.chem g i)
  let m' := fun i => if flag i then henryFun g dt (vol i) (x.T (x.d.ijk i)) (x.amb g (x.d.ijk i)) (x.chem g i) (x.rw2 i) (x.d.rhod (x.d.ijk i)) (x.chem .H i) else x.chem g i
  let r1 := Diag.reduceToCount x.d (fun i => (x.d.n i : ℝ) * m' i)
  let amb' := scatter (x.amb g) ((List.range r1.countN).map fun p =>
    (r1.countIjk p, ambientCalc (Maq g) (Mgas g) (r1.countMom p) (r0.countMom p) (x.d.rhod (r1.countIjk p)) (x.d.dv (r1.countIjk p)) (x.amb g (r1.countIjk p))))
  { x with d := { x.d with countN := r1.countN, countIjk := r1.countIjk }
           chem := Function.update x.chem g m'
           amb := Function.update x.amb g amb' }

/-- chem_henry (chem_henry.ipp:239-427) -/
noncomputable def chemHenry (dt : ℝ) (vol : ℕ → ℝ) (flag : ℕ → Bool) (x : CSt) : CSt := gases.foldl (henryGas dt vol flag) x

open Classical in
/-- chem_cleanup (chem_ante.ipp:34-54) -/
noncomputable def cleanup (x : CSt) : CSt := { x with chem := fun s i => if x.chem s i ≥ 0 then x.chem s i else 0 }

/-! ### dissociation -/

/-- chem_minfun (chem_dissoc.ipp:18-102) -/
noncomputable def minfun (m : Masses) (V T mH : ℝ) : ℝ :=
  let h := mH / M_H / V;
  -mH + M_H * (K_H2O * M_H * (V * V) / mH
    + m .SO2 / M_SO2_H2O * KtSO2 T / h / (1 + KtSO2 T / h + KtSO2 T * KtHSO3 T / h / h)
    + 2 * m .SO2 / M_SO2_H2O * KtSO2 T * KtHSO3 T / h / h / (1 + KtSO2 T / h + KtSO2 T * KtHSO3 T / h / h)
    + h * m .S_VI / M_H2SO4 / (h + KtHSO4 T)
    + 2 * KtHSO4 T * m .S_VI / M_H2SO4 / (h + KtHSO4 T)
    + m .CO2 / M_CO2_H2O * KtCO2 T / h / (1 + KtCO2 T / h + KtCO2 T * KtHCO3 T / h / h)
    + 2 * m .CO2 / M_CO2_H2O * KtCO2 T * KtHCO3 T / h / h / (1 + KtCO2 T / h + KtCO2 T * KtHCO3 T / h / h)
    + m .HNO3 / M_HNO3 * KtHNO3 T / h / (1 + KtHNO3 T / h)
    - m .NH3 / M_NH3_H2O * KtNH3 T / K_H2O * h / (1 + KtNH3 T / K_H2O * h))

/-- limits of the search (chem_dissoc.ipp:123-125) -/
noncomputable def mHrht (V : ℝ) : ℝ := 1e1 * 1e3 * V * M_H
noncomputable def mHlft (V : ℝ) : ℝ := 1e-8 * 1e3 * V * M_H

/-- chem_electroneutral (chem_dissoc.ipp:104-146): `eps_tolerance<float>(32)`, 100 iterations of which two evaluate the ends
(toms748.hpp:456-464); `M` are the constants of the floating-point type in use -/
noncomputable def electroneutral (M : Toms.Mach) (m : Masses) (V T : ℝ) : ℝ :=
  Toms.solve M (minfun m V T) (Toms.tolEps Toms.flt 32) 98 (mHlft V) (mHrht V) (minfun m V T (mHlft V)) (minfun m V T (mHrht V))

/-- chem_dissoc (chem_dissoc.ipp:150-193) -/
noncomputable def chemDissoc (M : Toms.Mach) (vol : ℕ → ℝ) (flag : ℕ → Bool) (x : CSt) : CSt :=
  { x with chem := Function.update x.chem .H fun i =>
      if flag i then electroneutral M (fun s => x.chem s i) (vol i) (x.T (x.d.ijk i)) else x.chem .H i }

/-! ### oxidation -/

/-! reaction constants (react.hpp:32-44) -/
noncomputable def RH2O2k (T : ℝ) : ℝ := atT T (7.5 * 1e7 * 1e-6) (-4430)
noncomputable def RH2O2K : ℝ := 13 * 1e-3
noncomputable def RO3k0 (T : ℝ) : ℝ := atT T (2.4 * 1e4 * 1e-3) 0
noncomputable def RO3k1 (T : ℝ) : ℝ := atT T (3.7 * 1e5 * 1e-3) (-5530)
noncomputable def RO3k2 (T : ℝ) : ℝ := atT T (1.5 * 1e9 * 1e-3) (-5280)

open Classical in
/-- rate of oxidation by ozone, limited by what there is (chem_react.ipp:68-79) -/
noncomputable def o3React (dt V T : ℝ) (m : Masses) (mH : ℝ) : ℝ :=
  let h := mH / M_H / V
  let r := V * m .O3 / M_O3 / V * m .SO2 / M_SO2_H2O / V / (1 + KtSO2 T / h + KtSO2 T * KtHSO3 T / h / h)
    * (RO3k0 T + RO3k1 T * KtSO2 T / h + RO3k2 T * KtSO2 T * KtHSO3 T / h / h)
  let r := if r * dt < m .O3 / M_O3 then r else m .O3 / M_O3 / dt
  if r * dt < m .SO2 / M_SO2_H2O then r else m .SO2 / M_SO2_H2O / dt

open Classical in
/-- rate of oxidation by hydrogen peroxide (chem_react.ipp:81-95) -/
noncomputable def h2o2React (dt V T : ℝ) (m : Masses) (mH : ℝ) : ℝ :=
  let h := mH / M_H / V
  let r := V * RH2O2k T * KtSO2 T * m .H2O2 / M_H2O2 / V * m .SO2 / M_SO2_H2O / V / (1 + KtSO2 T / h + KtSO2 T * KtHSO3 T / h / h)
    / (1 + RH2O2K * h)
  let r := if r * dt < m .H2O2 / M_H2O2 then r else m .H2O2 / M_H2O2 / dt
  if r * dt < m .SO2 / M_SO2_H2O - o3React dt V T m mH * dt then r else m .SO2 / M_SO2_H2O / dt - o3React dt V T m mH

/-- chem_rhs_helper (chem_react.ipp:17-119): change of mass per second in one droplet -/
noncomputable def rhsHelper (dt V T : ℝ) (m : Masses) (mH : ℝ) : Masses
  | .SO2 => -(M_SO2_H2O * (o3React dt V T m mH + h2o2React dt V T m mH))
  | .S_VI => M_H2SO4 * (o3React dt V T m mH + h2o2React dt V T m mH)
  | .H2O2 => -(M_H2O2 * h2o2React dt V T m mH)
  | .O3 => -(M_O3 * o3React dt V T m mH)
  | _ => 0

/-- chem_rhs (chem_react.ipp:122-217): derivative of the part of the masses integrated by odeint; zero in droplets without flag -/
noncomputable def chemRhs (dt : ℝ) (vol : ℕ → ℝ) (T : ℕ → ℝ) (mH : ℕ → ℝ) (flag : ℕ → Bool) (psi : Sp → ℕ → ℝ) : Sp → ℕ → ℝ :=
  fun s i => if flag i then rhsHelper dt (vol i) (T i) (fun s => psi s i) (mH i) s else 0

/-- one step of boost::numeric::odeint::runge_kutta4 (particles_impl.ipp:188-196; the classical scheme, Boost is not in /repo) on the
species of the integrated vector -/
noncomputable def rk4 (f : (Sp → ℕ → ℝ) → Sp → ℕ → ℝ) (dt : ℝ) (x : Sp → ℕ → ℝ) : Sp → ℕ → ℝ :=
  let k1 := f x
  let k2 := f (fun s i => x s i + dt / 2 * k1 s i)
  let k3 := f (fun s i => x s i + dt / 2 * k2 s i)
  let k4 := f (fun s i => x s i + dt * k3 s i)
  fun s i => if inRhs s then x s i + dt / 6 * k1 s i + dt / 3 * k2 s i + dt / 3 * k3 s i + dt / 6 * k4 s i else x s i

/-- chem_react (chem_react.ipp:262-326); `rho` is opts_init.chem_rho; new dry radii by chem_new_rd3 (lines 220-258) -/
noncomputable def chemReact (rho dt : ℝ) (vol : ℕ → ℝ) (flag : ℕ → Bool) (x : CSt) : CSt :=
  let chem' := rk4 (chemRhs dt vol (fun i => x.T (x.d.ijk i)) (x.chem .H) flag) dt x.chem
  { x with chem := chem'
           rd3 := fun i => if flag i then x.rd3 i + 3 / 4 / Real.pi / rho * (chem' .S_VI i - x.chem .S_VI i) else x.rd3 i }

/-! ### substeps -/

/-- options of one step: dissolution, dissociation, reactions; whether substepping memory is allocated (opts_init.sstp_chem > 1),
whether the density field is passed each step, number of substeps, time step, density of dry aerosol, floating-point type -/
structure COpts where
  dsl : Bool
  dsc : Bool
  rct : Bool
  allow : Bool
  varRho : Bool
  sstp : ℕ
  dt : ℝ
  rho : ℝ
  mach : Toms.Mach

/-- gases treated by sstp_percell_step_chem: `ix < (var_rho ? n : n-1)` (sstp_chem.ipp:70) -/
def stepped (varRho : Bool) : List Sp := if varRho then gases else gases.dropLast

/-- sstp_percell_step_chem (sstp_chem.ipp:52-101) -/
noncomputable def sstpStep (o : COpts) (step : ℕ) (x : CSt) : CSt :=
  if o.allow then
    if step = 0 then
      let tmp' := fun g c => if g ∈ stepped o.varRho then x.amb g c - x.tmp g c else x.tmp g c
      { x with tmp := tmp'
               amb := fun g c => if g ∈ stepped o.varRho then x.amb g c - ((o.sstp : ℝ) - 1) * tmp' g c / o.sstp else x.amb g c }
    else { x with amb := fun g c => if g ∈ stepped o.varRho then x.amb g c + x.tmp g c / o.sstp else x.amb g c }
  else x

/-- one substep (particles_step.ipp:274-309): volumes and flags are computed at its beginning -/
noncomputable def chemSub (o : COpts) (x : CSt) (step : ℕ) : CSt :=
  let vol := x.vol
  let flag := x.flag
  let x := if o.dsl then cleanup (chemHenry (o.dt / o.sstp) vol flag (sstpStep o step x)) else x
  let x := if o.dsc then cleanup (chemDissoc o.mach vol flag x) else x
  if o.rct then cleanup (chemReact o.rho (o.dt / o.sstp) vol flag x) else x

/-- chemistry in step_cond (particles_step.ipp:272-310) -/
noncomputable def chemStep (o : COpts) (x : CSt) : CSt :=
  if o.dsl || o.dsc || o.rct then (List.range o.sstp).foldl (chemSub o) x else x

/-- sstp_save_chem (sstp_chem.ipp:15-34), called in step_async with chem_dsl (particles_step.ipp:367-372) and at initialisation
(sstp_chem.ipp:36-50) -/
def sstpSave (o : COpts) (x : CSt) : CSt := if o.allow then { x with tmp := fun g c => if g ∈ gases then x.amb g c else x.tmp g c } else x

/-! ### initial composition -/

/-- chem_init_NH4, chem_init_S6, chem_init_H (init_chem.ipp:33-119) and init_chem_aq (lines 168-217) -/
noncomputable def initChem (rho : ℝ) (rd3 : ℝ) : Masses
  | .NH3 => 4 / 3 * Real.pi * rho * rd3 * (M_NH3_H2O / (M_NH4 + M_HSO4))
  | .H => 4 / 3 * Real.pi * rho * rd3 * (M_H / (M_NH4 + M_HSO4))
  | .S_VI => 4 / 3 * Real.pi * rho * rd3 * (M_H2SO4 / (M_NH4 + M_HSO4))
  | _ => 0

end LCP.Chem
