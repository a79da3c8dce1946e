import Verif.Thrust
import Verif.Grid.Model
import Mathlib.Analysis.SpecialFunctions.Log.Basic

/-!
# Model of the initialisation of super-droplets

Sources: src/impl/initialization/particles_impl_init_{xyz,ijk,count_num,n,dry_sd_conc,dist_analysis,SD_with_distros,SD_with_distros_sd_conc,
SD_with_sizes}.ipp
-/
namespace LCP.Init
open LCP.Grid

/-! ### Positions -/

/-- `pos_lgrngn_domain::operator()` (particles_impl_init_xyz.ipp:14-34) -/
noncomputable def posLgrngnDomain (p0 p1 dp u : ℝ) (ii : ℕ) : ℝ := u * min p1 ((ii + 1) * dp) + (1 - u) * max p0 (ii * dp)

/-- `init_xyz` (particles_impl_init_xyz.ipp:38-73) for one super-droplet created in cell `c` with random numbers `u`; coordinates along
missing dimensions are not touched (0 here); `unravel_ijk` precedes -/
noncomputable def initXyz (d : Dims) (b : Box) (u : Fin 3 → ℝ) (c : ℕ) : ℝ × ℝ × ℝ :=
  let q := unravel d c
  (if d.nx = 0 then 0 else posLgrngnDomain b.x0 b.x1 b.dx (u 0) q.1,
   if d.ny = 0 then 0 else posLgrngnDomain b.y0 b.y1 b.dy (u 1) q.2.1,
   if d.nz = 0 then 0 else posLgrngnDomain b.z0 b.z1 b.dz (u 2) q.2.2)

/-! ### Assignment of super-droplets to cells -/

/-- `arbitrary_sequence::operator()` (particles_impl_init_ijk.ipp:15-29): write `c` at `cnt` places from `start` -/
def arbitrarySequence (a : ℕ → ℕ) (cnt start c : ℕ) : ℕ → ℕ :=
  (List.range cnt).foldl (fun a i => Function.update a (i + start) c) a

/-- `init_ijk` (particles_impl_init_ijk.ipp:36-54): parallel `for_each` over cells, in any order; `old` is `n_part_old` -/
def initIjk (cnt : ℕ → ℕ) (order : List ℕ) (old : ℕ) (ijk : ℕ → ℕ) : ℕ → ℕ :=
  order.foldl (fun a c => arbitrarySequence a (cnt c) (old + exclusiveScan cnt c) c) ijk

/-! ### Dry radii -/

/-- `calc_lnrd::operator()` (particles_impl_init_dry_sd_conc.ipp:24-38): random number, count in the cell, index, number of SDs in previous cells -/
noncomputable def calcLnrd (lo hi u : ℝ) (cnt idx ptr : ℕ) : ℝ := lo + ((idx : ℝ) - ptr + u) * (hi - lo) / cnt

/-- `init_dry_sd_conc` (particles_impl_init_dry_sd_conc.ipp:41-90): log of the dry radius of the super-droplet `old + idx` -/
noncomputable def initLnrd (lo hi : ℝ) (u : ℕ → ℝ) (cnt : ℕ → ℕ) (ijk : ℕ → ℕ) (old idx : ℕ) : ℝ :=
  calcLnrd lo hi (u idx) (cnt (ijk (old + idx))) idx (exclusiveScan cnt (ijk (old + idx)))

/-- `rd3` stored (`detail::exp3x`, particles_impl_init_dry_sd_conc.ipp:84-89) -/
noncomputable def rd3Of (lnrd : ℝ) : ℝ := Real.exp (3 * lnrd)

/-! ### Multiplicities -/

/-- conversion of a non-negative real to an unsigned integer -/
noncomputable def toUint (x : ℝ) : ℕ := ⌊x⌋₊

/-- `multiplier` after `init_dist_analysis_sd_conc` with given range (particles_impl_init_dist_analysis.ipp:17-36, 51-58, 60-76), for a
cell volume `vol` (`dx*dy*dz`, in 0D `dv[0]`); `dt` is 1 except for sources -/
noncomputable def multiplier0 (lo hi : ℝ) (sdConc : ℕ) (dt vol : ℝ) : ℝ := (hi - lo) / sdConc * dt * vol

/-- one entry of `dry_distros`: the distribution (number per unit volume and unit log-radius) and the log-radius range found for it -/
structure Distro where
  f : ℝ → ℝ
  lo : ℝ
  hi : ℝ

/-- sum of the ranges (particles_impl_init_SD_with_distros.ipp:17-27) -/
noncomputable def totRange (ds : List Distro) : ℝ := (ds.map (fun e => e.hi - e.lo)).sum

/-- counts and multiplier of one entry (particles_impl_init_SD_with_distros_sd_conc.ipp:13-30, particles_impl_init_count_num.ipp:33-37 — a
real value stored to an unsigned vector, hence truncated).  `none`: exception (empty range) or integer division by zero. -/
noncomputable def sdConcEntry (sdConc : ℕ) (vol tot : ℝ) (e : Distro) : Option (ℕ × ℝ) :=
  if e.lo ≥ e.hi then none else
  let fraction := (e.hi - e.lo) / tot
  let den := toUint (fraction * sdConc + 1 / 2)
  if den = 0 then none else
  some (toUint (fraction * sdConc), multiplier0 e.lo e.hi sdConc 1 vol * ((sdConc / den : ℕ) : ℝ))

/-- factors applied in `init_n_sd_conc` (particles_impl_init_n.ipp:44-121): density relative to STP unless disabled, concentration profile (1 if not given),
fraction of the cell inside the Lagrangian domain (1 in 0D) -/
structure CellFactor where
  rho : ℝ
  prof : ℝ
  frac : ℝ

/-- value before rounding: `mul * fun(log(rd3)/3)` times the factors (particles_impl_init_n.ipp:23-40, 79-121) -/
noncomputable def nReal (f : ℝ → ℝ) (mul : ℝ) (cf : CellFactor) (rd3 : ℝ) : ℝ := mul * f (Real.log rd3 / 3) * cf.rho * cf.prof * cf.frac

/-- `init_n_sd_conc` (particles_impl_init_n.ipp:44-134): rounded multiplicity -/
noncomputable def initN (f : ℝ → ℝ) (mul : ℝ) (cf : CellFactor) (rd3 : ℝ) : ℕ := toUint (nReal f mul cf rd3 + 1 / 2)

/-- multiplicity of every super-droplet of a dry-size entry in a cell: `init_n_dry_sizes` (particles_impl_init_n.ipp:142-156) with
`conc_to_number` (particles_impl_init_count_num.ipp:40-75); `dv` the cell volume -/
noncomputable def initNSizes (conc : ℝ) (sdCount : ℕ) (dv rho prof : ℝ) : ℕ := toUint (conc * dv * rho * prof / sdCount + 1 / 2)

end LCP.Init
