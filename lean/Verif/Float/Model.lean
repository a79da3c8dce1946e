import Verif.Float.Round
import Verif.Grid.Model
import Verif.Bcnd.Model
import Verif.Distmem.Model

/-!
# Positions and cell indices in floating-point arithmetic

The functions that decide in which cell a super-droplet is, with every operation followed by rounding.  `fl` rounds to the precision of
`real_t`, `fq` to the precision of `double` (they are the same function if `real_t` is `double`).  Operations are rounded in the order in
which the source writes them; the re-association allowed by `-Ofast` is not modelled, except for `cellIdxRecip`.
-/
namespace LCP.Float
open LCP.Grid LCP.Bcnd

/-- `divide_by_constant_and_cast<double, thrust_size_t>` (src/impl/housekeeping/particles_impl_hskpng_ijk.ipp:16-28, used with `double`
at 171): the position and the cell size are converted to `double` exactly, the quotient is a `double` -/
noncomputable def cellIdx (fq : ℝ → ℝ) (c x : ℝ) : Option ℕ := toSizeT (fq (x / c))

/-- the same (particles_impl_hskpng_ijk.ipp:16-28) when the compiler replaces division by the loop-invariant `c` with multiplication
by its reciprocal, as `-freciprocal-math` (part of the `-Ofast` of release builds, CMakeLists.txt) lets it do -/
noncomputable def cellIdxRecip (fq : ℝ → ℝ) (c x : ℝ) : Option ℕ := toSizeT (fq (x * fq (1 / c)))

/-- `detail::periodic::operator()` (src/impl/boundary_conditions/particles_impl_bcnd.ipp:98-110); `fmod` is exact (`fmod_mem`) -/
noncomputable def periodicFl (fl : ℝ → ℝ) (a b x : ℝ) : ℝ :=
  fl (a + fmod (fl (fl (x - a) + fl (10 * fl (b - a)))) (fl (b - a)))

/-- the two `replace_if` that keep droplets in the domain between the predictor and the corrector
(src/impl/advection/particles_impl_adve.ipp:211-224): `1e-8` is a `double`, so the new value is computed in `double` and then stored
as `real_t` -/
noncomputable def guardZ (fl fq : ℝ → ℝ) (z0 z1 dz z : ℝ) : ℝ :=
  let z' := if z1 ≤ z then fl (fq (z1 - fq (fq (1 / 10 ^ 8) * dz))) else z
  if z' ≤ z0 then fl (fq (z0 + fq (fq (1 / 10 ^ 8) * dz))) else z'

/-- `pos_lgrngn_domain::operator()` (src/impl/initialization/particles_impl_init_xyz.ipp:14-34): `1.` is a `double`, hence the
second product and the sum are `double`s; the cell index converts to `real_t` exactly (fewer than 2^24 cells per direction) -/
noncomputable def posFl (fl fq : ℝ → ℝ) (p0 p1 dp u : ℝ) (ii : ℕ) : ℝ :=
  fl (fq (fl (u * min p1 (fl ((ii + 1) * dp))) + fq (fq (1 - u) * max p0 (fl (ii * dp)))))

/-- `rng<real_t, CUDA>::generate_n` (src/detail/urand.hpp:117-138): `v` is what cuRAND returned, in (0,1] -/
noncomputable def curandU01 (fl : ℝ → ℝ) (v : ℝ) : ℝ := fl (1 - v)

/-- shift to the coordinates of the halo-extended domain in the predictor-corrector scheme (particles_impl_adve.ipp:197); `h` is
`halo_size`, `real_t(halo_size) * dx` is rounded, then the sum -/
noncomputable def shiftFl (fl : ℝ → ℝ) (h : ℕ) (dx x : ℝ) : ℝ := fl (x + fl (h * dx))

/-- `detail::remote::operator()` (src/impl/distributed_memory/particles_impl_pack.ipp:14-26), evaluated from left to right -/
noncomputable def remoteFl (fl : ℝ → ℝ) (lcl rmt x : ℝ) : ℝ := fl (fl (rmt + x) - lcl)

/-- `detail::tolerance_away_from_bcond::operator()` (src/impl/distributed_memory/particles_impl_unpack.ipp:14-30, applied to every
received droplet at 101) -/
noncomputable def awayFl (fl : ℝ → ℝ) (tol lft rgt x : ℝ) : ℝ :=
  if rgt ≤ x then fl (x - tol) else if x < lft then fl (x + tol) else x

/-- `config.bcond_tolerance` (src/detail/config.hpp:31), converted to `real_t` -/
noncomputable def bcondTol (fl : ℝ → ℝ) : ℝ := fl (5 / 10 ^ 4)

/-- upper limit in x of device `rank` of `size` (`distmem_opts`, src/detail/distmem_opts.hpp:22-29): the products are rounded, then the
difference; the numbers of columns convert exactly -/
noncomputable def subX1 (fl : ℝ → ℝ) (nx rank size : ℕ) (dx x1 : ℝ) : ℝ :=
  if rank ≠ size - 1 then fl ((Distmem.getDevNx nx rank size : ℕ) * dx)
  else fl (x1 - fl ((rank * Distmem.getDevNx nx 0 size : ℕ) * dx))

/-- one line of `adjust_timesteps` (src/impl/particles_impl_adjust_timesteps.ipp:17-20): `n` is the number of substeps in `opts_init`,
`dt0` is `opts_init.dt`; the product and the quotient are rounded, `std::ceil` is exact -/
noncomputable def sstpFl (fl : ℝ → ℝ) (n : ℕ) (dt0 dt : ℝ) : ℕ :=
  if 0 < dt ∧ 1 < n then ⌈fl (fl (n * dt) / dt0)⌉₊ else n

/-- the order in which `thrust::reduce_by_key` adds up the values of one cell is not specified: any binary tree of additions -/
inductive Sum (α : Type) where
  | leaf (a : α)
  | node (l r : Sum α)

/-- the values added up, from left to right (thrust keeps the order of the values: associativity is assumed, commutativity is not;
src/impl/diagnose_SD_attributes/particles_impl_moms.ipp:282-306) -/
def Sum.leaves {α : Type} : Sum α → List α
  | .leaf a => [a]
  | .node l r => l.leaves ++ r.leaves

/-- every addition is rounded (particles_impl_moms.ipp:282-306) -/
noncomputable def Sum.eval {α : Type} (fl : ℝ → ℝ) (f : α → ℝ) : Sum α → ℝ
  | .leaf a => f a
  | .node l r => fl (l.eval fl f + r.eval fl f)

/-- what a diagnostic sees of a selected super-droplet: multiplicity and the diagnosed attribute -/
structure Item where
  n : ℕ
  x : ℝ

/-- `moment_counter::operator()` (particles_impl_moms.ipp:231-270): `n_filtered` is a `real_t` (50-53), `pow` is the
implementation's, of which nothing is known but its relative error -/
noncomputable def termFl (fl : ℝ → ℝ) (pow : ℝ → ℝ) (a : Item) : ℝ := fl (fl a.n * pow a.x)

/-- `moms_calc` in one cell (particles_impl_moms.ipp:272-360): the sum, divided by the volume and by the dry-air density if `specific` -/
noncomputable def momentFl (fl : ℝ → ℝ) (pow : ℝ → ℝ) (specific : Bool) (dv rhod : ℝ) (t : Sum Item) : ℝ :=
  if specific then fl (fl (t.eval fl (termFl fl pow) / dv) / rhod) else t.eval fl (termFl fl pow)

end LCP.Float
