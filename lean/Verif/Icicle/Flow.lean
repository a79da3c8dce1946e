import Verif.Common.Profiles
import Verif.Adve.Model

/-!
# Model of the wind field of the kinematic 2D driver

Sources: models/kinematic_2D/cases/icmw8_case1.hpp:81-136, 163-219 and models/kinematic_2D/src/kin_cloud_2d_lgrngn.hpp:161-207 (the Courant
numbers and domain limits handed over to the Lagrangian scheme).
-/
namespace LCP.Icicle
open LCP.Common

/-- setup_t (icmw8_case1.hpp:31-58), the parts used here, and the grid size -/
structure Setup where
  th0 : ℝ
  rv0 : ℝ
  p0 : ℝ
  wMax : ℝ
  z0 : ℝ
  X : ℝ
  Z : ℝ
  dt : ℝ
  nx : ℕ
  nz : ℕ

/-- grid steps (icmw8_case1.hpp:165-171, 187-189) -/
noncomputable def Setup.dx (s : Setup) : ℝ := s.X / (s.nx - 1)
noncomputable def Setup.dz (s : Setup) : ℝ := s.Z / (s.nz - 1)

/-- stream function (icmw8_case1.hpp:84-88) -/
noncomputable def psi (xX zZ : ℝ) : ℝ := -Real.sin (Real.pi * zZ) * Real.cos (Real.pi * (2 * xX))

/-- density of dry air (icmw8_case1.hpp:119-132) -/
noncomputable def Setup.rhod (s : Setup) (z : ℝ) : ℝ := rhodStd (hydrostatic_p z s.th0 s.rv0 s.z0 s.p0) s.th0 s.rv0

/-- amplitude (icmw8_case1.hpp:190) -/
noncomputable def Setup.amp (s : Setup) : ℝ := s.wMax * (s.nx - 1) * s.dx / Real.pi / 2

/-- momentum, as a Courant number, through the face at `i + 1/2` in `x` of level `j` (icmw8_case1.hpp:200-208); indices may be
negative (halo) -/
noncomputable def Setup.gcx (s : Setup) (i j : ℤ) : ℝ :=
  -s.amp * (psi ((i + 0.5) / (s.nx - 1)) ((j + 0.5) / (s.nz - 1)) - psi ((i + 0.5) / (s.nx - 1)) ((j - 0.5) / (s.nz - 1))) / s.dz *
    s.dt / s.dx

/-- momentum, as a Courant number, through the face at `j + 1/2` in `z` of column `i` (icmw8_case1.hpp:210-218) -/
noncomputable def Setup.gcz (s : Setup) (i j : ℤ) : ℝ :=
  s.amp * (psi ((i + 0.5) / (s.nx - 1)) ((j + 0.5) / (s.nz - 1)) - psi ((i - 0.5) / (s.nx - 1)) ((j + 0.5) / (s.nz - 1))) / s.dx *
    s.dt / s.dz

/-- Courant numbers handed over to the Lagrangian scheme (kin_cloud_2d_lgrngn.hpp:180-206): element `i` of the first dimension
of Cx is the left face of cell `i`, element `j` of the second dimension of Cz the lower face of cell `j` -/
noncomputable def Setup.cx (s : Setup) (i j : ℕ) : ℝ := s.gcx (i - 1) j / s.rhod (j * s.dz)
noncomputable def Setup.cz (s : Setup) (i j : ℕ) : ℝ := s.gcz i (j - 1) / s.rhod ((j - 0.5) * s.dz)

/-- domain of the Lagrangian scheme (kin_cloud_2d_lgrngn.hpp:166-170) -/
noncomputable def Setup.lx0 (s : Setup) : ℝ := s.dx / 2
noncomputable def Setup.lx1 (s : Setup) : ℝ := (s.nx - 0.5) * s.dx
noncomputable def Setup.lz0 (s : Setup) : ℝ := s.dz / 2
noncomputable def Setup.lz1 (s : Setup) : ℝ := (s.nz - 0.5) * s.dz

end LCP.Icicle
