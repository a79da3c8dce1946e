import Verif.Step.Model
import Verif.Blk1m.Model
import Verif.Blk2m.Model

/-!
# Model of the spin-up and relaxation logic of the kinematic 2D driver

Sources: models/kinematic_2D/src/kin_cloud_2d_common.hpp:17-117, models/kinematic_2D/src/kin_cloud_2d_lgrngn.hpp:119-133,
models/kinematic_2D/src/kin_cloud_2d_lgrngn_chem.hpp:89-104, models/kinematic_2D/src/kin_cloud_2d_blk_1m.hpp:45-46,
models/kinematic_2D/src/kin_cloud_2d_blk_2m.hpp:96-101.
-/
namespace LCP.Icicle

/-- the two virtual functions through which the common code switches rain on and off (kin_cloud_2d_common.hpp:28-29) -/
structure Micro (O : Type) where
  getRain : O → Bool
  setRain : Bool → O → O

/-- run-time options of the Lagrangian scheme: those the library checks, and the supersaturation limit -/
structure LOpts where
  sw : Step.Opts
  rhMax : ℝ

/-- Lagrangian scheme (kin_cloud_2d_lgrngn.hpp:119-131); `coal`, `sedi` are the options as they were at the start -/
noncomputable def lgrngn (coal sedi : Bool) : Micro LOpts where
  getRain o := o.sw.coal && o.sw.sedi
  setRain v o := ⟨{ o.sw with coal := if v then coal else false, sedi := if v then sedi else false }, if v then 44 else 1.01⟩

/-- Lagrangian scheme with chemistry (kin_cloud_2d_lgrngn_chem.hpp:89-99) -/
noncomputable def lgrngnChem (coal sedi chemSwitch : Bool) : Micro LOpts where
  getRain := (lgrngn coal sedi).getRain
  setRain v o :=
    let o := (lgrngn coal sedi).setRain v o
    if v && chemSwitch then { o with sw := { o.sw with chemRct := v } } else o

/-- single-moment scheme (kin_cloud_2d_blk_1m.hpp:45-46) -/
def blk1m : Micro Blk1m.Opts where
  getRain o := o.conv
  setRain v o := { o with conv := v }

/-- double-moment scheme (kin_cloud_2d_blk_2m.hpp:96-101) -/
noncomputable def blk2m : Micro Blk2m.Opts where
  getRain o := o.acnv
  setRain v o := { o with acnv := v, RH_max := if v then 44 else 1.01 }

/-- members of kin_cloud_2d_common (l.20-25); `goal` tells at which time step the relaxation goals `th_eq`, `rv_eq` were
saved (none: they have never been assigned) -/
structure D (O : Type) where
  spinup : ℤ
  relax : Bool
  opts : O
  goal : Option ℕ

variable {O : Type}

/-- `hook_ante_loop` (kin_cloud_2d_common.hpp:34-50), without the puddle file -/
def anteLoop (μ : Micro O) (d : D O) : D O :=
  let d := if μ.getRain d.opts = false then { d with spinup := 0, relax := false } else d
  if d.spinup > 0 then { d with opts := μ.setRain false d.opts } else d

/-- `hook_ante_step` at time step `t` (kin_cloud_2d_common.hpp:52-79) -/
def anteStep (μ : Micro O) (t : ℕ) (d : D O) : D O :=
  let d := if d.spinup ≠ 0 ∧ d.spinup = (t : ℤ) then { d with opts := μ.setRain true d.opts } else d
  if d.relax = true ∧ d.spinup = (t : ℤ) then { d with goal := some t } else d

/-- the driver in time step `t` (numbered from 0), after its `hook_ante_step`, for a driver constructed as `d` -/
def during (μ : Micro O) (d : D O) : ℕ → D O
  | 0 => anteStep μ 0 (anteLoop μ d)
  | t + 1 => anteStep μ (t + 1) (during μ d t)

/-- the driver as constructed (kin_cloud_2d_common.hpp:130-142): the goals are allocated but not initialised -/
def ctor (spinup : ℤ) (relax : Bool) (u : O) : D O := ⟨spinup, relax, u, none⟩

/-- whether `update_rhs` sets relaxation terms (kin_cloud_2d_common.hpp:91) -/
def relaxing (μ : Micro O) (d : D O) : Bool := d.relax && μ.getRain d.opts

/-- relaxation time of level `j` (kin_cloud_2d_common.hpp:96) -/
noncomputable def tau (tauRlx zRlx dz : ℝ) (j : ℕ) : ℝ := tauRlx * Real.exp (j * dz / zRlx)

/-- relaxation term of a cell of level `j` with value `x` and goal `eq` (kin_cloud_2d_common.hpp:110-113) -/
noncomputable def relaxRhs (tauRlx zRlx dz : ℝ) (j : ℕ) (eq x : ℝ) : ℝ := (eq - x) / tau tauRlx zRlx dz j

end LCP.Icicle
