import Verif.Icicle.Flow
import Verif.Adve.Props
import Mathlib.Analysis.SpecialFunctions.Trigonometric.Bounds
import Mathlib.Analysis.SpecialFunctions.Trigonometric.Basic
import Mathlib.Tactic.LinearCombination

/-!
# The wind of the kinematic driver (C110)
-/
namespace LCP.Icicle
open LCP.Common LCP.Adve

/-- a sensible setup: at least two points in each direction, positive extents -/
structure Setup.Ok (s : Setup) : Prop where
  nx : 2 ≤ s.nx
  nz : 2 ≤ s.nz
  X : 0 < s.X
  Z : 0 < s.Z
  dt : 0 < s.dt

theorem Setup.Ok.nx1 {s : Setup} (h : s.Ok) : (0 : ℝ) < s.nx - 1 := by
  have : (2 : ℝ) ≤ s.nx := by exact_mod_cast h.nx
  linarith
theorem Setup.Ok.nz1 {s : Setup} (h : s.Ok) : (0 : ℝ) < s.nz - 1 := by
  have : (2 : ℝ) ≤ s.nz := by exact_mod_cast h.nz
  linarith
theorem Setup.Ok.dx0 {s : Setup} (h : s.Ok) : 0 < s.dx := div_pos h.X h.nx1
theorem Setup.Ok.dz0 {s : Setup} (h : s.Ok) : 0 < s.dz := div_pos h.Z h.nz1

/-- **C110 (mass conservation).** The momentum field has no divergence in any cell, exactly. -/
theorem nondivergent (s : Setup) (i j : ℤ) : (s.gcx i j - s.gcx (i - 1) j) + (s.gcz i j - s.gcz i (j - 1)) = 0 := by
  unfold Setup.gcx Setup.gcz
  push_cast
  have e1 : ((i : ℝ) - 1 + 0.5) = i - 0.5 := by ring
  have e2 : ((j : ℝ) - 1 + 0.5) = j - 0.5 := by ring
  rw [e1, e2]
  ring

theorem psi_period (x z : ℝ) : psi (x + 1) z = psi x z := by
  unfold psi
  rw [show Real.pi * (2 * (x + 1)) = Real.pi * (2 * x) + 2 * Real.pi by ring, Real.cos_add_two_pi]

theorem psi_bottom (x z : ℝ) : psi x (-z) = -psi x z := by
  unfold psi
  rw [show Real.pi * -z = -(Real.pi * z) by ring, Real.sin_neg]
  ring

theorem psi_top (x z : ℝ) : psi x (1 + z) = -psi x (1 - z) := by
  unfold psi
  rw [show Real.pi * (1 + z) = Real.pi * z + Real.pi by ring, show Real.pi * (1 - z) = Real.pi - Real.pi * z by ring,
    Real.sin_add_pi, Real.sin_pi_sub]
  ring

/-- **C110 (periodicity).** The field is the same a whole domain further: the first and the last grid point of a row are one. -/
theorem periodic (s : Setup) (h : s.Ok) (i j : ℤ) :
    s.gcx (i + (s.nx - 1 : ℤ)) j = s.gcx i j ∧ s.gcz (i + (s.nx - 1 : ℤ)) j = s.gcz i j := by
  have hn := h.nx1
  unfold Setup.gcx Setup.gcz
  push_cast
  have e1 : ((i : ℝ) + (s.nx - 1) + 0.5) / (s.nx - 1) = (i + 0.5) / (s.nx - 1) + 1 := by field_simp; ring
  have e2 : ((i : ℝ) + (s.nx - 1) - 0.5) / (s.nx - 1) = (i - 0.5) / (s.nx - 1) + 1 := by field_simp; ring
  rw [e1, e2, psi_period, psi_period, psi_period]
  exact ⟨rfl, rfl⟩

/-- **C110 (walls).** The momentum through the faces half a step below and half a step above the bottom, and the top, of the
domain is opposite: none flows through the bottom and the top. -/
theorem walls (s : Setup) (h : s.Ok) (i : ℤ) :
    s.gcz i (-1) = -s.gcz i 0 ∧ s.gcz i (s.nz - 1) = -s.gcz i (s.nz - 2) := by
  have hn := h.nz1
  unfold Setup.gcz
  push_cast
  constructor
  · have e : ((-1 : ℝ) + 0.5) / (s.nz - 1) = -((0 + 0.5) / (s.nz - 1)) := by ring
    rw [e, psi_bottom, psi_bottom]
    ring
  · have e1 : ((s.nz : ℝ) - 1 + 0.5) / (s.nz - 1) = 1 + 0.5 / (s.nz - 1) := by field_simp
    have e2 : ((s.nz : ℝ) - 2 + 0.5) / (s.nz - 1) = 1 - 0.5 / (s.nz - 1) := by field_simp; ring
    rw [e1, e2, psi_top, psi_top]
    ring

/-- **C110 (speed).** No face carries more than the momentum of unit-density air at speed `w_max` vertically, and at speed
`w_max X / (2 Z)` horizontally. -/
theorem speed (s : Setup) (h : s.Ok) (hw : 0 ≤ s.wMax) (i j : ℤ) :
    |s.gcz i j| ≤ s.wMax * s.dt / s.dz ∧ |s.gcx i j| ≤ s.wMax * (s.X / (2 * s.Z)) * s.dt / s.dx := by
  have hx := h.dx0
  have hz := h.dz0
  have hn := h.nx1
  have hm := h.nz1
  have hp := Real.pi_pos
  have hdt := h.dt
  have hX : (s.nx - 1) * s.dx = s.X := by unfold Setup.dx; field_simp
  have hZ : (s.nz - 1) * s.dz = s.Z := by unfold Setup.dz; field_simp
  have hamp : s.amp = s.wMax * s.X / Real.pi / 2 := by unfold Setup.amp; rw [← hX]; ring
  have hX0 := h.X
  have hZ0 := h.Z
  have hA : 0 ≤ s.amp := by rw [hamp]; positivity
  constructor
  · have hd : |psi ((i + 0.5) / (s.nx - 1)) ((j + 0.5) / (s.nz - 1)) - psi ((i - 0.5) / (s.nx - 1)) ((j + 0.5) / (s.nz - 1))| ≤
        2 * Real.pi / (s.nx - 1) := by
      unfold psi
      have e : -Real.sin (Real.pi * ((j + 0.5) / (s.nz - 1))) * Real.cos (Real.pi * (2 * ((i + 0.5) / (s.nx - 1)))) -
          -Real.sin (Real.pi * ((j + 0.5) / (s.nz - 1))) * Real.cos (Real.pi * (2 * ((i - 0.5) / (s.nx - 1)))) =
          Real.sin (Real.pi * ((j + 0.5) / (s.nz - 1))) * (Real.cos (Real.pi * (2 * ((i - 0.5) / (s.nx - 1)))) -
            Real.cos (Real.pi * (2 * ((i + 0.5) / (s.nx - 1))))) := by ring
      rw [e, abs_mul, Real.cos_sub_cos]
      have e2 : (Real.pi * (2 * (((i : ℝ) - 0.5) / (s.nx - 1))) - Real.pi * (2 * ((i + 0.5) / (s.nx - 1)))) / 2 = -(Real.pi / (s.nx - 1)) := by
        field_simp; ring
      rw [e2, Real.sin_neg]
      have h1 := Real.abs_sin_le_one (Real.pi * ((j + 0.5) / (s.nz - 1)))
      have h2 := Real.abs_sin_le_one ((Real.pi * (2 * (((i : ℝ) - 0.5) / (s.nx - 1))) + Real.pi * (2 * ((i + 0.5) / (s.nx - 1)))) / 2)
      have h3 : |Real.sin (Real.pi / (s.nx - 1))| ≤ Real.pi / (s.nx - 1) := by
        have := Real.abs_sin_le_abs (x := Real.pi / (s.nx - 1))
        rwa [abs_of_pos (a := Real.pi / (s.nx - 1)) (by positivity)] at this
      have h4 : 0 ≤ Real.pi / (s.nx - 1) := by positivity
      rw [abs_mul, abs_mul, abs_neg, abs_neg, abs_two]
      calc _ ≤ 1 * (2 * 1 * (Real.pi / (s.nx - 1))) := by gcongr
        _ = _ := by ring
    unfold Setup.gcz
    rw [abs_div, abs_mul, abs_div, abs_mul, abs_of_nonneg hA, abs_of_pos hx, abs_of_pos hdt, abs_of_pos hz]
    have hkey : s.amp * |psi ((i + 0.5) / (s.nx - 1)) ((j + 0.5) / (s.nz - 1)) - psi ((i - 0.5) / (s.nx - 1)) ((j + 0.5) / (s.nz - 1))| /
        s.dx ≤ s.wMax := by
      rw [div_le_iff₀ hx]
      calc _ ≤ s.amp * (2 * Real.pi / (s.nx - 1)) := by gcongr
        _ = s.wMax * s.dx := by rw [hamp, ← hX]; field_simp
    gcongr
  · have hd : |psi ((i + 0.5) / (s.nx - 1)) ((j + 0.5) / (s.nz - 1)) - psi ((i + 0.5) / (s.nx - 1)) ((j - 0.5) / (s.nz - 1))| ≤
        Real.pi / (s.nz - 1) := by
      unfold psi
      have e : -Real.sin (Real.pi * ((j + 0.5) / (s.nz - 1))) * Real.cos (Real.pi * (2 * ((i + 0.5) / (s.nx - 1)))) -
          -Real.sin (Real.pi * ((j - 0.5) / (s.nz - 1))) * Real.cos (Real.pi * (2 * ((i + 0.5) / (s.nx - 1)))) =
          (Real.sin (Real.pi * ((j - 0.5) / (s.nz - 1))) - Real.sin (Real.pi * ((j + 0.5) / (s.nz - 1)))) *
            Real.cos (Real.pi * (2 * ((i + 0.5) / (s.nx - 1)))) := by ring
      rw [e, abs_mul, Real.sin_sub_sin]
      have e2 : (Real.pi * (((j : ℝ) - 0.5) / (s.nz - 1)) - Real.pi * ((j + 0.5) / (s.nz - 1))) / 2 = -(Real.pi / (2 * (s.nz - 1))) := by
        field_simp; ring
      rw [e2, Real.sin_neg]
      have h1 := Real.abs_cos_le_one (Real.pi * (2 * ((i + 0.5) / (s.nx - 1))))
      have h2 := Real.abs_cos_le_one ((Real.pi * (((j : ℝ) - 0.5) / (s.nz - 1)) + Real.pi * ((j + 0.5) / (s.nz - 1))) / 2)
      have h3 : |Real.sin (Real.pi / (2 * (s.nz - 1)))| ≤ Real.pi / (2 * (s.nz - 1)) := by
        have := Real.abs_sin_le_abs (x := Real.pi / (2 * (s.nz - 1)))
        rwa [abs_of_pos (a := Real.pi / (2 * (s.nz - 1))) (by positivity)] at this
      rw [abs_mul, abs_mul, abs_neg, abs_two]
      calc _ ≤ 2 * (Real.pi / (2 * (s.nz - 1))) * 1 * 1 := by gcongr
        _ = _ := by field_simp
    unfold Setup.gcx
    rw [abs_div, abs_mul, abs_div, abs_mul, abs_neg, abs_of_nonneg hA, abs_of_pos hz, abs_of_pos hdt, abs_of_pos hx]
    have hkey : s.amp * |psi ((i + 0.5) / (s.nx - 1)) ((j + 0.5) / (s.nz - 1)) - psi ((i + 0.5) / (s.nx - 1)) ((j - 0.5) / (s.nz - 1))| /
        s.dz ≤ s.wMax * (s.X / (2 * s.Z)) := by
      rw [div_le_iff₀ hz]
      calc _ ≤ s.amp * (Real.pi / (s.nz - 1)) := by gcongr
        _ = _ := by rw [hamp, ← hZ]; field_simp
    gcongr

/-- **C110 (bottom, Lagrangian).** The domain of the super-droplets begins at the centre of the lowest cells; the velocity the
super-droplets are given there is the momentum half a step above times half the difference of the inverse densities half a step
above and half a step below -/
theorem bottom_velocity (s : Setup) (h : s.Ok) (i : ℕ) :
    lin (s.cz i 0) (s.cz i 1) s.dz 0 s.lz0 = s.gcz i 0 * (1 / s.rhod (0.5 * s.dz) - 1 / s.rhod (-0.5 * s.dz)) / 2 := by
  have hz := h.dz0
  have hw := (walls s h i).1
  unfold lin Setup.cz Setup.lz0
  simp only [Nat.cast_zero, Nat.cast_one, zero_sub, sub_self, sub_zero]
  rw [hw]
  have e : s.dz / 2 / s.dz = 1 / 2 := by field_simp
  rw [e, show ((1 : ℝ) - 0.5) * s.dz = 0.5 * s.dz by ring]
  ring

/-- **C110 (domain, Lagrangian).** The domain of the super-droplets has the size asked for, and the velocities they are given
are the same at its two ends in `x`: crossing the periodic boundary does not change the velocity -/
theorem lagrangian_domain (s : Setup) (h : s.Ok) (j : ℕ) :
    s.lx1 - s.lx0 = s.X ∧ s.lz1 - s.lz0 = s.Z ∧
    (∀ w, 0 ≤ w → lin (s.cx 0 j) (s.cx 1 j) s.dx 0 w = lin (s.cx (s.nx - 1) j) (s.cx s.nx j) s.dx (s.nx - 1) (w + s.X)) ∧
    ∀ k, s.cz 0 k = s.cz (s.nx - 1) k := by
  have hx := h.dx0
  have hz := h.dz0
  have hX : (s.nx - 1) * s.dx = s.X := by unfold Setup.dx; have := h.nx1; field_simp
  have hZ : (s.nz - 1) * s.dz = s.Z := by unfold Setup.dz; have := h.nz1; field_simp
  have hn1 : ((s.nx - 1 : ℕ) : ℤ) = (s.nx - 1 : ℤ) := by have := h.nx; omega
  have hn1r : ((s.nx - 1 : ℕ) : ℝ) = s.nx - 1 := by rw [Nat.cast_sub (by have := h.nx; omega)]; norm_num
  refine ⟨?_, ?_, fun w _ => ?_, fun k => ?_⟩
  · unfold Setup.lx1 Setup.lx0; rw [← hX]; ring
  · unfold Setup.lz1 Setup.lz0; rw [← hZ]; ring
  · have p1 := (periodic s h (-1) j).1
    have p2 := (periodic s h 0 j).1
    have e1 : s.cx (s.nx - 1) j = s.cx 0 j := by
      unfold Setup.cx
      rw [hn1, show ((s.nx : ℤ) - 1 - 1) = -1 + (s.nx - 1) by ring, p1]
      simp
    have e2 : s.cx s.nx j = s.cx 1 j := by
      unfold Setup.cx
      rw [show ((s.nx : ℤ) - 1) = 0 + (s.nx - 1) by ring, p2]
      simp
    rw [e1, e2]
    unfold lin
    have : (w + s.X) / s.dx - ((s.nx - 1 : ℕ) : ℝ) = w / s.dx - (0 : ℕ) := by
      rw [← hX, hn1r]; field_simp; push_cast; ring
    rw [this]
  · have p := (periodic s h 0 (k - 1)).2
    unfold Setup.cz
    rw [hn1, show ((s.nx : ℤ) - 1) = 0 + (s.nx - 1) by ring, p]
    simp

/-- where the velocity of the lowest cell vanishes at the bottom of the domain, no super-droplet is advected through the
bottom, by the explicit and the implicit scheme, as long as the divergence of the Courant numbers is moderate -/
theorem bottom_closed_partial {dz Cl Cr z : ℝ} (h0 : Cl + Cr = 0) (h1 : dz / 2 ≤ z) (hm : -1 ≤ Cr - Cl) (hM : Cr - Cl < 1) :
    dz / 2 ≤ helperExpl true dz z 0 Cl Cr ∧ dz / 2 ≤ helperImpl dz z 0 Cl Cr := by
  have hC : Cl = -Cr := by linarith
  subst hC
  constructor
  · unfold helperExpl
    simp only [if_true, Nat.cast_zero, mul_zero, sub_zero]
    nlinarith [mul_nonneg (sub_nonneg.2 h1) (by linarith : 0 ≤ 1 + (Cr - -Cr))]
  · unfold helperImpl
    have hd : 0 < 1 - (Cr - -Cr) := by linarith
    rw [le_div_iff₀ hd]
    simp only [Nat.cast_zero, zero_mul, sub_zero]
    nlinarith

/-- where it is negative, a super-droplet at the bottom of the domain is advected out of it, by either scheme -/
theorem bottom_leak {dz Cl Cr : ℝ} (hz : 0 < dz) (h0 : Cl + Cr < 0) (hM : Cr - Cl < 1) :
    helperExpl true dz (dz / 2) 0 Cl Cr < dz / 2 ∧ helperImpl dz (dz / 2) 0 Cl Cr < dz / 2 := by
  constructor
  · unfold helperExpl
    simp only [if_true, Nat.cast_zero, mul_zero, sub_zero]
    nlinarith
  · unfold helperImpl
    rw [div_lt_iff₀ (by linarith)]
    simp only [Nat.cast_zero, zero_mul, sub_zero]
    nlinarith

/-! ### the density profile -/

/-- the density falls with height, as long as the pressure is positive -/
theorem rhod_anti (s : Setup) (hr : 0 ≤ s.rv0) (hth : 0 < s.th0) {z z' : ℝ} (hzz : z < z')
    (hz : 0 < (s.p0 / 100000) ^ (R_d / c_pd) - R_d / c_pd * 9.81 / s.th0 / ((R_d + s.rv0 * R_v) / (1 + s.rv0)) * (z' - s.z0)) :
    0 < s.rhod z' ∧ s.rhod z' < s.rhod z := by
  have hR := R_d_pos
  have hc : 0 < c_pd := by norm_num [c_pd]
  have hq0 : 0 < R_d / c_pd := div_pos hR hc
  have hq1 : R_d / c_pd < 1 := by
    rw [div_lt_one hc]
    norm_num [R_d, c_pd, kaBoNA, M_d]
  have hanti := hydrostatic_anti z z' s.th0 s.rv0 s.z0 s.p0 hr hth hzz hz
  obtain ⟨p', _, _, hp', hp0, _, _, _⟩ := hydrostatic_balance z' s.th0 s.rv0 s.z0 s.p0 hr hth hz
  have hpos : 0 < hydrostatic_p z' s.th0 s.rv0 s.z0 s.p0 := hp' ▸ hp0
  have hval : ∀ p, 0 < p → rhodStd p s.th0 s.rv0 = (1 - s.rv0 / (s.rv0 + eps)) * p_1000 / (R_d * s.th0) * (p / p_1000) ^ (1 - R_d / c_pd) := by
    intro p hp
    have hP : 0 < p / p_1000 := div_pos hp (by norm_num [p_1000])
    unfold rhodStd p_v
    rw [Real.rpow_sub hP, Real.rpow_one]
    have : (p / p_1000) ^ (R_d / c_pd) ≠ 0 := (Real.rpow_pos_of_pos hP _).ne'
    have : p_1000 ≠ 0 := by norm_num [p_1000]
    have he : 0 < eps := by norm_num [eps, M_v, M_H, M_OH, M_d]
    have : s.rv0 + eps ≠ 0 := by positivity
    field_simp
  have he : 0 < eps := by norm_num [eps, M_v, M_H, M_OH, M_d]
  have hcoef : 0 < (1 - s.rv0 / (s.rv0 + eps)) * p_1000 / (R_d * s.th0) := by
    have : s.rv0 / (s.rv0 + eps) < 1 := by rw [div_lt_one (by positivity)]; linarith
    have h1 : 0 < 1 - s.rv0 / (s.rv0 + eps) := by linarith
    have : (0 : ℝ) < p_1000 := by norm_num [p_1000]
    positivity
  have hP : (0 : ℝ) < p_1000 := by norm_num [p_1000]
  unfold Setup.rhod
  rw [hval _ hpos, hval _ (hpos.trans hanti)]
  refine ⟨mul_pos hcoef (Real.rpow_pos_of_pos (div_pos hpos hP) _), ?_⟩
  apply mul_lt_mul_of_pos_left _ hcoef
  apply Real.rpow_lt_rpow (div_pos hpos hP).le _ (by linarith)
  exact div_lt_div_of_pos_right hanti hP

/-- the vertical momentum, in closed form -/
theorem gcz_formula (s : Setup) (i j : ℤ) : s.gcz i j = s.amp * (2 * Real.sin (Real.pi * ((j + 0.5) / (s.nz - 1))) *
    Real.sin (2 * Real.pi * i / (s.nx - 1)) * Real.sin (Real.pi / (s.nx - 1))) / s.dx * s.dt / s.dz := by
  unfold Setup.gcz psi
  have e : -Real.sin (Real.pi * ((j + 0.5) / (s.nz - 1))) * Real.cos (Real.pi * (2 * ((i + 0.5) / (s.nx - 1)))) -
      -Real.sin (Real.pi * ((j + 0.5) / (s.nz - 1))) * Real.cos (Real.pi * (2 * ((i - 0.5) / (s.nx - 1)))) =
      Real.sin (Real.pi * ((j + 0.5) / (s.nz - 1))) * (Real.cos (Real.pi * (2 * ((i - 0.5) / (s.nx - 1)))) -
        Real.cos (Real.pi * (2 * ((i + 0.5) / (s.nx - 1))))) := by ring
  rw [e, Real.cos_sub_cos]
  have e2 : (Real.pi * (2 * (((i : ℝ) - 0.5) / (s.nx - 1))) - Real.pi * (2 * ((i + 0.5) / (s.nx - 1)))) / 2 = -(Real.pi / (s.nx - 1)) := by
    ring
  have e3 : (Real.pi * (2 * (((i : ℝ) - 0.5) / (s.nx - 1))) + Real.pi * (2 * ((i + 0.5) / (s.nx - 1)))) / 2 = 2 * Real.pi * i / (s.nx - 1) := by
    ring
  rw [e2, e3, Real.sin_neg]
  ring

/-- the last but one column is in the downdraught -/
theorem downdraught (s : Setup) (h : s.Ok) (hw : 0 < s.wMax) (hx4 : 4 ≤ s.nx) : s.gcz ((s.nx - 2 : ℕ) : ℤ) 0 < 0 := by
  have hp := Real.pi_pos
  have hn : (3 : ℝ) ≤ s.nx - 1 := by
    have : (4 : ℝ) ≤ s.nx := by exact_mod_cast hx4
    linarith
  have hm := h.nz1
  have hm1 : (1 : ℝ) ≤ s.nz - 1 := by
    have : (2 : ℝ) ≤ s.nz := by exact_mod_cast h.nz
    linarith
  have hx := h.dx0
  have hz := h.dz0
  have hdt := h.dt
  have hA : 0 < s.amp := by unfold Setup.amp; have := h.nx1; positivity
  have s1 : 0 < Real.sin (Real.pi * (((0 : ℤ) + 0.5) / (s.nz - 1))) := by
    apply Real.sin_pos_of_pos_of_lt_pi
    · push_cast; positivity
    · have : ((0 : ℤ) + 0.5 : ℝ) / (s.nz - 1) < 1 := by rw [div_lt_one hm]; push_cast; linarith
      nlinarith
  have s2 : Real.sin (2 * Real.pi * (((s.nx - 2 : ℕ) : ℤ) : ℝ) / (s.nx - 1)) < 0 := by
    have e : 2 * Real.pi * (((s.nx - 2 : ℕ) : ℤ) : ℝ) / (s.nx - 1) = -(2 * Real.pi / (s.nx - 1)) + 2 * Real.pi := by
      have : (((s.nx - 2 : ℕ) : ℤ) : ℝ) = s.nx - 2 := by
        rw [Int.cast_natCast, Nat.cast_sub h.nx]; norm_num
      rw [this]
      have h0 : (s.nx : ℝ) - 1 ≠ 0 := by linarith
      field_simp
      ring
    rw [e, Real.sin_add_two_pi, Real.sin_neg, neg_lt_zero]
    apply Real.sin_pos_of_pos_of_lt_pi
    · positivity
    · rw [div_lt_iff₀ (by linarith)]; nlinarith
  have s3 : 0 < Real.sin (Real.pi / (s.nx - 1)) := by
    apply Real.sin_pos_of_pos_of_lt_pi
    · positivity
    · rw [div_lt_iff₀ (by linarith)]; nlinarith
  rw [gcz_formula]
  have h1 : 2 * Real.sin (Real.pi * (((0 : ℤ) + 0.5) / (s.nz - 1))) * Real.sin (2 * Real.pi * (((s.nx - 2 : ℕ) : ℤ) : ℝ) / (s.nx - 1)) *
      Real.sin (Real.pi / (s.nx - 1)) < 0 :=
    mul_neg_of_neg_of_pos (mul_neg_of_pos_of_neg (by positivity) s2) s3
  have h2 := mul_neg_of_pos_of_neg hA h1
  exact div_neg_of_neg_of_pos (mul_neg_of_neg_of_pos (div_neg_of_neg_of_pos h2 hx) hdt) hz

/-- **C110, disagreement.** In the downdraught, for every setup with a density falling with height, a super-droplet at the bottom
of the domain is carried out of it by the air alone, by the explicit and by the implicit scheme: dividing the momenta
half a step below and above the bottom by different densities leaves a downward velocity at the bottom -/
theorem downdraught_leak (s : Setup) (h : s.Ok) (hr : 0 ≤ s.rv0) (hth : 0 < s.th0)
    (hp : 0 < (s.p0 / 100000) ^ (R_d / c_pd) - R_d / c_pd * 9.81 / s.th0 / ((R_d + s.rv0 * R_v) / (1 + s.rv0)) * (0.5 * s.dz - s.z0))
    (i : ℕ) (hi : s.gcz i 0 < 0) :
    helperExpl true s.dz s.lz0 0 (s.cz i 0) (s.cz i 1) < s.lz0 ∧ helperImpl s.dz s.lz0 0 (s.cz i 0) (s.cz i 1) < s.lz0 := by
  have hz := h.dz0
  obtain ⟨hr1, hr2⟩ := rhod_anti s hr hth (z := -0.5 * s.dz) (z' := 0.5 * s.dz) (by linarith) hp
  have hw := (walls s h i).1
  have c0 : s.cz i 0 = -s.gcz i 0 / s.rhod (-0.5 * s.dz) := by
    unfold Setup.cz
    simp only [Nat.cast_zero, zero_sub]
    rw [hw]
  have c1 : s.cz i 1 = s.gcz i 0 / s.rhod (0.5 * s.dz) := by
    unfold Setup.cz
    simp only [Nat.cast_one, sub_self]
    rw [show ((1 : ℝ) - 0.5) * s.dz = 0.5 * s.dz by ring]
  have hlt : s.cz i 0 + s.cz i 1 < 0 := by
    rw [c0, c1]
    have : s.gcz i 0 / s.rhod (0.5 * s.dz) < s.gcz i 0 / s.rhod (-0.5 * s.dz) := by
      rw [div_lt_div_iff₀ hr1 (hr1.trans hr2)]
      nlinarith
    rw [neg_div]
    linarith
  have hM : s.cz i 1 - s.cz i 0 < 1 := by
    rw [c0, c1, neg_div]
    have h1 : s.gcz i 0 / s.rhod (0.5 * s.dz) < 0 := div_neg_of_neg_of_pos hi hr1
    have h2 : s.gcz i 0 / s.rhod (-0.5 * s.dz) < 0 := div_neg_of_neg_of_pos hi (hr1.trans hr2)
    linarith
  exact bottom_leak hz hlt hM

/-- the default setup (opts_common.hpp:49-60, icicle.cpp:100-101) -/
noncomputable def defaultSetup : Setup := ⟨289, 0.0075, 101500, 0.6, 0, 1500, 1500, 1, 76, 76⟩

theorem default_ok : defaultSetup.Ok := ⟨by decide, by decide, by norm_num [defaultSetup], by norm_num [defaultSetup], by norm_num [defaultSetup]⟩

/-- … so it is not true that the air never carries super-droplets out of the domain through the bottom -/
theorem bottom_not_closed : ¬ ∀ i : ℕ, defaultSetup.lz0 ≤ helperImpl defaultSetup.dz defaultSetup.lz0 0 (defaultSetup.cz i 0) (defaultSetup.cz i 1) := by
  intro hall
  have hp : 0 < (defaultSetup.p0 / 100000) ^ (R_d / c_pd) -
      R_d / c_pd * 9.81 / defaultSetup.th0 / ((R_d + defaultSetup.rv0 * R_v) / (1 + defaultSetup.rv0)) * (0.5 * defaultSetup.dz - defaultSetup.z0) := by
    have hR := R_d_pos
    have hc : 0 < c_pd := by norm_num [c_pd]
    have h1 : (1 : ℝ) ≤ (defaultSetup.p0 / 100000) ^ (R_d / c_pd) := by
      apply Real.one_le_rpow
      · norm_num [defaultSetup]
      · positivity
    have h2 : R_d / c_pd * 9.81 / defaultSetup.th0 / ((R_d + defaultSetup.rv0 * R_v) / (1 + defaultSetup.rv0)) * (0.5 * defaultSetup.dz - defaultSetup.z0) < 1 := by
      norm_num [defaultSetup, Setup.dz, R_d, R_v, c_pd, kaBoNA, M_d, M_v, M_H, M_OH]
    linarith
  have hd := downdraught defaultSetup default_ok (by norm_num [defaultSetup]) (by decide)
  have := (downdraught_leak defaultSetup default_ok (by norm_num [defaultSetup]) (by norm_num [defaultSetup]) hp _ hd).2
  exact absurd (hall _) (not_le.2 this)

end LCP.Icicle
