import Verif.Toms.Wet
import Verif.Cond.Growth
import Verif.Cond.DropletProps

/-!
# Wet radii of new super-droplets (C102)

Sources: src/impl/initialization/particles_impl_init_wet.ipp, common/kappa_koehler.hpp.
-/
namespace LCP.Init
open LCP.Common LCP.Toms LCP.Cond

/-- detail::rw2_eq (init_wet.ipp:18-40); `std::pow` is the real power -/
noncomputable def rw2_eq (RHmax rd3 kpa RH T : ℝ) : ℝ := rw3_eq rd3 kpa (min RH RHmax) T ^ (2 / 3 : ℝ)

/-- init_wet (init_wet.ipp:44-78): the squared wet radii of the last `new` super-droplets, numbered from `old`; `RH` and `T` are
arrays over cells, the others arrays over super-droplets -/
noncomputable def init_wet (RHmax : ℝ) (old new : ℕ) (rd3 kpa : ℕ → ℝ) (ijk : ℕ → ℕ) (RH T : ℕ → ℝ) (rw2 : ℕ → ℝ) : ℕ → ℝ := fun i =>
  if old ≤ i ∧ i < old + new then rw2_eq RHmax (rd3 i) (kpa i) (RH (ijk i)) (T (ijk i)) else rw2 i

/-! ### Specification -/

/-- saturation ratio over a droplet of radius `r` with dry radius cubed `d` and hygroscopicity `k` at temperature `T` (kappa-Koehler
theory): water activity times the Kelvin term, with surface tension 72.75 mN/m at 291 K falling by 0.2 % per kelvin, water density
1000 kg/m³ and the gas constant of water vapour -/
noncomputable def satRatio (d k T r : ℝ) : ℝ := (r ^ 3 - d) / (r ^ 3 - d * (1 - k)) *
  Real.exp (2 * (0.07275 * (1 - 0.002 * (T - 291))) / (1000 * R_v * T * r))

theorem satRatio_koehler (d k T r : ℝ) : satRatio d k T r = koehler d k T r := by
  unfold satRatio koehler kelvinA sg_surf rho_w
  congr 2
  simp only [div_div]
  norm_num
  ring

theorem pow_two_thirds (x : ℝ) (h : 0 ≤ x) : x ^ (2 / 3 : ℝ) = cbrt x ^ 2 := by
  unfold cbrt
  rw [← Real.rpow_natCast, ← Real.rpow_mul h]
  norm_num

/-- relative error of a cube root -/
theorem cbrt_close (x v : ℝ) (hx : 0 ≤ x) (hv : 0 < v) : |cbrt x - cbrt v| * v ≤ |x - v| * cbrt v := by
  have ha : 0 ≤ cbrt x := Real.rpow_nonneg hx _
  have hb := cbrt_pos v hv
  have e1 := cbrt_cube x hx
  have e2 := cbrt_cube v hv.le
  obtain ⟨a, hadef⟩ : ∃ a, a = cbrt x := ⟨_, rfl⟩
  obtain ⟨b, hbdef⟩ : ∃ b, b = cbrt v := ⟨_, rfl⟩
  rw [← hadef] at e1 ha ⊢
  rw [← hbdef] at e2 hb ⊢
  rw [← e1, ← e2, show a ^ 3 - b ^ 3 = (a - b) * (a ^ 2 + a * b + b ^ 2) by ring, abs_mul,
    abs_of_nonneg (show 0 ≤ a ^ 2 + a * b + b ^ 2 by positivity)]
  have h0 := abs_nonneg (a - b)
  have : |a - b| * b ^ 3 ≤ |a - b| * ((a ^ 2 + a * b + b ^ 2) * b) := by
    apply mul_le_mul_of_nonneg_left _ h0
    nlinarith [mul_nonneg ha hb.le, sq_nonneg a, mul_nonneg (sq_nonneg a) hb.le, mul_nonneg ha (sq_nonneg b)]
  linarith

/-- **C102.** A super-droplet created where the relative humidity, limited to `RH_max`, is below one: there is exactly one radius not
below the dry radius at which a droplet is in equilibrium with that humidity, and the wet radius set is that one up to a relative
error of 2⁻¹⁶ or the width of the interval searched divided by 2²⁵ (in volume); it is never below the dry radius. -/
theorem wet_equilibrium (RHmax d k RH T : ℝ) (hd : 0 < d) (hk : 0 < k) (hk2 : k ≤ 30) (h0 : 0 < RH) (hm : 0 < RHmax)
    (h1 : min RH RHmax < 1) (hT0 : 0 < T) (hT1 : T < 791) :
    ∃ r : ℝ, (∀ r', 0 < r' ∧ d ≤ r' ^ 3 ∧ satRatio d k T r' = min RH RHmax ↔ r' = r) ∧
      ∃ rw, 0 < rw ∧ rw2_eq RHmax d k RH T = rw ^ 2 ∧ d ≤ rw ^ 3 ∧
        |rw - r| * r ^ 2 ≤ max (2 ^ (-16 : ℤ) * r ^ 3) (d * k * min RH RHmax / (1 - min RH RHmax) / 2 ^ 25) := by
  set R := min RH RHmax with hR
  have hR0 : 0 < R := lt_min h0 hm
  obtain ⟨v, ⟨v1, v2, v3⟩, -⟩ := rw3_eq_accuracy d k R T hd hk hk2 hR0 h1 hT0 hT1
  obtain ⟨q1, q2⟩ := rw3_eq_range d k R T hd hk.le hR0 h1 hT0 hT1
  have hv : 0 < v := hd.trans_le v1
  have hx : 0 < rw3_eq d k R T := hd.trans_le q1
  have c3 := cbrt_cube v hv.le
  have cp := cbrt_pos v hv
  have x3 := cbrt_cube _ hx.le
  refine ⟨cbrt v, fun r' => ⟨?_, ?_⟩, cbrt (rw3_eq d k R T), cbrt_pos _ hx, ?_, by rw [x3]; exact q1, ?_⟩
  · intro hr'
    obtain ⟨r0, r1, r2⟩ := hr'
    have hr3 : 0 ≤ r' ^ 3 := by positivity
    have z1 : rw3_eq_minfun R d k T (r' ^ 3) = 0 := by
      rw [eq_minfun_eq R d k T _ hr3, cube_cbrt r' r0.le, ← satRatio_koehler, r2]; ring
    have z2 : rw3_eq_minfun R d k T v = 0 := by unfold rw3_eq_minfun klvntrm cbrt; linarith
    have := rw3_eq_unique d k R T hd hk hk2 hR0 h1 hT0 hT1 (r' ^ 3) v r1 v1 z1 z2
    rw [← this, cube_cbrt r' r0.le]
  · rintro rfl
    refine ⟨cp, by rw [c3]; exact v1, ?_⟩
    have : rw3_eq_minfun R d k T v = 0 := by unfold rw3_eq_minfun klvntrm cbrt; linarith
    rw [eq_minfun_eq R d k T v hv.le] at this
    rw [satRatio_koehler]; linarith
  · unfold rw2_eq; rw [← hR, pow_two_thirds _ hx.le]
  · have h := cbrt_close (rw3_eq d k R T) v hx.le hv
    rw [c3]
    have e : (rw3_eq_nokelvin d k R - d) = d * k * R / (1 - R) := by
      have : 1 - R ≠ 0 := by linarith
      unfold rw3_eq_nokelvin; field_simp; ring
    rw [← e]
    refine le_trans ?_ v3
    have h' : |cbrt (rw3_eq d k R T) - cbrt v| * cbrt v ^ 2 * cbrt v ≤ |rw3_eq d k R T - v| * cbrt v := by
      rw [mul_assoc, ← pow_succ, c3]; exact h
    exact le_of_mul_le_mul_right h' cp

/-- **C102 (stationary).** That equilibrium is the one of the condensation scheme: where the humidity is not above either limit, the
growth rate of a super-droplet with the equilibrium radius is zero and a time step of any length leaves it unchanged. -/
theorem equilibrium_stationary (N : Num) (e : Env) (he : e.Ok) (dt RHmax r : ℝ) (hr : 0 < r) (h1 : e.RH ≤ RHmax) (h2 : e.RH ≤ e.RHmax)
    (hs : satRatio e.rd3 e.kpa e.T r = min e.RH RHmax) : drw2dt e (r ^ 2) = 0 ∧ advance N e dt (r ^ 2) = r ^ 2 := by
  have hz : drw2dt e (r ^ 2) = 0 := by
    rw [(drw2dt_sign e he (r ^ 2) (by positivity)).2.2, Real.sqrt_sq hr.le, ← satRatio_koehler, hs, min_eq_left h1, min_eq_left h2]
  refine ⟨hz, ?_⟩
  unfold advance advanceG
  rw [if_neg (by have : 0 < r ^ 2 := by positivity
                 linarith)]
  simp only [hz, mul_zero]
  rfl

/-- **C102 (moist air).** Where the air is more humid than the initial limit, new super-droplets are smaller than equilibrium and
start to grow at once. -/
theorem limited_grows (e : Env) (he : e.Ok) (RHmax r : ℝ) (hr : 0 < r) (h1 : RHmax < min e.RH e.RHmax)
    (hs : satRatio e.rd3 e.kpa e.T r = min e.RH RHmax) : 0 < drw2dt e (r ^ 2) := by
  rw [(drw2dt_sign e he (r ^ 2) (by positivity)).1, Real.sqrt_sq hr.le, ← satRatio_koehler, hs]
  exact (min_le_right _ _).trans_lt h1

/-- **C102 (which).** Exactly the new super-droplets get a wet radius, each from its own dry radius and hygroscopicity and the
humidity and temperature of its own cell; insoluble ones are left dry. -/
theorem init_wet_which (RHmax : ℝ) (old new : ℕ) (rd3 kpa : ℕ → ℝ) (ijk : ℕ → ℕ) (RH T rw2 : ℕ → ℝ) (i : ℕ) :
    (i < old ∨ old + new ≤ i → init_wet RHmax old new rd3 kpa ijk RH T rw2 i = rw2 i) ∧
    (old ≤ i → i < old + new → 0 < kpa i → kpa i ≤ 30 → 0 < rd3 i → 0 < RH (ijk i) → 0 < RHmax → min (RH (ijk i)) RHmax < 1 →
      0 < T (ijk i) → T (ijk i) < 791 →
      ∃ r rw, 0 < r ∧ rd3 i ≤ r ^ 3 ∧ satRatio (rd3 i) (kpa i) (T (ijk i)) r = min (RH (ijk i)) RHmax ∧ 0 < rw ∧
        init_wet RHmax old new rd3 kpa ijk RH T rw2 i = rw ^ 2 ∧ rd3 i ≤ rw ^ 3 ∧
        |rw - r| * r ^ 2 ≤ max (2 ^ (-16 : ℤ) * r ^ 3) (rd3 i * kpa i * min (RH (ijk i)) RHmax / (1 - min (RH (ijk i)) RHmax) / 2 ^ 25)) ∧
    (old ≤ i → i < old + new → kpa i = 0 → 0 ≤ rd3 i → ∃ rd, 0 ≤ rd ∧ rd ^ 3 = rd3 i ∧ init_wet RHmax old new rd3 kpa ijk RH T rw2 i = rd ^ 2) := by
  refine ⟨?_, ?_, ?_⟩
  · intro h; unfold init_wet; rw [if_neg (by omega)]
  · intro h1 h2 hk hk2 hd hRH hm hlt hT0 hT1
    obtain ⟨r, hr, rw, d, e, f, g⟩ := wet_equilibrium RHmax (rd3 i) (kpa i) (RH (ijk i)) (T (ijk i)) hd hk hk2 hRH hm hlt hT0 hT1
    obtain ⟨a, b, c⟩ := (hr r).2 rfl
    refine ⟨r, rw, a, b, c, d, ?_, f, g⟩
    unfold init_wet; rw [if_pos ⟨h1, h2⟩, e]
  · intro h1 h2 hk hd
    refine ⟨cbrt (rd3 i), Real.rpow_nonneg hd _, cbrt_cube _ hd, ?_⟩
    unfold init_wet; rw [if_pos ⟨h1, h2⟩, ← pow_two_thirds _ hd]
    unfold rw2_eq rw3_eq; rw [if_pos hk]

/-- **C102, negation.** Nothing keeps the humidity given to the search below one: with `RH_max` above one (not rejected by the
checks of options) and supersaturated air the interval searched is reversed, its upper end lying below the dry volume. -/
theorem supersaturated_bracket (d k R : ℝ) (hd : 0 < d) (hk : 0 < k) (hR : 1 < R) : rw3_eq_nokelvin d k R < d := by
  unfold rw3_eq_nokelvin
  rw [div_lt_iff_of_neg (by linarith)]
  nlinarith [mul_pos (mul_pos hd hk) (by linarith : (0:ℝ) < R)]

/-- non-vacuity: 20 nm dry radius, kappa 0.6, 90 % humidity, default limit 0.95 -/
example : ∃ r : ℝ, (∀ r', 0 < r' ∧ (8e-24 : ℝ) ≤ r' ^ 3 ∧ satRatio 8e-24 0.6 280 r' = min 0.9 0.95 ↔ r' = r) ∧
      ∃ rw, 0 < rw ∧ rw2_eq 0.95 8e-24 0.6 0.9 280 = rw ^ 2 ∧ (8e-24 : ℝ) ≤ rw ^ 3 ∧
        |rw - r| * r ^ 2 ≤ max (2 ^ (-16 : ℤ) * r ^ 3) (8e-24 * 0.6 * min 0.9 0.95 / (1 - min 0.9 0.95) / 2 ^ 25) :=
  wet_equilibrium 0.95 8e-24 0.6 0.9 280 (by norm_num) (by norm_num) (by norm_num) (by norm_num) (by norm_num) (by norm_num) (by norm_num) (by norm_num)

end LCP.Init
