import Verif.Blk2m.Spectra
import Verif.Blk2m.SwitchProps

/-!
# Collisions in the double-moment scheme: numbers against masses (C133)

Collisions (autoconversion and accretion) move cloud water to rain and take droplets from the cloud. A user expects the droplets
taken to carry the water taken, i.e. mean droplet mass unchanged by collection, and the new raindrops to carry the autoconverted
water. The cells below have activation and condensation switched off, so that the tendencies are those of the collisions.
-/
namespace LCP.Blk2m
open LCP.Common

/-- mean mass of the drops of a spectrum with a given shape parameter divided by the mass of a drop of the mean radius -/
noncomputable def spread (m : ℝ) : ℝ := (m + 2) * (m + 3) / (m + 1) ^ 2

theorem spread_gt (m : ℝ) (h : 0 < m + 1) : 1 < spread m := by
  unfold spread
  rw [lt_div_iff₀ (by positivity)]
  nlinarith

/-- the mean drop mass of the cloud is `spread` times the mass of a drop of the radius used by the scheme -/
theorem spread_meaning (rc nc rhod : ℝ) (hc : 0 < rc) (hn : 0 < nc) (hr : 0 ≤ rhod) :
    rc / nc = spread (miu_c (nc * rhod)) * dropMass (2 * r_drop_c rc nc rhod) := by
  have hl := lambda_c_pos nc rc rhod hn hc hr
  have hm := miu_pos (nc * rhod) (by positivity)
  have hg := Real.Gamma_pos_of_pos hm
  have hcm := c_md_pos
  have h3 : lambda_c nc rc rhod ^ 3 = c_md * nc * Real.Gamma (miu_c (nc * rhod) + 3 + 1) / (rc * Real.Gamma (miu_c (nc * rhod) + 1)) := by
    unfold lambda_c
    rw [cube_root _ ?_]; rfl
    have hg4 := Real.Gamma_pos_of_pos (show 0 < miu_c (nc * rhod) + 3 + 1 by linarith)
    unfold d_md; positivity
  have hG : Real.Gamma (miu_c (nc * rhod) + 3 + 1) = (miu_c (nc * rhod) + 3) * ((miu_c (nc * rhod) + 2) * ((miu_c (nc * rhod) + 1) *
      Real.Gamma (miu_c (nc * rhod) + 1))) := by
    rw [Real.Gamma_add_one (by linarith), show miu_c (nc * rhod) + 3 = (miu_c (nc * rhod) + 1 + 1) + 1 by ring,
      Real.Gamma_add_one (by linarith), Real.Gamma_add_one (by linarith)]
    ring
  rw [dropMass_eq]
  unfold r_drop_c spread
  rw [if_pos ⟨hc, hn⟩]
  generalize miu_c (nc * rhod) = m at *
  generalize lambda_c nc rc rhod = l at *
  have e : c_md * (2 * ((m + 1) / l / 2)) ^ 3 = c_md * (m + 1) ^ 3 / l ^ 3 := by
    field_simp
  rw [e, h3, hG]
  have : 0 < m + 2 := by linarith
  have : 0 < m + 3 := by linarith
  field_simp

/-- without phase changes the first part of the loop body does nothing to the cloud -/
theorem phase1_off (epsm : ℝ) (o : Opts) (dt T p : ℝ) (c : Cell) (hdt : 0 < dt) (hrc : 0 < c.rc) (hrr : 0 ≤ c.rr)
    (h0 : o.acti = false) (h1 : o.cond = false) :
    (phase1 epsm o dt T p c).rc = 0 ∧ (phase1 epsm o dt T p c).rr = 0 ∧ (phase1 epsm o dt T p c).nc = 0 ∧
    ¬ (phase1 epsm o dt T p c).cloudLim ∧ ((phase1 epsm o dt T p c).rainLim ↔ c.rr = 0) := by
  have a0 : actRate o dt T p c = 0 := by unfold actRate; rw [if_neg]; simp [h0]
  have a1 : condRate epsm o T p c = 0 := by unfold condRate; rw [if_neg]; simp [h1]
  have a2 : evapRate epsm o T p c = 0 := by unfold evapRate; rw [if_neg]; simp [h1]
  have n1 : -c.rc / dt < 0 := div_neg_of_neg_of_pos (by linarith) hdt
  have n2 : -c.rr / dt ≤ 0 := div_nonpos_of_nonpos_of_nonneg (by linarith) hdt.le
  unfold phase1
  simp only [a0, a1, a2, zero_mul, zero_add, max_eq_left n1.le, max_eq_left n2, n1.ne', if_false, not_false_eq_true, true_and]
  constructor
  · intro h
    have := h.symm
    rw [div_eq_zero_iff] at this
    rcases this with h | h
    · linarith
    · exact absurd h hdt.ne'
  · intro h; rw [h]; simp

/-- **C133 (partial: mean drop mass).** Collisions that do not use up the cloud water move as much water to the rain as they take
from the cloud, and they take droplets faster than water: the relative loss of droplets is the relative loss of water times
`spread > 1`, until no droplets are left. Missing: the claim has factor 1, which is false (`collection_wrong`). -/
theorem collection_partial (epsm : ℝ) (o : Opts) (dt : ℝ) (c : Cell) (d d' : Dots) (he : 0 ≤ epsm) (hdt : 0 < dt) (hrc : 0 < c.rc)
    (hrr : 0 ≤ c.rr) (hnc : nc_eps epsm < c.nc) (hrho : 0 ≤ c.rhod) (h0 : o.acti = false) (h1 : o.cond = false)
    (h : rhsCell epsm o dt c d = some d') (hfast : 1e-4 * epsm < d'.rr - d.rr) (hlim : d'.rr - d.rr < c.rc / dt) :
    d.rc - d'.rc = d'.rr - d.rr ∧
    (d.nc - d'.nc) / c.nc = min (spread (miu_c (c.nc * c.rhod)) * ((d.rc - d'.rc) / c.rc)) (1 / dt) ∧
    1 < spread (miu_c (c.nc * c.rhod)) := by
  have hnc0 : 0 < c.nc := lt_of_le_of_lt (by unfold nc_eps; positivity) hnc
  have hsp := spread_gt (miu_c (c.nc * c.rhod)) (miu_pos _ (by positivity))
  rcases hT : Tp o c with _ | ⟨T, p⟩
  · unfold rhsCell at h; rw [hT] at h; simp at h
  obtain ⟨_, _, h3⟩ := rhsCell_eq epsm o dt c d d' T p hT h
  obtain ⟨p1, p2, p3, p4, p5⟩ := phase1_off epsm o dt T p c hdt hrc hrr h0 h1
  rcases h3 with ⟨hx, _⟩ | ⟨_, e1, e2, e3, _⟩
  · exact absurd hx p4
  generalize (phase1 epsm o dt T p c).rainLim = R at *
  rw [p1] at e1; rw [p2] at e2; rw [p3] at e3
  have hB : 0 ≤ accretion_rate c.rc c.rr := accr_nonneg c hrc.le hrr
  have key : (phase2 epsm o dt c R).rc = -(phase2 epsm o dt c R).rr ∧ (phase2 epsm o dt c R).nc =
      -min (collision_sink_rate (phase2 epsm o dt c R).rr (r_drop_c c.rc c.nc c.rhod)) (c.nc / dt) := by
    have r : (phase2 epsm o dt c R).rr = d'.rr - d.rr := by rw [e2]; ring
    rw [← r] at hfast hlim
    clear r e1 e2 e3
    unfold phase2 at hfast hlim ⊢
    simp only at hfast hlim ⊢
    obtain ⟨a, ha⟩ : ∃ a, a = acnvRate epsm o dt c := ⟨_, rfl⟩
    rw [← ha] at hfast hlim ⊢
    by_cases hl1 : o.acnv = true ∧ rc_eps epsm < c.rc ∧ nc_eps epsm < c.nc ∧ a = c.rc / dt
    · exfalso
      rw [if_neg (by tauto)] at hlim
      linarith [hl1.2.2.2]
    by_cases hd : o.accr = true ∧ ¬ (o.acnv = true ∧ rc_eps epsm < c.rc ∧ nc_eps epsm < c.nc ∧ a = c.rc / dt) ∧ ¬ R ∧
        rc_eps epsm < c.rc ∧ nc_eps epsm < c.nc ∧ rr_eps epsm < c.rr
    · simp only [if_pos hd] at hfast hlim ⊢
      have hm : -c.rc / dt < -a - accretion_rate c.rc c.rr := by rw [neg_div]; linarith
      rw [max_eq_left hm.le, if_pos (Or.inr hd.1), if_neg, if_pos ⟨hnc, hfast⟩]
      · exact ⟨by ring, rfl⟩
      · rintro (h | h)
        · exact hl1 h
        · have h2 := h.2
          rw [if_pos hd, if_pos hd, max_eq_left hm.le] at h2
          exact hm.ne' h2
    · simp only [if_neg hd] at hfast hlim ⊢
      rw [add_zero] at hfast hlim ⊢
      have hon : o.acnv = true ∨ o.accr = true := by
        by_contra hc
        have : a = 0 := by rw [ha]; unfold acnvRate; rw [if_neg]; tauto
        rw [this] at hfast
        have : 0 ≤ 1e-4 * epsm := by positivity
        linarith
      rw [if_pos hon, if_neg, if_pos ⟨hnc, hfast⟩]
      · exact ⟨rfl, rfl⟩
      · rintro (h | h)
        · exact hl1 h
        · exact hd h.1
  have hdr : d.rc - d'.rc = d'.rr - d.rr := by rw [e1, e2, key.1]; ring
  refine ⟨hdr, ?_, hsp⟩
  have hrr' : (phase2 epsm o dt c R).rr = d.rc - d'.rc := by rw [hdr, e2]; ring
  rw [show d.nc - d'.nc = -(phase2 epsm o dt c R).nc by rw [e3]; ring, key.2, neg_neg, hrr']
  have hD : collision_sink_rate (d.rc - d'.rc) (r_drop_c c.rc c.nc c.rhod) =
      (d.rc - d'.rc) / dropMass (2 * r_drop_c c.rc c.nc c.rhod) := by
    unfold collision_sink_rate dropMass; congr 1; ring
  have hmass := spread_meaning c.rc c.nc c.rhod hrc hnc0 hrho
  have hMpos : 0 < dropMass (2 * r_drop_c c.rc c.nc c.rhod) := by
    have := r_drop_c_pos c.rc c.nc c.rhod hrc hnc0 hrho
    have := rho_w_pos
    have := Real.pi_pos
    unfold dropMass; positivity
  generalize dropMass (2 * r_drop_c c.rc c.nc c.rhod) = M at *
  rw [hD, ← min_div_div_right hnc0.le]
  congr 1
  · rw [div_eq_iff hnc0.ne'] at hmass
    generalize spread (miu_c (c.nc * c.rhod)) = s at *
    have hs : 0 < s := by linarith
    rw [hmass]
    field_simp
  · field_simp

/-- **C133 (numbers run out first).** If the relative water loss over the step reaches `1 / spread`, which is below one, the step
leaves cloud water without any droplet. -/
theorem cloud_without_droplets (epsm : ℝ) (o : Opts) (dt : ℝ) (c : Cell) (d d' : Dots) (he : 0 ≤ epsm) (hdt : 0 < dt)
    (hrc : 0 < c.rc) (hrr : 0 ≤ c.rr) (hnc : nc_eps epsm < c.nc) (hrho : 0 ≤ c.rhod) (h0 : o.acti = false) (h1 : o.cond = false)
    (h : rhsCell epsm o dt c d = some d') (hfast : 1e-4 * epsm < d'.rr - d.rr) (hlim : d'.rr - d.rr < c.rc / dt)
    (hloss : c.rc ≤ spread (miu_c (c.nc * c.rhod)) * (dt * (d'.rr - d.rr))) :
    c.nc + dt * (d'.nc - d.nc) = 0 ∧ 0 < c.rc + dt * (d'.rc - d.rc) := by
  obtain ⟨e, f, g⟩ := collection_partial epsm o dt c d d' he hdt hrc hrr hnc hrho h0 h1 h hfast hlim
  have hnc0 : 0 < c.nc := lt_of_le_of_lt (by unfold nc_eps; positivity) hnc
  rw [min_eq_right] at f
  · rw [div_eq_iff hnc0.ne'] at f
    constructor
    · rw [show d'.nc - d.nc = -(d.nc - d'.nc) by ring, f]; field_simp; ring
    · rw [lt_div_iff₀ hdt] at hlim
      rw [show d'.rc - d.rc = -(d'.rr - d.rr) by linarith]; linarith
  · rw [e, ← mul_div_assoc, div_le_div_iff₀ hdt hrc]; linarith

/-- **C133 (slow collisions).** Collisions slower than the threshold take water from the cloud but no droplets. -/
theorem slow_collection (epsm : ℝ) (o : Opts) (dt : ℝ) (c : Cell) (d d' : Dots) (hdt : 0 < dt) (hrc : 0 < c.rc)
    (hrr : 0 ≤ c.rr) (h0 : o.acti = false) (h1 : o.cond = false)
    (h : rhsCell epsm o dt c d = some d') (hslow : d'.rr - d.rr ≤ 1e-4 * epsm) (hlim : d'.rr - d.rr < c.rc / dt) :
    d'.nc = d.nc ∧ d.rc - d'.rc = d'.rr - d.rr := by
  rcases hT : Tp o c with _ | ⟨T, p⟩
  · unfold rhsCell at h; rw [hT] at h; simp at h
  obtain ⟨_, _, h3⟩ := rhsCell_eq epsm o dt c d d' T p hT h
  obtain ⟨p1, p2, p3, p4, p5⟩ := phase1_off epsm o dt T p c hdt hrc hrr h0 h1
  rcases h3 with ⟨hx, _⟩ | ⟨_, e1, e2, e3, _⟩
  · exact absurd hx p4
  generalize (phase1 epsm o dt T p c).rainLim = R at *
  rw [p1] at e1; rw [p2] at e2; rw [p3] at e3
  have key : (phase2 epsm o dt c R).rc = -(phase2 epsm o dt c R).rr ∧ (phase2 epsm o dt c R).nc = 0 := by
    have r : (phase2 epsm o dt c R).rr = d'.rr - d.rr := by rw [e2]; ring
    rw [← r] at hslow hlim
    clear r e1 e2 e3
    unfold phase2 at hslow hlim ⊢
    simp only at hslow hlim ⊢
    obtain ⟨a, ha⟩ : ∃ a, a = acnvRate epsm o dt c := ⟨_, rfl⟩
    rw [← ha] at hslow hlim ⊢
    by_cases hl1 : o.acnv = true ∧ rc_eps epsm < c.rc ∧ nc_eps epsm < c.nc ∧ a = c.rc / dt
    · exfalso
      rw [if_neg (by tauto)] at hlim
      linarith [hl1.2.2.2]
    by_cases hd : o.accr = true ∧ ¬ (o.acnv = true ∧ rc_eps epsm < c.rc ∧ nc_eps epsm < c.nc ∧ a = c.rc / dt) ∧ ¬ R ∧
        rc_eps epsm < c.rc ∧ nc_eps epsm < c.nc ∧ rr_eps epsm < c.rr
    · simp only [if_pos hd] at hslow hlim ⊢
      have hm : -c.rc / dt < -a - accretion_rate c.rc c.rr := by rw [neg_div]; linarith
      rw [max_eq_left hm.le, if_pos (Or.inr hd.1), if_neg, if_neg]
      · exact ⟨by ring, rfl⟩
      · intro h; exact absurd h.2 (not_lt.mpr hslow)
      · rintro (h | h)
        · exact hl1 h
        · have h2 := h.2
          rw [if_pos hd, if_pos hd, max_eq_left hm.le] at h2
          exact hm.ne' h2
    · simp only [if_neg hd] at hslow hlim ⊢
      rw [add_zero] at hslow hlim ⊢
      refine ⟨rfl, ?_⟩
      rw [if_neg (t := -c.nc / dt), if_neg (c := nc_eps epsm < c.nc ∧ rr_eps epsm < a) (fun h => absurd h.2 (not_lt.mpr hslow)), ite_self]
      rintro (h | h)
      · exact hl1 h
      · exact hd h.1
  refine ⟨by rw [e3, key.2]; ring, by rw [e1, e2, key.1]; ring⟩

/-- **C133 (drizzle).** Accretion makes no raindrops, and autoconversion puts the converted water into drops of 25 μm radius: with
accretion off the rain number grows by exactly the rain water divided by the mass of such a drop. -/
theorem drizzle_number (epsm : ℝ) (o : Opts) (dt : ℝ) (c : Cell) (d d' e' : Dots) (hdt : 0 < dt) (hrc : 0 < c.rc)
    (hrr : 0 < c.rr) (hnr : 0 ≤ c.nr) (h0 : o.acti = false) (h1 : o.cond = false)
    (h : rhsCell epsm o dt c d = some d') (h' : rhsCell epsm { o with accr := false } dt c d = some e') :
    (e'.nr - d.nr) * dropMass 50e-6 = e'.rr - d.rr ∧ d'.nr = e'.nr := by
  have main : ∀ (o : Opts) (d' : Dots), o.acti = false → o.cond = false → rhsCell epsm o dt c d = some d' →
      d'.nr = d.nr + acnvRate epsm o dt c / dropMass 50e-6 ∧ (o.accr = false → d'.rr = d.rr + acnvRate epsm o dt c) := by
    intro o d' h0 h1 h
    rcases hT : Tp o c with _ | ⟨T, p⟩
    · unfold rhsCell at h; rw [hT] at h; simp at h
    obtain ⟨_, _, h3⟩ := rhsCell_eq epsm o dt c d d' T p hT h
    obtain ⟨p1, p2, p3, p4, p5⟩ := phase1_off epsm o dt T p c hdt hrc hrr.le h0 h1
    rcases h3 with ⟨hx, _⟩ | ⟨_, e1, e2, e3, e4⟩
    · exact absurd hx p4
    have q : (phase1 epsm o dt T p c).nr = 0 := by
      have a2 : evapRate epsm o T p c = 0 := by unfold evapRate; rw [if_neg]; simp [h1]
      have n3 : -c.nr / dt ≤ 0 := div_nonpos_of_nonpos_of_nonneg (by linarith) hdt.le
      have n2 : -c.rr / dt < 0 := div_neg_of_neg_of_pos (by linarith) hdt
      unfold phase1
      simp only [a2, zero_mul, zero_div, max_eq_left n2.le, max_eq_left n3, n2.ne', if_false]
    rw [e4, e2, q, p2]
    unfold phase2 dropMass drizzle_radius
    simp only
    refine ⟨?_, fun ha => ?_⟩
    · rw [show (50e-6 : ℝ) / 2 = 25 * 1e-6 by norm_num]
      rw [show 4 / 3 * Real.pi * (25 * 1e-6) ^ 3 * rho_w = 4 / 3 * Real.pi * rho_w * (25 * 1e-6) * (25 * 1e-6) * (25 * 1e-6) by ring]
      ring
    · rw [if_neg (by simp [ha])]; ring
  obtain ⟨m1, _⟩ := main o d' h0 h1 h
  obtain ⟨m3, m4⟩ := main { o with accr := false } e' h0 h1 h'
  have hA : acnvRate epsm { o with accr := false } dt c = acnvRate epsm o dt c := rfl
  have hM : 0 < dropMass 50e-6 := by have := rho_w_pos; have := Real.pi_pos; unfold dropMass; positivity
  rw [hA] at m3 m4
  refine ⟨?_, by rw [m1, m3]⟩
  rw [m3, m4 rfl]; field_simp; ring

/-! ### Witnesses -/

/-- options with accretion only -/
noncomputable def optsA : Opts := { optsP with cond := false, acnv := false }

theorem rainy_accretion (epsm dt : ℝ) (he1 : epsm ≤ 1e-6) (hdt : 0 < dt) : ∃ d',
    rhsCell epsm optsA dt rainyCloud ⟨0, 0, 0, 0, 0, 0⟩ = some d' ∧ d'.rr = accretion_rate 1e-3 1e-3 := by
  rcases h : rhsCell epsm optsA dt rainyCloud ⟨0, 0, 0, 0, 0, 0⟩ with _ | d'
  · rw [cell_throws_iff] at h; simp [optsA, optsP] at h
  refine ⟨d', rfl, ?_⟩
  rcases hT : Tp optsA rainyCloud with _ | ⟨T, p⟩
  · unfold rhsCell at h; rw [hT] at h; simp at h
  obtain ⟨_, _, h3⟩ := rhsCell_eq epsm optsA dt rainyCloud _ d' T p hT h
  obtain ⟨p1, p2, p3, p4, p5⟩ := phase1_off epsm optsA dt T p rainyCloud hdt (by norm_num [rainyCloud]) (by norm_num [rainyCloud])
    rfl rfl
  rcases h3 with ⟨hx, _⟩ | ⟨_, _, e2, _, _⟩
  · exact absurd hx p4
  have hR : ¬ (phase1 epsm optsA dt T p rainyCloud).rainLim := by rw [p5]; norm_num [rainyCloud]
  generalize (phase1 epsm optsA dt T p rainyCloud).rainLim = R at *
  rw [e2, p2]
  have ha : acnvRate epsm optsA dt rainyCloud = 0 := by unfold acnvRate; rw [if_neg]; simp [optsA]
  unfold phase2
  simp only [ha]
  rw [if_pos]
  · simp [rainyCloud]
  · refine ⟨rfl, by simp [optsA], hR, ?_, ?_, ?_⟩
    · show rc_eps epsm < 1e-3
      unfold rc_eps; norm_num at he1 ⊢; linarith
    · show nc_eps epsm < 1e8
      unfold nc_eps; norm_num at he1 ⊢; linarith
    · show rr_eps epsm < 1e-3
      unfold rr_eps; norm_num at he1 ⊢; linarith

theorem accr_bounds : 1e-8 < accretion_rate 1e-3 1e-3 ∧ accretion_rate 1e-3 1e-3 ≤ 1e-4 := by
  unfold accretion_rate
  have h1 : ((1e-3 : ℝ) * 1e-3) ^ (1.15 : ℝ) ≤ (1e-3 * 1e-3) ^ (1 : ℝ) :=
    Real.rpow_le_rpow_of_exponent_ge (by norm_num) (by norm_num) (by norm_num)
  have h2 : ((1e-3 : ℝ) * 1e-3) ^ (3 / 2 : ℝ) ≤ (1e-3 * 1e-3) ^ (1.15 : ℝ) :=
    Real.rpow_le_rpow_of_exponent_ge (by norm_num) (by norm_num) (by norm_num)
  have h3 : ((1e-3 : ℝ) * 1e-3) ^ (3 / 2 : ℝ) = 1e-9 := by
    rw [Real.mul_rpow (by norm_num) (by norm_num), ← Real.rpow_add (by norm_num)]
    norm_num
  rw [Real.rpow_one] at h1
  rw [h3] at h2
  constructor
  · norm_num at h2 ⊢; linarith
  · norm_num at h1 ⊢; linarith

theorem rainy_hyp (epsm : ℝ) (he1 : epsm ≤ 1e-6) : nc_eps epsm < rainyCloud.nc ∧ 1e-4 * epsm < accretion_rate 1e-3 1e-3 := by
  constructor
  · show nc_eps epsm < 1e8
    unfold nc_eps; norm_num at he1 ⊢; linarith
  · have := accr_bounds.1
    norm_num at he1 this ⊢; linarith

/-- **C133, negation (mean drop mass).** For a cloudy and rainy cell accretion takes a larger share of the droplets than of the
cloud water. -/
theorem collection_wrong (epsm : ℝ) (he : 0 ≤ epsm) (he1 : epsm ≤ 1e-6) : ∃ d',
    rhsCell epsm optsA 1 rainyCloud ⟨0, 0, 0, 0, 0, 0⟩ = some d' ∧ 0 < -d'.rc ∧
    -d'.rc / rainyCloud.rc < -d'.nc / rainyCloud.nc := by
  obtain ⟨d', h, hr⟩ := rainy_accretion epsm 1 he1 one_pos
  obtain ⟨b1, b2⟩ := accr_bounds
  obtain ⟨n1, n2⟩ := rainy_hyp epsm he1
  have hc : rainyCloud.rc = 1e-3 := rfl
  obtain ⟨e1, e2, e3⟩ := collection_partial epsm optsA 1 rainyCloud _ d' he one_pos (by norm_num [rainyCloud]) (by norm_num [rainyCloud])
    n1 (by norm_num [rainyCloud]) rfl rfl h (by simpa [hr] using n2) (by simp only [hr, hc]; norm_num at b2 ⊢; linarith)
  refine ⟨d', h, ?_, ?_⟩
  · simp only [zero_sub, sub_zero] at e1; rw [e1, hr]; norm_num at b1 ⊢; linarith
  · simp only [zero_sub, sub_zero] at e1 e2
    rw [e2, lt_min_iff]
    have hp : 0 < -d'.rc / rainyCloud.rc := by rw [e1, hr, hc]; norm_num at b1 ⊢; linarith
    constructor
    · nlinarith
    · rw [e1, hr, hc]; norm_num at b2 ⊢; linarith

/-- **C133, negation (droplets for the cloud water).** For the same cell there is a time step after which the cell has cloud water
but no droplet. -/
theorem droplets_gone (epsm : ℝ) (he : 0 ≤ epsm) (he1 : epsm ≤ 1e-6) : ∃ dt > 0, ∃ d',
    rhsCell epsm optsA dt rainyCloud ⟨0, 0, 0, 0, 0, 0⟩ = some d' ∧
    rainyCloud.nc + dt * d'.nc = 0 ∧ 0 < rainyCloud.rc + dt * d'.rc := by
  obtain ⟨b1, b2⟩ := accr_bounds
  obtain ⟨n1, n2⟩ := rainy_hyp epsm he1
  have hB : 0 < accretion_rate 1e-3 1e-3 := lt_trans (by norm_num) b1
  have hs := spread_gt (miu_c (rainyCloud.nc * rainyCloud.rhod)) (miu_pos _ (by norm_num [rainyCloud]))
  obtain ⟨s, hse⟩ : ∃ s, s = spread (miu_c (rainyCloud.nc * rainyCloud.rhod)) := ⟨_, rfl⟩
  rw [← hse] at hs
  have hs0 : 0 < s := by linarith
  have his : 1 / s < 1 := by rw [div_lt_one hs0]; exact hs
  have hip : 0 < 1 / s := by positivity
  obtain ⟨B, hBe⟩ : ∃ B, B = accretion_rate 1e-3 1e-3 := ⟨_, rfl⟩
  rw [← hBe] at hB n2 b1 b2
  have hdt : 0 < 1e-3 * ((1 + 1 / s) / 2) / B := by positivity
  refine ⟨_, hdt, ?_⟩
  obtain ⟨d', h, hr⟩ := rainy_accretion epsm _ he1 hdt
  rw [← hBe] at hr
  have hc : rainyCloud.rc = 1e-3 := rfl
  have h1 : d'.rr - 0 < rainyCloud.rc / (1e-3 * ((1 + 1 / s) / 2) / B) := by
    rw [hr, hc, sub_zero, lt_div_iff₀ hdt, mul_div_cancel₀ _ hB.ne']
    linarith
  have h2 : rainyCloud.rc ≤ spread (miu_c (rainyCloud.nc * rainyCloud.rhod)) *
      (1e-3 * ((1 + 1 / s) / 2) / B * (d'.rr - 0)) := by
    rw [hr, hc, sub_zero, ← hse, div_mul_cancel₀ _ hB.ne']
    have : s * (1 / s) = 1 := by field_simp
    nlinarith
  obtain ⟨g1, g2⟩ := cloud_without_droplets epsm optsA _ rainyCloud _ d' he hdt (by norm_num [rainyCloud]) (by norm_num [rainyCloud])
    n1 (by norm_num [rainyCloud]) rfl rfl h (by simpa [hr] using n2) h1 h2
  exact ⟨d', h, by simpa using g1, by simpa using g2⟩

/-- the hypotheses of `slow_collection` and `drizzle_number` are met: with all processes off, and for the rainy cloud -/
example (epsm dt : ℝ) (hdt : 0 < dt) (he : 0 ≤ epsm) : ∃ d', rhsCell epsm { optsA with accr := false } dt rainyCloud ⟨0, 0, 0, 0, 0, 0⟩
    = some d' ∧ d'.rr - 0 ≤ 1e-4 * epsm ∧ d'.rr - 0 < rainyCloud.rc / dt ∧ 0 < rainyCloud.rr ∧ 0 ≤ rainyCloud.nr := by
  rcases h : rhsCell epsm { optsA with accr := false } dt rainyCloud ⟨0, 0, 0, 0, 0, 0⟩ with _ | d'
  · rw [cell_throws_iff] at h; simp [optsA, optsP] at h
  · have e := all_off epsm _ dt rainyCloud _ d' hdt (by norm_num [rainyCloud]) (by norm_num [rainyCloud]) (by norm_num [rainyCloud])
      rfl rfl rfl rfl h
    subst e
    have : 0 < rainyCloud.rc := by norm_num [rainyCloud]
    exact ⟨_, rfl, by simp; positivity, by simp; positivity, by norm_num [rainyCloud], by norm_num [rainyCloud]⟩

end LCP.Blk2m
