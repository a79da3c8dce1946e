import Verif.Ice.Model
import Verif.Cond.PerCellProps

/-!
# C62: freezing and melting - who changes phase, mass of water, heat

Specification: a super-droplet is either liquid or ice (`Liquid`, `Frozen`), its water mass is the mass of the sphere or of the
spheroid (`waterMass`); `Freezes` is the freezing criterion.
-/
namespace LCP.Ice
open LCP.Common LCP.Cond
open LCP.Diag hiding St

/-- a droplet -/
def Liquid (x : Drop) : Prop := 0 < x.rw2 ∧ x.a = 0 ∧ x.c = 0 ∧ x.rho = 0

/-- an ice particle of the density used by the library -/
def Frozen (x : Drop) : Prop := x.rw2 = 0 ∧ 0 < x.a ∧ 0 < x.c ∧ x.rho = rho_i

/-- mass of water in one particle -/
noncomputable def waterMass (x : Drop) : ℝ := 4 / 3 * Real.pi * Real.sqrt x.rw2 ^ 3 * rho_w + 4 / 3 * Real.pi * x.a ^ 2 * x.c * x.rho

/-- the criterion: singular scheme - colder than the particle's freezing temperature, at water saturation; time-dependent scheme -
the random number is below the freezing probability -/
def Freezes (q : In) (s : St) (i : ℕ) : Prop :=
  if q.timeDep then q.u01 i < pFreeze (q.insol i) (s.rw2 i) (s.T (s.d.ijk i)) q.dt
  else s.T (s.d.ijk i) ≤ q.Tf i ∧ 1 ≤ s.RH (s.d.ijk i)

theorem rho_i_pos : 0 < rho_i := by norm_num [rho_i]

theorem not_both (x : Drop) : ¬ (Liquid x ∧ Frozen x) := fun ⟨h, g⟩ => h.1.ne' g.1

theorem frozen_ok (x : Drop) (h : Liquid x) : Frozen (frozen x) ∧ (frozen x).a = (frozen x).c ∧ waterMass (frozen x) = waterMass x := by
  obtain ⟨h1, h2, h3, h4⟩ := h
  have hq : 0 < rho_w / rho_i := div_pos rho_w_pos rho_i_pos
  have hr : 0 < x.rw2 ^ (0.5 : ℝ) * (rho_w / rho_i) ^ (1 / 3 : ℝ) := mul_pos (Real.rpow_pos_of_pos h1 _) (Real.rpow_pos_of_pos hq _)
  refine ⟨⟨rfl, hr, hr, rfl⟩, rfl, ?_⟩
  unfold waterMass
  simp only [frozen, h2, h3, h4, Real.sqrt_zero]
  have e1 : x.rw2 ^ (0.5 : ℝ) = Real.sqrt x.rw2 := by rw [Real.sqrt_eq_rpow]; norm_num
  have e2 : ((rho_w / rho_i) ^ (1 / 3 : ℝ)) ^ 3 = rho_w / rho_i := by
    rw [← Real.rpow_natCast, ← Real.rpow_mul hq.le]; norm_num
  rw [e1]
  have e3 : (Real.sqrt x.rw2 * (rho_w / rho_i) ^ (1 / 3 : ℝ)) ^ 2 * (Real.sqrt x.rw2 * (rho_w / rho_i) ^ (1 / 3 : ℝ)) =
      Real.sqrt x.rw2 ^ 3 * (rho_w / rho_i) := by
    linear_combination (Real.sqrt x.rw2 ^ 3) * e2
  have e4 : rho_w / rho_i * rho_i = rho_w := div_mul_cancel₀ _ rho_i_pos.ne'
  linear_combination (4 / 3 * Real.pi * rho_i) * e3 + (4 / 3 * Real.pi * Real.sqrt x.rw2 ^ 3) * e4

theorem melt_cold (T : ℝ) (x : Drop) (h : T ≤ 273.15) : melt T x = x := by
  unfold melt; rw [if_neg]; rintro ⟨_, h2⟩; exact absurd h2 (not_lt.2 h)

theorem melt_liquid (T : ℝ) (x : Drop) (h : Liquid x) : melt T x = x := by
  unfold melt; rw [if_neg]; rintro ⟨h1, _⟩; rw [h.2.1, zero_mul] at h1; exact absurd h1 (lt_irrefl _)

theorem melt_frozen (T : ℝ) (x : Drop) (h : Frozen x) (hT : 273.15 < T) : Liquid (melt T x) ∧ waterMass (melt T x) = waterMass x := by
  obtain ⟨h1, h2, h3, h4⟩ := h
  have hq : 0 < rho_i / rho_w := div_pos rho_i_pos rho_w_pos
  have hqc : 0 < rho_i / rho_w * x.c := mul_pos hq h3
  have hr : 0 < (rho_i / rho_w * x.c) ^ (2 / 3 : ℝ) * x.a ^ (4 / 3 : ℝ) := mul_pos (Real.rpow_pos_of_pos hqc _) (Real.rpow_pos_of_pos h2 _)
  unfold melt
  rw [if_pos ⟨mul_pos h2 h3, hT⟩]
  refine ⟨⟨hr, rfl, rfl, rfl⟩, ?_⟩
  unfold waterMass
  simp only [h1, h4, Real.sqrt_zero]
  have e : Real.sqrt ((rho_i / rho_w * x.c) ^ (2 / 3 : ℝ) * x.a ^ (4 / 3 : ℝ)) ^ 3 = rho_i / rho_w * x.c * x.a ^ 2 := by
    rw [Real.sqrt_eq_rpow, ← Real.rpow_natCast, ← Real.rpow_mul hr.le, Real.mul_rpow (Real.rpow_nonneg hqc.le _) (Real.rpow_nonneg h2.le _),
      ← Real.rpow_mul hqc.le, ← Real.rpow_mul h2.le]
    have a1 : (2 / 3 : ℝ) * (1 / 2 * ((3 : ℕ) : ℝ)) = 1 := by norm_num
    have a2 : (4 / 3 : ℝ) * (1 / 2 * ((3 : ℕ) : ℝ)) = ((2 : ℕ) : ℝ) := by norm_num
    rw [a1, a2, Real.rpow_one, Real.rpow_natCast]
  rw [e]
  have hw := rho_w_pos.ne'
  field_simp
  ring

/-- a droplet is determined by its mass -/
theorem liquid_ext {x y : Drop} (hx : Liquid x) (hy : Liquid y) (h : waterMass x = waterMass y) : x = y := by
  obtain ⟨x1, x2, x3, x4⟩ := hx
  obtain ⟨y1, y2, y3, y4⟩ := hy
  unfold waterMass at h
  rw [x2, x3, x4, y2, y3, y4] at h
  have hp : (0 : ℝ) < 4 / 3 * Real.pi * rho_w := by have := Real.pi_pos; have := rho_w_pos; positivity
  have h' : Real.sqrt x.rw2 ^ 3 = Real.sqrt y.rw2 ^ 3 := by
    have : (4 / 3 * Real.pi * rho_w) * Real.sqrt x.rw2 ^ 3 = (4 / 3 * Real.pi * rho_w) * Real.sqrt y.rw2 ^ 3 := by linarith
    exact mul_left_cancel₀ hp.ne' this
  have h2 := (pow_left_inj₀ (Real.sqrt_nonneg _) (Real.sqrt_nonneg _) (by norm_num)).1 h'
  have h3 : x.rw2 = y.rw2 := (Real.sqrt_inj x1.le y1.le).1 h2
  ext <;> simp [*]

open Classical in
theorem change_eq (q : In) (s : St) (i : ℕ) : change q s i =
    melt (s.T (s.d.ijk i)) (if 0 < s.rw2 i ∧ Freezes q s i then frozen (dropOf s i) else dropOf s i) := by
  unfold change Freezes
  cases q.timeDep with
  | true =>
    simp only [if_true]
    unfold timeDepFreeze
    congr 1
  | false =>
    simp only [Bool.false_eq_true, if_false]
    unfold singularFreeze
    congr 1

/-- what happens to one super-droplet, in the words of the specification -/
structure Outcome (q : In) (s : St) (i : ℕ) (x : Drop) : Prop where
  mass : waterMass x = waterMass (dropOf s i)
  pure : Liquid x ∨ Frozen x
  warm : 273.15 < s.T (s.d.ijk i) → Liquid x
  droplet : Liquid (dropOf s i) → s.T (s.d.ijk i) ≤ 273.15 → Freezes q s i → Frozen x ∧ x.a = x.c
  stays : Liquid (dropOf s i) → (273.15 < s.T (s.d.ijk i) ∨ ¬ Freezes q s i) → x = dropOf s i
  ice : Frozen (dropOf s i) → s.T (s.d.ijk i) ≤ 273.15 → x = dropOf s i

theorem change_ok (q : In) (s : St) (i : ℕ) (hp : Liquid (dropOf s i) ∨ Frozen (dropOf s i)) : Outcome q s i (change q s i) := by
  classical
  rw [change_eq]
  rcases hp with hl | hf
  · by_cases hF : Freezes q s i
    · have hc : 0 < s.rw2 i ∧ Freezes q s i := ⟨hl.1, hF⟩
      rw [if_pos hc]
      obtain ⟨f1, f2, f3⟩ := frozen_ok _ hl
      by_cases hT : s.T (s.d.ijk i) ≤ 273.15
      · rw [melt_cold _ _ hT]
        exact ⟨f3, Or.inr f1, fun h => absurd hT (not_le.2 h), fun _ _ _ => ⟨f1, f2⟩,
          fun _ h => absurd h (by rintro (h | h); exacts [absurd hT (not_le.2 h), h hF]), fun h => absurd ⟨hl, h⟩ (not_both _)⟩
      · have hT' := not_le.1 hT
        obtain ⟨m1, m2⟩ := melt_frozen _ _ f1 hT'
        have hx := liquid_ext m1 hl (m2.trans f3)
        exact ⟨m2.trans f3, Or.inl m1, fun _ => m1, fun _ h => absurd h hT, fun _ _ => hx, fun h => absurd ⟨hl, h⟩ (not_both _)⟩
    · rw [if_neg (fun h => hF h.2), melt_liquid _ _ hl]
      exact ⟨rfl, Or.inl hl, fun _ => hl, fun _ _ h => absurd h hF, fun _ _ => rfl, fun h => absurd ⟨hl, h⟩ (not_both _)⟩
  · have hn : ¬ (0 < s.rw2 i ∧ Freezes q s i) := fun h => h.1.ne' hf.1
    rw [if_neg hn]
    by_cases hT : s.T (s.d.ijk i) ≤ 273.15
    · rw [melt_cold _ _ hT]
      exact ⟨rfl, Or.inr hf, fun h => absurd hT (not_le.2 h), fun h => absurd ⟨h, hf⟩ (not_both _), fun h => absurd ⟨h, hf⟩ (not_both _),
        fun _ _ => rfl⟩
    · have hT' := not_le.1 hT
      obtain ⟨m1, m2⟩ := melt_frozen _ _ hf hT'
      exact ⟨m2, Or.inl m1, fun _ => m1, fun h => absurd ⟨h, hf⟩ (not_both _), fun h => absurd ⟨h, hf⟩ (not_both _), fun _ h => absurd h hT⟩

/-- specific sum over a cell of the moments taken by `momLiq` -/
noncomputable def Ld (d : Diag.St) (a rw2 : ℕ → ℝ) (c : ℕ) : ℝ :=
  cellSum d c (fun i => momentCounter (3 / 2) ((d.n i : ℝ) * b2r (a i = 0)) (rw2 i)) * perMass d c

theorem momLiq_ok {d : Diag.St} (h : Sorted d) (a rw2 : ℕ → ℝ) : ∃ t, momLiq d a rw2 = some t ∧ Lists t (Ld d a rw2) ∧ Geo d t := by
  unfold momLiq
  simp only [Diag.select, Diag.base, Bool.false_eq_true, if_false, Option.map_some, Option.bind_some]
  obtain ⟨t, h1, h2, h3⟩ := momsCalc_lists (s := { d with nf := some (fun i => (d.n i : ℝ) * b2r (a i = 0)) }) h.sort rfl rw2 (3 / 2)
  refine ⟨t, h1, h2, ?_⟩
  rw [h3]
  exact ⟨rfl, rfl, rfl, rfl, rfl, rfl, rfl, rfl⟩

theorem Ld_unocc (d : Diag.St) (a rw2 : ℕ → ℝ) (c : ℕ) (h : ¬ occ d c) : Ld d a rw2 c = 0 := by
  unfold Ld; rw [cellSum_unocc _ _ _ h, zero_mul]

theorem Geo.Ld {a b : Diag.St} (h : Geo a b) (x y : ℕ → ℝ) (c : ℕ) : Ld b x y c = Ld a x y c := by
  unfold Ice.Ld cellSum perMass
  rw [h.N, h.ijk, h.n, h.nDims, h.dv, h.rhod]

/-- the moments of liquid particles are those of all particles -/
theorem Ld_mass (s : St) (hp : ∀ i < s.d.N, Liquid (dropOf s i) ∨ Frozen (dropOf s i)) (c : ℕ) :
    Ld s.d s.iceA s.rw2 c * (rho_w * (4 / 3) * Real.pi) = liquidMass s c * perMass s.d c := by
  unfold Ld liquidMass cellSum
  rw [mul_right_comm, Finset.sum_mul]
  congr 1
  apply Finset.sum_congr rfl
  intro i hi
  have hi' : i < s.d.N := by simpa using (Finset.mem_filter.1 hi).1
  have hnn : 0 ≤ s.rw2 i := by
    rcases hp i hi' with h | h
    · exact h.1.le
    · exact h.1.ge
  have h3 := momentCounter_root (m := 2) two_ne_zero 3 (n := (s.d.n i : ℝ) * b2r (s.iceA i = 0)) (r := Real.sqrt (s.rw2 i)) (Real.sqrt_nonneg _)
  rw [Real.sq_sqrt hnn] at h3
  have e : ((3 : ℕ) : ℝ) / ((2 : ℕ) : ℝ) = 3 / 2 := by norm_num
  rw [e] at h3
  rw [h3]
  rcases hp i hi' with h | h
  · have : s.iceA i = 0 := h.2.1
    simp [b2r, this]; ring
  · have : s.rw2 i = 0 := h.1
    simp [this]

/-- condensed water in a cell as the sum of the masses of the particles -/
theorem condensed_eq (s : St) (hp : ∀ i < s.d.N, Liquid (dropOf s i) ∨ Frozen (dropOf s i)) (c : ℕ) :
    liquidMass s c + iceMassIn s c = ∑ i ∈ (Finset.range s.d.N).filter (fun i => s.d.ijk i = c), s.d.n i * waterMass (dropOf s i) := by
  unfold liquidMass iceMassIn
  rw [← Finset.sum_add_distrib]
  apply Finset.sum_congr rfl
  intro i hi
  have hi' : i < s.d.N := by simpa using (Finset.mem_filter.1 hi).1
  unfold waterMass dropOf
  rcases hp i hi' with h | h
  · have : s.iceA i = 0 := h.2.1
    simp [this]
  · have : 0 < s.iceA i := h.2.1
    simp only [this, if_true]; ring

/-- **C62 (freezing and melting).** For every state whose super-droplets are pure (liquid or ice) and every choice of freezing
temperatures, inclusions, random numbers and scheme: the call succeeds; positions, multiplicities, the vapour, the temperature and
humidity fields stay; every super-droplet ends as the specification says (`Outcome`: same mass of water, pure again, nothing
frozen above 0 °C, droplets freeze exactly if the criterion holds and the air is not warmer than 0 °C, becoming spheres of ice,
other particles are left as they were); the mass of condensed water in every cell is the same; and the potential temperature
changes by the latent heat of the ice formed: `c_pd T/th (th' - th) m_air = l_f (ice' - ice)`. -/
theorem nucl_melt (q : In) (s : St) (hs : Sorted s.d) (hp : ∀ i < s.d.N, Liquid (dropOf s i) ∨ Frozen (dropOf s i))
    (hT : ∀ c < s.d.nCell, 0 < s.T c) (hth : ∀ c < s.d.nCell, 0 < s.th c) (hair : ∀ c < s.d.nCell, 0 < airMass s (s.d.rhod c) c) :
    ∃ s', iceNuclMelt q s = some s' ∧ s'.d.N = s.d.N ∧ s'.d.n = s.d.n ∧ s'.d.ijk = s.d.ijk ∧ s'.rv = s.rv ∧ s'.T = s.T ∧ s'.RH = s.RH ∧
      s'.p = s.p ∧ s'.d.rhod = s.d.rhod ∧ Sorted s'.d ∧
      (∀ i < s.d.N, Outcome q s i (dropOf s' i)) ∧
      (∀ c < s.d.nCell, liquidMass s' c + iceMassIn s' c = liquidMass s c + iceMassIn s c) ∧
      (∀ c < s.d.nCell, c_pd * (s.T c / s.th c) * (s'.th c - s.th c) * airMass s (s.d.rhod c) c = l_f (s.T c) * (iceMassIn s' c - iceMassIn s c)) := by
  classical
  obtain ⟨d1, e1, l1, g1⟩ := momLiq_ok hs s.iceA s.rw2
  have hs1 := g1.sorted hs
  obtain ⟨d2, e2, l2, g2⟩ := momLiq_ok hs1 (fun i => (change q s i).a) (fun i => (change q s i).rw2)
  have hs2 := g2.sorted hs1
  have g := g1.trans g2
  unfold iceNuclMelt
  simp only [e1, Option.bind_eq_bind, Option.bind_some, e2]
  set s' := updateThFreezing (permMap (fun m x => m + x) d2 (permMap (fun m _ => -m) d1 (if d1.countN ≠ d1.nCell then fun _ => 0 else s.drw)))
    { s with d := d2, rw2 := fun i => (change q s i).rw2, iceA := fun i => (change q s i).a, iceC := fun i => (change q s i).c,
             iceRho := fun i => (change q s i).rho } with hs'
  have hd' : ∀ i, dropOf s' i = change q s i := fun i => rfl
  have dd : s'.d = d2 := rfl
  have hout : ∀ i < s.d.N, Outcome q s i (dropOf s' i) := fun i hi => by rw [hd']; exact change_ok q s i (hp i hi)
  have hN : s'.d.N = s.d.N := g.N
  have hp' : ∀ i < s'.d.N, Liquid (dropOf s' i) ∨ Frozen (dropOf s' i) := fun i hi => (hout i (by rw [← hN]; exact hi)).pure
  have hcons : ∀ c, liquidMass s' c + iceMassIn s' c = liquidMass s c + iceMassIn s c := by
    intro c
    rw [condensed_eq s' hp', condensed_eq s hp, dd, g.N, g.ijk, g.n]
    apply Finset.sum_congr rfl
    intro i hi
    have hi' : i < s.d.N := by simpa using (Finset.mem_filter.1 hi).1
    rw [(hout i hi').mass]
  refine ⟨s', rfl, hN, g.n, g.ijk, rfl, rfl, rfl, rfl, g.rhod, hs2, hout, fun c _ => hcons c, ?_⟩
  intro c hc
  -- the change of the liquid moment
  set A := Ld s.d s.iceA s.rw2 with hA
  set B := Ld d1 (fun i => (change q s i).a) (fun i => (change q s i).rw2) with hB
  have hdrw : permMap (fun m x => m + x) d2 (permMap (fun m _ => -m) d1 (if d1.countN ≠ d1.nCell then fun _ => 0 else s.drw)) c = B c - A c := by
    have ha : permMap (fun m _ => -m) d1 (if d1.countN ≠ d1.nCell then fun _ => 0 else s.drw) c = -A c :=
      ante_ok l1 hs1 (fun c h => Ld_unocc _ _ _ _ (fun hh => h ((g1.occ c).2 hh))) s.drw c (by rw [g1.nCell]; exact hc)
    rw [permMap_eq l2, ha]
    by_cases ho : occ d2 c
    · rw [if_pos ho]; ring
    · have h1 : ¬ occ d1 c := fun h => ho ((g2.occ c).2 h)
      have h0 : ¬ occ s.d c := fun h => h1 ((g1.occ c).2 h)
      rw [if_neg ho, hB, hA, Ld_unocc _ _ _ _ h1, Ld_unocc _ _ _ _ h0]; ring
  have hBm : B c * (rho_w * (4 / 3) * Real.pi) = liquidMass s' c * perMass s.d c := by
    have h := Ld_mass s' hp' c
    have e : Ld s'.d s'.iceA s'.rw2 c = B c := by rw [dd, Geo.Ld g2]; rfl
    have e' : perMass s'.d c = perMass s.d c := by rw [dd]; unfold perMass; rw [g.nDims, g.dv, g.rhod]
    rw [e, e'] at h; exact h
  have hAm := Ld_mass s hp c
  have hthc : s'.th c = s.th c + (B c - A c) * (rho_w * (4 / 3) * Real.pi) * d_th_d_rw_freeze (s.T c) (s.th c) := by
    rw [← hdrw]; rfl
  have hT' := hT c hc; have hth' := hth c hc; have hair' := hair c hc
  have hpm : perMass s.d c * airMass s (s.d.rhod c) c = 1 := by
    unfold perMass airMass at *
    rcases Nat.eq_zero_or_pos s.d.nDims with h | h
    · simp [h]
    · rw [if_neg h.ne'] at hair'
      rw [if_pos h, if_neg h.ne']; exact inv_mul_cancel₀ hair'.ne'
  have hm : (B c - A c) * (rho_w * (4 / 3) * Real.pi) = (liquidMass s' c - liquidMass s c) * perMass s.d c := by
    rw [sub_mul, hBm, sub_mul]; rw [← hAm]
  have hic : iceMassIn s' c - iceMassIn s c = -(liquidMass s' c - liquidMass s c) := by have := hcons c; linarith
  have hcp := c_pd_pos
  rw [hthc, hm, hic]
  unfold d_th_d_rw_freeze
  have hk : c_pd * (s.T c / s.th c) * (s.th c + (liquidMass s' c - liquidMass s c) * perMass s.d c * (-s.th c / s.T c * l_f (s.T c) / c_pd) - s.th c) *
      airMass s (s.d.rhod c) c = -(liquidMass s' c - liquidMass s c) * l_f (s.T c) * (perMass s.d c * airMass s (s.d.rhod c) c) := by
    field_simp; ring
  rw [hk, hpm]; ring

end LCP.Ice
