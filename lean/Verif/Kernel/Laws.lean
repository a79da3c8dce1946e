import Verif.Kernel.Interp
import Verif.Coal.Props

/-!
# C71: collision kernels
-/
namespace LCP.Kernel
noncomputable section
open LCP.Coal

/-! ### specification: published kernels for one pair of droplets (SI units) -/

/-- gravitational collection of hard spheres: swept area times relative velocity -/
def hardSpheres (ra rb va vb : ℝ) : ℝ := Real.pi * (ra + rb) ^ 2 * |va - vb|

/-- Golovin (1963): proportional to the sum of volumes -/
def golovinLaw (b ra rb : ℝ) : ℝ := b * (4 / 3 * Real.pi * ra ^ 3 + 4 / 3 * Real.pi * rb ^ 3)

/-- efficiency of Long (1974), radii of the larger and of the smaller droplet in centimeters -/
def longEff (R r : ℝ) : ℝ := if R < 50e-4 then (if r ≤ 3e-4 then 0 else 4.5e4 * R ^ 2 * (1 - 3e-4 / r)) else 1

/-- the tables as they are in src/detail/kernel_definitions: number of entries, no negative efficiency -/
structure TablesOk (tab : Table → List ℝ) : Prop where
  length : ∀ t, (tab t).length = 20301
  nonneg : ∀ t, ∀ e ∈ tab t, 0 ≤ e

/-! ### laws -/

theorem geometricCalc_eq (a b : SD) (ra rb : ℝ) (ha : 0 ≤ ra) (hb : 0 ≤ rb) (h1 : a.rw2 = ra ^ 2) (h2 : b.rw2 = rb ^ 2) :
    geometricCalc a b = (max a.n b.n : ℕ) * hardSpheres ra rb a.vt b.vt := by
  unfold geometricCalc hardSpheres
  rw [h1, h2, show ra ^ 2 * rb ^ 2 = (ra * rb) ^ 2 by ring, Real.sqrt_sq (by positivity)]
  ring

/-- **C71 (hard spheres).** -/
theorem geometric_law (del : ℝ) (air : Air) (a b : SD) (ra rb k : ℝ) (ha : 0 ≤ ra) (hb : 0 ≤ rb) (h1 : a.rw2 = ra ^ 2) (h2 : b.rw2 = rb ^ 2) :
    kval del air a b .geometric = some ((max a.n b.n : ℕ) * hardSpheres ra rb a.vt b.vt) ∧
    kval del air a b (.geometricWithMultiplier [k]) = some ((max a.n b.n : ℕ) * (k * hardSpheres ra rb a.vt b.vt)) := by
  constructor
  · show some _ = _
    rw [geometricCalc_eq a b ra rb ha hb h1 h2]
  · show some _ = _
    rw [geometricCalc_eq a b ra rb ha hb h1 h2]; congr 1; ring

/-- **C71 (Golovin).** -/
theorem golovin_law (del : ℝ) (air : Air) (a b : SD) (ra rb k : ℝ) (ha : 0 ≤ ra) (hb : 0 ≤ rb) (h1 : a.rw2 = ra ^ 2) (h2 : b.rw2 = rb ^ 2) :
    kval del air a b (.golovin [k]) = some ((max a.n b.n : ℕ) * golovinLaw k ra rb) := by
  show some _ = _
  unfold golovinLaw
  rw [h1, h2, Real.sqrt_sq ha, Real.sqrt_sq hb]; congr 1; ring

/-- **C71 (Long).** -/
theorem long_law (del : ℝ) (air : Air) (a b : SD) (ra rb : ℝ) (ha : 0 ≤ ra) (hb : 0 ≤ rb) (h1 : a.rw2 = ra ^ 2) (h2 : b.rw2 = rb ^ 2) :
    kval del air a b .long = some ((max a.n b.n : ℕ) * (longEff (100 * max ra rb) (100 * min ra rb) * hardSpheres ra rb a.vt b.vt)) := by
  show some (longCalc a b) = _
  unfold longCalc longEff
  simp only [geometricCalc_eq a b ra rb ha hb h1 h2, h1, h2, Real.sqrt_sq ha, Real.sqrt_sq hb]
  congr 1
  have e1 : (100 * max ra rb < 50e-4) = (max ra rb < 50e-6) := by
    have : (50e-4 : ℝ) = 100 * 50e-6 := by norm_num
    rw [this]; exact propext (mul_lt_mul_iff_of_pos_left (by norm_num))
  have e2 : (100 * min ra rb ≤ 3e-4) = (min ra rb ≤ 3e-6) := by
    have : (3e-4 : ℝ) = 100 * 3e-6 := by norm_num
    rw [this]; exact propext (mul_le_mul_iff_of_pos_left (by norm_num))
  simp only [e1, e2]
  split_ifs with h h'
  · ring
  · have : 0 < min ra rb := lt_trans (by norm_num) (not_le.1 h')
    field_simp
    ring
  · ring

/-- **C71 (tabulated efficiencies).** -/
theorem efficiency_law (del : ℝ) (air : Air) (a b : SD) (ra rb : ℝ) (kp : List ℝ) (ha : 0 ≤ ra) (hb : 0 ≤ rb) (h1 : a.rw2 = ra ^ 2) (h2 : b.rw2 = rb ^ 2) :
    kval del air a b (.geometricWithEfficiencies kp 1100) =
      (interpolatedEfficiency kp 0 1100 del ra rb).map (fun e => (max a.n b.n : ℕ) * (e * hardSpheres ra rb a.vt b.vt)) := by
  unfold kval
  simp only [h1, h2, Real.sqrt_sq ha, Real.sqrt_sq hb]
  rw [geometricCalc_eq a b ra rb ha hb h1 h2]
  cases interpolatedEfficiency kp 0 1100 del ra rb with
  | none => rfl
  | some e => simp only [Option.bind_eq_bind, Option.bind_some, Option.map_some, Option.some.injEq]; ring

/-! ### symmetry -/

theorem wang_symm (r1 r2 eps : ℝ) : wang r1 r2 eps = wang r2 r1 eps := by
  have hR : (if r1 > r2 then r1 else r2) = if r2 > r1 then r2 else r1 := by
    rcases lt_trichotomy r1 r2 with h | h | h
    · rw [if_neg (by linarith), if_pos h]
    · rw [h]
    · rw [if_pos h, if_neg (by linarith)]
  have hr : (if r1 > r2 then r2 else r1) = if r2 > r1 then r1 else r2 := by
    rcases lt_trichotomy r1 r2 with h | h | h
    · rw [if_neg (by linarith), if_pos h]
    · rw [h]
    · rw [if_pos h, if_neg (by linarith)]
  unfold wang
  rw [hR, hr]

theorem wrA2_symm (urms gamma th1 th2 : ℝ) : wrA2 urms gamma th1 th2 = wrA2 urms gamma th2 th1 := by
  unfold wrA2
  rw [add_comm th1 th2, show (1 + th1 + th2) / (1 + th1) / (1 + th2) = (1 + th2 + th1) / (1 + th2) / (1 + th1) by rw [div_right_comm, add_right_comm],
    show 1 / (1 + th1) / (1 + th2) = 1 / (1 + th2) / (1 + th1) by rw [div_right_comm],
    show 1 / (1 + gamma * th1) / (1 + gamma * th2) = 1 / (1 + gamma * th2) / (1 + gamma * th1) by rw [div_right_comm],
    show 4 * th1 * th2 = 4 * th2 * th1 by ring]

theorem nogravWith_symm (leta r1 r2 Re eps dnu q : ℝ) : nogravWith leta r1 r2 Re eps dnu q = nogravWith leta r2 r1 Re eps dnu q := by
  unfold nogravWith
  simp only []
  rw [add_comm r1 r2, max_comm (2.5 * (q * 4 * r2 * r2 / 18 / dnu) / (Re * (leta * leta / dnu) / √15) / _),
    max_comm (q * 4 * r2 * r2 / 18 / dnu / (q * 4 * r1 * r1 / 18 / dnu)), wrA2_symm, mul_right_comm _ √(gMono _ _ _ + 1 - 1)]

/-- **C71 (symmetry).** No kernel depends on which droplet of the pair comes first. -/
theorem kval_symm (del : ℝ) (air : Air) (a b : SD) (K : Kern) : kval del air a b K = kval del air b a K := by
  have hg : geometricCalc a b = geometricCalc b a := by
    unfold geometricCalc
    rw [max_comm, abs_sub_comm, add_comm a.rw2, mul_comm a.rw2 b.rw2]
  have hn : ∀ k e d q, nograv √a.rw2 √b.rw2 k e d q = nograv √b.rw2 √a.rw2 k e d q := by
    intro k e d q; unfold nograv; rw [nogravWith_symm]
  cases K with
  | golovin kp => unfold kval; rw [max_comm, add_comm (a.rw2 * √a.rw2)]
  | geometric => unfold kval; rw [hg]
  | geometricWithMultiplier kp => unfold kval; rw [hg]
  | long => unfold kval longCalc; rw [hg, max_comm √a.rw2, min_comm √a.rw2]
  | geometricWithEfficiencies kp r => simp only [kval, hg, eff_symm kp 0 r del √a.rw2 √b.rw2]
  | onishi kp r => unfold kval; simp only [hg, eff_symm kp 1 r del √a.rw2 √b.rw2, hn, wang_symm √a.rw2 √b.rw2]

/-! ### choice of the kernel -/

/-- **C71 (validation).** Initialisation accepts exactly: Golovin with one parameter, geometric with at most one, turbulent kernels with one parameter and turb_coal_switch set,
all others without parameters. -/
theorem init_accepts (tab : Table → List ℝ) (turb : Bool) (user : List ℝ) (k : Kind) : (initKernel tab turb user k).isSome = true ↔
    k ≠ .undefined ∧ (k = .golovin → user.length = 1) ∧ (k = .geometric → user.length ≤ 1) ∧
    ((k = .onishi_hall ∨ k = .onishi_hall_davis_no_waals) → user.length = 1 ∧ turb = true) ∧
    ((k ≠ .golovin ∧ k ≠ .geometric ∧ k ≠ .onishi_hall ∧ k ≠ .onishi_hall_davis_no_waals) → user = []) := by
  cases k <;> cases turb <;> simp [initKernel] <;> (try split_ifs) <;> simp_all

theorem entry_mem (kp : List ℝ) (nUser i j : ℕ) (lo hi : ℝ) (hl : nUser + 20301 ≤ kp.length) (hi' : i ≤ 200) (hj : j ≤ 200) (h : ∀ e ∈ kp.drop nUser, lo ≤ e ∧ e ≤ hi) :
    lo ≤ entry kp nUser i j ∧ entry kp nUser i j ≤ hi := by
  have h1 : max i j ≤ 200 := by omega
  have h2 := tri_mono h1
  have h3 : min i j ≤ 200 := by omega
  have hlt : nUser + (max i j * (max i j + 1) / 2 + min i j) < kp.length := by omega
  unfold entry
  rw [List.getD_eq_getElem _ _ hlt]
  apply h
  rw [List.mem_iff_getElem]
  exact ⟨max i j * (max i j + 1) / 2 + min i j, by rw [List.length_drop]; omega, by rw [List.getElem_drop]⟩

theorem exists_bound (l : List ℝ) (h : ∀ e ∈ l, 0 ≤ e) : ∃ B, ∀ e ∈ l, 0 ≤ e ∧ e ≤ B := by
  induction l with
  | nil => exact ⟨0, by simp⟩
  | cons a t ih =>
    obtain ⟨B, hB⟩ := ih (fun e he => h e (by simp [he]))
    refine ⟨max a B, fun e he => ?_⟩
    rcases List.mem_cons.1 he with rfl | he
    · exact ⟨h _ (by simp), le_max_left _ _⟩
    · exact ⟨(hB e he).1, (hB e he).2.trans (le_max_right _ _)⟩

theorem geometricCalc_nonneg (a b : SD) (ha : 0 ≤ a.rw2) (hb : 0 ≤ b.rw2) : 0 ≤ geometricCalc a b := by
  unfold geometricCalc
  have := Real.pi_pos; have := Real.sqrt_nonneg (a.rw2 * b.rw2); have := abs_nonneg (a.vt - b.vt)
  positivity

theorem longCalc_bounds (a b : SD) (ha : 0 ≤ a.rw2) (hb : 0 ≤ b.rw2) : 0 ≤ longCalc a b := by
  have hg := geometricCalc_nonneg a b ha hb
  unfold longCalc
  simp only []
  split_ifs with h1 h2
  · exact le_rfl
  · push Not at h2
    have : 0 < min √a.rw2 √b.rw2 := by linarith
    have h3 : 3e-6 / min √a.rw2 √b.rw2 ≤ 1 := by rw [div_le_one this]; exact h2.le
    have : 0 ≤ 1 - 3e-6 / min √a.rw2 √b.rw2 := by linarith
    positivity
  · exact hg

/-- **C71 (defined and non-negative).** In double precision every kernel accepted by initialisation, except the turbulent ones, gives for every pair of droplets a
non-negative value without reading outside of its parameters (a user-supplied factor must be non-negative). -/
theorem kernel_nonneg (tab : Table → List ℝ) (ht : TablesOk tab) (turb : Bool) (user : List ℝ) (hu : ∀ k ∈ user, 0 ≤ k) (k : Kind) (K : Kern)
    (hk : k ≠ .onishi_hall ∧ k ≠ .onishi_hall_davis_no_waals) (hK : initKernel tab turb user k = some K)
    (del : ℝ) (hd : 0 < del) (hd' : del ≤ 1100) (air : Air) (a b : SD) (ha : 0 ≤ a.rw2) (hb : 0 ≤ b.rw2) : ∃ v, kval del air a b K = some v ∧ 0 ≤ v := by
  have hg := geometricCalc_nonneg a b ha hb
  have heff : ∀ t, ∃ v, kval del air a b (.geometricWithEfficiencies (user ++ tab t) 1100) = some v ∧ 0 ≤ v ∨ user ≠ [] := by
    intro t
    by_cases h0 : user = []
    · subst h0
      obtain ⟨B, hB⟩ := exists_bound (tab t) (ht.nonneg t)
      obtain ⟨e, he, e0, -⟩ := eff_bounds (tab t) 0 del √a.rw2 √b.rw2 0 B (by rw [ht.length]) hd hd' (Real.sqrt_nonneg _) (Real.sqrt_nonneg _)
        (fun i hi j hj => entry_mem _ 0 i j 0 B (by rw [ht.length]) hi hj (by simpa using hB))
      refine ⟨e * geometricCalc a b, Or.inl ⟨?_, by positivity⟩⟩
      simp only [kval, List.nil_append, he]; rfl
    · exact ⟨0, Or.inr h0⟩
  have heff' : ∀ t, user.length = 0 → ∃ v, kval del air a b (.geometricWithEfficiencies (user ++ tab t) 1100) = some v ∧ 0 ≤ v := by
    intro t h0
    obtain ⟨v, h | h⟩ := heff t
    · exact ⟨v, h⟩
    · exact absurd (List.length_eq_zero_iff.1 h0) h
  have hone : user.length = 1 → ∃ c, user = [c] ∧ 0 ≤ c := by
    intro h
    obtain ⟨c, rfl⟩ := List.length_eq_one_iff.1 h
    exact ⟨c, rfl, hu c (by simp)⟩
  have tabcase : ∀ t, (if user.length ≠ 0 then none else some (Kern.geometricWithEfficiencies (user ++ tab t) 1100)) = some K → ∃ v, kval del air a b K = some v ∧ 0 ≤ v := by
    intro t h
    split_ifs at h with h0
    obtain rfl := Option.some.inj h
    exact heff' t (by omega)
  cases k with
  | undefined => simp [initKernel] at hK
  | golovin =>
    simp only [initKernel] at hK
    split_ifs at hK with h
    obtain ⟨c, rfl, hc⟩ := hone (by omega)
    obtain rfl := Option.some.inj hK
    refine ⟨_, rfl, ?_⟩
    have := Real.pi_pos; have := Real.sqrt_nonneg a.rw2; have := Real.sqrt_nonneg b.rw2
    positivity
  | geometric =>
    simp only [initKernel] at hK
    split_ifs at hK with h h'
    · obtain ⟨c, rfl, hc⟩ := hone h'
      obtain rfl := Option.some.inj hK
      exact ⟨_, rfl, by positivity⟩
    · obtain rfl := Option.some.inj hK
      exact ⟨_, rfl, hg⟩
  | Long =>
    simp only [initKernel] at hK
    split_ifs at hK with h
    obtain rfl := Option.some.inj hK
    exact ⟨_, rfl, longCalc_bounds a b ha hb⟩
  | hall => exact tabcase _ hK
  | hall_davis_no_waals => exact tabcase _ hK
  | hall_pinsky_1000mb_grav => exact tabcase _ hK
  | hall_pinsky_cumulonimbus => exact tabcase _ hK
  | hall_pinsky_stratocumulus => exact tabcase _ hK
  | vohl_davis_no_waals => exact tabcase _ hK
  | onishi_hall => exact absurd rfl hk.1
  | onishi_hall_davis_no_waals => exact absurd rfl hk.2

/-! ### collisions -/

/-- the collisions of `e` use kernel `K` with the fields `air` of the cells (no read outside of its parameters, see `kernel_nonneg`) -/
def Uses (e : Env) (K : Kern) (air : ℕ → Air) (del : ℝ) : Prop := ∀ p a b, kval del (air (e.cell p)) a b K = some (e.ker p a b)

theorem colNo0_zero (e : Env) (p : ℕ) (a b : SD) (u : ℝ) (hu : 0 ≤ u) (h : e.ker p a b = 0) : colNo0 e p a b u = 0 := by
  unfold colNo0 prob
  rw [h, mul_zero, Nat.floor_zero, if_neg]
  push_cast; linarith

/-- a droplet changes only if the number of collisions of its pair is not zero -/
theorem coal_unchanged {o : Opts} {e : Env} (h : e.Sorted) {σ : Scheds} (hσ : σ.Valid e.N) {s s' : State} (hr : coal o e σ s = some s') (i : ℕ) (hi : i < e.N)
    (hz : ∀ p, p + 1 < e.N → e.cell p = e.ijk i → e.cell (p + 1) = e.ijk i → colNo0 e p (s.sd (e.id p)) (s.sd (e.id (p + 1))) (s.col p) = 0) : s'.sd i = s.sd i := by
  obtain ⟨q, hq, rfl⟩ := exists_pos h hi
  have hpw := coal_pointwise h hσ hr
  have hpair : ∀ p, kind e p = .pair →
      Outcome o e p (s.sd (e.id p)) (s.sd (e.id (p + 1))) (s.col p) (s'.sd (e.id p)) (s'.sd (e.id (p + 1))) := by
    intro p hk
    have h1 := hpw p
    have h2 := hpw (p + 1)
    simp only [PairLoop.apply, hk] at h1
    simp only [PairLoop.apply, kind_disj h p hk, Nat.add_sub_cancel, hk] at h2
    have := coalPair_outcome o e p (view e s p) (view e s (p + 1))
    rw [h1, h2]
    simpa [view] using this
  cases hk : kind e q with
  | pair =>
    obtain ⟨h1, -, h3⟩ := (kind_pair_iff e q).1 hk
    have hz' := hz q h1 rfl h3.symm
    have key := hpair q hk
    generalize hA : s'.sd (e.id q) = A at key
    generalize s'.sd (e.id (q + 1)) = B at key
    cases key with
    | miss _ => rfl
    | ab k hn => exact absurd hz' hn
    | ba k hn => exact absurd hz' hn
  | single =>
    have := hpw q
    simpa [PairLoop.apply, hk, view] using this
  | skip =>
    by_cases hprev : 1 ≤ q ∧ kind e (q - 1) = .pair
    · obtain ⟨h1, -, h3⟩ := (kind_pair_iff e (q - 1)).1 hprev.2
      have hq' : q - 1 + 1 = q := by omega
      have key := hpair (q - 1) hprev.2
      rw [hq'] at h3
      have hz' := hz (q - 1) h1 h3 (by rw [hq']; rfl)
      rw [hq'] at key hz'
      generalize hA : s'.sd (e.id q) = A at key
      generalize s'.sd (e.id (q - 1)) = B at key
      cases key with
      | miss _ => rfl
      | ab k hn => exact absurd hz' hn
      | ba k hn => exact absurd hz' hn
    · have := hpw q
      simpa [PairLoop.apply, hk, hprev, view] using this

/-- kernels based on sedimentation only -/
def Gravitational : Kern → Prop
  | .golovin _ => False
  | .onishi _ _ => False
  | _ => True

/-- **C71 (equal fall speeds).** With a gravitational kernel droplets of a cell which all fall at the same speed do not collide: coalescence changes nothing in that cell. -/
theorem same_speed_no_collisions {o : Opts} {e : Env} (h : e.Sorted) {σ : Scheds} (hσ : σ.Valid e.N) {s s' : State} (hr : coal o e σ s = some s') (K : Kern) (air : ℕ → Air)
    (del : ℝ) (hK : Gravitational K) (hu : Uses e K air del) (hcol : ∀ p, 0 ≤ s.col p) (c : ℕ) (v : ℝ) (hv : ∀ i < e.N, e.ijk i = c → (s.sd i).vt = v) :
    ∀ i < e.N, e.ijk i = c → s'.sd i = s.sd i := by
  intro i hi hc
  refine coal_unchanged h hσ hr i hi fun p hp c1 c2 => colNo0_zero _ _ _ _ _ (hcol p) ?_
  have v1 := hv (e.id p) (id_lt h (by omega)) (c1.trans hc)
  have v2 := hv (e.id (p + 1)) (id_lt h hp) (c2.trans hc)
  have hg : geometricCalc (s.sd (e.id p)) (s.sd (e.id (p + 1))) = 0 := by unfold geometricCalc; rw [v1, v2, sub_self, abs_zero]; ring
  have hk := hu p (s.sd (e.id p)) (s.sd (e.id (p + 1)))
  generalize e.ker p (s.sd (e.id p)) (s.sd (e.id (p + 1))) = y at hk
  cases K with
  | golovin _ => exact absurd hK id
  | onishi _ _ => exact absurd hK id
  | geometric => simp only [kval, hg, Option.some.injEq] at hk; exact hk.symm
  | geometricWithMultiplier kp =>
    simp only [kval, hg, zero_mul] at hk
    cases hk0 : kp[0]? with
    | none => rw [hk0] at hk; exact absurd hk (by simp)
    | some k => rw [hk0] at hk; simpa using hk.symm
  | long =>
    simp only [kval, longCalc, hg, zero_mul, ite_self, Option.some.injEq] at hk
    exact hk.symm
  | geometricWithEfficiencies kp r =>
    simp only [kval, hg, mul_zero] at hk
    cases hk0 : interpolatedEfficiency kp 0 r del √(s.sd (e.id p)).rw2 √(s.sd (e.id (p + 1))).rw2 with
    | none => rw [hk0] at hk; exact absurd hk (by simp)
    | some k => rw [hk0] at hk; simpa using hk.symm

/-- **C71 (small droplets).** With Long's kernel droplets not larger than 3 micrometers are not collected by ones smaller than 50 micrometers: in a cell with only such droplets nothing changes. -/
theorem long_small_no_collisions {o : Opts} {e : Env} (h : e.Sorted) {σ : Scheds} (hσ : σ.Valid e.N) {s s' : State} (hr : coal o e σ s = some s') (air : ℕ → Air)
    (del : ℝ) (hu : Uses e .long air del) (hcol : ∀ p, 0 ≤ s.col p) (c : ℕ) (hv : ∀ i < e.N, e.ijk i = c → (s.sd i).rw2 ≤ 3e-6 ^ 2) :
    ∀ i < e.N, e.ijk i = c → s'.sd i = s.sd i := by
  intro i hi hc
  refine coal_unchanged h hσ hr i hi fun p hp c1 c2 => colNo0_zero _ _ _ _ _ (hcol p) ?_
  have r1 := Real.sqrt_le_sqrt (hv (e.id p) (id_lt h (by omega)) (c1.trans hc))
  have r2 := Real.sqrt_le_sqrt (hv (e.id (p + 1)) (id_lt h hp) (c2.trans hc))
  rw [Real.sqrt_sq (by norm_num)] at r1 r2
  have hk := hu p (s.sd (e.id p)) (s.sd (e.id (p + 1)))
  have h50 : max √(s.sd (e.id p)).rw2 √(s.sd (e.id (p + 1))).rw2 < 50e-6 := by
    rw [max_lt_iff]; constructor
    · exact lt_of_le_of_lt r1 (by norm_num)
    · exact lt_of_le_of_lt r2 (by norm_num)
  simp only [kval, longCalc, if_pos h50, if_pos (min_le_of_left_le r1), Option.some.injEq] at hk
  exact hk.symm

/-- **C71 (probability).** The expected number of collisions computed for a candidate pair in a cell with `N` super-droplets: kernel times the larger multiplicity times time step over cell volume,
times the number of pairs over the number of candidate pairs. -/
theorem pair_rate {e : Env} (K : Kern) (air : ℕ → Air) (del : ℝ) (hu : Uses e K air del) (p : ℕ) (a b : SD) (v : ℝ) (hv : kval del (air (e.cell p)) a b K = some v) :
    prob e p a b = e.dt / e.dv (e.cell p) * e.scl (e.cell p) * v := by
  unfold prob; rw [hu] at hv; rw [Option.some.inj hv]

/-! ### the hypotheses can be met -/

/-- two droplets of 10 and 20 micrometers -/
def exA : SD := ⟨1000, 10e-6 ^ 2, 1e-24, 0.01, 1, fun _ => 0, 0, 0⟩
/-- see `exA` -/
def exB : SD := ⟨400, 20e-6 ^ 2, 1e-24, 0.05, 1, fun _ => 0, 0, 0⟩

example : kval 1e-6 ⟨1, 1.8e-5, 0⟩ exA exB .geometric = some ((1000 : ℕ) * hardSpheres 10e-6 20e-6 0.01 0.05) :=
  (geometric_law 1e-6 _ exA exB 10e-6 20e-6 1 (by norm_num) (by norm_num) rfl rfl).1

example : TablesOk (fun _ => List.replicate 20301 1) := ⟨fun _ => List.length_replicate .., fun _ e he => by rw [List.eq_of_mem_replicate he]; norm_num⟩

example : ∃ v, kval 1e-6 ⟨1, 1.8e-5, 0⟩ exA exB (.geometricWithEfficiencies ([] ++ List.replicate 20301 1) 1100) = some v ∧ 0 ≤ v :=
  kernel_nonneg (fun _ => List.replicate 20301 1) ⟨fun _ => List.length_replicate .., fun _ e he => by rw [List.eq_of_mem_replicate he]; norm_num⟩ false [] (by simp) .hall _
    (by decide) rfl 1e-6 (by norm_num) (by norm_num) _ _ _ (by norm_num [exA]) (by norm_num [exB])

/-- two droplets of one cell falling at the same speed, colliding with the geometric kernel -/
def exEnvG : Env := { exEnv with ker := fun _ a b => geometricCalc a b }
/-- see `exEnvG` -/
def exStateG : State := { exState with sd := fun i => { exSD i with vt := 1 } }

theorem exEnvG_sorted : exEnvG.Sorted := ⟨by decide, by decide⟩

example (s' : State) (hr : coal ⟨1, true, true, true⟩ exEnvG exSch exStateG = some s') : ∀ i < 3, exEnv.ijk i = 0 → s'.sd i = { exSD i with vt := 1 } :=
  same_speed_no_collisions exEnvG_sorted (exSch_valid : exSch.Valid 3) hr .geometric (fun _ => ⟨1, 1, 0⟩) 1 trivial (fun _ _ _ => rfl)
    (fun p => show (0 : ℝ) ≤ 1 / 2 by norm_num) 0 1 (fun _ _ _ => rfl)

example : ∃ s', coal ⟨1, true, true, true⟩ exEnvG exSch exStateG = some s' := ⟨_, rfl⟩

end
end LCP.Kernel
