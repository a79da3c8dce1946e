import Verif.Cond.PerCellRun
import Verif.Cond.Accuracy
import Mathlib.Analysis.Real.Pi.Bounds

/-!
# C58: condensation with substeps common to the cell - budgets of water and heat

The specification is in terms of masses: water on particles in a cell (`liquidMass`, `iceMassIn`), mass of dry air to which
mixing ratios refer (`airMass`).
-/
namespace LCP.Cond
open LCP.Common LCP.Diag

/-- mass of liquid water in a cell: multiplicity times the volume of a sphere times the density of water -/
noncomputable def liquidMass (s : St) (c : ℕ) : ℝ :=
  ∑ i ∈ (Finset.range s.d.N).filter (fun i => s.d.ijk i = c), s.d.n i * (4 / 3 * Real.pi * Real.sqrt (s.rw2 i) ^ 3 * rho_w)

open Classical in
/-- mass of ice in a cell: spheroids of the particles' own densities -/
noncomputable def iceMassIn (s : St) (c : ℕ) : ℝ :=
  ∑ i ∈ (Finset.range s.d.N).filter (fun i => s.d.ijk i = c),
    if 0 < s.iceA i then s.d.n i * (4 / 3 * Real.pi * s.iceA i ^ 2 * s.iceC i * s.iceRho i) else 0

/-- condensed water in a cell -/
noncomputable def condensed (o : Cfg) (s : St) (c : ℕ) : ℝ := liquidMass s c + if o.ice then iceMassIn s c else 0

/-- mass of dry air to which mixing ratios in the cell refer, if the density is `rho`: 1 kg in a parcel model -/
noncomputable def airMass (s : St) (rho : ℝ) (c : ℕ) : ℝ := if s.d.nDims = 0 then 1 else s.d.dv c * rho

/-- density in the first substep: the previous one plus one `sstp`-th of the change (if densities are passed and there are substeps) -/
noncomputable def rhoFirst (o : Cfg) (s : St) (c : ℕ) : ℝ :=
  if o.varRho = true ∧ o.sstp ≠ 1 then s.tRh c + (s.d.rhod c - s.tRh c) / o.sstp else s.d.rhod c

theorem S3_eq (s : St) (h : ∀ i < s.d.N, 0 ≤ s.rw2 i) (c : ℕ) : mltW * S3 s.d s.rw2 c = liquidMass s c := by
  unfold S3 liquidMass cellSum mltW
  rw [Finset.mul_sum]
  apply Finset.sum_congr rfl
  intro i hi
  have hi' : i < s.d.N := by simpa using (Finset.mem_filter.1 hi).1
  have h3 := momentCounter_root (m := 2) two_ne_zero 3 (n := s.d.n i) (r := Real.sqrt (s.rw2 i)) (Real.sqrt_nonneg _)
  rw [Real.sq_sqrt (h i hi')] at h3
  have e : ((3 : ℕ) : ℝ) / ((2 : ℕ) : ℝ) = 3 / 2 := by norm_num
  rw [e] at h3
  rw [h3]; ring

theorem SI_eq (s : St) (c : ℕ) : SI s.d s.iceA s.iceC s.iceRho c = iceMassIn s c := by
  unfold SI iceMassIn cellSum
  apply Finset.sum_congr rfl
  intro i _
  have h := momentCounter_nat 1 ((s.d.n i : ℝ) * b2r (s.iceA i > 0)) (iceMass (s.iceA i) (s.iceC i) (s.iceRho i))
  rw [Nat.cast_one] at h
  show momentCounter 1 _ _ = _
  rw [h, pow_one]
  unfold b2r iceMass
  by_cases ha : 0 < s.iceA i
  · simp only [ha, if_true]; ring
  · simp [ha]

theorem massIn_eq (o : Cfg) (s : St) (h : ∀ i < s.d.N, 0 ≤ s.rw2 i) (c : ℕ) : massIn o s.d s c = condensed o s c := by
  unfold massIn condensed; rw [S3_eq s h, SI_eq]

theorem airOf_eq (s : St) (rho : ℝ) (c : ℕ) : airOf s.d rho c = airMass s rho c := by
  unfold airOf airMass
  rcases Nat.eq_zero_or_pos s.d.nDims with h | h
  · simp [h]
  · rw [if_pos h, if_neg h.ne']

theorem rhoFirst_eq (o : Cfg) (s : St) (hn : 0 < o.sstp) : rhoK o s 1 = rhoFirst o s := by
  funext c
  have hn' : (o.sstp : ℝ) ≠ 0 := by exact_mod_cast hn.ne'
  unfold rhoK rhoFirst fieldK
  cases hv : o.varRho with
  | false => simp
  | true =>
    by_cases h1 : o.sstp = 1
    · simp [h1]
    · simp only [if_true, one_ne_zero, h1, or_self, if_false, true_and, ne_eq, not_false_eq_true, Nat.cast_one]
      field_simp; ring

theorem rhoLast_eq (o : Cfg) (s : St) : rhoK o s o.sstp = s.d.rhod := by
  funext c
  unfold rhoK fieldK
  split_ifs <;> simp

theorem massIn_same {a b : St} (o : Cfg) (h : Same a b) (s : St) (c : ℕ) : massIn o b.d s c = massIn o a.d s c := by
  unfold massIn S3 SI cellSum; rw [h.N, h.n, h.ijk]

/-- squared radii never become negative, and never fall below the dry radius of a droplet -/
theorem advance_inv (N : Num) (hN : N.Ok) (e : Env) (dt r : ℝ) (h : r = 0 ∨ (0 < r ∧ cbrt e.rd3 ^ 2 ≤ r)) (hd : 0 < e.rd3) :
    (r = 0 → advance N e dt r = 0) ∧ (0 < r → 0 < advance N e dt r ∧ cbrt e.rd3 ^ 2 ≤ advance N e dt r) := by
  have hc := cbrt_pos e.rd3 hd
  constructor
  · intro h0; unfold advance; rw [advance_ice _ _ _ _ _ h0.le]; exact h0
  · intro hr
    rcases h with h | h
    · exact absurd h hr.ne'
    have := (advanceG_bounds N hN (drw2dt e) e.rd3 dt r hr h.2).1
    exact ⟨lt_of_lt_of_le (by positivity) this, this⟩

theorem advance_nonneg (N : Num) (e : Env) (dt r : ℝ) (h : 0 ≤ r) : 0 ≤ advance N e dt r := by
  unfold advance advanceG
  have hq : 0 ≤ cbrt e.rd3 * cbrt e.rd3 := mul_self_nonneg _
  simp only []
  split_ifs <;> linarith

/-- the part of `condPerCell` before the saved fields are updated -/
theorem condPerCell_run (o : Cfg) (allow : Bool) (s : St) (hs : Sorted s.d) (P : ℕ → St → Prop) (s0 : St)
    (he : s0 = { s with lamD := fun c => lambda_D (s.T c), lamK := fun c => lambda_K (s.T c) (s.p c) }) (hz : P 0 s0)
    (hst : ∀ k < o.sstp, ∀ a a', run o s0 k = some a → P k a → Trace o s0 k a (prep o k a) a' → P (k + 1) a') :
    ∃ a, condPerCell o allow s = some (sstpSave allow a) ∧ Inv o s0 o.sstp a ∧ P o.sstp a := by
  obtain ⟨a, e, i, p⟩ := run_induct o s0 (by rw [he]; exact hs) P hz hst o.sstp (le_refl _)
  refine ⟨a, ?_, i, p⟩
  unfold condPerCell
  rw [← he, e]; rfl

/-- **C58 (water budget).** Whatever the numbers of cells, super-droplets, substeps, whatever the fields: condensation with
per-cell substeps succeeds; the particles' cells and multiplicities stay; and in every cell the vapour plus the condensed water
(liquid, and ice if switched on) after the step equals the vapour received plus the condensed water before the step - the latter
divided by the mass of dry air for the density of the first substep, the former by that for the density received. -/
theorem percell_water (o : Cfg) (allow : Bool) (s : St) (hs : Sorted s.d) (hn : 0 < o.sstp) (hr : ∀ i < s.d.N, 0 ≤ s.rw2 i) :
    ∃ s', condPerCell o allow s = some s' ∧ s'.d.N = s.d.N ∧ s'.d.n = s.d.n ∧ s'.d.ijk = s.d.ijk ∧ s'.d.rhod = s.d.rhod ∧
      (∀ i < s.d.N, 0 ≤ s'.rw2 i) ∧
      ∀ c < s.d.nCell, s'.rv c + condensed o s' c / airMass s (s.d.rhod c) c = s.rv c + condensed o s c / airMass s (rhoFirst o s c) c := by
  set s0 : St := { s with lamD := fun c => lambda_D (s.T c), lamK := fun c => lambda_K (s.T c) (s.p c) } with he
  have hn' : (o.sstp : ℝ) ≠ 0 := by exact_mod_cast hn.ne'
  obtain ⟨a, e, i, p0, p1⟩ := condPerCell_run o allow s hs
    (fun k a => (∀ i < s.d.N, 0 ≤ a.rw2 i) ∧ ∀ c < s.d.nCell, a.rv c + massIn o s.d a c / airOf s.d (rhoK o s (if k = 0 then 1 else k) c) c =
      fieldK o.sstp k s.rv s.tRv c + massIn o s.d s c / airOf s.d (rhoK o s 1 c) c) s0 he
    ⟨hr, fun c hc => by
      show s.rv c + massIn o s.d s c / _ = _
      simp [fieldK]⟩
    (fun k hk a a' _ ⟨h0, h1⟩ t => ⟨fun i hi => by rw [t.rw2]; exact advance_nonneg _ _ _ _ (by
        have : (prep o k a).rw2 = a.rw2 := by unfold prep hskpngTpr sgsSupersat sstpStep; split_ifs <;> rfl
        rw [this]; exact h0 i hi), fun c hc => by
      have hrv := t.rv' c hc
      have hp := t.rv c
      have h1' := h1 c hc
      have e1 : rhoK o s0 = rhoK o s := rfl
      rw [e1] at hrv
      have e2 : s0.d = s.d := rfl
      have e3 : s0.rv = s.rv := rfl
      have e4 : s0.tRv = s.tRv := rfl
      rw [e2] at hrv
      rw [e3, e4] at hp
      rw [hrv, hp, if_neg (Nat.succ_ne_zero k)]
      by_cases hk0 : k = 0
      · subst hk0
        simp only [true_or, if_true, zero_add] at h1' ⊢
        have : fieldK o.sstp 0 s.rv s.tRv c = s.rv c := by simp [fieldK]
        rw [this] at h1'
        have : a.rw2 = s.rw2 ∧ a.iceA = s.iceA ∧ a.iceC = s.iceC ∧ a.iceRho = s.iceRho → massIn o s.d a c = massIn o s.d s c := by
          rintro ⟨x1, x2, x3, x4⟩; unfold massIn; rw [x1, x2, x3, x4]
        have ha : a = s0 := by
          have : run o s0 0 = some s0 := rfl
          simp_all
        rw [this (by rw [ha]; exact ⟨rfl, rfl, rfl, rfl⟩)]
        ring
      · rw [if_neg hk0] at h1' ⊢
        by_cases h1s : o.sstp = 1
        · omega
        rw [if_neg (by rintro (h | h); exact hk0 h; exact h1s h)]
        have hf : fieldK o.sstp (k + 1) s.rv s.tRv c = fieldK o.sstp k s.rv s.tRv c + (s.rv c - s.tRv c) / o.sstp := by
          unfold fieldK
          rw [if_neg (by rintro (h | h); exact absurd h (Nat.succ_ne_zero k); exact h1s h), if_neg (by rintro (h | h); exact hk0 h; exact h1s h)]
          push_cast; field_simp; ring
        rw [hf]
        linear_combination h1'⟩)
  have sm := i.same
  have hd : ∀ x, (sstpSave allow x).d = x.d ∧ (sstpSave allow x).rw2 = x.rw2 ∧ (sstpSave allow x).rv = x.rv ∧
      condensed o (sstpSave allow x) = condensed o x := by
    intro x; unfold sstpSave; split_ifs <;> exact ⟨rfl, rfl, rfl, rfl⟩
  refine ⟨_, e, ?_, ?_, ?_, ?_, ?_, ?_⟩
  · rw [(hd a).1]; exact sm.N
  · rw [(hd a).1]; exact sm.n
  · rw [(hd a).1]; exact sm.ijk
  · rw [(hd a).1, i.rhod]; exact rhoLast_eq o s
  · rw [(hd a).2.1]; exact p0
  · intro c hc
    rw [(hd a).2.2.1, (hd a).2.2.2]
    have h := p1 c hc
    rw [if_neg hn.ne', rhoLast_eq, rhoFirst_eq o s hn, airOf_eq, airOf_eq, massIn_eq o s hr] at h
    have : massIn o s.d a c = condensed o a c := by
      rw [← massIn_eq o a (by rw [sm.N]; exact p0), massIn_same o sm]
    rw [this] at h
    have hf : fieldK o.sstp o.sstp s.rv s.tRv c = s.rv c := by unfold fieldK; split_ifs <;> simp
    rw [hf] at h
    exact h

/-- **C58 (conservation, partial).** Without substeps, or with densities that are not passed in every step, or in a parcel,
condensation and deposition conserve the total water of every cell exactly. -/
theorem percell_conserved_partial (o : Cfg) (allow : Bool) (s : St) (hs : Sorted s.d) (hn : 0 < o.sstp) (hr : ∀ i < s.d.N, 0 ≤ s.rw2 i)
    (h : o.sstp = 1 ∨ o.varRho = false ∨ s.d.nDims = 0 ∨ s.tRh = s.d.rhod) :
    ∃ s', condPerCell o allow s = some s' ∧ ∀ c < s.d.nCell,
      s'.rv c + condensed o s' c / airMass s (s.d.rhod c) c = s.rv c + condensed o s c / airMass s (s.d.rhod c) c := by
  obtain ⟨s', e, -, -, -, -, -, w⟩ := percell_water o allow s hs hn hr
  refine ⟨s', e, fun c hc => ?_⟩
  have : airMass s (rhoFirst o s c) c = airMass s (s.d.rhod c) c := by
    rcases h with h | h | h | h
    · simp [rhoFirst, h]
    · simp [rhoFirst, h]
    · unfold airMass; rw [if_pos h, if_pos h]
    · unfold rhoFirst; split_ifs
      · rw [h]; simp
      · rfl
  rw [w c hc, this]

/-- **C58 (finding).** With substeps and a density field that changed since the previous step, every cell of a spatial grid that
holds condensed water gains or loses total water: vapour is changed by the difference of mixing ratios of the *initial* condensate
between the first and the last substep's density - even if no particle grows. -/
theorem percell_not_conserved (o : Cfg) (allow : Bool) (s : St) (hs : Sorted s.d) (hn : 1 < o.sstp) (hv : o.varRho = true)
    (hr : ∀ i < s.d.N, 0 ≤ s.rw2 i) (hd : 0 < s.d.nDims) (c : ℕ) (hc : c < s.d.nCell) (hdv : 0 < s.d.dv c) (hrho : 0 < s.d.rhod c)
    (ht : 0 < s.tRh c) (hch : s.tRh c ≠ s.d.rhod c) (hw : 0 < condensed o s c) :
    ∃ s', condPerCell o allow s = some s' ∧
      s'.rv c + condensed o s' c / airMass s (s.d.rhod c) c ≠ s.rv c + condensed o s c / airMass s (s.d.rhod c) c := by
  obtain ⟨s', e, -, -, -, -, -, w⟩ := percell_water o allow s hs (by omega) hr
  refine ⟨s', e, ?_⟩
  rw [w c hc]
  have hn0 : (1 : ℝ) < o.sstp := by exact_mod_cast hn
  have h1 : rhoFirst o s c = s.tRh c + (s.d.rhod c - s.tRh c) / o.sstp := by
    unfold rhoFirst; rw [if_pos ⟨hv, by omega⟩]
  have hne : rhoFirst o s c ≠ s.d.rhod c := by
    rw [h1]
    intro h
    have : (s.tRh c - s.d.rhod c) * (o.sstp - 1) = 0 := by
      field_simp at h; linarith
    rcases mul_eq_zero.1 this with h | h
    · exact hch (by linarith)
    · linarith
  have hpos : 0 < rhoFirst o s c := by
    rw [h1]
    have : s.tRh c + (s.d.rhod c - s.tRh c) / o.sstp = (s.tRh c * (o.sstp - 1) + s.d.rhod c) / o.sstp := by field_simp; ring
    rw [this]
    apply div_pos _ (by linarith)
    nlinarith
  intro h
  have h2 := add_left_cancel h
  unfold airMass at h2
  rw [if_neg hd.ne', if_neg hd.ne', div_eq_div_iff (by positivity) (by positivity)] at h2
  have h3 := mul_left_cancel₀ hw.ne' h2
  exact hne (mul_left_cancel₀ hdv.ne' h3).symm

/-- **C58 (empty cells).** Cells without super-droplets come out with the vapour and potential temperature received. -/
theorem percell_empty (o : Cfg) (allow : Bool) (s : St) (hs : Sorted s.d) (hn : 0 < o.sstp) :
    ∃ s', condPerCell o allow s = some s' ∧ ∀ c < s.d.nCell, (∀ i < s.d.N, s.d.ijk i ≠ c) → s'.rv c = s.rv c ∧ s'.th c = s.th c := by
  set s0 : St := { s with lamD := fun c => lambda_D (s.T c), lamK := fun c => lambda_K (s.T c) (s.p c) } with he
  have hn' : (o.sstp : ℝ) ≠ 0 := by exact_mod_cast hn.ne'
  have z1 : ∀ c, (∀ i < s.d.N, s.d.ijk i ≠ c) → ∀ f, cellSum s.d c f = 0 := fun c h f =>
    cellSum_unocc _ _ _ (by rintro ⟨i, hi, hc⟩; exact h i hi hc)
  have key : ∀ f t k c, o.sstp ≠ 1 → k ≠ 0 → fieldK o.sstp (k + 1) f t c = fieldK o.sstp k f t c + (f c - t c) / o.sstp := by
    intro f t k c h1s hk0
    unfold fieldK
    rw [if_neg (by rintro (h | h); exact absurd h (Nat.succ_ne_zero k); exact h1s h), if_neg (by rintro (h | h); exact hk0 h; exact h1s h)]
    push_cast; field_simp; ring
  obtain ⟨a, e, i, p⟩ := condPerCell_run o allow s hs
    (fun k a => ∀ c < s.d.nCell, (∀ i < s.d.N, s.d.ijk i ≠ c) → a.rv c = fieldK o.sstp k s.rv s.tRv c ∧ a.th c = fieldK o.sstp k s.th s.tTh c)
    s0 he (fun c _ _ => by simp [fieldK, he])
    (fun k hk a a' _ h1 t c hc hem => by
      have zz := z1 c hem
      have hrv := t.rv' c hc
      have hth := t.th' c hc
      have e2 : s0.d = s.d := rfl
      have m0 : ∀ x, massIn o s.d x c = 0 := by intro x; unfold massIn S3 SI; rw [zz, zz]; simp
      have s0' : ∀ x, S3 s.d x c = 0 := by intro x; unfold S3; rw [zz]
      have si0 : ∀ x y z, SI s.d x y z c = 0 := by intro x y z; unfold SI; rw [zz]
      rw [e2, m0, m0] at hrv
      rw [e2, s0', s0', si0, si0] at hth
      simp only [zero_div, sub_zero, mul_zero, zero_mul, ite_self] at hrv hth
      rw [hrv, hth, t.rv, t.th]
      obtain ⟨q1, q2⟩ := h1 c hc hem
      rw [q1, q2]
      have e3 : s0.rv = s.rv := rfl
      have e4 : s0.tRv = s.tRv := rfl
      have e5 : s0.th = s.th := rfl
      have e6 : s0.tTh = s.tTh := rfl
      rw [e3, e4, e5, e6]
      by_cases hk0 : k = 0
      · subst hk0; simp
      · by_cases h1s : o.sstp = 1
        · omega
        · rw [if_neg (by rintro (h | h); exact hk0 h; exact h1s h), if_neg (by rintro (h | h); exact hk0 h; exact h1s h), key _ _ _ _ h1s hk0, key _ _ _ _ h1s hk0]
          exact ⟨rfl, rfl⟩)
  have hd : (sstpSave allow a).rv = a.rv ∧ (sstpSave allow a).th = a.th := by unfold sstpSave; split_ifs <;> exact ⟨rfl, rfl⟩
  refine ⟨_, e, fun c hc hem => ?_⟩
  rw [hd.1, hd.2]
  obtain ⟨q1, q2⟩ := p c hc hem
  rw [q1, q2]
  constructor <;> (unfold fieldK; split_ifs <;> simp)

/-- **C58 (particles).** Through any number of substeps droplets stay droplets not smaller than their dry radius, and ice particles
(wet radius 0) do not become droplets. -/
theorem percell_radii (o : Cfg) (hN : o.num.Ok) (allow : Bool) (s : St) (hs : Sorted s.d) :
    ∃ s', condPerCell o allow s = some s' ∧ s'.rd3 = s.rd3 ∧ s'.kpa = s.kpa ∧ s'.iceRho = s.iceRho ∧ ∀ i, 0 < s.rd3 i →
      (s.rw2 i = 0 → s'.rw2 i = 0) ∧ (cbrt (s.rd3 i) ^ 2 ≤ s.rw2 i → cbrt (s.rd3 i) ^ 2 ≤ s'.rw2 i) := by
  set s0 : St := { s with lamD := fun c => lambda_D (s.T c), lamK := fun c => lambda_K (s.T c) (s.p c) } with he
  obtain ⟨a, e, i, p⟩ := condPerCell_run o allow s hs
    (fun k a => ∀ i, 0 < s.rd3 i → (s.rw2 i = 0 → a.rw2 i = 0) ∧ (cbrt (s.rd3 i) ^ 2 ≤ s.rw2 i → cbrt (s.rd3 i) ^ 2 ≤ a.rw2 i))
    s0 he (fun i _ => ⟨id, id⟩)
    (fun k hk a a' _ h1 t i hi => by
      have hp : (prep o k a).rw2 = a.rw2 := by unfold prep hskpngTpr sgsSupersat sstpStep; split_ifs <;> rfl
      have h3 : (prep o k a).rd3 = s.rd3 := t.same.rd3
      have hq : (envOf o (prep o k a) (RHseen o (prep o k a)) i).rd3 = s.rd3 i := by unfold envOf; simp only []; rw [h3]
      have hc := cbrt_pos _ hi
      rw [t.rw2]
      unfold rw2After
      rw [hp]
      obtain ⟨a1, a2⟩ := h1 i hi
      constructor
      · intro hz
        exact (advance_inv o.num hN _ _ _ (Or.inl (a1 hz)) (by rw [hq]; exact hi)).1 (a1 hz)
      · intro hz
        have h4 := a2 hz
        have h5 : 0 < a.rw2 i := lt_of_lt_of_le (by positivity) h4
        have := ((advance_inv o.num hN (envOf o (prep o k a) (RHseen o (prep o k a)) i) (o.dt / o.sstp) _ (Or.inr ⟨h5, by rw [hq]; exact h4⟩)
          (by rw [hq]; exact hi)).2 h5).2
        rw [hq] at this; exact this)
  have hd : (sstpSave allow a).rd3 = a.rd3 ∧ (sstpSave allow a).kpa = a.kpa ∧ (sstpSave allow a).iceRho = a.iceRho ∧ (sstpSave allow a).rw2 = a.rw2 := by
    unfold sstpSave; split_ifs <;> exact ⟨rfl, rfl, rfl, rfl⟩
  refine ⟨_, e, ?_, ?_, ?_, ?_⟩
  · rw [hd.1]; exact i.same.rd3
  · rw [hd.2.1]; exact i.same.kpa
  · rw [hd.2.2.1]; exact i.same.iceRho
  · rw [hd.2.2.2]; exact p

/-- **C58 (each substep).** The k-th substep (k = 0, 1, ...) starts from the fields left by the previous one (from the fields saved
in the previous time step if k = 0) plus one `sstp`-th of the change received; the droplets then grow in that air, every one from its own cell's
temperature, pressure and humidity computed from these values, for `dt/sstp`; and the potential temperature changes by the latent
heat of what has condensed (with the factors for vaporisation) and been deposited (sublimation), at that temperature. -/
theorem percell_substep (o : Cfg) (s : St) (hs : Sorted s.d) (h1 : o.sstp ≠ 1) (k : ℕ) (hk : k < o.sstp) :
    ∃ a b, run o s k = some a ∧ run o s (k + 1) = some b ∧
      let rv0 := fun c => (if k = 0 then s.tRv c else a.rv c) + (s.rv c - s.tRv c) / o.sstp
      let th0 := fun c => (if k = 0 then s.tTh c else a.th c) + (s.th c - s.tTh c) / o.sstp
      let rho := fun c => if o.varRho then s.tRh c + (k + 1) * ((s.d.rhod c - s.tRh c) / o.sstp) else s.d.rhod c
      let pre := prep o k a
      b.d.rhod = rho ∧ pre.rv = rv0 ∧ pre.th = th0 ∧ pre.T = (fun c => TofCell o.tpr (th0 c) (rho c) (a.p c)) ∧
      pre.p = (fun c => pOfCell o.tpr (rho c) (rv0 c) (pre.T c) (a.p c)) ∧
      pre.RH = (fun c => RHof o.tpr.RH_formula (pre.p c) (rv0 c) (pre.T c)) ∧
      pre.ssp = (if o.turb then fun i => a.ssp i + o.dt / o.sstp * s.dotSsp i else a.ssp) ∧
      (∀ i, b.rw2 i = advance o.num { rhod := rho (s.d.ijk i), rv := rv0 (s.d.ijk i), T := pre.T (s.d.ijk i), p := pre.p (s.d.ijk i)
                                      RH := (if o.turb then pre.ssp i else 0) + pre.RH (s.d.ijk i), eta := visc (pre.T (s.d.ijk i))
                                      rd3 := s.rd3 i, kpa := s.kpa i, vt := s.vt i, lamD := s.lamD (s.d.ijk i), lamK := s.lamK (s.d.ijk i)
                                      RHmax := o.RHmax } (o.dt / o.sstp) (a.rw2 i)) ∧
      ∀ c < s.d.nCell, o.ice = false → b.th c = th0 c + (rv0 c - b.rv c) * (th0 c / pre.T c * l_v (pre.T c) / c_pd) := by
  have hn : 0 < o.sstp := lt_of_le_of_lt (Nat.zero_le _) hk
  have hn' : (o.sstp : ℝ) ≠ 0 := by exact_mod_cast hn.ne'
  obtain ⟨a, ea, ia⟩ := run_inv o s hs k hk.le
  obtain ⟨b, eb, ib, t⟩ := inv_step o s hs k hk a ia
  have f1 : ∀ f t, fieldK o.sstp 1 f t = fun c => t c + (f c - t c) / o.sstp := by
    intro f t; funext c; unfold fieldK; rw [if_neg (by rintro (h | h); exact one_ne_zero h; exact h1 h)]; push_cast; field_simp; ring
  have prv : (prep o k a).rv = fun c => (if k = 0 then s.tRv c else a.rv c) + (s.rv c - s.tRv c) / o.sstp := by
    funext c; rw [t.rv, f1]; simp only [h1, or_false]; split_ifs <;> rfl
  have pth : (prep o k a).th = fun c => (if k = 0 then s.tTh c else a.th c) + (s.th c - s.tTh c) / o.sstp := by
    funext c; rw [t.th, f1]; simp only [h1, or_false]; split_ifs <;> rfl
  have prh : (prep o k a).d.rhod = fun c => if o.varRho then s.tRh c + (k + 1) * ((s.d.rhod c - s.tRh c) / o.sstp) else s.d.rhod c := by
    rw [t.rhod]; funext c; unfold rhoK fieldK
    rw [if_neg (show ¬ (k + 1 = 0 ∨ o.sstp = 1) by rintro (h | h); exact absurd h (Nat.succ_ne_zero k); exact h1 h)]
    split_ifs
    · push_cast; field_simp; ring
    · rfl
  have hb : run o s (k + 1) = some b := by show (run o s k).bind _ = _; rw [ea, Option.bind_some, eb]
  have hsub : ∀ x, (sstpStep o k x).p = x.p ∧ (sstpStep o k x).ssp = x.ssp ∧ (sstpStep o k x).dotSsp = x.dotSsp := by
    intro x; unfold sstpStep; split_ifs <;> exact ⟨rfl, rfl, rfl⟩
  have hrh : ∀ x, (hskpngTpr o x).d.rhod = x.d.rhod := by intro x; unfold hskpngTpr; simp only []; split_ifs <;> rfl
  have hy : ∃ y : St, prep o k a = hskpngTpr o y ∧ y.p = a.p ∧ y.ssp = (if o.turb then fun i => a.ssp i + o.dt / o.sstp * s.dotSsp i else a.ssp) := by
    refine ⟨_, rfl, ?_, ?_⟩
    · split_ifs
      · exact (hsub a).1
      · exact (hsub a).1
    · rw [← ia.same.dotSsp]
      by_cases ht : o.turb = true
      · rw [if_pos ht, if_pos ht]
        show (fun i => (sstpStep o k a).ssp i + _ * (sstpStep o k a).dotSsp i) = _
        rw [(hsub a).2.1, (hsub a).2.2]
      · rw [if_neg ht, if_neg ht]
        exact (hsub a).2.1
  obtain ⟨y, hy1, hy2, hy3⟩ := hy
  refine ⟨a, b, ea, hb, ?_⟩
  have yT : (prep o k a).T = fun c => TofCell o.tpr ((prep o k a).th c) ((prep o k a).d.rhod c) (a.p c) := by rw [hy1, hrh, ← hy2]; rfl
  have yp : (prep o k a).p = fun c => pOfCell o.tpr ((prep o k a).d.rhod c) ((prep o k a).rv c) ((prep o k a).T c) (a.p c) := by
    rw [hy1, hrh, ← hy2]; rfl
  have yR : (prep o k a).RH = fun c => RHof o.tpr.RH_formula ((prep o k a).p c) ((prep o k a).rv c) ((prep o k a).T c) := by rw [hy1]; rfl
  have ye : (prep o k a).eta = fun c => visc ((prep o k a).T c) := by rw [hy1]; rfl
  have ys : (prep o k a).ssp = if o.turb then fun i => a.ssp i + o.dt / o.sstp * s.dotSsp i else a.ssp := by rw [hy1]; exact hy3
  refine ⟨by rw [t.rhod', prh], prv, pth, ?_, ?_, ?_, ys, ?_, ?_⟩
  · rw [yT, pth, prh]
  · rw [yp, prv, prh]
  · rw [yR, prv]
  · intro i
    have hp : (prep o k a).rw2 = a.rw2 := by unfold prep hskpngTpr sgsSupersat sstpStep; split_ifs <;> rfl
    rw [t.rw2]
    unfold rw2After RHseen envOf
    simp only []
    rw [hp, t.same.ijk, prh, prv, ye, t.same.rd3, t.same.kpa, t.same.vt, t.same.lamD, t.same.lamK]
    congr 2
    split_ifs <;> simp
  · intro c hc hi
    have hth := t.th' c hc
    have hrv := t.rv' c hc
    simp only [hi, Bool.false_eq_true, if_false] at hth
    unfold massIn at hrv
    simp only [hi, Bool.false_eq_true, if_false, add_zero] at hrv
    rw [prv] at hrv
    rw [hth, pth]
    simp only [] at hrv ⊢
    rw [hrv]
    unfold d_th_d_rv
    ring

/-- **C58 (heat with ice).** With ice, one time step without substeps releases the heat of condensation of the liquid formed at the
temperature of the air received and then that of sublimation of the ice formed. -/
theorem percell_heat_ice (o : Cfg) (allow : Bool) (s : St) (hs : Sorted s.d) (h1 : o.sstp = 1) (hi : o.ice = true) (hr : ∀ i < s.d.N, 0 ≤ s.rw2 i) :
    ∃ s', condPerCell o allow s = some s' ∧ ∀ c < s.d.nCell,
      let T := TofCell o.tpr (s.th c) (s.d.rhod c) (s.p c)
      let liq := (liquidMass s' c - liquidMass s c) / airMass s (s.d.rhod c) c
      let ice := (iceMassIn s' c - iceMassIn s c) / airMass s (s.d.rhod c) c
      let th1 := s.th c + liq * (s.th c / T * l_v T / c_pd)
      s'.rv c = s.rv c - liq - ice ∧ s'.th c = th1 + ice * (th1 / T * l_s T / c_pd) := by
  set s0 : St := { s with lamD := fun c => lambda_D (s.T c), lamK := fun c => lambda_K (s.T c) (s.p c) } with he
  have hs0 : Sorted s0.d := hs
  obtain ⟨a, ea, ia⟩ := run_inv o s0 hs0 0 (Nat.zero_le _)
  obtain ⟨b, eb, ib, t⟩ := inv_step o s0 hs0 0 (by omega) a ia
  have ha := ia.start rfl
  have hb : condPerCell o allow s = some (sstpSave allow b) := by
    unfold condPerCell
    have hrun : run o s0 1 = some b := by show (run o s0 0).bind _ = _; rw [ea, Option.bind_some, eb]
    rw [← he, h1, hrun]; rfl
  have hsv : (sstpSave allow b).rv = b.rv ∧ (sstpSave allow b).th = b.th ∧ liquidMass (sstpSave allow b) = liquidMass b ∧
      iceMassIn (sstpSave allow b) = iceMassIn b := by
    unfold sstpSave; split_ifs <;> exact ⟨rfl, rfl, rfl, rfl⟩
  have hp0 : (prep o 0 a).rw2 = a.rw2 := by unfold prep hskpngTpr sgsSupersat sstpStep; split_ifs <;> rfl
  have sm := ib.same
  have hrb : ∀ i < b.d.N, 0 ≤ b.rw2 i := by
    intro i hi
    rw [t.rw2]
    refine advance_nonneg _ _ _ _ ?_
    rw [hp0, ha]; exact hr i (by rw [sm.N] at hi; exact hi)
  have rk : ∀ k, rhoK o s0 k = s.d.rhod := by
    intro k; funext c; unfold rhoK fieldK; rw [if_pos (Or.inr h1)]; split_ifs <;> rfl
  have b3 : ∀ c, mltW * S3 s0.d b.rw2 c = liquidMass b c := by
    intro c; rw [← S3_eq b hrb]; unfold S3 cellSum; rw [sm.N, sm.n, sm.ijk]
  have bI : ∀ c, SI s0.d b.iceA b.iceC s0.iceRho c = iceMassIn b c := by
    intro c; rw [← SI_eq b]; unfold SI cellSum; rw [sm.N, sm.n, sm.ijk, sm.iceRho]
  have a3 : ∀ c, mltW * S3 s0.d a.rw2 c = liquidMass s c := by
    intro c; rw [← S3_eq s hr, ha]
  have aI : ∀ c, SI s0.d a.iceA a.iceC s0.iceRho c = iceMassIn s c := by
    intro c; rw [← SI_eq s, ha]
  have hT : (prep o 0 a).T = fun c => TofCell o.tpr (s.th c) (s.d.rhod c) (s.p c) := by
    rw [ha]
    unfold prep hskpngTpr
    simp only []
    have e : sstpStep o 0 s0 = s0 := by unfold sstpStep; rw [if_pos h1]
    rw [e]
    split_ifs <;> rfl
  refine ⟨_, hb, fun c hc => ?_⟩
  have hrv := t.rv' c hc
  have hth := t.th' c hc
  have pv : (prep o 0 a).rv c = s.rv c := by rw [t.rv, if_pos (Or.inl rfl)]; unfold fieldK; rw [if_pos (Or.inr h1)]
  have pt : (prep o 0 a).th c = s.th c := by rw [t.th, if_pos (Or.inl rfl)]; unfold fieldK; rw [if_pos (Or.inr h1)]
  have air : airOf s0.d (s.d.rhod c) c = airMass s (s.d.rhod c) c := airOf_eq s _ c
  have mb : massIn o s0.d b c = liquidMass b c + iceMassIn b c := by
    unfold massIn; rw [b3, if_pos hi, sm.iceRho, bI]
  have ma : massIn o s0.d a c = liquidMass s c + iceMassIn s c := by
    unfold massIn; rw [a3, if_pos hi, ia.same.iceRho, aI]
  rw [pv, mb, ma, rk, rk, air] at hrv
  dsimp only at hth
  rw [if_pos hi, pt, hT, rk, rk, air, bI, aI, mul_sub, ← mul_div_assoc, ← mul_div_assoc, b3, a3] at hth
  simp only [hsv.1, hsv.2.1, hsv.2.2.1, hsv.2.2.2]
  constructor
  · rw [hrv]; ring
  · rw [hth]; unfold d_th_d_rv d_th_d_rv_dep; ring

/-- **C58 (between steps).** With substeps allowed the fields left by condensation are what the next step's change is counted from, so
that changes made outside between the steps are neither lost nor applied twice. -/
theorem percell_saved (o : Cfg) (s s' : St) (h : condPerCell o true s = some s') : s'.tRv = s'.rv ∧ s'.tTh = s'.th ∧ s'.tRh = s'.d.rhod := by
  unfold condPerCell at h
  obtain ⟨a, -, e⟩ := Option.map_eq_some_iff.1 h
  rw [← e]; exact ⟨rfl, rfl, rfl⟩

/-! ## Non-vacuity -/

/-- two cells; a cloud droplet of 5 µm in cell 1, an ice crystal and a haze droplet in cell 0; the density has changed by 10 % -/
noncomputable def exCell : St :=
  { d := { N := 3, n := fun i => 1000 + i, ijk := fun i => if i = 0 then 1 else 0, sid := [1, 2, 0], nf := none, nCell := 2, nDims := 2,
           dv := fun _ => 1000, rhod := fun _ => 1.1, countN := 0, countIjk := fun _ => 0, countMom := fun _ => 7 }
    rv := fun _ => 0.012, th := fun _ => 300, p := fun _ => 1e5, T := fun _ => 290, RH := fun _ => 0, RHi := fun _ => 0, eta := fun _ => 0
    lamD := fun _ => 0, lamK := fun _ => 0, tRv := fun _ => 0.01, tTh := fun _ => 299, tRh := fun _ => 1
    rw2 := fun i => if i = 1 then 0 else 25e-12, rd3 := fun _ => 1e-24, kpa := fun _ => 0.6, vt := fun _ => 0
    iceA := fun i => if i = 1 then 1e-5 else 0, iceC := fun i => if i = 1 then 1e-5 else 0, iceRho := fun _ => 910
    ssp := fun _ => 0, dotSsp := fun _ => 0, drw := fun _ => 5, rwM := fun _ => 6, dIce := fun _ => 7, iceM := fun _ => 8 }

theorem exCell_sorted : Sorted exCell.d := by
  constructor
  · constructor
    · show [1, 2, 0].Perm (List.range 3); decide
    · show List.Pairwise _ _
      simp [exCell]
  · intro i hi
    show (if i = 0 then 1 else 0) < 2
    split_ifs <;> norm_num

theorem exCell_rw2 : ∀ i < exCell.d.N, 0 ≤ exCell.rw2 i := by
  intro i _
  show (0 : ℝ) ≤ if i = 1 then 0 else 25e-12
  split_ifs <;> norm_num

/-- three substeps, ice, density passed -/
noncomputable def exCfg : Cfg := { num := numDbl, sstp := 3, dt := 1, RHmax := 44, turb := true, ice := true, varRho := true, tpr := {} }

theorem exCell_water : 0 < condensed exCfg exCell 1 := by
  have hl : 0 < liquidMass exCell 1 := by
    unfold liquidMass
    have e : (Finset.range exCell.d.N).filter (fun i => exCell.d.ijk i = 1) = {0} := by
      show (Finset.range 3).filter (fun i => (if i = 0 then 1 else 0) = 1) = {0}
      decide
    rw [e, Finset.sum_singleton]
    have h1 : (0 : ℝ) < Real.sqrt (exCell.rw2 0) := Real.sqrt_pos.2 (by norm_num [exCell])
    have h2 : (0 : ℝ) < (exCell.d.n 0 : ℝ) := by norm_num [exCell]
    have := rho_w_pos
    have := Real.pi_pos
    positivity
  have hi : 0 ≤ iceMassIn exCell 1 := by
    unfold iceMassIn
    apply Finset.sum_nonneg
    intro i _
    split_ifs with h
    · have h1 : 0 ≤ exCell.iceC i := by show (0:ℝ) ≤ if i = 1 then 1e-5 else 0; split_ifs <;> norm_num
      have h2 : (0:ℝ) ≤ exCell.iceRho i := by show (0:ℝ) ≤ 910; norm_num
      have := Real.pi_pos
      positivity
    · exact le_refl _
  unfold condensed
  split_ifs <;> linarith

example : ∃ s', condPerCell exCfg true exCell = some s' ∧
    s'.rv 1 + condensed exCfg s' 1 / airMass exCell (exCell.d.rhod 1) 1 ≠ exCell.rv 1 + condensed exCfg exCell 1 / airMass exCell (exCell.d.rhod 1) 1 :=
  percell_not_conserved exCfg true exCell exCell_sorted (by norm_num [exCfg]) rfl exCell_rw2 (by norm_num [exCell]) 1 (by norm_num [exCell])
    (by norm_num [exCell]) (by norm_num [exCell]) (by norm_num [exCell]) (by norm_num [exCell]) exCell_water

example : ∃ s', condPerCell { exCfg with varRho := false } true exCell = some s' ∧ ∀ c < 2,
    s'.rv c + condensed { exCfg with varRho := false } s' c / airMass exCell (exCell.d.rhod c) c =
      exCell.rv c + condensed { exCfg with varRho := false } exCell c / airMass exCell (exCell.d.rhod c) c :=
  percell_conserved_partial { exCfg with varRho := false } true exCell exCell_sorted (by norm_num [exCfg]) exCell_rw2 (Or.inr (Or.inl rfl))

example : ∃ s', condPerCell exCfg true exCell = some s' ∧ cbrt (exCell.rd3 0) ^ 2 ≤ s'.rw2 0 ∧ s'.rw2 1 = 0 := by
  obtain ⟨s', e, -, -, -, h⟩ := percell_radii exCfg numDbl_ok true exCell exCell_sorted
  have hd : ∀ i, 0 < exCell.rd3 i := fun i => by norm_num [exCell]
  refine ⟨s', e, (h 0 (hd 0)).2 ?_, (h 1 (hd 1)).1 (by simp [exCell])⟩
  have h3 : cbrt (exCell.rd3 0) = 1e-8 := by
    have : exCell.rd3 0 = (1e-8 : ℝ) ^ 3 := by norm_num [exCell]
    rw [this]; exact cube_cbrt _ (by norm_num)
  rw [h3]
  norm_num [exCell]

example : ∃ s', condPerCell { exCfg with sstp := 1 } true exCell = some s' := by
  obtain ⟨s', e, -⟩ := percell_heat_ice { exCfg with sstp := 1 } true exCell exCell_sorted rfl rfl exCell_rw2
  exact ⟨s', e⟩

example : ∃ a b, run exCfg exCell 2 = some a ∧ run exCfg exCell 3 = some b := by
  obtain ⟨a, b, h1, h2, -⟩ := percell_substep exCfg exCell exCell_sorted (by norm_num [exCfg]) 2 (by norm_num [exCfg])
  exact ⟨a, b, h1, h2⟩

end LCP.Cond
