import Verif.Sanity.Model
import Mathlib.Data.List.GetD

/-!
# What an accepted `init` guarantees (C42)
-/
namespace LCP.Sanity

/-! ### Specification: the documented constraints, in plain logic -/

/-- dimensionality as documented: number of non-zero grid sizes -/
def dims (o : Opts) : ℕ := (if o.nx = 0 then 0 else 1) + (if o.ny = 0 then 0 else 1) + (if o.nz = 0 then 0 else 1)

/-- extent of the domain in one direction (one cell if the direction is unused) -/
noncomputable def extent (n : ℤ) (d : ℝ) : ℝ := if n = 0 then d else n * d

/-- the fields passed fit the dimensionality and the options -/
structure FieldsOk (o : Opts) (a : Args) : Prop where
  mandatory : a.th = true ∧ a.rv = true ∧ a.rhod = true
  courants : (a.cx = false ∧ a.cy = false ∧ a.cz = false) ∨
    (dims o = 1 ∧ a.cx = true ∧ a.cy = false ∧ a.cz = false) ∨
    (dims o = 2 ∧ a.cx = true ∧ a.cy = false ∧ a.cz = true) ∨
    (dims o = 3 ∧ a.cx = true ∧ a.cy = true ∧ a.cz = true)
  gases : a.nChem = if o.chem = true then 6 else 0
  pressure : a.p = o.constP

/-- incompatible switches -/
structure SwitchesOk (o : Opts) : Prop where
  chem : o.chem = true → o.src = .off ∧ o.nDistros ≤ 1 ∧ o.rlx = false
  src : o.src ≠ .off → 2 ≤ dims o ∧ o.sdConstMulti = 0
  matching : o.src = .matching → o.nDistros ≤ 1
  coal : o.coal = true → o.vtDefined = true ∧ o.kernelDefined = true
  sedi : o.sedi = true → o.vtDefined = true ∧ o.nz ≠ 0
  subs : o.subs = true → o.nz ≠ 0 ∧ o.nz = o.wLS.length
  turb : o.turbAdve = true ∨ o.turbCond = true → o.nz ≠ 0 ∧ o.nz = o.mixLen.length
  rlx : o.rlx = true → 2 ≤ dims o ∧ 0 < o.rlxBins ∧ 0 < o.rlxSdPerBin ∧ 0 < o.rlxTimescale
  ice : o.ice = true → o.coal = false ∧ o.rlx = false ∧ o.src ≠ .matching ∧ o.turbCond = false ∧ o.exact = false

/-- condensation substepping options: there are exactly three admissible modes -/
structure SubstepsOk (o : Opts) : Prop where
  pos : 1 ≤ o.sstpCond
  mode : (o.exact = false ∧ o.mix = true ∧ o.adaptive = false) ∨ (o.exact = true ∧ o.mix = true ∧ o.adaptive = false) ∨
    (o.exact = true ∧ o.mix = false)
  act : 1 < o.sstpCondAct → o.exact = true ∧ o.mix = false ∧ o.adaptive = true

/-- initial aerosol and Lagrangian domain -/
structure AerosolOk (o : Opts) : Prop where
  given : 0 < o.nDistros ∨ 0 < o.nSizes
  conc : 0 < o.sdConc ∨ 0 < o.sdConstMulti ∨ 0 < o.nSizes
  tail : o.largeTail = true → 0 < o.sdConc
  factor : o.concFactor ≠ [] → 2 ≤ dims o ∧ o.nz = o.concFactor.length ∧ o.indepRhod = true
  dt : o.dt ≠ 0
  domain : 0 < dims o → (0 ≤ o.x0 ∧ o.x0 < extent o.nx o.dx) ∧ (0 ≤ o.y0 ∧ o.y0 < o.y1 ∧ o.y1 ≤ extent o.ny o.dy) ∧
    (0 ≤ o.z0 ∧ o.z0 < o.z1 ∧ o.z1 ≤ extent o.nz o.dz)

/-- the call is accepted -/
def Accepted (called : Bool) (o : Opts) (a : Args) : Prop := (initCheck called o a).2 = false

/-! ### Lemmas -/

theorem tdiv_m1 (n : ℤ) : Int.tdiv n (m1 n) = if n = 0 then 0 else 1 := by
  unfold m1
  by_cases h : n = 0
  · simp [h]
  · simp [h, Int.tdiv_self]

theorem nDims_eq (o : Opts) : nDims o = dims o := by
  unfold nDims dims
  rw [tdiv_m1, tdiv_m1, tdiv_m1]
  push_cast
  rfl

theorem extent_eq (n : ℤ) (d : ℝ) : (m1 n : ℝ) * d = extent n d := by
  unfold m1 extent
  by_cases h : n = 0 <;> simp [h]

theorem dims_le (o : Opts) : dims o ≤ 3 := by
  unfold dims
  split_ifs <;> omega

/-- **C42.** Complete characterisation of the accepted calls: the documented constraints hold; of the mixing length profile only
the first entry, and of the product of the two super-droplet counts only its value modulo `2^64` is checked. -/
theorem accepted_iff (called : Bool) (o : Opts) (a : Args) :
    Accepted called o a ↔ called = false ∧ FieldsOk o a ∧ SwitchesOk o ∧ SubstepsOk o ∧ AerosolOk o ∧
      (o.mixLen = [] ∨ 0 < o.mixLen.headD 0) ∧ 2 ^ 64 ∣ o.sdConc * o.sdConstMulti := by
  have hd := dims_le o
  cases called with
  | true => simp [Accepted, initCheck]
  | false =>
    simp only [Accepted, initCheck, Bool.false_eq_true, if_false, true_and]
    unfold checks
    simp only [nDims_eq, extent_eq, List.any_cons, List.any_nil, id, Bool.or_false, Bool.or_eq_false_iff, Bool.and_eq_false_iff,
      Bool.not_eq_false', decide_eq_false_iff_not, not_not, not_lt, not_le, minIter,
      Nat.cast_eq_zero]
    constructor
    · rintro ⟨c1, c2, c3, c4, c5, c6, c7, c8, c9, c10, c11, c12, c13, c14, c15, c16, c17, c18, c19, c20, c21, c22, c23, c24, c25,
        c26, c27, c28, c29, c30, c31, c32, c33, c34, c35, c36, c37, c38, c39, c40, c41, c42, c43, c44, c45, c46, c47, c48, c49,
        c50, c51, c52⟩
      have f2 : ∀ {b : Bool}, b = true → ¬ b = false := by intro b h; simp [h]
      have f1 : ∀ {b : Bool}, b = false → ¬ b = true := by intro b h; simp [h]
      norm_cast at c3 c4 c5 c10 c15 c16 c17 c18 c19 c33 c36
      refine ⟨⟨⟨c1.1.1, c1.1.2, c1.2⟩, ?_, ?_, ?_⟩, ⟨?_, ?_, ?_, ?_, ?_, ?_, ?_, ?_, ?_⟩, ⟨c43, ?_, ?_⟩, ⟨?_, ?_, ?_, ?_, c20, ?_⟩,
        ?_, Nat.dvd_of_mod_eq_zero c21⟩
      · clear c1 c6 c7 c8 c9 c10 c11 c12 c13 c14 c15 c16 c17 c18 c19 c20 c21 c22
        by_cases hc : (a.cx = false ∧ a.cy = false) ∧ a.cz = false
        · exact Or.inl ⟨hc.1.1, hc.1.2, hc.2⟩
        · right
          have h0 := c2.resolve_left hc
          simp only [hc, false_or] at c3 c4 c5
          have : dims o = 1 ∨ dims o = 2 ∨ dims o = 3 := by omega
          rcases this with h | h | h
          · left; have := c3.resolve_left (not_not.2 h); exact ⟨h, this.1.1, this.1.2, this.2⟩
          · right; left; have := c4.resolve_left (not_not.2 h); exact ⟨h, this.1.1, this.1.2, this.2⟩
          · right; right; have := c5.resolve_left (not_not.2 h); exact ⟨h, this.1.1, this.1.2, this.2⟩
      · by_cases h : o.chem = true
        · rw [if_pos h]; exact c6.resolve_left (f2 h)
        · rw [if_neg h]; exact c7.resolve_left h
      · by_cases h : o.constP = true
        · rw [h]; exact c41.resolve_left (f2 h)
        · rw [Bool.eq_false_of_not_eq_true h]; exact c42.resolve_left h
      · intro h; exact ⟨c8.resolve_left (f2 h), c11.resolve_right (f2 h), c40.resolve_right (f2 h)⟩
      · intro h; exact ⟨c10.resolve_left h, Nat.le_zero.1 (c14.resolve_right h)⟩
      · intro h; exact c9.resolve_left (not_not.2 h)
      · intro h; exact ⟨c23.resolve_left (f2 h), c24.resolve_left (f2 h)⟩
      · intro h; exact ⟨c25.resolve_left (f2 h), c26.resolve_left (f2 h)⟩
      · intro h; exact ⟨c27.resolve_left (f2 h), c30.resolve_left (f2 h)⟩
      · rintro (h | h)
        · exact ⟨c28.resolve_left (f2 h), c31.resolve_left fun q => f2 h q.1⟩
        · exact ⟨c29.resolve_left (f2 h), c31.resolve_left fun q => f2 h q.2⟩
      · intro h; exact ⟨c36.resolve_right (f2 h), c37.resolve_left (f2 h), c38.resolve_left (f2 h), c39.resolve_left (f2 h)⟩
      · intro h
        exact ⟨c48.resolve_left (f2 h), c49.resolve_left (f2 h), c50.resolve_left (f2 h), c51.resolve_left (f2 h),
          c52.resolve_left (f2 h)⟩
      · clear c1 c2 c3 c4 c5 c6 c7 c8 c9 c10 c11 c12 c13 c14 c15 c16 c17 c18 c19 c20 c21 c22
        revert c44 c45 c46
        cases o.exact <;> cases o.mix <;> cases o.adaptive <;> simp
      · intro h
        have := c47.resolve_left (not_le.2 h)
        exact ⟨this.1.2, this.1.1, this.2⟩
      · rcases c12 with h | h
        · exact Or.inl (Nat.pos_of_ne_zero h)
        · exact Or.inr (Nat.pos_of_ne_zero h)
      · rcases c22 with (h | h) | h
        · exact Or.inl (Nat.pos_of_ne_zero h)
        · exact Or.inr (Or.inl (Nat.pos_of_ne_zero h))
        · exact Or.inr (Or.inr (Nat.pos_of_ne_zero h))
      · intro h; exact Nat.pos_of_ne_zero (c13.resolve_left (f2 h))
      · intro h; exact ⟨c33.resolve_left h, c34.resolve_left h, c35.resolve_left h⟩
      · intro h
        have hn := not_le.2 h
        exact ⟨c15.resolve_left hn, ⟨(c16.resolve_left hn).1, c18.resolve_left hn⟩, ⟨(c17.resolve_left hn).1, c19.resolve_left hn⟩⟩
      · rcases c32 with h | h
        · exact Or.inl (List.length_eq_zero_iff.1 (Nat.le_zero.1 h))
        · exact Or.inr (not_le.1 (of_decide_eq_false h))
    · rintro ⟨⟨h1, h2, h3, h4⟩, ⟨k1, k2, k3, k4, k5, k6, k7, k8, k9⟩, ⟨l1, l2, l3⟩, ⟨m1, m2, m3, m4, m5, m6⟩, n1, n2⟩
      have or1 : ∀ {b : Bool} {P : Prop}, (b = true → P) → b = false ∨ P := by
        intro b P h; cases b
        · exact Or.inl rfl
        · exact Or.inr (h rfl)
      have or2 : ∀ {b : Bool} {P : Prop}, (b = true → P) → P ∨ b = false := fun h => (or1 h).symm
      have or3 : ∀ {Q P : Prop}, (Q → P) → ¬ Q ∨ P := fun h => not_or_of_imp h
      have hsrc : o.src = .off ∨ 2 ≤ dims o ∧ o.sdConstMulti = 0 := by
        by_cases h : o.src = .off
        · exact Or.inl h
        · exact Or.inr (k2 h)
      have hcf : o.concFactor = [] ∨ 2 ≤ dims o ∧ o.nz = o.concFactor.length ∧ o.indepRhod = true := by
        by_cases h : o.concFactor = []
        · exact Or.inl h
        · exact Or.inr (m4 h)
      have hdom : dims o ≤ 0 ∨ (0 ≤ o.x0 ∧ o.x0 < extent o.nx o.dx) ∧ (0 ≤ o.y0 ∧ o.y0 < o.y1 ∧ o.y1 ≤ extent o.ny o.dy) ∧
          (0 ≤ o.z0 ∧ o.z0 < o.z1 ∧ o.z1 ≤ extent o.nz o.dz) := by
        rcases Nat.eq_zero_or_pos (dims o) with h | h
        · exact Or.inl h.le
        · exact Or.inr (m6 h)
      norm_cast
      refine ⟨⟨⟨h1.1, h1.2.1⟩, h1.2.2⟩, ?_, ?_, ?_, ?_, ?_, ?_, or1 fun h => (k1 h).1, or3 k3, hsrc.imp_right And.left,
        or2 fun h => (k1 h).2.1, ?_, or1 fun h => (m3 h).ne', ?_, hdom.imp_right fun h => h.1,
        hdom.imp_right fun h => ⟨h.2.1.1, h.2.1.2.1.trans_le h.2.1.2.2⟩,
        hdom.imp_right fun h => ⟨h.2.2.1, h.2.2.2.1.trans_le h.2.2.2.2⟩,
        hdom.imp_right fun h => h.2.1.2, hdom.imp_right fun h => h.2.2.2, m5, Nat.mod_eq_zero_of_dvd n2, ?_,
        or1 fun h => (k4 h).1, or1 fun h => (k4 h).2, or1 fun h => (k5 h).1, or1 fun h => (k5 h).2, or1 fun h => (k6 h).1,
        or1 fun h => (k7 (Or.inl h)).1, or1 fun h => (k7 (Or.inr h)).1, or1 fun h => (k6 h).2, ?_, ?_,
        hcf.imp_right fun h => h.1, hcf.imp_right fun h => h.2.1, hcf.imp_right fun h => h.2.2, or2 fun h => (k8 h).1,
        or1 fun h => (k8 h).2.1, or1 fun h => (k8 h).2.2.1, or1 fun h => (k8 h).2.2.2, ?_, ?_, ?_, l1, ?_, ?_, ?_, ?_,
        or1 fun h => (k9 h).1, or1 fun h => (k9 h).2.1, or1 fun h => (k9 h).2.2.1, or1 fun h => (k9 h).2.2.2.1,
        or1 fun h => (k9 h).2.2.2.2⟩
      · rcases h2 with h | h | h | h
        · exact Or.inl ⟨⟨h.1, h.2.1⟩, h.2.2⟩
        all_goals right; omega
      · rcases h2 with h | h | h | h
        · exact Or.inl (Or.inl ⟨⟨h.1, h.2.1⟩, h.2.2⟩)
        · exact Or.inr ⟨⟨h.2.1, h.2.2.1⟩, h.2.2.2⟩
        all_goals left; right; omega
      · rcases h2 with h | h | h | h
        · exact Or.inl (Or.inl ⟨⟨h.1, h.2.1⟩, h.2.2⟩)
        · left; right; omega
        · exact Or.inr ⟨⟨h.2.1, h.2.2.1⟩, h.2.2.2⟩
        · left; right; omega
      · rcases h2 with h | h | h | h
        · exact Or.inl (Or.inl ⟨⟨h.1, h.2.1⟩, h.2.2⟩)
        · left; right; omega
        · left; right; omega
        · exact Or.inr ⟨⟨h.2.1, h.2.2.1⟩, h.2.2.2⟩
      · refine or1 fun h => ?_
        rw [h3, if_pos h]
      · by_cases h : o.chem = true
        · exact Or.inl h
        · right; rw [h3, if_neg h]
      · exact m1.imp (fun h => h.ne') fun h => h.ne'
      · rcases hsrc with h | h
        · exact Or.inr h
        · exact Or.inl h.2.le
      · rcases m2 with h | h | h
        · exact Or.inl (Or.inl h.ne')
        · exact Or.inl (Or.inr h.ne')
        · exact Or.inr h.ne'
      · by_cases h : o.turbAdve = true ∨ o.turbCond = true
        · exact Or.inr (k7 h).2
        · rw [not_or, Bool.not_eq_true, Bool.not_eq_true] at h
          exact Or.inl h
      · rcases n1 with h | h
        · left; rw [h]; rfl
        · right; exact decide_eq_false (not_le.2 h)
      · refine or1 fun h => ?_
        by_contra hc
        rw [Bool.not_eq_false] at hc
        have := (k1 hc).2.2
        rw [h] at this
        exact absurd this (by simp)
      · rw [h4]; exact or1 id
      · rw [h4]; cases o.constP <;> simp
      · revert l2; clear * -; cases o.exact <;> cases o.mix <;> cases o.adaptive <;> simp
      · revert l2; clear * -; cases o.exact <;> cases o.mix <;> cases o.adaptive <;> simp
      · revert l2; clear * -; cases o.exact <;> cases o.mix <;> cases o.adaptive <;> simp
      · rcases lt_or_ge 1 o.sstpCondAct with h | h
        · have := l3 h
          exact Or.inr ⟨⟨this.2.1, this.1⟩, this.2.2⟩
        · exact Or.inl h

/-- calls of `init` on one object, in order: the list of `true` (threw) / `false` (passed the checks) -/
noncomputable def runs : Bool → List (Opts × Args) → List Bool
  | _, [] => []
  | c, x :: xs => (initCheck c x.1 x.2).2 :: runs (initCheck c x.1 x.2).1 xs

/-- **C42 (once).** Only the first `init` call of an object can pass, whatever became of it: all later calls throw. -/
theorem init_once (o : Opts) (a : Args) (rest : List (Opts × Args)) :
    runs false ((o, a) :: rest) = (initCheck false o a).2 :: List.replicate rest.length true := by
  have h : ∀ rest : List (Opts × Args), runs true rest = List.replicate rest.length true := by
    intro rest
    induction rest with
    | nil => rfl
    | cons x xs ih =>
      simp only [runs, initCheck, if_true, List.length_cons, List.replicate_succ]
      rw [ih]
  simp only [runs]
  congr 1
  rw [← h]
  rfl

/-- **C42 (documented constraints), partial.** An accepted call satisfies all documented constraints; missing (and false, see
below): positivity of the whole mixing-length profile, mutual exclusion of `sd_conc` and `sd_const_multi` for products that wrap,
and the right end of the Lagrangian domain. -/
theorem accepted_documented_partial (called : Bool) (o : Opts) (a : Args) (h : Accepted called o a)
    (hw : o.sdConc * o.sdConstMulti < 2 ^ 64) :
    FieldsOk o a ∧ SwitchesOk o ∧ SubstepsOk o ∧ AerosolOk o ∧ (o.sdConc = 0 ∨ o.sdConstMulti = 0) := by
  obtain ⟨_, h1, h2, h3, h4, _, h6⟩ := (accepted_iff called o a).1 h
  refine ⟨h1, h2, h3, h4, ?_⟩
  have := Nat.eq_zero_of_dvd_of_lt h6 hw
  exact Nat.mul_eq_zero.1 this

/-- **C42 (grid).** With positive grid spacings an accepted grid has no negative size. -/
theorem accepted_grid (called : Bool) (o : Opts) (a : Args) (h : Accepted called o a) (hx : 0 < o.dx) (hy : 0 < o.dy)
    (hz : 0 < o.dz) : 0 ≤ o.nx ∧ 0 ≤ o.ny ∧ 0 ≤ o.nz := by
  obtain ⟨_, h1, h2, h3, h4, _, h6⟩ := (accepted_iff called o a).1 h
  have key : ∀ (n : ℤ) (d x : ℝ), 0 < d → 0 ≤ x → x < extent n d → 0 ≤ n := by
    intro n d x hd h0 h1
    by_contra hn
    push Not at hn
    unfold extent at h1
    rw [if_neg hn.ne] at h1
    have : (n : ℝ) < 0 := by exact_mod_cast hn
    nlinarith
  rcases Nat.eq_zero_or_pos (dims o) with hd | hd
  · unfold dims at hd
    split_ifs at hd with a1 a2 a3 <;> simp_all
  · obtain ⟨⟨x0, x1⟩, ⟨y0, y1, y2⟩, ⟨z0, z1, z2⟩⟩ := h4.domain hd
    exact ⟨key _ _ _ hx x0 x1, key _ _ _ hy y0 (y1.trans_le y2), key _ _ _ hz z0 (z1.trans_le z2)⟩

/-- a two-dimensional set-up with turbulent advection -/
noncomputable def good : Opts :=
  { nx := 2, nz := 3, dx := 10, dz := 10, dt := 1, x1 := 20, z1 := 30, nDistros := 1, sdConc := 64, vtDefined := true,
    kernelDefined := true, turbAdve := true, mixLen := [1, 2, 3] }

/-- everything documented can hold at once: `good` is accepted -/
theorem good_accepted : Accepted false good { cx := true, cz := true } := by
  rw [accepted_iff]
  refine ⟨rfl, ⟨by simp, by simp [good, dims], by simp [good], rfl⟩, ⟨?_, ?_, ?_, ?_, ?_, ?_, ?_, ?_, ?_⟩, ⟨?_, ?_, ?_⟩,
    ⟨?_, ?_, ?_, ?_, ?_, ?_⟩, ?_, ?_⟩ <;> simp [good, dims, extent] <;> norm_num

/-- **C42, negation.** A non-positive entry of the mixing length profile is accepted: only the first entry is looked at. -/
theorem mixLen_unchecked : ∃ o a, Accepted false o a ∧ o.turbAdve = true ∧ ∃ x ∈ o.mixLen, x < 0 := by
  refine ⟨{ good with mixLen := [1, -2, 3] }, { cx := true, cz := true }, ?_, rfl, -2, by simp, by norm_num⟩
  rw [accepted_iff]
  refine ⟨rfl, ⟨by simp, by simp [good, dims], by simp [good], rfl⟩, ⟨?_, ?_, ?_, ?_, ?_, ?_, ?_, ?_, ?_⟩, ⟨?_, ?_, ?_⟩,
    ⟨?_, ?_, ?_, ?_, ?_, ?_⟩, ?_, ?_⟩ <;> simp [good, dims, extent] <;> norm_num

/-- **C42, negation.** Both `sd_conc` and `sd_const_multi` may be set if their product is a multiple of `2^64`. -/
theorem both_concs_accepted : ∃ o a, Accepted false o a ∧ 0 < o.sdConc ∧ 0 < o.sdConstMulti := by
  refine ⟨{ good with sdConc := 2 ^ 32, sdConstMulti := 2 ^ 32 }, { cx := true, cz := true }, ?_, by norm_num, by norm_num⟩
  rw [accepted_iff]
  refine ⟨rfl, ⟨by simp, by simp [good, dims], by simp [good], rfl⟩, ⟨?_, ?_, ?_, ?_, ?_, ?_, ?_, ?_, ?_⟩, ⟨?_, ?_, ?_⟩,
    ⟨?_, ?_, ?_, ?_, ?_, ?_⟩, ?_, ?_⟩ <;> simp [good, dims, extent] <;> norm_num

/-- **C42, negation.** The right end `x1` of the Lagrangian domain is not checked at all. -/
theorem x1_unchecked (x : ℝ) : Accepted false { good with x1 := x } { cx := true, cz := true } := by
  rw [accepted_iff]
  refine ⟨rfl, ⟨by simp, by simp [good, dims], by simp [good], rfl⟩, ⟨?_, ?_, ?_, ?_, ?_, ?_, ?_, ?_, ?_⟩, ⟨?_, ?_, ?_⟩,
    ⟨?_, ?_, ?_, ?_, ?_, ?_⟩, ?_, ?_⟩ <;> simp [good, dims, extent] <;> norm_num

/-- **C42, negation.** The documented layouts (x, xz, xyz) are not enforced: sedimentation on a grid with vertical cells only
(one-dimensional!) is accepted although the message says "only if n_dims > 1". -/
theorem sedi_1d_accepted : ∃ o a, Accepted false o a ∧ o.sedi = true ∧ dims o = 1 := by
  refine ⟨{ good with nx := 0, x1 := 10 }, {}, ?_, by simp [good], by simp [good, dims]⟩
  rw [accepted_iff]
  refine ⟨rfl, ⟨by simp, by simp, by simp [good], rfl⟩, ⟨?_, ?_, ?_, ?_, ?_, ?_, ?_, ?_, ?_⟩, ⟨?_, ?_, ?_⟩,
    ⟨?_, ?_, ?_, ?_, ?_, ?_⟩, ?_, ?_⟩ <;> simp [good, dims, extent] <;> norm_num

/-- the default options are rejected (no aerosol, no time step) -/
example : ¬ Accepted false {} {} := by
  rw [accepted_iff]
  rintro ⟨_, _, _, _, h, _⟩
  exact h.dt rfl

end LCP.Sanity
