import Verif.Diag.Props
import Verif.Vterm.Laws

/-!
# C85: precipitation fluxes and the largest droplet of each cell

Source: src/particles_diag.ipp (diag_precip_rate, diag_precip_rate_ice_mass, diag_ice_mix_ratio, diag_max_rw).
-/
namespace LCP.Rates
open LCP.Diag LCP.Vterm

/-! ### Model -/

/-- what these diagnostics read and write: counters and selection `d`, squared wet radii, ice attributes, settling velocities as stored,
and the air of each cell as left by the last `hskpng_Tpr` (particles_impl.ipp:80-130) -/
structure Obj where
  d : Diag.St
  rw2 : ℕ → ℝ
  iceA : ℕ → ℝ
  iceC : ℕ → ℝ
  iceRho : ℕ → ℝ
  vt : ℕ → ℝ
  air : ℕ → Air

/-- how a call can end: normally, with an exception, or with an access to something that is not there -/
inductive Out (α : Type) where
  | ok (a : α)
  | throw
  | ub

/-- an operation whose undefined behaviour is `none` -/
def Out.ofOption {α : Type} : Option α → Out α
  | some a => .ok a
  | none => .ub

open Classical in
/-- `hskpng_vterm_all` (hskpng_vterm.ipp:265-345) on all super-droplets; `none`: a read outside of the cache of velocities -/
noncomputable def vtermAll (eq : Eq) (ice : Bool) (s : Obj) : Option (ℕ → ℝ) :=
  if ∀ i < s.d.N, (vtAll eq ice (s.air (s.d.ijk i)) (s.rw2 i) (s.iceA i) (s.vt i)).isSome then
    some fun i => if i < s.d.N then (vtAll eq ice (s.air (s.d.ijk i)) (s.rw2 i) (s.iceA i) (s.vt i)).getD 0 else s.vt i
  else none

/-- `detail::precip_rate` (particles_diag.ipp:64-76) -/
noncomputable def precipRate (vt rw2 : ℝ) : ℝ := rw2 ^ (3 / 2 : ℝ) * vt

/-- `detail::ice_mass` (particles_diag.ipp:126-143) -/
noncomputable def iceMass (a c rho : ℝ) : ℝ := 4 / 3 * Real.pi * a * a * c * rho

/-- `detail::precip_rate_ice` (particles_diag.ipp:77-92) -/
noncomputable def precipRateIce (a c rho vt : ℝ) : ℝ := 4 / 3 * Real.pi * a * a * c * rho * vt

/-- `diag_precip_rate` (particles_diag.ipp:560-586): velocities recomputed, kept in a temporary, `vt` overwritten with the flux, first
(not specific) moment of it over the selection, `vt` restored -/
noncomputable def diagPrecipRate (eq : Eq) (ice : Bool) (s : Obj) : Out Obj :=
  .ofOption ((vtermAll eq ice s).bind fun v =>
    let s1 := { s with vt := fun i => precipRate (v i) (s.rw2 i) }
    (momsCalc s1.d s1.vt 1 false).map fun d => { s1 with d := d, vt := v })

/-- `diag_precip_rate_ice_mass` (particles_diag.ipp:589-608): all super-droplets get selected -/
noncomputable def diagPrecipRateIce (eq : Eq) (ice : Bool) (s : Obj) : Out Obj :=
  if ice = false then .throw else
  .ofOption ((vtermAll eq ice s).bind fun v =>
    (select s.d .all).bind fun d =>
    (momsCalc d (fun i => precipRateIce (s.iceA i) (s.iceC i) (s.iceRho i) (v i)) 1 false).map fun d => { s with d := d, vt := v })

/-- `diag_ice_mix_ratio` (particles_diag.ipp:441-452) -/
noncomputable def diagIceMix (ice : Bool) (s : Obj) : Out Obj :=
  if ice = false then .throw else
  .ofOption ((momsCalc s.d (fun i => iceMass (s.iceA i) (s.iceC i) (s.iceRho i)) 1 true).map fun d => { s with d := d })

/-- conversion of a cell number to `real_t` with a `p`-bit significand (24 for float, 53 for double), round to nearest, ties to even; for
numbers below `2^(p+1)` -/
def toReal (p n : ℕ) : ℕ :=
  if n ≤ 2 ^ p ∨ n % 2 = 0 then n else if n / 2 % 2 = 0 then n - 1 else n + 1

/-- `thrust::reduce_by_key` with `thrust::maximum` and keys compared by `thrust::equal_to<real_t>`, i.e. after conversion
(particles_diag.ipp:620-640) -/
noncomputable def reduceMax (conv : ℕ → ℕ) : List (ℕ × ℝ) → List (ℕ × ℝ)
  | [] => []
  | (k, v) :: t =>
    match reduceMax conv t with
    | [] => [(k, v)]
    | (k', v') :: r => if conv k = conv k' then (k, max v v') :: r else (k, v) :: (k', v') :: r

/-- `diag_max_rw` (particles_diag.ipp:611-646); no selection is used -/
noncomputable def diagMaxRw (p : ℕ) (s : Obj) : Obj :=
  let r := reduceMax (toReal p) (s.d.sid.map (fun i => (s.d.ijk i, √(s.rw2 i))))
  { s with d := { s.d with countN := r.length
                           countIjk := store (r.map Prod.fst) s.d.countIjk
                           countMom := store (r.map Prod.snd) s.d.countMom } }

/-! ### Fluxes -/

theorem vtermAll_spec {eq : Eq} {ice : Bool} {s : Obj} {v : ℕ → ℝ} (h : vtermAll eq ice s = some v) :
    (∀ i < s.d.N, 0 < s.rw2 i → vtLiquid eq (s.air (s.d.ijk i)) (s.rw2 i) = some (v i)) ∧
    (∀ i < s.d.N, s.rw2 i = 0 → ice = true → v i = vtIce (s.air (s.d.ijk i)) (s.iceA i)) ∧
    (∀ i < s.d.N, s.rw2 i = 0 → ice = false → v i = s.vt i) := by
  unfold vtermAll at h
  split_ifs at h with hs
  simp only [Option.some.injEq] at h
  subst h
  refine ⟨fun i hi h0 => ?_, fun i hi h0 hc => ?_, fun i hi h0 hc => ?_⟩
  · have := hs i hi
    unfold vtAll at this
    rw [if_pos h0] at this
    obtain ⟨x, hx⟩ := Option.isSome_iff_exists.1 this
    simp only [hi, if_true, vtAll]
    rw [if_pos h0, hx]
    rfl
  · simp [hi, vtAll, h0, hc]
  · simp [hi, vtAll, h0, hc]

theorem pow32 (x : ℝ) (h : 0 ≤ x) : x ^ (3 / 2 : ℝ) = √x ^ 3 := by
  rw [Real.sqrt_eq_rpow, ← Real.rpow_natCast, ← Real.rpow_mul h]
  norm_num

open Classical in
/-- **C85 (rain).** If a selection has been made, `diag_precip_rate` followed by `outbuf()` gives for every cell the sum over the
selected droplets of multiplicity times radius cubed times settling velocity (of the chosen formula, for the air held); everything
else is as before except that the stored velocities are now those. -/
theorem precip_rate (eq : Eq) (ice : Bool) (s t : Obj) (h : IsCellSort s.d.N s.d.ijk s.d.sid) (hr : ∀ i, 0 ≤ s.rw2 i) {P : ℕ → Prop}
    (hnf : s.d.nf = some (fun i => if P i then (s.d.n i : ℝ) else 0)) (ht : diagPrecipRate eq ice s = .ok t) :
    ∃ v : ℕ → ℝ, (∀ i < s.d.N, 0 < s.rw2 i → vtLiquid eq (s.air (s.d.ijk i)) (s.rw2 i) = some (v i)) ∧
      (∀ c, (outbuf t.d).2 c = ∑ i ∈ (Finset.range s.d.N).filter (fun i => s.d.ijk i = c ∧ P i ∧ 0 < s.rw2 i),
        (s.d.n i : ℝ) * √(s.rw2 i) ^ 3 * v i) ∧
      t.vt = v ∧ t.rw2 = s.rw2 ∧ t.d.n = s.d.n ∧ t.d.nf = s.d.nf := by
  unfold diagPrecipRate at ht
  cases hv : vtermAll eq ice s with
  | none => rw [hv] at ht; cases ht
  | some v =>
    obtain ⟨d, hd, hout⟩ := momsCalc_outbuf h hnf (fun i => precipRate (v i) (s.rw2 i)) 1 false
    have hfr : d.n = s.d.n ∧ d.nf = s.d.nf := by
      unfold momsCalc at hd
      rw [hnf] at hd
      simp only [Option.map_some, Bool.false_and, Bool.false_eq_true, if_false, Option.some.injEq] at hd
      subst hd
      exact ⟨rfl, rfl⟩
    rw [hv] at ht
    simp only [Option.bind_some, hd, Option.map_some, Out.ofOption, Out.ok.injEq] at ht
    subst ht
    refine ⟨v, (vtermAll_spec hv).1, fun c => ?_, rfl, rfl, hfr.1, hfr.2⟩
    show (outbuf d).2 c = _
    rw [hout c]
    simp only [Bool.false_eq_true, false_and, if_false, mul_one]
    unfold cellSum
    rw [← Finset.filter_filter, Finset.sum_filter (p := fun i => P i ∧ 0 < s.rw2 i)]
    apply Finset.sum_congr rfl
    intro i _
    have := momentCounter_nat 1 (if P i then (s.d.n i : ℝ) else 0) (precipRate (v i) (s.rw2 i))
    rw [Nat.cast_one] at this
    beta_reduce
    rw [this, pow_one]
    unfold precipRate
    rw [pow32 _ (hr i)]
    by_cases hP : P i
    · rcases (hr i).eq_or_lt with h0 | h0
      · simp [hP, ← h0]
      · simp [hP, h0]; ring
    · simp [hP]

/-- **C85 (when it is undefined).** Without a selection `diag_precip_rate` reads an array that is not there. -/
theorem precip_rate_unselected (eq : Eq) (ice : Bool) (s : Obj) (h : s.d.nf = none) : diagPrecipRate eq ice s = .ub := by
  unfold diagPrecipRate
  cases hv : vtermAll eq ice s with
  | none => rfl
  | some v => simp [momsCalc, h, Out.ofOption]

/-- with droplets of up to 3 mm in usual air the call succeeds -/
theorem precip_rate_succeeds (eq : Eq) (ice : Bool) (s : Obj) (h : s.d.nf ≠ none) (ha : ∀ c, (s.air c).Usual)
    (hr : ∀ i < s.d.N, √(s.rw2 i) ≤ 3e-3) : ∃ t, diagPrecipRate eq ice s = .ok t := by
  obtain ⟨nf, hnf⟩ := Option.ne_none_iff_exists'.1 h
  have hs : ∀ i < s.d.N, (vtAll eq ice (s.air (s.d.ijk i)) (s.rw2 i) (s.iceA i) (s.vt i)).isSome := by
    intro i hi
    unfold vtAll
    split_ifs with h0 h1
    · obtain ⟨v, hv, -⟩ := vtLiquid_pos eq _ (ha (s.d.ijk i)) _ h0 (hr i hi)
      rw [hv]; rfl
    · rfl
    · rfl
  unfold diagPrecipRate vtermAll
  rw [if_pos hs]
  simp only [Option.bind_some, momsCalc, hnf, Option.map_some, Out.ofOption]
  exact ⟨_, rfl⟩

/-- **C85 (ice).** With ice switched on, `diag_precip_rate_ice_mass` followed by `outbuf()` gives for every cell the sum over all its ice
particles - whatever was selected before - of multiplicity times mass times settling velocity; it leaves all super-droplets selected.  With
ice switched off it throws. -/
theorem precip_rate_ice (eq : Eq) (ice : Bool) (s t : Obj) (h : IsCellSort s.d.N s.d.ijk s.d.sid)
    (hr : ∀ i, 0 ≤ s.rw2 i) (hx : ∀ i, 0 < s.rw2 i → s.iceA i = 0) (ht : diagPrecipRateIce eq ice s = .ok t) :
    (∀ c, (outbuf t.d).2 c = ∑ i ∈ (Finset.range s.d.N).filter (fun i => s.d.ijk i = c ∧ s.rw2 i = 0),
        (s.d.n i : ℝ) * (4 / 3 * Real.pi * s.iceA i ^ 2 * s.iceC i * s.iceRho i) *
          (0.91 * beard76 (s.iceA i) (s.air c).T (s.air c).p (s.air c).rhod (s.air c).eta)) ∧
      t.d.nf = some (fun i => (s.d.n i : ℝ)) := by
  unfold diagPrecipRateIce at ht
  split_ifs at ht with hice
  have hice : ice = true := by simpa using hice
  cases hv : vtermAll eq ice s with
  | none => rw [hv] at ht; cases ht
  | some v =>
    have hsel : select s.d .all = some { s.d with nf := some (fun i => (s.d.n i : ℝ)) } := rfl
    obtain ⟨d, hd, hout⟩ := momsCalc_outbuf (s := { s.d with nf := some (fun i => (s.d.n i : ℝ)) }) h rfl
      (fun i => precipRateIce (s.iceA i) (s.iceC i) (s.iceRho i) (v i)) 1 false
    have hfr : d.nf = some (fun i => (s.d.n i : ℝ)) := by
      unfold momsCalc at hd
      simp only [Option.map_some, Bool.false_and, Bool.false_eq_true, if_false, Option.some.injEq] at hd
      subst hd
      rfl
    rw [hv] at ht
    simp only [Option.bind_some, hsel, hd, Option.map_some, Out.ofOption, Out.ok.injEq] at ht
    subst ht
    refine ⟨fun c => ?_, hfr⟩
    show (outbuf d).2 c = _
    rw [hout c]
    simp only [Bool.false_eq_true, false_and, if_false, mul_one]
    unfold cellSum
    simp only []
    rw [← Finset.filter_filter, Finset.sum_filter (p := fun i => s.rw2 i = 0)]
    apply Finset.sum_congr rfl
    intro i hi
    obtain ⟨hi1, hi2⟩ := Finset.mem_filter.1 hi
    have hi1 : i < s.d.N := by simpa using hi1
    have := momentCounter_nat 1 (s.d.n i : ℝ) (precipRateIce (s.iceA i) (s.iceC i) (s.iceRho i) (v i))
    rw [Nat.cast_one] at this
    rw [this, pow_one]
    unfold precipRateIce
    by_cases h0 : s.rw2 i = 0
    · rw [if_pos h0, (vtermAll_spec hv).2.1 i hi1 h0 hice, hi2]
      unfold vtIce Common.rho_i
      rw [rho_w_eq]
      ring
    · rw [if_neg h0, hx i (lt_of_le_of_ne (hr i) (Ne.symm h0))]
      ring

open Classical in
/-- **C85 (ice mixing ratio).** `diag_ice_mix_ratio` followed by `outbuf()` gives the mass of the selected ice per mass of dry air (in a
parcel: the mass). -/
theorem ice_mix_ratio (ice : Bool) (s t : Obj) (h : IsCellSort s.d.N s.d.ijk s.d.sid) {P : ℕ → Prop}
    (hnf : s.d.nf = some (fun i => if P i then (s.d.n i : ℝ) else 0)) (ht : diagIceMix ice s = .ok t) (c : ℕ) :
    (outbuf t.d).2 c = (∑ i ∈ (Finset.range s.d.N).filter (fun i => s.d.ijk i = c ∧ P i),
      (s.d.n i : ℝ) * (4 / 3 * Real.pi * s.iceA i ^ 2 * s.iceC i * s.iceRho i)) / (if 0 < s.d.nDims then s.d.dv c * s.d.rhod c else 1) := by
  unfold diagIceMix at ht
  split_ifs at ht with hice
  obtain ⟨d, hd, hout⟩ := attribute_moment h hnf (fun i => iceMass (s.iceA i) (s.iceC i) (s.iceRho i)) 1
  rw [Nat.cast_one] at hd
  rw [hd] at ht
  simp only [Option.map_some, Out.ofOption, Out.ok.injEq] at ht
  subst ht
  show (outbuf d).2 c = _
  rw [hout c]
  have e : ∀ x : ℝ, x * perMass s.d c = x / (if 0 < s.d.nDims then s.d.dv c * s.d.rhod c else 1) := by
    intro x
    unfold perMass
    split_ifs
    · rw [div_eq_mul_inv]
    · ring
  rw [e]
  congr 1
  apply Finset.sum_congr rfl
  intro i _
  unfold iceMass
  ring

/-- ice diagnostics throw when ice is switched off -/
theorem ice_off (eq : Eq) (s : Obj) : diagPrecipRateIce eq false s = .throw ∧ diagIceMix false s = .throw := ⟨rfl, rfl⟩

/-! ### Largest droplet -/

theorem toReal_inj {p a b : ℕ} (ha : a ≤ 2 ^ p) (hb : b ≤ 2 ^ p) (h : toReal p a = toReal p b) : a = b := by
  unfold toReal at h
  rwa [if_pos (Or.inl ha), if_pos (Or.inl hb)] at h

theorem reduceMax_spec {conv : ℕ → ℕ} (l : List (ℕ × ℝ)) (hs : (l.map Prod.fst).Pairwise (· ≤ ·))
    (hi : ∀ a ∈ l.map Prod.fst, ∀ b ∈ l.map Prod.fst, conv a = conv b → a = b) :
    ((reduceMax conv l).map Prod.fst).Pairwise (· < ·) ∧
    (∀ c m, (c, m) ∈ reduceMax conv l → IsGreatest {v | (c, v) ∈ l} m) ∧
    (∀ c v, (c, v) ∈ l → ∃ m, (c, m) ∈ reduceMax conv l) := by
  induction l with
  | nil => simp [reduceMax]
  | cons kv t ih =>
    obtain ⟨k, v⟩ := kv
    rw [List.map_cons, List.pairwise_cons] at hs
    obtain ⟨i1, i2, i3⟩ := ih hs.2 (fun a ha b hb => hi a (List.mem_cons_of_mem _ ha) b (List.mem_cons_of_mem _ hb))
    unfold reduceMax
    cases hr : reduceMax conv t with
    | nil =>
      have ht : ∀ x, x ∉ t := by
        rintro ⟨c, w⟩ hx
        obtain ⟨m, hm⟩ := i3 c w hx
        rw [hr] at hm
        cases hm
      have ht : t = [] := List.eq_nil_iff_forall_not_mem.2 ht
      subst ht
      refine ⟨by simp, ?_, ?_⟩
      · intro c m hm
        simp only [List.mem_singleton, Prod.mk.injEq] at hm
        obtain ⟨rfl, rfl⟩ := hm
        exact ⟨by simp, fun w hw => by simp at hw; rw [hw]⟩
      · intro c w hw
        simp only [List.mem_singleton, Prod.mk.injEq] at hw
        exact ⟨v, by simp [hw.1]⟩
    | cons kv' r =>
      obtain ⟨k', v'⟩ := kv'
      rw [hr] at i1 i2 i3
      simp only []
      have hk' : k' ∈ t.map Prod.fst := by
        have := (i2 k' v' (by simp)).1
        exact List.mem_map.2 ⟨(k', v'), this, rfl⟩
      rw [List.map_cons, List.pairwise_cons] at i1
      by_cases hc : conv k = conv k'
      · rw [if_pos hc]
        have hkk : k = k' := hi k (by simp) k' (List.mem_cons_of_mem _ hk') hc
        subst hkk
        refine ⟨?_, ?_, ?_⟩
        · rw [List.map_cons, List.pairwise_cons]; exact i1
        · intro c m hm
          rcases List.mem_cons.1 hm with e | e
          · simp only [Prod.mk.injEq] at e
            obtain ⟨rfl, rfl⟩ := e
            obtain ⟨g1, g2⟩ := i2 c v' (by simp)
            constructor
            · rcases max_choice v v' with e | e <;> rw [e]
              · exact List.mem_cons_self ..
              · exact List.mem_cons_of_mem _ g1
            · intro w hw
              rcases List.mem_cons.1 hw with e | e
              · simp only [Prod.mk.injEq, true_and] at e
                rw [e]; exact le_max_left _ _
              · exact (g2 e).trans (le_max_right _ _)
          · obtain ⟨g1, g2⟩ := i2 c m (List.mem_cons_of_mem _ e)
            have hlt : k < c := i1.1 c (List.mem_map.2 ⟨(c, m), e, rfl⟩)
            refine ⟨List.mem_cons_of_mem _ g1, fun w hw => ?_⟩
            rcases List.mem_cons.1 hw with e | e
            · simp only [Prod.mk.injEq] at e; omega
            · exact g2 e
        · intro c w hw
          by_cases hck : c = k
          · subst hck; exact ⟨_, List.mem_cons_self ..⟩
          · rcases List.mem_cons.1 hw with e | e
            · simp only [Prod.mk.injEq] at e; exact absurd e.1 hck
            · obtain ⟨m, hm⟩ := i3 c w e
              rcases List.mem_cons.1 hm with e | e
              · simp only [Prod.mk.injEq] at e; exact absurd e.1 hck
              · exact ⟨m, List.mem_cons_of_mem _ e⟩
      · rw [if_neg hc]
        have hne : k ≠ k' := fun e => hc (by rw [e])
        have hlt : k < k' := lt_of_le_of_ne (hs.1 k' hk') hne
        have hnt : k ∉ t.map Prod.fst := by
          intro hk
          obtain ⟨⟨a, w⟩, hw, rfl⟩ := List.mem_map.1 hk
          obtain ⟨m, hm⟩ := i3 a w hw
          rcases List.mem_cons.1 hm with e | e
          · simp only [Prod.mk.injEq] at e; exact hne e.1
          · have := i1.1 a (List.mem_map.2 ⟨(a, m), e, rfl⟩)
            simp only at hlt
            omega
        refine ⟨?_, ?_, ?_⟩
        · rw [List.map_cons, List.pairwise_cons]
          refine ⟨?_, by rw [List.map_cons, List.pairwise_cons]; exact i1⟩
          intro a ha
          rw [List.map_cons, List.mem_cons] at ha
          rcases ha with rfl | ha
          · exact hlt
          · exact hlt.trans (i1.1 a ha)
        · intro c m hm
          rcases List.mem_cons.1 hm with e | e
          · simp only [Prod.mk.injEq] at e
            obtain ⟨rfl, rfl⟩ := e
            refine ⟨List.mem_cons_self .., fun w hw => ?_⟩
            rcases List.mem_cons.1 hw with e | e
            · simp only [Prod.mk.injEq, true_and] at e; rw [e]
            · exact absurd (List.mem_map.2 ⟨(c, w), e, rfl⟩) hnt
          · obtain ⟨g1, g2⟩ := i2 c m e
            have hck : c ≠ k := fun h => hnt (by rw [← h]; exact List.mem_map.2 ⟨(c, m), g1, rfl⟩)
            refine ⟨List.mem_cons_of_mem _ g1, fun w hw => ?_⟩
            rcases List.mem_cons.1 hw with e | e
            · simp only [Prod.mk.injEq] at e; exact absurd e.1 hck
            · exact g2 e
        · intro c w hw
          rcases List.mem_cons.1 hw with e | e
          · simp only [Prod.mk.injEq] at e
            obtain ⟨rfl, rfl⟩ := e
            exact ⟨w, List.mem_cons_self ..⟩
          · obtain ⟨m, hm⟩ := i3 c w e
            exact ⟨m, List.mem_cons_of_mem _ hm⟩

theorem scatter_mem {l : List (ℕ × ℝ)} (hn : (l.map Prod.fst).Nodup) {c : ℕ} {m : ℝ} (h : (c, m) ∈ l) (f : ℕ → ℝ) : scatter f l c = m := by
  induction l generalizing f with
  | nil => cases h
  | cons kv t ih =>
    obtain ⟨k, v⟩ := kv
    rw [List.map_cons, List.nodup_cons] at hn
    simp only [scatter]
    rcases List.mem_cons.1 h with e | e
    · simp only [Prod.mk.injEq] at e
      obtain ⟨rfl, rfl⟩ := e
      rw [scatter_not_mem _ _ _ hn.1]
      simp
    · exact ih hn.2 e _

/-- **C85 (largest droplet, partial).** If cell numbers are represented exactly in `real_t` (no more than 2^24 cells for float, 2^53 for
double), `diag_max_rw` followed by `outbuf()` gives for every cell the largest wet radius in it, whatever is selected, and zero for
cells without super-droplets.  Missing: larger domains, see `max_rw_merged`. -/
theorem max_rw_partial (p : ℕ) (s : Obj) (h : IsCellSort s.d.N s.d.ijk s.d.sid) (hc : ∀ i < s.d.N, s.d.ijk i < s.d.nCell)
    (hp : s.d.nCell ≤ 2 ^ p) (c : ℕ) :
    ((∃ i < s.d.N, s.d.ijk i = c) → IsGreatest {r | ∃ i < s.d.N, s.d.ijk i = c ∧ r = √(s.rw2 i)} ((outbuf (diagMaxRw p s).d).2 c)) ∧
    ((¬ ∃ i < s.d.N, s.d.ijk i = c) → (outbuf (diagMaxRw p s).d).2 c = 0) := by
  set l := s.d.sid.map (fun i => (s.d.ijk i, √(s.rw2 i))) with hl
  have hmem : ∀ i, i ∈ s.d.sid ↔ i < s.d.N := fun i => by rw [h.perm.mem_iff]; simp
  have hin : ∀ c v, (c, v) ∈ l ↔ ∃ i < s.d.N, s.d.ijk i = c ∧ v = √(s.rw2 i) := by
    intro c v
    rw [hl, List.mem_map]
    constructor
    · rintro ⟨i, hi, e⟩
      simp only [Prod.mk.injEq] at e
      exact ⟨i, (hmem i).1 hi, e.1, e.2.symm⟩
    · rintro ⟨i, hi, e1, e2⟩
      exact ⟨i, (hmem i).2 hi, by rw [e1, e2]⟩
  have hkeys : l.map Prod.fst = s.d.sid.map s.d.ijk := by rw [hl, List.map_map]; rfl
  have hle : ∀ a ∈ l.map Prod.fst, a ≤ 2 ^ p := by
    intro a ha
    rw [hkeys] at ha
    obtain ⟨i, hi, rfl⟩ := List.mem_map.1 ha
    have := hc i ((hmem i).1 hi)
    omega
  obtain ⟨s1, s2, s3⟩ := reduceMax_spec (conv := toReal p) l (by rw [hkeys]; exact h.sorted)
    (fun a ha b hb e => toReal_inj (hle a ha) (hle b hb) e)
  have hnd : ((reduceMax (toReal p) l).map Prod.fst).Nodup := s1.imp (fun h => Nat.ne_of_lt h)
  have hout : (outbuf (diagMaxRw p s).d).2 c = scatter (fun _ => 0) (reduceMax (toReal p) l) c := by
    unfold outbuf fillOutbuf diagMaxRw
    simp only []
    rw [zip_store]
  rw [hout]
  constructor
  · rintro ⟨i, hi, hic⟩
    obtain ⟨m, hm⟩ := s3 c (√(s.rw2 i)) ((hin _ _).2 ⟨i, hi, hic, rfl⟩)
    rw [scatter_mem hnd hm]
    have := s2 c m hm
    have e : {v | (c, v) ∈ l} = {r | ∃ i < s.d.N, s.d.ijk i = c ∧ r = √(s.rw2 i)} := by
      ext v; exact hin c v
    rwa [e] at this
  · intro hno
    rw [scatter_not_mem]
    intro hm
    obtain ⟨⟨a, m⟩, hm', rfl⟩ := List.mem_map.1 hm
    obtain ⟨i, h1, h2, -⟩ := (hin _ _).1 (s2 a m hm').1
    exact hno ⟨i, h1, h2⟩

/-! ### Examples and findings -/

/-- two super-droplets: 1 m in cell `a`, 2 m in cell `b` (sizes chosen for readability) -/
noncomputable def exObj (nCell a b : ℕ) : Obj where
  d := { N := 2, n := fun _ => 5, ijk := fun i => if i = 0 then a else b, sid := [0, 1], nf := some (fun _ => 5), nCell := nCell, nDims := 3,
         dv := fun _ => 1, rhod := fun _ => 1, countN := 0, countIjk := fun _ => 0, countMom := fun _ => 0 }
  rw2 := fun i => if i = 0 then 1 else 4
  iceA := fun _ => 0
  iceC := fun _ => 0
  iceRho := fun _ => 0
  vt := fun _ => -1
  air := fun _ => exAir

theorem exObj_sort {nCell a b : ℕ} (h : a ≤ b) : IsCellSort (exObj nCell a b).d.N (exObj nCell a b).d.ijk (exObj nCell a b).d.sid :=
  ⟨by simp [exObj, List.range_succ], by simp [exObj]; omega⟩

/-- **C85 (finding).** In single precision with more than 2^24 + 1 cells, neighbouring cells are merged: the droplet of 2 m in cell
2^24 + 1 is reported for cell 2^24, where there is only one of 1 m, and nothing for its own cell. -/
theorem max_rw_merged : let s := exObj (2 ^ 24 + 2) (2 ^ 24) (2 ^ 24 + 1)
    IsCellSort s.d.N s.d.ijk s.d.sid ∧ (∀ i < s.d.N, s.d.ijk i < s.d.nCell) ∧
    (outbuf (diagMaxRw 24 s).d).2 (2 ^ 24) = 2 ∧ (outbuf (diagMaxRw 24 s).d).2 (2 ^ 24 + 1) = 0 := by
  intro s
  have h4 : √(4 : ℝ) = 2 := by rw [show (4:ℝ) = 2 ^ 2 by norm_num, Real.sqrt_sq (by norm_num)]
  have hl : reduceMax (toReal 24) (s.d.sid.map (fun i => (s.d.ijk i, √(s.rw2 i)))) = [(2 ^ 24, 2)] := by
    have e1 : toReal 24 (2 ^ 24) = 16777216 := by decide
    have e2 : toReal 24 (2 ^ 24 + 1) = 16777216 := by decide
    have hm : s.d.sid.map (fun i => (s.d.ijk i, √(s.rw2 i))) = [(2 ^ 24, 1), (2 ^ 24 + 1, 2)] := by
      simp only [s, exObj, List.map_cons, List.map_nil, if_true, one_ne_zero, if_false, Real.sqrt_one, h4]
    rw [hm]
    simp only [reduceMax]
    rw [if_pos (by rw [e1, e2])]
    norm_num
  have hout : ∀ c, (outbuf (diagMaxRw 24 s).d).2 c = scatter (fun _ => 0) [(2 ^ 24, 2)] c := by
    intro c
    unfold outbuf fillOutbuf diagMaxRw
    simp only []
    rw [zip_store, hl]
  refine ⟨exObj_sort (by omega), ?_, ?_, ?_⟩
  · intro i _
    show (if i = 0 then 2 ^ 24 else 2 ^ 24 + 1) < 2 ^ 24 + 2
    split_ifs <;> omega
  · rw [hout]; simp [scatter]
  · rw [hout]; simp only [scatter]; rw [Function.update_of_ne (by omega)]

/-- an ordinary case: cells 3 and 7 of 8 -/
example : IsGreatest {r | ∃ i < (exObj 8 3 7).d.N, (exObj 8 3 7).d.ijk i = 7 ∧ r = √((exObj 8 3 7).rw2 i)}
    ((outbuf (diagMaxRw 24 (exObj 8 3 7)).d).2 7) :=
  (max_rw_partial 24 (exObj 8 3 7) (exObj_sort (by omega)) (by
    intro i _
    show (if i = 0 then 3 else 7) < 8
    split_ifs <;> omega) (by norm_num [exObj]) 7).1 ⟨1, by norm_num [exObj], by simp [exObj]⟩

/-- droplets of 1 and 2 mm, the second marked as having an invalid velocity -/
noncomputable def exRain : Obj := { exObj 8 3 7 with rw2 := fun i => if i = 0 then 1e-6 else 4e-6 }

/-- **C85 (finding).** `diag_precip_rate` is not free of side effects: it replaces velocities marked as invalid (left by the last collision,
see C75), which the next `step_cond` would use, by valid ones. -/
theorem precip_rate_writes (eq : Eq) : ∃ t, diagPrecipRate eq false exRain = .ok t ∧ exRain.vt 1 = -1 ∧ 0 < t.vt 1 := by
  have e4 : √(4e-6 : ℝ) = 2e-3 := by rw [show (4e-6:ℝ) = 2e-3 ^ 2 by norm_num, Real.sqrt_sq (by norm_num)]
  have e1 : √(1e-6 : ℝ) = 1e-3 := by rw [show (1e-6:ℝ) = 1e-3 ^ 2 by norm_num, Real.sqrt_sq (by norm_num)]
  obtain ⟨t, ht⟩ := precip_rate_succeeds eq false exRain (by simp [exRain, exObj]) (fun _ => exAir_usual) (by
    intro i _
    show √(if i = 0 then (1e-6:ℝ) else 4e-6) ≤ 3e-3
    split_ifs
    · rw [e1]; norm_num
    · rw [e4]; norm_num)
  obtain ⟨v, h1, -, h3, -⟩ := precip_rate eq false exRain t (exObj_sort (by omega)) (by
    intro i
    show (0:ℝ) ≤ if i = 0 then 1e-6 else 4e-6
    split_ifs <;> norm_num) (P := fun _ => True) (by simp [exRain, exObj]) ht
  refine ⟨t, ht, rfl, ?_⟩
  rw [h3]
  have hw : exRain.rw2 1 = 4e-6 := by simp [exRain]
  have h1 := h1 1 (by simp [exRain, exObj]) (by rw [hw]; norm_num)
  rw [hw] at h1
  obtain ⟨x, hx, hx0⟩ := vtLiquid_pos eq exAir exAir_usual 4e-6 (by norm_num) (by rw [e4]; norm_num)
  have : vtLiquid eq exAir 4e-6 = some (v 1) := h1
  rw [hx] at this
  simp only [Option.some.injEq] at this
  rw [← this]; exact hx0

/-- an ice particle of 1 mm beside a droplet -/
noncomputable def exIce : Obj := { exObj 8 3 7 with rw2 := fun i => if i = 0 then 0 else 4e-6, iceA := fun i => if i = 0 then 1e-3 else 0,
                                                    iceC := fun _ => 1e-3, iceRho := fun _ => 900 }

example : (∀ i, 0 < exIce.rw2 i → exIce.iceA i = 0) ∧ (∃ t, diagPrecipRateIce .beard76 true exIce = .ok t) ∧
    ∃ t, diagIceMix true exIce = .ok t := by
  refine ⟨?_, ?_, ⟨_, rfl⟩⟩
  · intro i hi
    by_cases h : i = 0
    · subst h; simp [exIce] at hi
    · simp [exIce, h]
  · have hs : ∀ i < exIce.d.N, (vtAll .beard76 true (exIce.air (exIce.d.ijk i)) (exIce.rw2 i) (exIce.iceA i) (exIce.vt i)).isSome := by
      intro i _
      unfold vtAll
      split_ifs <;> rfl
    unfold diagPrecipRateIce vtermAll
    rw [if_neg (by simp), if_pos hs]
    exact ⟨_, rfl⟩

end LCP.Rates
