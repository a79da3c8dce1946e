import Verif.Diag.Lemmas

/-!
# Sorting, counting and diagnostics: C13, C14, C15, C16
-/
namespace LCP.Diag

/-! ### C13 sorting and counting -/

/-- **C13** After `hskpng_sort`: `sorted_id` is a rearrangement of all ids ordered by cell and `sorted_ijk[p]` is the
cell of `sorted_id[p]`, for every outcome of the unstable sort. -/
theorem sort_ok {N : ℕ} {ijk : ℕ → ℕ} {out : List (ℕ × ℕ)} (h : SortPlain N ijk out) :
    IsCellSort N ijk (out.map Prod.snd) ∧ out.map Prod.fst = (out.map Prod.snd).map ijk := by
  have h2 : out.map Prod.fst = (out.map Prod.snd).map ijk := by
    rw [List.map_map]
    apply List.map_congr_left
    intro a ha
    obtain ⟨i, _, rfl⟩ := List.mem_map.1 (h.perm.mem_iff.1 ha)
    rfl
  refine ⟨⟨?_, ?_⟩, h2⟩
  · have := h.perm.map Prod.snd
    rw [List.map_map] at this
    simpa [Function.comp_def] using this
  · rw [← h2]; exact h.sorted

/-- **C13** The same after `hskpng_shuffle_and_sort`, for all random keys: shuffling only changes the order within cells
(the sequence of cells `sorted_ijk` is the one of the unshuffled sort). -/
theorem shuffle_ok {N : ℕ} {ijk un : ℕ → ℕ} {out out' : List (ℕ × ℕ)} (h : SortShuffled N ijk un out)
    (h' : SortPlain N ijk out') :
    IsCellSort N ijk (out.map Prod.snd) ∧ out.map Prod.fst = (out.map Prod.snd).map ijk ∧
      out.map Prod.fst = out'.map Prod.fst := by
  obtain ⟨mid, hm, ho⟩ := h
  have hmid : (mid.map Prod.snd).Perm (List.range N) := by
    have := hm.perm.map Prod.snd
    rw [List.map_map] at this
    simpa [Function.comp_def] using this
  have hperm : out.Perm ((List.range N).map (fun i => (ijk i, i))) := ho.perm.trans (hmid.map _)
  have hp : SortPlain N ijk out := ⟨hperm, ho.sorted⟩
  obtain ⟨a, b⟩ := sort_ok hp
  refine ⟨a, b, ?_⟩
  apply List.Perm.eq_of_pairwise' (r := (· ≤ ·)) ho.sorted h'.sorted
  exact (hperm.trans h'.perm.symm).map _

/-- **C13** `hskpng_count`: the listed cells are strictly increasing, a cell is listed iff it holds a super-droplet, the
stored number is the number of super-droplets in that cell, and the numbers add up to `n_part`. -/
theorem count_ok {N : ℕ} {ijk : ℕ → ℕ} {sid : List ℕ} (h : IsCellSort N ijk sid) :
    ((hskpngCount ijk sid).map Prod.fst).Pairwise (· < ·) ∧
    (∀ c, c ∈ (hskpngCount ijk sid).map Prod.fst ↔ ∃ i < N, ijk i = c) ∧
    (∀ c m, (c, m) ∈ hskpngCount ijk sid → m = ((Finset.range N).filter (fun i => ijk i = c)).card) ∧
    ((hskpngCount ijk sid).map Prod.snd).sum = N := by
  have hstr := reduceByKey_keys_strict _ (sorted_keys h (fun _ => (1 : ℕ)))
  refine ⟨hstr, ?_, ?_, ?_⟩
  · intro c
    unfold hskpngCount
    rw [mem_keys_reduceByKey, List.map_map]
    simp only [List.mem_map, Function.comp]
    constructor
    · rintro ⟨i, hi, rfl⟩
      exact ⟨i, by simpa using h.perm.mem_iff.1 hi, rfl⟩
    · rintro ⟨i, hi, rfl⟩
      exact ⟨i, h.perm.mem_iff.2 (by simpa using hi), rfl⟩
  · intro c m hm
    have h1 : sumAt c (hskpngCount ijk sid) = ((Finset.range N).filter (fun i => ijk i = c)).card := by
      unfold hskpngCount
      rw [sumAt_reduceByKey, sumAt_cells h]
      simp
    rw [← h1]
    have key : ∀ l : List (ℕ × ℕ), (l.map Prod.fst).Nodup → (c, m) ∈ l → m = sumAt c l := by
      intro l
      induction l with
      | nil => intro _ h; simp at h
      | cons kv t ih =>
        obtain ⟨k, v⟩ := kv
        intro hn hmem
        rw [List.map_cons, List.nodup_cons] at hn
        rw [sumAt_cons]
        rcases List.mem_cons.1 hmem with he | he
        · obtain ⟨rfl, rfl⟩ := Prod.mk.inj he
          rw [if_pos rfl, sumAt_not_mem _ _ hn.1, add_zero]
        · have hck : k ≠ c := by
            rintro rfl
            exact hn.1 (List.mem_map.2 ⟨_, he, rfl⟩)
          rw [if_neg hck, zero_add]
          exact ih hn.2 he
    exact key _ (hstr.imp (fun h => Nat.ne_of_lt h)) hm
  · have key : ∀ l : List (ℕ × ℕ), ((reduceByKey l).map Prod.snd).sum = (l.map Prod.snd).sum := by
      intro l
      induction l with
      | nil => rfl
      | cons kv t ih =>
        obtain ⟨k, v⟩ := kv
        rw [reduceByKey_cons, List.map_cons, List.sum_cons, ← ih]
        cases reduceByKey t with
        | nil => simp
        | cons a r =>
          obtain ⟨ka, va⟩ := a
          by_cases hk : k = ka
          · simp [hk]; omega
          · simp [hk]
    unfold hskpngCount
    rw [key, List.map_map]
    have := h.length
    simp [Function.comp_def, this]

/-- **C13** Hence never more than `n_cell` entries are written to the counting arrays. -/
theorem count_le_nCell {N nCell : ℕ} {ijk : ℕ → ℕ} {sid : List ℕ} (h : IsCellSort N ijk sid)
    (hc : ∀ i < N, ijk i < nCell) : (hskpngCount ijk sid).length ≤ nCell := by
  obtain ⟨h1, h2, _, _⟩ := count_ok h
  have hnd : ((hskpngCount ijk sid).map Prod.fst).Nodup := h1.imp (fun h => Nat.ne_of_lt h)
  have hsub : (hskpngCount ijk sid).map Prod.fst ⊆ List.range nCell := by
    intro c hcm
    obtain ⟨i, hi, rfl⟩ := (h2 c).1 hcm
    simpa using hc i hi
  simpa using (hnd.subperm hsub).length_le

/-! ### C15 selections -/

/-- does this selection refine the previous one? -/
def Sel.cons : Sel → Bool
  | .rng _ _ _ c => c
  | .gt0 _ c => c
  | .eq0 _ c => c
  | _ => false

/-- Specification of a single selection: which super-droplets it asks for. -/
def Sel.wants : Sel → ℕ → Prop
  | .all, _ => True
  | .rng lo hi v _, i => lo ≤ v i ∧ v i < hi
  | .cmp v w, i => v i ≥ w i
  | .ge0 v, i => v i ≥ 0
  | .gt0 v _, i => v i > 0
  | .eq0 v _, i => v i = 0

/-- Specification: the set selected by a sequence of selections — a non-consecutive selection starts afresh, a
consecutive one intersects. -/
def selected (l : List Sel) : ℕ → Prop :=
  l.foldl (fun P sel => fun i => if sel.cons then P i ∧ sel.wants i else sel.wants i) (fun _ => False)

/-- run a sequence of selections -/
noncomputable def selects (s : St) : List Sel → Option St
  | [] => some s
  | a :: l => (select s a).bind (fun t => selects t l)

/-- state fields other than the selection are not touched -/
theorem select_frame {s t : St} {a : Sel} (h : select s a = some t) : t = { s with nf := t.nf } := by
  cases a with
  | all | cmp | ge0 => simp only [select, Option.some.injEq] at h; subst h; rfl
  | rng lo hi v cons | gt0 v cons | eq0 v cons =>
    simp only [select, Option.map_eq_some_iff] at h
    obtain ⟨y, _, rfl⟩ := h
    rfl

open Classical in
theorem select_nf {s t : St} {a : Sel} {P : ℕ → Prop} (h : select s a = some t)
    (hP : a.cons = true → s.nf = some (fun i => if P i then (s.n i : ℝ) else 0)) :
    t.nf = some (fun i => if (if a.cons then P i ∧ a.wants i else a.wants i) then (s.n i : ℝ) else 0) := by
  cases a with
  | all => simp only [select, Option.some.injEq] at h; subst h; simp [Sel.cons, Sel.wants]
  | cmp v w =>
    simp only [select, Option.some.injEq] at h; subst h
    simp [Sel.cons, Sel.wants, compFilter]
  | ge0 v =>
    simp only [select, Option.some.injEq] at h; subst h
    simp [Sel.cons, Sel.wants, b2r]
  | rng lo hi v cons =>
    simp only [select, Option.map_eq_some_iff] at h
    obtain ⟨y, hy, rfl⟩ := h
    cases cons with
    | false =>
      simp only [base, Bool.false_eq_true, if_false, Option.some.injEq] at hy
      subst hy
      simp [Sel.cons, Sel.wants, rangeFilter]
    | true =>
      have := hP rfl
      simp only [base, if_true] at hy
      rw [this] at hy
      obtain rfl := Option.some.inj hy
      simp only [Sel.cons, Sel.wants, rangeFilter, if_true]
      congr 1; funext i
      by_cases h1 : P i <;> by_cases h2 : lo ≤ v i ∧ v i < hi <;> simp [h1, h2]
  | gt0 v cons =>
    simp only [select, Option.map_eq_some_iff] at h
    obtain ⟨y, hy, rfl⟩ := h
    cases cons with
    | false =>
      simp only [base, Bool.false_eq_true, if_false, Option.some.injEq] at hy
      subst hy
      simp [Sel.cons, Sel.wants, b2r]
    | true =>
      have := hP rfl
      simp only [base, if_true] at hy
      rw [this] at hy
      obtain rfl := Option.some.inj hy
      simp only [Sel.cons, Sel.wants, b2r, if_true]
      congr 1; funext i
      by_cases h1 : P i <;> by_cases h2 : v i > 0 <;> simp [h1, h2]
  | eq0 v cons =>
    simp only [select, Option.map_eq_some_iff] at h
    obtain ⟨y, hy, rfl⟩ := h
    cases cons with
    | false =>
      simp only [base, Bool.false_eq_true, if_false, Option.some.injEq] at hy
      subst hy
      simp [Sel.cons, Sel.wants, b2r]
    | true =>
      have := hP rfl
      simp only [base, if_true] at hy
      rw [this] at hy
      obtain rfl := Option.some.inj hy
      simp only [Sel.cons, Sel.wants, b2r, if_true]
      congr 1; funext i
      by_cases h1 : P i <;> by_cases h2 : v i = 0 <;> simp [h1, h2]

open Classical in
/-- **C15** After any sequence of selections whose first one is not consecutive, the call sequence is defined, and the
selected multiplicity of each super-droplet is its multiplicity if it belongs to the specified set and 0 otherwise;
nothing else changed. -/
theorem selections_ok (s : St) (a : Sel) (l : List Sel) (ha : a.cons = false) :
    ∃ t, selects s (a :: l) = some t ∧
      t = { s with nf := some (fun i => if selected (a :: l) i then (s.n i : ℝ) else 0) } := by
  have gen : ∀ (l : List Sel) (s : St) (P : ℕ → Prop), s.nf = some (fun i => if P i then (s.n i : ℝ) else 0) →
      ∃ t, selects s l = some t ∧ t = { s with nf := some (fun i =>
        if l.foldl (fun P sel => fun i => if sel.cons then P i ∧ sel.wants i else sel.wants i) P i then (s.n i : ℝ) else 0) } := by
    intro l
    induction l with
    | nil => intro s P hs; exact ⟨s, rfl, by rw [← List.foldl_nil (f := fun (P : ℕ → Prop) (sel : Sel) => fun i => if sel.cons then P i ∧ sel.wants i else sel.wants i) (b := P)] at hs; rw [← hs]⟩
    | cons b l ih =>
      intro s P hs
      have hdef : ∃ t, select s b = some t := by
        cases b with
        | all | cmp | ge0 => exact ⟨_, rfl⟩
        | rng lo hi v cons | gt0 v cons | eq0 v cons => cases cons <;> simp [select, base, hs]
      obtain ⟨t, ht⟩ := hdef
      have hnf := select_nf ht (fun _ => hs)
      have hfr := select_frame ht
      have hn : t.n = s.n := by rw [hfr]
      rw [← hn] at hnf
      obtain ⟨u, hu1, hu2⟩ := ih t (fun i => if b.cons then P i ∧ b.wants i else b.wants i)
        (by rw [hnf]; congr 1; funext i; congr)
      refine ⟨u, by simp [selects, ht, hu1], ?_⟩
      rw [hu2, hfr]
      congr
  have hdef : ∃ t, select s a = some t := by
    cases a with
    | all | cmp | ge0 => exact ⟨_, rfl⟩
    | rng lo hi v cons | gt0 v cons | eq0 v cons =>
      simp only [Sel.cons] at ha
      subst ha
      simp [select, base]
  obtain ⟨t, ht⟩ := hdef
  have hnf := select_nf (P := fun _ => False) ht (fun h => by rw [ha] at h; simp at h)
  have hfr := select_frame ht
  have hn : t.n = s.n := by rw [hfr]
  rw [← hn] at hnf
  obtain ⟨u, hu1, hu2⟩ := gen l t (fun i => if a.cons then False ∧ a.wants i else a.wants i)
    (by rw [hnf]; congr 1; funext i; congr)
  refine ⟨u, by simp [selects, ht, hu1], ?_⟩
  rw [hu2, hfr]
  rfl

/-- **C15** A consecutive selection without a previous one is undefined behaviour. -/
theorem cons_without_selection (s : St) (hs : s.nf = none) (a : Sel) (ha : a.cons = true) : select s a = none := by
  cases a with
  | all | cmp | ge0 => simp [Sel.cons] at ha
  | rng lo hi v cons | gt0 v cons | eq0 v cons =>
    simp only [Sel.cons] at ha; subst ha; simp [select, base, hs]

/-- `diag_dry_rng(r_min, r_max)` / `diag_dry_rng_cons` (particles_diag.ipp:229-237, 290-298) on the stored `rd³` -/
noncomputable def dryRng (rmin rmax : ℝ) (rd3 : ℕ → ℝ) (cons : Bool) : Sel := .rng (rmin ^ 3) (rmax ^ 3) rd3 cons

/-- `diag_wet_rng(r_min, r_max)` / `diag_wet_rng_cons` (particles_diag.ipp:239-247, 300-308) on the stored `rw²` -/
noncomputable def wetRng (rmin rmax : ℝ) (rw2 : ℕ → ℝ) (cons : Bool) : Sel := .rng (rmin ^ 2) (rmax ^ 2) rw2 cons

/-- **C15** `diag_dry_rng` selects exactly the super-droplets with `r_min ≤ r_d < r_max`. -/
theorem dryRng_wants (rmin rmax : ℝ) (rd : ℕ → ℝ) (cons : Bool) (i : ℕ) :
    (dryRng rmin rmax (fun i => rd i ^ 3) cons).wants i ↔ rmin ≤ rd i ∧ rd i < rmax := by
  have hmono : StrictMono (fun x : ℝ => x ^ 3) := Odd.strictMono_pow (by decide)
  simp only [dryRng, Sel.wants]
  exact and_congr hmono.le_iff_le hmono.lt_iff_lt

/-- **C15** `diag_wet_rng` with a non-negative range selects exactly the super-droplets with `r_min ≤ r_w < r_max`. -/
theorem wetRng_wants {rmin rmax : ℝ} (h0 : 0 ≤ rmin) (h1 : 0 ≤ rmax) (rw : ℕ → ℝ) (hr : ∀ i, 0 ≤ rw i) (cons : Bool) (i : ℕ) :
    (wetRng rmin rmax (fun i => rw i ^ 2) cons).wants i ↔ rmin ≤ rw i ∧ rw i < rmax := by
  simp only [wetRng, Sel.wants]
  exact and_congr (pow_le_pow_iff_left₀ h0 (hr i) (by decide)) (pow_lt_pow_iff_left₀ (hr i) h1 (by decide))

/-! ### C14 moments -/

/-- Specification: sum over the super-droplets of cell `c`. -/
def cellSum (s : St) (c : ℕ) (f : ℕ → ℝ) : ℝ := ∑ i ∈ (Finset.range s.N).filter (fun i => s.ijk i = c), f i

/-- general form: outbuf after `moms_calc` -/
theorem momsCalc_outbuf {s : St} (h : IsCellSort s.N s.ijk s.sid) {nf : ℕ → ℝ} (hnf : s.nf = some nf)
    (v : ℕ → ℝ) (power : ℝ) (specific : Bool) :
    ∃ t, momsCalc s v power specific = some t ∧ ∀ c, (outbuf t).2 c =
      cellSum s c (fun i => momentCounter power (nf i) (v i)) *
        (if specific = true ∧ 0 < s.nDims then (s.dv c * s.rhod c)⁻¹ else 1) := by
  unfold momsCalc
  rw [hnf]
  refine ⟨_, rfl, ?_⟩
  intro c
  have hnd : (reduceToCount s (fun i => momentCounter power (nf i) (v i))).nDims = s.nDims := rfl
  unfold outbuf cellSum
  simp only [hnd]
  by_cases hsp : specific = true ∧ 0 < s.nDims
  · rw [if_pos hsp]
    simp only [hsp.1, hsp.2, decide_true, Bool.and_self, if_true]
    refine fillOutbuf_reduce_mul h (fun i => momentCounter power (nf i) (v i)) (fun c => (s.dv c * s.rhod c)⁻¹) c _ ?_
    intro p hp
    rw [if_pos hp, div_div, div_eq_mul_inv]
    rfl
  · rw [if_neg hsp, mul_one]
    have : (specific && decide (0 < s.nDims)) = false := by
      simp only [Bool.and_eq_false_iff, decide_eq_false_iff_not]
      by_cases h1 : specific = true
      · right; exact fun h2 => hsp ⟨h1, h2⟩
      · left; simpa using h1
    simp only [this, Bool.false_eq_true, if_false]
    exact fillOutbuf_reduce h _ c

theorem momentCounter_nat (k : ℕ) (n x : ℝ) : momentCounter (k : ℝ) n x = n * x ^ k := by
  unfold momentCounter
  have h0 : (0:ℝ) ≤ (k:ℝ) := by positivity
  by_cases h : 0 ≤ x
  · rw [if_pos h, Real.rpow_natCast]
  · rw [if_neg h, if_pos h0]
    simp

theorem momentCounter_root {m : ℕ} (hm : m ≠ 0) (k : ℕ) {n r : ℝ} (hr : 0 ≤ r) :
    momentCounter ((k : ℝ) / m) n (r ^ m) = n * r ^ k := by
  unfold momentCounter
  rw [if_pos (by positivity), ← Real.rpow_natCast, ← Real.rpow_mul hr,
    mul_div_cancel₀ _ (by exact_mod_cast hm), Real.rpow_natCast]

/-- conversion factor: specific quantities in 1-3D, extensive ones in a parcel (n_dims = 0) -/
noncomputable def perMass (s : St) (c : ℕ) : ℝ := if 0 < s.nDims then (s.dv c * s.rhod c)⁻¹ else 1

open Classical in
/-- **C14** (radius moments; `m = 2`: `diag_wet_mom`, `m = 3`: `diag_dry_mom`, particles_diag.ipp:409-421)
Whatever was selected, `diag_wet_mom(k)`/`diag_dry_mom(k)` followed by `outbuf()` returns for every cell the sum over the
selected super-droplets in that cell of multiplicity times radius to the `k`, per mass of dry air; zero in cells
without super-droplets. -/
theorem radius_moment {s : St} (h : IsCellSort s.N s.ijk s.sid) {P : ℕ → Prop}
    (hnf : s.nf = some (fun i => if P i then (s.n i : ℝ) else 0)) {m : ℕ} (hm : m ≠ 0) (r : ℕ → ℝ) (hr : ∀ i, 0 ≤ r i)
    (k : ℕ) :
    ∃ t, momsCalc s (fun i => r i ^ m) ((k : ℝ) / m) true = some t ∧ ∀ c, (outbuf t).2 c =
      (∑ i ∈ (Finset.range s.N).filter (fun i => s.ijk i = c ∧ P i), (s.n i : ℝ) * r i ^ k) * perMass s c := by
  obtain ⟨t, ht, hc⟩ := momsCalc_outbuf h hnf (fun i => r i ^ m) ((k : ℝ) / m) true
  refine ⟨t, ht, fun c => ?_⟩
  rw [hc c]
  unfold cellSum perMass
  simp only [true_and]
  congr 1
  rw [← Finset.filter_filter, Finset.sum_filter (p := P)]
  apply Finset.sum_congr rfl
  intro i _
  rw [momentCounter_root hm k (hr i)]
  split_ifs <;> simp

open Classical in
/-- **C14** (other attributes: `diag_kappa_mom`, `diag_up_mom`, `diag_ice_a_mom`, ... particles_diag.ipp:423-490) integer
moments of an attribute of either sign. -/
theorem attribute_moment {s : St} (h : IsCellSort s.N s.ijk s.sid) {P : ℕ → Prop}
    (hnf : s.nf = some (fun i => if P i then (s.n i : ℝ) else 0)) (v : ℕ → ℝ) (k : ℕ) :
    ∃ t, momsCalc s v (k : ℝ) true = some t ∧ ∀ c, (outbuf t).2 c =
      (∑ i ∈ (Finset.range s.N).filter (fun i => s.ijk i = c ∧ P i), (s.n i : ℝ) * v i ^ k) * perMass s c := by
  obtain ⟨t, ht, hc⟩ := momsCalc_outbuf h hnf v (k : ℝ) true
  refine ⟨t, ht, fun c => ?_⟩
  rw [hc c]
  unfold cellSum perMass
  simp only [true_and]
  congr 1
  rw [← Finset.filter_filter, Finset.sum_filter (p := P)]
  apply Finset.sum_congr rfl
  intro i _
  rw [momentCounter_nat]
  split_ifs <;> simp

open Classical in
/-- **C14** `diag_sd_conc` + `outbuf()` counts the selected live super-droplets of every cell. -/
theorem sd_conc {s : St} (h : IsCellSort s.N s.ijk s.sid) {P : ℕ → Prop}
    (hnf : s.nf = some (fun i => if P i then (s.n i : ℝ) else 0)) :
    ∃ t, diagSdConc s = some t ∧ ∀ c, (outbuf t).2 c =
      ((Finset.range s.N).filter (fun i => s.ijk i = c ∧ P i ∧ s.n i ≠ 0)).card := by
  unfold diagSdConc
  rw [hnf]
  refine ⟨_, rfl, fun c => ?_⟩
  show fillOutbuf _ c = _
  rw [fillOutbuf_reduce h]
  rw [← Finset.filter_filter, Finset.card_filter]
  push_cast
  apply Finset.sum_congr rfl
  intro i _
  by_cases h1 : P i <;> simp [h1, Nat.pos_iff_ne_zero]

open Classical in
/-- **C15** Abutting ranges partition: every moment over `[a,b)` plus the moment over `[b,c)` is the moment over `[a,c)`,
in every cell. -/
theorem abutting_ranges {s s1 s2 s3 t1 t2 t3 : St} (h : IsCellSort s.N s.ijk s.sid) {a b e : ℝ} (hab : a ≤ b) (hbe : b ≤ e)
    (x v : ℕ → ℝ) (power : ℝ) (specific : Bool)
    (h1 : select s (.rng a b x false) = some s1) (h2 : select s (.rng b e x false) = some s2)
    (h3 : select s (.rng a e x false) = some s3)
    (m1 : momsCalc s1 v power specific = some t1) (m2 : momsCalc s2 v power specific = some t2)
    (m3 : momsCalc s3 v power specific = some t3) (c : ℕ) :
    (outbuf t1).2 c + (outbuf t2).2 c = (outbuf t3).2 c := by
  simp only [select, base, Bool.false_eq_true, if_false, Option.map_some, Option.some.injEq] at h1 h2 h3
  subst h1 h2 h3
  have f : ∀ (s' : St) (nf : ℕ → ℝ) (t : St), s' = { s with nf := some nf } → momsCalc s' v power specific = some t →
      (outbuf t).2 c = cellSum s c (fun i => momentCounter power (nf i) (v i)) *
        (if specific = true ∧ 0 < s.nDims then (s.dv c * s.rhod c)⁻¹ else 1) := by
    intro s' nf t hs' ht
    subst hs'
    obtain ⟨t', ht', hc⟩ := momsCalc_outbuf (s := { s with nf := some nf }) h rfl v power specific
    rw [ht'] at ht
    obtain rfl := Option.some.inj ht
    exact hc c
  rw [f _ _ _ rfl m1, f _ _ _ rfl m2, f _ _ _ rfl m3, ← add_mul]
  congr 1
  unfold cellSum
  rw [← Finset.sum_add_distrib]
  apply Finset.sum_congr rfl
  intro i _
  have hz : momentCounter power 0 (v i) = 0 := by unfold momentCounter; split_ifs <;> simp
  unfold rangeFilter
  beta_reduce
  rcases lt_or_ge (x i) a with p1 | p1
  · rw [if_neg (fun hh => absurd hh.1 (not_le.2 p1)), if_neg (fun hh => absurd hh.1 (not_le.2 (lt_of_lt_of_le p1 hab))),
      if_neg (fun hh => absurd hh.1 (not_le.2 p1)), hz, add_zero]
  rcases lt_or_ge (x i) b with p2 | p2
  · rw [if_pos ⟨p1, p2⟩, if_neg (fun hh => absurd hh.1 (not_le.2 p2)), if_pos ⟨p1, lt_of_lt_of_le p2 hbe⟩, hz, add_zero]
  rcases lt_or_ge (x i) e with p3 | p3
  · rw [if_neg (fun hh => absurd hh.2 (not_lt.2 p2)), if_pos ⟨p2, p3⟩, if_pos ⟨p1, p3⟩, hz, zero_add]
  · rw [if_neg (fun hh => absurd hh.2 (not_lt.2 p2)), if_neg (fun hh => absurd hh.2 (not_lt.2 p3)),
      if_neg (fun hh => absurd hh.2 (not_lt.2 p3)), hz, add_zero]

/-! ### C16 reading outbuf repeatedly -/

theorem outbuf_twice_aux {s : St} (val : ℕ → ℝ) (mom : ℕ → ℝ) (c : ℕ) :
    let t := { reduceToCount s val with countMom := mom }
    (outbuf (outbuf t).1).2 c = (outbuf t).2 c := by
  intro t
  have hk := reduceByKey_fst (s.sid.map (fun i => (s.ijk i, (1 : ℕ)))) (s.sid.map (fun i => (s.ijk i, val i)))
    (by rw [List.map_map, List.map_map]; rfl)
  have hl : (hskpngCount s.ijk s.sid).length = (reduceToCount s val).countN := by
    have := congrArg List.length hk
    simpa [hskpngCount, reduceToCount] using this
  show scatter _ ((List.range (hskpngCount s.ijk s.sid).length).map _) c = scatter _ ((List.range (reduceToCount s val).countN).map _) c
  rw [hl]
  congr 1
  apply List.map_congr_left
  intro p hp
  have hp : p < (reduceToCount s val).countN := by simpa using hp
  have e : store ((hskpngCount s.ijk s.sid).map Prod.fst) t.countIjk p = t.countIjk p := by
    have h1 : (hskpngCount s.ijk s.sid).map Prod.fst = (reduceByKey (s.sid.map (fun i => (s.ijk i, val i)))).map Prod.fst := hk
    have h2 : t.countIjk p = store ((reduceByKey (s.sid.map (fun i => (s.ijk i, val i)))).map Prod.fst) s.countIjk p := rfl
    have hp' : p < ((reduceByKey (s.sid.map (fun i => (s.ijk i, val i)))).map Prod.fst).length := by simpa [reduceToCount] using hp
    rw [h2, h1, store_lt hp', store_lt hp']
  exact Prod.ext e rfl

/-- **C16** (moments and counts) After `moms_calc` (any moment) or `diag_sd_conc`, a second `outbuf()` returns the same
array as the first. -/
theorem outbuf_twice_partial {s t : St} :
    (∀ v power specific, momsCalc s v power specific = some t → (outbuf (outbuf t).1).2 = (outbuf t).2) ∧
    (diagSdConc s = some t → (outbuf (outbuf t).1).2 = (outbuf t).2) := by
  constructor
  · intro v power specific h
    unfold momsCalc at h
    rw [Option.map_eq_some_iff] at h
    obtain ⟨nf, _, rfl⟩ := h
    funext c
    dsimp only
    split_ifs
    · exact outbuf_twice_aux (s := s) (fun i => momentCounter power (nf i) (v i)) _ c
    · exact outbuf_twice_aux (s := s) (fun i => momentCounter power (nf i) (v i)) (reduceToCount s _).countMom c
  · intro h
    unfold diagSdConc at h
    rw [Option.map_eq_some_iff] at h
    obtain ⟨nf, _, rfl⟩ := h
    funext c
    exact outbuf_twice_aux (s := s) (fun i => if nf i > 0 then 1 else 0) (reduceToCount s _).countMom c

/-- **C16** (fields, partial) After `diag_pressure` etc. the first `outbuf()` is right for every cell, and the second one
too provided every cell holds a super-droplet. -/
theorem outbuf_field_partial {s : St} (h : IsCellSort s.N s.ijk s.sid) (f : ℕ → ℝ) (hc : ∀ i < s.N, s.ijk i < s.nCell) :
    (∀ c < s.nCell, (outbuf (diagField s f)).2 c = f c) ∧
    ((∀ c < s.nCell, ∃ i < s.N, s.ijk i = c) →
      ∀ c < s.nCell, (outbuf (outbuf (diagField s f)).1).2 c = f c) := by
  have key : ∀ (m : ℕ) (g : ℕ → ℝ) (c : ℕ), c < m → scatter (fun _ => (0:ℝ)) ((List.range m).map (fun p => (p, g p))) c = g c := by
    intro m g c hc
    have hnd : (((List.range m).map (fun p => (p, g p))).map Prod.fst) = List.range m := by
      rw [List.map_map]; simp [Function.comp_def]
    rw [scatter_nodup _ _ _ (by rw [hnd]; exact List.nodup_range), if_pos (by rw [hnd]; simpa using hc)]
    have := sumAt_cells (N := m) (ijk := fun p => p) (sid := List.range m) ⟨List.Perm.refl _, by simpa using List.pairwise_le_range⟩ g c
    rw [this]
    rw [Finset.sum_filter, Finset.sum_ite_eq' (Finset.range m) c g]
    simp [hc]
  constructor
  · intro c hc
    show scatter _ ((List.range s.nCell).map (fun p => (p, if p < s.nCell then f p else s.countMom p))) c = f c
    rw [key _ _ _ hc, if_pos hc]
  · intro hocc c hcc
    obtain ⟨k1, k2, _, _⟩ := count_ok h
    have hkeys : (hskpngCount s.ijk s.sid).map Prod.fst = List.range s.nCell := by
      apply List.Perm.eq_of_pairwise' (r := (· ≤ ·)) (k1.imp (fun h => Nat.le_of_lt h)) List.pairwise_le_range
      apply (List.perm_ext_iff_of_nodup (k1.imp (fun h => Nat.ne_of_lt h)) List.nodup_range).2
      intro a
      rw [k2 a]
      constructor
      · rintro ⟨i, hi, rfl⟩; simpa using hc i hi
      · intro ha; exact hocc a (by simpa using ha)
    have hlen : (hskpngCount s.ijk s.sid).length = s.nCell := by simpa using congrArg List.length hkeys
    show scatter _ ((List.range (hskpngCount s.ijk s.sid).length).map (fun p =>
      (store ((hskpngCount s.ijk s.sid).map Prod.fst) (fun p => p) p, if p < s.nCell then f p else s.countMom p))) c = f c
    rw [hlen, hkeys]
    have : (List.range s.nCell).map (fun p => (store (List.range s.nCell) (fun p => p) p, if p < s.nCell then f p else s.countMom p)) =
        (List.range s.nCell).map (fun p => (p, if p < s.nCell then f p else s.countMom p)) := by
      apply List.map_congr_left
      intro p hp
      rw [store_lt (by simpa using hp)]
      simp
    rw [this, key _ _ _ hcc, if_pos hcc]

/-- two cells, one super-droplet, in cell 1 -/
noncomputable def exSt : St :=
  { N := 1, n := fun _ => 5, ijk := fun _ => 1, sid := [0], nf := none, nCell := 2, nDims := 1,
    dv := fun _ => 1, rhod := fun _ => 1, countN := 0, countIjk := fun _ => 0, countMom := fun _ => 0 }

/-- **C16** (negation) With an empty cell the second `outbuf()` after `diag_temperature` is scrambled: reading a field with
values 280, 290 in cells 0, 1 a second time gives 0, 280. -/
theorem outbuf_field_twice_wrong : IsCellSort exSt.N exSt.ijk exSt.sid ∧
    (outbuf (diagField exSt (fun c => 280 + 10 * c))).2 1 = 290 ∧
    (outbuf (outbuf (diagField exSt (fun c => 280 + 10 * c))).1).2 1 = 280 := by
  refine ⟨⟨by simp [exSt], by simp [exSt]⟩, ?_, ?_⟩
  · simp [outbuf, diagField, fillOutbuf, exSt, List.range_succ, scatter]
    norm_num
  · simp [outbuf, diagField, fillOutbuf, exSt, List.range_succ, scatter, count, hskpngCount, reduceByKey, store]

open Classical in
example : ∃ t, selects exSt [.all, .rng 1 2 (fun _ => 3/2) true] = some t ∧
    t.nf = some (fun i => if selected [.all, .rng 1 2 (fun _ => 3/2) true] i then (exSt.n i : ℝ) else 0) := by
  obtain ⟨t, h1, h2⟩ := selections_ok exSt .all [.rng 1 2 (fun _ => 3/2) true] rfl
  exact ⟨t, h1, by rw [h2]⟩

/-- the super-droplet of `exSt` is indeed selected by that sequence -/
example : selected [.all, .rng 1 2 (fun _ => 3/2) true] 0 := by
  simp only [selected, List.foldl, Sel.cons, Sel.wants]
  norm_num

end LCP.Diag
