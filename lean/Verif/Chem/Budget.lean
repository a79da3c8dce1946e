import Verif.Chem.Henry
import Verif.Cond.PerCellLemmas

/-!
# C66: uptake of trace gases - budget of every cell
-/
namespace LCP.Chem
open LCP.Common LCP.Cond
open LCP.Diag hiding St

/-! ### reduce_by_key -/

theorem momentCounter_one (v : ℝ) : momentCounter 1 1 v = v := by
  unfold momentCounter
  by_cases h : 0 ≤ v
  · rw [if_pos h]; simp
  · rw [if_neg h]; simp

theorem reduce_lists {s : Diag.St} (h : IsCellSort s.N s.ijk s.sid) (f : ℕ → ℝ) : Lists (reduceToCount s f) (fun c => cellSum s c f) := by
  obtain ⟨t, ht, hl, -⟩ := momsCalc_lists (s := { s with nDims := 0, nf := some (fun _ => 1) }) h rfl f 1
  unfold momsCalc at ht
  simp only [Option.map_some, Option.some.injEq, momentCounter_one] at ht
  rw [if_neg (by simp [reduceToCount])] at ht
  subst ht
  have hM : (fun c => cellSum ({ s with nDims := 0, nf := some (fun _ => 1) } : Diag.St) c (fun i => momentCounter 1 1 (f i)) *
      perMass ({ s with nDims := 0, nf := some (fun _ => 1) } : Diag.St) c) = fun c => cellSum s c f := by
    funext c; unfold perMass cellSum; simp [momentCounter_one]
  rw [hM] at hl
  exact ⟨hl.nodup, hl.mem, hl.val⟩

theorem reduceByKey_keys_congr {M M' : Type*} [Add M] [Add M'] (k : ℕ → ℕ) (v : ℕ → M) (v' : ℕ → M') (l : List ℕ) :
    (reduceByKey (l.map fun i => (k i, v i))).map Prod.fst = (reduceByKey (l.map fun i => (k i, v' i))).map Prod.fst := by
  induction l with
  | nil => rfl
  | cons a t ih =>
    simp only [List.map_cons, reduceByKey_cons]
    revert ih
    generalize reduceByKey (t.map fun i => (k i, v i)) = p
    generalize reduceByKey (t.map fun i => (k i, v' i)) = q
    intro ih
    cases p with
    | nil =>
      cases q with
      | nil => simp
      | cons => simp at ih
    | cons p0 p1 =>
      cases q with
      | nil => simp at ih
      | cons q0 q1 =>
        simp only [List.map_cons, List.cons.injEq] at ih
        obtain ⟨e1, e2⟩ := ih
        obtain ⟨pk, pv⟩ := p0
        obtain ⟨qk, qv⟩ := q0
        simp only at e1
        subst e1
        by_cases h : k a = pk <;> simp [h, e2]

theorem reduce_counts (s : Diag.St) (f g : ℕ → ℝ) : (reduceToCount s f).countN = (reduceToCount s g).countN ∧
    ∀ p, (reduceToCount s f).countIjk p = (reduceToCount s g).countIjk p := by
  have h := reduceByKey_keys_congr s.ijk f g s.sid
  have hl : (reduceByKey (s.sid.map fun i => (s.ijk i, f i))).length = (reduceByKey (s.sid.map fun i => (s.ijk i, g i))).length := by
    have := congrArg List.length h
    simpa using this
  refine ⟨hl, fun p => ?_⟩
  unfold reduceToCount
  simp only []
  rw [h]

/-! ### one gas -/

/-- new mass of gas `g` in droplet `i` -/
noncomputable def newM (dt : ℝ) (vol : ℕ → ℝ) (flag : ℕ → Bool) (x : CSt) (g : Sp) (i : ℕ) : ℝ :=
  if flag i then henryFun g dt (vol i) (x.T (x.d.ijk i)) (x.amb g (x.d.ijk i)) (x.chem g i) (x.rw2 i) (x.d.rhod (x.d.ijk i)) (x.chem .H i) else x.chem g i

open Classical in
/-- new mixing ratio of gas `g` in cell `c` -/
noncomputable def newAmb (dt : ℝ) (vol : ℕ → ℝ) (flag : ℕ → Bool) (x : CSt) (g : Sp) (c : ℕ) : ℝ :=
  if occ x.d c then
    max (x.amb g c - (cellSum x.d c (fun i => (x.d.n i : ℝ) * newM dt vol flag x g i) - cellSum x.d c (fun i => (x.d.n i : ℝ) * x.chem g i))
      / Maq g * Mgas g / x.d.dv c / x.d.rhod c) 0
  else x.amb g c

theorem ambientCalc_eq (Ma Mg mn mo rhod dv c : ℝ) : ambientCalc Ma Mg mn mo rhod dv c = max (c - (mn - mo) / Ma * Mg / dv / rhod) 0 := by
  unfold ambientCalc
  simp only [mul_zero]
  by_cases h : c - (mn - mo) / Ma * Mg / dv / rhod > 0
  · rw [if_pos h, max_eq_left h.le]
  · rw [if_neg h, max_eq_right (by linarith)]

/-- everything but the masses in droplets and the gases is the same -/
structure Frame (x y : CSt) : Prop where
  geo : Geo x.d y.d
  T : y.T = x.T
  rw2 : y.rw2 = x.rw2
  rd3 : y.rd3 = x.rd3
  tmp : y.tmp = x.tmp

theorem Frame.refl (x : CSt) : Frame x x := ⟨Geo.refl _, rfl, rfl, rfl, rfl⟩

theorem Frame.trans {x y z : CSt} (h : Frame x y) (g : Frame y z) : Frame x z :=
  ⟨h.geo.trans g.geo, g.T.trans h.T, g.rw2.trans h.rw2, g.rd3.trans h.rd3, g.tmp.trans h.tmp⟩

theorem henryGas_spec (dt : ℝ) (vol : ℕ → ℝ) (flag : ℕ → Bool) (x : CSt) (g : Sp) (hs : Sorted x.d) :
    (henryGas dt vol flag x g).chem = Function.update x.chem g (newM dt vol flag x g) ∧
    (henryGas dt vol flag x g).amb = Function.update x.amb g (newAmb dt vol flag x g) ∧ Frame x (henryGas dt vol flag x g) := by
  classical
  refine ⟨rfl, ?_, ⟨⟨rfl, rfl, rfl, rfl, rfl, rfl, rfl, rfl⟩, rfl, rfl, rfl, rfl⟩⟩
  unfold henryGas
  simp only []
  congr 1
  funext c
  set r0 := reduceToCount x.d (fun i => (x.d.n i : ℝ) * x.chem g i) with hr0
  set m' := fun i => if flag i then henryFun g dt (vol i) (x.T (x.d.ijk i)) (x.amb g (x.d.ijk i)) (x.chem g i) (x.rw2 i) (x.d.rhod (x.d.ijk i)) (x.chem .H i) else x.chem g i with hm'
  set r1 := reduceToCount x.d (fun i => (x.d.n i : ℝ) * m' i) with hr1
  have l0 : Lists r0 _ := reduce_lists hs.sort _
  have l1 : Lists r1 _ := reduce_lists hs.sort _
  obtain ⟨cN, cI⟩ := reduce_counts x.d (fun i => (x.d.n i : ℝ) * x.chem g i) (fun i => (x.d.n i : ℝ) * m' i)
  rw [← hr0, ← hr1] at cN cI
  rw [scatter_fun (x.amb g) (fun c => max (x.amb g c - (cellSum x.d c (fun i => (x.d.n i : ℝ) * newM dt vol flag x g i) - cellSum x.d c (fun i => (x.d.n i : ℝ) * x.chem g i))
      / Maq g * Mgas g / x.d.dv c / x.d.rhod c) 0)]
  · unfold newAmb
    have hk : ((List.range r1.countN).map fun p => (r1.countIjk p, ambientCalc (Maq g) (Mgas g) (r1.countMom p) (r0.countMom p) (x.d.rhod (r1.countIjk p)) (x.d.dv (r1.countIjk p)) (x.amb g (r1.countIjk p)))).map Prod.fst
        = (entries r1).map Prod.fst := by
      simp [entries, List.map_map, Function.comp_def]
    rw [hk]
    have ho : c ∈ (entries r1).map Prod.fst ↔ occ x.d c := l1.mem c
    by_cases h : occ x.d c
    · rw [if_pos h, if_pos (ho.2 h)]
    · rw [if_neg h, if_neg (fun hh => h (ho.1 hh))]
  · intro kv hkv
    obtain ⟨p, hp, rfl⟩ := List.mem_map.1 hkv
    simp only []
    have hp' : p < r1.countN := by simpa using hp
    have v1 : r1.countMom p = cellSum x.d (r1.countIjk p) (fun i => (x.d.n i : ℝ) * m' i) :=
      l1.val (r1.countIjk p, r1.countMom p) (List.mem_map.2 ⟨p, by simpa using hp', rfl⟩)
    have v0 : r0.countMom p = cellSum x.d (r1.countIjk p) (fun i => (x.d.n i : ℝ) * x.chem g i) := by
      rw [← cI p]
      exact l0.val (r0.countIjk p, r0.countMom p) (List.mem_map.2 ⟨p, by rw [cN]; simpa using hp', rfl⟩)
    rw [ambientCalc_eq, v1, v0]
    rfl

/-! ### all gases -/

theorem newM_congr (dt : ℝ) (vol : ℕ → ℝ) (flag : ℕ → Bool) {x y : CSt} (h : Frame x y) (g : Sp) (h1 : y.chem g = x.chem g) (h2 : y.amb g = x.amb g)
    (h3 : y.chem .H = x.chem .H) : newM dt vol flag y g = newM dt vol flag x g := by
  funext i
  unfold newM
  rw [h.T, h.geo.ijk, h.geo.rhod, h.rw2, h1, h2, h3]

theorem cellSum_congr {a b : Diag.St} (h : Geo a b) (f : ℕ → ℝ) (c : ℕ) : cellSum b c f = cellSum a c f := by
  unfold cellSum; rw [h.N, h.ijk]

theorem newAmb_congr (dt : ℝ) (vol : ℕ → ℝ) (flag : ℕ → Bool) {x y : CSt} (h : Frame x y) (g : Sp) (h1 : y.chem g = x.chem g) (h2 : y.amb g = x.amb g)
    (h3 : y.chem .H = x.chem .H) : newAmb dt vol flag y g = newAmb dt vol flag x g := by
  funext c
  unfold newAmb
  rw [newM_congr dt vol flag h g h1 h2 h3, h1, h2, cellSum_congr h.geo, cellSum_congr h.geo, h.geo.n, h.geo.dv, h.geo.rhod]
  have := h.geo.occ c
  by_cases ho : occ x.d c
  · rw [if_pos ho, if_pos (this.2 ho)]
  · rw [if_neg ho, if_neg (fun hh => ho (this.1 hh))]

theorem henry_fold (dt : ℝ) (vol : ℕ → ℝ) (flag : ℕ → Bool) (l : List Sp) : ∀ (x : CSt), l.Nodup → Sp.H ∉ l → Sorted x.d →
    let y := l.foldl (henryGas dt vol flag) x
    Frame x y ∧ (∀ g, y.chem g = if g ∈ l then newM dt vol flag x g else x.chem g) ∧ (∀ g, y.amb g = if g ∈ l then newAmb dt vol flag x g else x.amb g) := by
  induction l with
  | nil => intro x _ _ _; simp [Frame.refl]
  | cons a t ih =>
    intro x hn hH hs
    rw [List.nodup_cons] at hn
    simp only [List.mem_cons, not_or] at hH
    obtain ⟨s1, s2, s3⟩ := henryGas_spec dt vol flag x a hs
    obtain ⟨f1, f2, f3⟩ := ih (henryGas dt vol flag x a) hn.2 hH.2 (s3.geo.sorted hs)
    simp only [List.foldl_cons]
    have eH : (henryGas dt vol flag x a).chem .H = x.chem .H := by rw [s1, Function.update_of_ne hH.1]
    refine ⟨s3.trans f1, fun g => ?_, fun g => ?_⟩
    · rw [f2 g]
      by_cases hg : g = a
      · subst hg
        rw [if_neg hn.1, if_pos (by simp), s1, Function.update_self]
      · have e1 : (henryGas dt vol flag x a).chem g = x.chem g := by rw [s1, Function.update_of_ne hg]
        have e2 : (henryGas dt vol flag x a).amb g = x.amb g := by rw [s2, Function.update_of_ne hg]
        by_cases ht : g ∈ t
        · rw [if_pos ht, if_pos (by simp [ht]), newM_congr dt vol flag s3 g e1 e2 eH]
        · rw [if_neg ht, if_neg (by simp [ht, hg]), e1]
    · rw [f3 g]
      by_cases hg : g = a
      · subst hg
        rw [if_neg hn.1, if_pos (by simp), s2, Function.update_self]
      · have e1 : (henryGas dt vol flag x a).chem g = x.chem g := by rw [s1, Function.update_of_ne hg]
        have e2 : (henryGas dt vol flag x a).amb g = x.amb g := by rw [s2, Function.update_of_ne hg]
        by_cases ht : g ∈ t
        · rw [if_pos ht, if_pos (by simp [ht]), newAmb_congr dt vol flag s3 g e1 e2 eH]
        · rw [if_neg ht, if_neg (by simp [ht, hg]), e2]

theorem chemHenry_spec (dt : ℝ) (vol : ℕ → ℝ) (flag : ℕ → Bool) (x : CSt) (hs : Sorted x.d) :
    let y := chemHenry dt vol flag x
    Frame x y ∧ (∀ g ∈ gases, y.chem g = newM dt vol flag x g ∧ y.amb g = newAmb dt vol flag x g) ∧
      (∀ g ∉ gases, y.chem g = x.chem g ∧ y.amb g = x.amb g) := by
  obtain ⟨h1, h2, h3⟩ := henry_fold dt vol flag gases x (by decide) (by decide) hs
  refine ⟨h1, fun g hg => ?_, fun g hg => ?_⟩
  · exact ⟨by rw [chemHenry, h2 g, if_pos hg], by rw [chemHenry, h3 g, if_pos hg]⟩
  · exact ⟨by rw [chemHenry, h2 g, if_neg hg], by rw [chemHenry, h3 g, if_neg hg]⟩

/-! ### budgets -/

/-- moles of a gas in a cell: mixing ratio (by mass) times mass of dry air over molar mass -/
noncomputable def gasMoles (x : CSt) (g : Sp) (c : ℕ) : ℝ := x.amb g c * (x.d.rhod c * x.d.dv c) / Mgas g

/-- moles of a gas dissolved in the droplets of a cell -/
noncomputable def aqMoles (x : CSt) (g : Sp) (c : ℕ) : ℝ :=
  (∑ i ∈ (Finset.range x.d.N).filter (fun i => x.d.ijk i = c), (x.d.n i : ℝ) * x.chem g i) / Maq g

/-- volumes and densities of cells are positive -/
structure CellsOk (x : CSt) : Prop where
  dv : ∀ c, 0 < x.d.dv c
  rhod : ∀ c, 0 < x.d.rhod c

/-- states in which uptake makes sense: dissolved masses and mixing ratios are not negative, droplets and temperatures are real -/
structure Phys (x : CSt) : Prop extends CellsOk x where
  chem : ∀ s i, 0 ≤ x.chem s i
  amb : ∀ g ∈ gases, ∀ c, 0 ≤ x.amb g c
  T : ∀ c, 0 < x.T c
  rw2 : ∀ i, 0 ≤ x.rw2 i

theorem newM_nonneg (dt : ℝ) (flag : ℕ → Bool) (x : CSt) (hp : Phys x) (hdt : 0 ≤ dt) (g : Sp) (hg : g ∈ gases) (i : ℕ) : 0 ≤ newM dt x.vol flag x g i := by
  unfold newM
  split_ifs
  · refine henryFun_nonneg g hg _ _ _ _ _ _ _ _ hdt ?_ (hp.T _) (hp.rw2 _) (hp.chem _ _) (hp.chem _ _) (hp.amb g hg _) (hp.rhod _).le
    unfold CSt.vol dropVol
    have := hp.rw2 i; have := Real.pi_pos
    positivity
  · exact hp.chem _ _

/-- **C66 (budget).** Uptake and release by the droplets of a cell: dissolved plus gaseous moles of every gas stay the same as long as the cell
has the gas; otherwise (the sum of what each droplet takes exceeds what there is) gas and dissolved become what has been dissolved.
No mass or mixing ratio becomes negative. Cells without droplets keep their gas, droplets without flag keep their masses; H⁺, sulfate, sizes,
numbers, temperatures are not touched. -/
theorem henry_budget (dt : ℝ) (flag : ℕ → Bool) (x : CSt) (hs : Sorted x.d) (hp : Phys x) (hdt : 0 ≤ dt) :
    let y := chemHenry dt x.vol flag x
    (∀ g ∈ gases, ∀ c, gasMoles y g c + aqMoles y g c = max (gasMoles x g c + aqMoles x g c) (aqMoles y g c)) ∧
    Phys y ∧ Frame x y ∧ (∀ g ∈ gases, ∀ c, (∀ i < x.d.N, x.d.ijk i ≠ c) → y.amb g c = x.amb g c) ∧
    (∀ g i, flag i = false → y.chem g i = x.chem g i) ∧ y.chem .H = x.chem .H ∧ y.chem .S_VI = x.chem .S_VI := by
  classical
  obtain ⟨fr, h1, h2⟩ := chemHenry_spec dt x.vol flag x hs
  intro y
  have hgeo := fr.geo
  have hamb : ∀ g ∈ gases, ∀ c, 0 ≤ y.amb g c := by
    intro g hg c
    rw [(h1 g hg).2]
    unfold newAmb
    split_ifs
    · exact le_max_right _ _
    · exact hp.amb g hg c
  refine ⟨?_, ⟨⟨by intro c; rw [hgeo.dv]; exact hp.dv c, by intro c; rw [hgeo.rhod]; exact hp.rhod c⟩, ?_, hamb, by rw [fr.T]; exact hp.T, by rw [fr.rw2]; exact hp.rw2⟩, fr, ?_, ?_,
    (h2 .H (by decide)).1, (h2 .S_VI (by decide)).1⟩
  · intro g hg c
    have hd := hp.dv c; have hr := hp.rhod c; have hma := Maq_pos g hg; have hmg := Mgas_pos g hg
    unfold gasMoles aqMoles
    rw [hgeo.rhod, hgeo.dv, hgeo.N, hgeo.ijk, hgeo.n, (h1 g hg).1, (h1 g hg).2]
    unfold newAmb
    by_cases ho : occ x.d c
    · rw [if_pos ho]
      unfold cellSum
      set S1 := ∑ i ∈ (Finset.range x.d.N).filter (fun i => x.d.ijk i = c), (x.d.n i : ℝ) * newM dt x.vol flag x g i
      set S0 := ∑ i ∈ (Finset.range x.d.N).filter (fun i => x.d.ijk i = c), (x.d.n i : ℝ) * x.chem g i
      have hpos : 0 < x.d.rhod c * x.d.dv c / Mgas g := by positivity
      have e : ∀ z : ℝ, max z 0 * (x.d.rhod c * x.d.dv c) / Mgas g + S1 / Maq g = max (z * (x.d.rhod c * x.d.dv c / Mgas g) + S1 / Maq g) (S1 / Maq g) := by
        intro z
        rw [mul_div_assoc, max_mul_of_nonneg _ _ hpos.le, zero_mul, max_add, zero_add]
      rw [e]
      congr 1
      field_simp
      ring
    · rw [if_neg ho]
      have hN : ∀ f : ℕ → ℝ, ∑ i ∈ (Finset.range x.d.N).filter (fun i => x.d.ijk i = c), f i = 0 := fun f => cellSum_unocc x.d f c ho
      rw [hN, hN, zero_div, add_zero, max_eq_left]
      have := hp.amb g hg c
      positivity
  · intro s i
    by_cases hg : s ∈ gases
    · rw [(h1 s hg).1]; exact newM_nonneg dt flag x hp hdt s hg i
    · rw [(h2 s hg).1]; exact hp.chem s i
  · intro g hg c hc
    rw [(h1 g hg).2]
    unfold newAmb
    rw [if_neg (fun ⟨i, hi, e⟩ => hc i hi e)]
  · intro g i hf
    by_cases hg : g ∈ gases
    · rw [(h1 g hg).1]; unfold newM; rw [if_neg (by simp [hf])]
    · rw [(h2 g hg).1]

/-- a droplet takes up at most what a perfect sink would: `dt k V` of the air's gas -/
theorem henryFun_le (g : Sp) (hg : g ∈ gases) (dt V T c m rw2 rhod mH : ℝ) (hdt : 0 ≤ dt) (hV : 0 ≤ V) (hT : 0 < T) (hr : 0 ≤ rw2) (hH : 0 ≤ mH)
    (hm : 0 ≤ m) (hc : 0 ≤ c) (hrho : 0 ≤ rhod) :
    henryFun g dt V T c m rw2 rhod mH ≤ m + dt * V * massTrans rw2 (Dg g) (acc g) T (Mgas g) * c * rhod * (Maq g / Mgas g) := by
  have hD := Dg_pos g hg; have ha := acc_pos g hg; have hM := Mgas_pos g hg; have hA := Maq_pos g hg
  have hmv := molecVel_pos T (Mgas g) hT hM
  have hk : 0 ≤ massTrans rw2 (Dg g) (acc g) T (Mgas g) := by
    unfold massTrans
    have := Real.sqrt_nonneg rw2
    positivity
  have hh : 0 ≤ mH / M_H / V := by have := M_H_pos'; positivity
  have hl : 0 ≤ hlp g T (mH / M_H / V) := by
    have := (KtSO2_pos T).le; have := (KtHSO3_pos T).le; have := (KtCO2_pos T).le; have := (KtHCO3_pos T).le; have := (KtNH3_pos T).le
    have := (KtHNO3_pos T).le; have := K_H2O_pos.le
    cases g <;> unfold hlp <;> simp only [] <;> positivity
  have hHe := (atT_pos T (Hc g) (dHR g) (Hc_pos g hg)).le
  have := kaBoNA_pos
  unfold henryFun
  simp only []
  apply div_le_self (by positivity)
  have : 0 ≤ dt * massTrans rw2 (Dg g) (acc g) T (Mgas g) / (atT T (Hc g) (dHR g) * hlp g T (mH / M_H / V)) / kaBoNA / T := by positivity
  linarith

/-- partial: moles are conserved if the droplets of the cell could not sweep the whole cell within the time step:
`dt Σ n k V ≤ dv` -/
theorem henry_conserved_partial (dt : ℝ) (flag : ℕ → Bool) (x : CSt) (hs : Sorted x.d) (hp : Phys x) (hdt : 0 ≤ dt) (g : Sp) (hg : g ∈ gases) (c : ℕ)
    (h : ∑ i ∈ (Finset.range x.d.N).filter (fun i => x.d.ijk i = c), (x.d.n i : ℝ) * (dt * transfer g (Real.sqrt (x.rw2 i)) (x.T c) * x.vol i) ≤ x.d.dv c) :
    gasMoles (chemHenry dt x.vol flag x) g c + aqMoles (chemHenry dt x.vol flag x) g c = gasMoles x g c + aqMoles x g c := by
  obtain ⟨h1, -⟩ := henry_budget dt flag x hs hp hdt
  rw [h1 g hg c]
  apply max_eq_left
  obtain ⟨fr, h2, -⟩ := chemHenry_spec dt x.vol flag x hs
  have hd := hp.dv c; have hr := hp.rhod c; have hma := Maq_pos g hg; have hmg := Mgas_pos g hg
  have hac := hp.amb g hg c
  have hle : ∀ i ∈ (Finset.range x.d.N).filter (fun i => x.d.ijk i = c), (x.d.n i : ℝ) * newM dt x.vol flag x g i ≤ (x.d.n i : ℝ) * x.chem g i +
      (x.amb g c * x.d.rhod c * (Maq g / Mgas g)) * ((x.d.n i : ℝ) * (dt * transfer g (Real.sqrt (x.rw2 i)) (x.T c) * x.vol i)) := by
    intro i hi
    have hc : x.d.ijk i = c := (Finset.mem_filter.1 hi).2
    have hV : 0 ≤ x.vol i := by
      unfold CSt.vol dropVol
      have := hp.rw2 i; have := Real.pi_pos
      positivity
    have e0 := massTrans_eq g (Real.sqrt (x.rw2 i)) (x.T c) (Real.sqrt_nonneg _)
    rw [Real.sq_sqrt (hp.rw2 i)] at e0
    have ht : 0 ≤ transfer g (Real.sqrt (x.rw2 i)) (x.T c) := by
      rw [← e0]
      unfold massTrans
      have := Dg_pos g hg; have := acc_pos g hg; have := molecVel_pos (x.T c) (Mgas g) (hp.T c) hmg
      have := Real.sqrt_nonneg (x.rw2 i); have := hp.rw2 i
      positivity
    unfold newM
    have hn : (0 : ℝ) ≤ x.d.n i := Nat.cast_nonneg _
    split_ifs
    · rw [hc]
      have hb := henryFun_le g hg dt (x.vol i) (x.T c) (x.amb g c) (x.chem g i) (x.rw2 i) (x.d.rhod c) (x.chem .H i) hdt hV (hp.T c) (hp.rw2 i)
        (hp.chem _ _) (hp.chem _ _) hac hr.le
      rw [e0] at hb
      nlinarith [mul_le_mul_of_nonneg_left hb hn]
    · have : 0 ≤ (x.amb g c * x.d.rhod c * (Maq g / Mgas g)) * ((x.d.n i : ℝ) * (dt * transfer g (Real.sqrt (x.rw2 i)) (x.T c) * x.vol i)) := by positivity
      linarith
  have hsum := Finset.sum_le_sum hle
  rw [Finset.sum_add_distrib, ← Finset.mul_sum] at hsum
  unfold aqMoles gasMoles
  rw [fr.geo.N, fr.geo.ijk, fr.geo.n, (h2 g hg).1]
  have h3 := mul_le_mul_of_nonneg_left h (show 0 ≤ x.amb g c * x.d.rhod c * (Maq g / Mgas g) by positivity)
  rw [div_le_iff₀ hma]
  refine le_trans hsum ?_
  rw [add_mul, div_mul_cancel₀ _ hma.ne', add_comm]
  have e : x.amb g c * (x.d.rhod c * x.d.dv c) / Mgas g * Maq g = x.amb g c * x.d.rhod c * (Maq g / Mgas g) * x.d.dv c := by ring
  rw [e]
  linarith

/-! ### the finding -/

/-- one super-droplet of pure water (pH 7) in one cell of 1 m³ with ozone -/
noncomputable def exOne (n : ℕ) : CSt :=
  { d := { N := 1, n := fun _ => n, ijk := fun _ => 0, sid := [0], nf := none, nCell := 1, nDims := 0, dv := fun _ => 1, rhod := fun _ => 1, countN := 0,
           countIjk := fun _ => 0, countMom := fun _ => 0 }
    T := fun _ => 298, rw2 := fun _ => 1e-10, rd3 := fun _ => 1e-24
    chem := fun s _ => if s = .H then 1e-4 * M_H * dropVol 1e-10 else 0
    amb := fun g _ => if g = .O3 then 1e-7 else 0
    tmp := fun _ _ => 0 }

theorem exOne_sorted (n : ℕ) : Sorted (exOne n).d := by
  refine ⟨⟨by show [0].Perm (List.range 1); decide, ?_⟩, fun i _ => by show 0 < 1; decide⟩
  show ([0].map fun _ => 0).Pairwise (· ≤ ·)
  decide

theorem exOne_phys (n : ℕ) : Phys (exOne n) := by
  have hv : 0 < dropVol 1e-10 := by unfold dropVol; have := Real.pi_pos; positivity
  have := M_H_pos'
  refine ⟨⟨fun _ => by norm_num [exOne], fun _ => by norm_num [exOne]⟩, fun s i => ?_, fun g _ c => ?_, fun _ => by norm_num [exOne], fun _ => by norm_num [exOne]⟩
  · simp only [exOne]; split_ifs <;> positivity
  · simp only [exOne]; split_ifs <;> norm_num

theorem exOne_flag (n : ℕ) : (exOne n).flag 0 = true := by
  have hv : 0 < dropVol 1e-10 := by unfold dropVol; have := Real.pi_pos; positivity
  have hm := M_H_pos'
  have e : 1e-4 * M_H * dropVol 1e-10 / M_H / dropVol 1e-10 = 1e-4 := by field_simp
  unfold CSt.flag setFlag
  rw [decide_eq_true_iff]
  have hvol : (exOne n).vol 0 = dropVol 1e-10 := rfl
  rw [hvol]
  refine ⟨by simp only [exOne, if_true]; positivity, hv.ne', ?_⟩
  unfold ionStrength
  simp only [exOne]
  simp only [if_true, e]
  simp
  have : K_H2O = 1e-8 := by norm_num [K_H2O]
  rw [this]
  norm_num

/-- the hypotheses of `henry_conserved_partial` are met: a million droplets of 10 µm per cubic metre, up to one second -/
theorem exOne_sweep (dt : ℝ) (h1 : dt ≤ 1) (g : Sp) (hg : g ∈ gases) (c : ℕ) :
    ∑ i ∈ (Finset.range (exOne 1000000).d.N).filter (fun i => (exOne 1000000).d.ijk i = c),
    ((exOne 1000000).d.n i : ℝ) * (dt * transfer g (Real.sqrt ((exOne 1000000).rw2 i)) ((exOne 1000000).T c) * (exOne 1000000).vol i) ≤ (exOne 1000000).d.dv c := by
  have hv : (exOne 1000000).vol 0 ≤ 1e-14 := by
    show dropVol 1e-10 ≤ 1e-14
    unfold dropVol
    have e : ((1e-10 : ℝ)) ^ (3 / 2 : ℝ) = 1e-15 := by
      rw [show (1e-10 : ℝ) = (1e-5) ^ (2 : ℝ) by norm_num, ← Real.rpow_mul (by norm_num)]
      norm_num
    rw [e]
    have := Real.pi_lt_d2
    linarith
  have hv0 : 0 ≤ (exOne 1000000).vol 0 := by
    show 0 ≤ dropVol 1e-10
    unfold dropVol; have := Real.pi_pos; positivity
  have ht : transfer g (Real.sqrt ((exOne 1000000).rw2 0)) ((exOne 1000000).T c) ≤ 1e7 := by
    show transfer g (Real.sqrt 1e-10) 298 ≤ 1e7
    unfold transfer
    rw [Real.sq_sqrt (by norm_num)]
    have h0 : 0 ≤ 4 * Real.sqrt 1e-10 / (3 * accom g * Real.sqrt (8 * kaBoNA * 298 / (Real.pi * (gPerMol g / 1000)))) := by
      have := Real.sqrt_nonneg (1e-10 : ℝ); have := Real.sqrt_nonneg (8 * kaBoNA * 298 / (Real.pi * (gPerMol g / 1000)))
      have : 0 ≤ accom g := by cases g <;> norm_num [accom]
      positivity
    have h1 : (1e-7 : ℝ) ≤ 1e-10 / (3 * (cm2PerS g / 10000)) := by cases g <;> simp [gases] at hg <;> norm_num [cm2PerS]
    have h3 := one_div_le_one_div_of_le (show (0:ℝ) < 1e-7 by norm_num) (h1.trans (le_add_of_nonneg_right h0))
    norm_num at h3 ⊢
    exact h3
  have ht0 : 0 ≤ transfer g (Real.sqrt ((exOne 1000000).rw2 0)) ((exOne 1000000).T c) := by
    refine (transfer_pos g hg _ _ ?_ ?_).le
    · exact Real.sqrt_pos.2 (by norm_num [exOne])
    · norm_num [exOne]
  rw [Finset.sum_filter, show (exOne 1000000).d.N = 1 from rfl, Finset.sum_range_one]
  split_ifs
  · show ((1000000 : ℕ) : ℝ) * _ ≤ 1
    have h2 := mul_le_mul ht hv hv0 (by norm_num)
    have h3 : 0 ≤ transfer g (Real.sqrt ((exOne 1000000).rw2 0)) ((exOne 1000000).T c) * (exOne 1000000).vol 0 := mul_nonneg ht0 hv0
    have h4 := mul_le_mul h1 h2 h3 (by norm_num)
    rw [mul_assoc]
    push_cast
    norm_num at h4 ⊢
    linarith
  · show (0 : ℝ) ≤ 1
    norm_num

/-- **C66 (conservation) for that state** -/
example (g : Sp) (hg : g ∈ gases) (c : ℕ) : let x := exOne 1000000
    gasMoles (chemHenry 1 x.vol x.flag x) g c + aqMoles (chemHenry 1 x.vol x.flag x) g c = gasMoles x g c + aqMoles x g c :=
  henry_conserved_partial 1 (exOne 1000000).flag (exOne 1000000) (exOne_sorted _) (exOne_phys _) (by norm_num) g hg c (exOne_sweep 1 (le_refl _) g hg c)

/-- **C66 (finding).** Each droplet takes up gas as if it were alone: with many droplets more is dissolved than the cell had, the mixing ratio is
set to zero and the total amount of the substance has increased. -/
theorem henry_creates (dt : ℝ) (hdt : 0 < dt) : ∃ n0 : ℕ, ∀ n ≥ n0, let x := exOne n
    gasMoles x .O3 0 + aqMoles x .O3 0 < gasMoles (chemHenry dt x.vol x.flag x) .O3 0 + aqMoles (chemHenry dt x.vol x.flag x) .O3 0 := by
  have hg : Sp.O3 ∈ gases := by decide
  have hma := Maq_pos .O3 hg; have hmg := Mgas_pos .O3 hg
  have hv : 0 < dropVol 1e-10 := by unfold dropVol; have := Real.pi_pos; positivity
  set m := henryFun .O3 dt (dropVol 1e-10) 298 1e-7 0 1e-10 1 (1e-4 * M_H * dropVol 1e-10) with hm
  have hMH := M_H_pos'
  have hmpos : 0 < m := by
    have hk := massTrans_pos 1e-10 (Dg .O3) (acc .O3) 298 (Mgas .O3) (by norm_num) (Dg_pos _ hg) (acc_pos _ hg) (by norm_num) hmg
    have := atT_pos 298 (Hc .O3) (dHR .O3) (Hc_pos _ hg); have := kaBoNA_pos
    have := hlp_pos .O3 298 (1e-4 * M_H * dropVol 1e-10 / M_H / dropVol 1e-10) (by positivity)
    rw [hm]
    unfold henryFun
    simp only []
    positivity
  obtain ⟨n0, hn0⟩ := exists_nat_gt ((1e-7 : ℝ) / Mgas .O3 * Maq .O3 / m)
  refine ⟨n0, fun n hn => ?_⟩
  intro x
  obtain ⟨h1, -⟩ := henry_budget dt x.flag x (exOne_sorted n) (exOne_phys n) hdt.le
  obtain ⟨fr, h2, -⟩ := chemHenry_spec dt x.vol x.flag x (exOne_sorted n)
  rw [h1 .O3 hg 0]
  apply lt_max_of_lt_right
  have hx0 : gasMoles x .O3 0 + aqMoles x .O3 0 = 1e-7 / Mgas .O3 := by
    simp [gasMoles, aqMoles, x, exOne]
  have hx1 : aqMoles (chemHenry dt x.vol x.flag x) .O3 0 = n * m / Maq .O3 := by
    unfold aqMoles
    rw [fr.geo.N, fr.geo.ijk, fr.geo.n, (h2 .O3 hg).1]
    have hfl : x.flag 0 = true := exOne_flag n
    simp only [newM, Finset.sum_filter]
    rw [show x.d.N = 1 from rfl, Finset.sum_range_one, if_pos (show x.d.ijk 0 = 0 from rfl), if_pos hfl]
    simp [x, exOne, CSt.vol, hm]
  rw [hx0, hx1, lt_div_iff₀ hma]
  rw [div_lt_iff₀ hmpos] at hn0
  have : (n0 : ℝ) ≤ n := by exact_mod_cast hn
  nlinarith

end LCP.Chem
