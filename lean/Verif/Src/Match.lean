import Verif.Src.Runs
import Mathlib.Data.List.Nodup

/-!
# C77: the matching source
-/
namespace LCP.Src
open LCP.Grid LCP.Init

/-! ### Bins -/

/-- specification: log-radius in the `b`-th of `m` equal intervals of `[lo, hi)` -/
def InBin (lo hi : ℝ) (m b : ℕ) (rd3 : ℝ) : Prop :=
  b < m ∧ lo + b * ((hi - lo) / m) ≤ Real.log rd3 / 3 ∧ Real.log rd3 / 3 < lo + (b + 1) * ((hi - lo) / m)

theorem inBin_unique {lo hi : ℝ} (hlh : lo < hi) {m b b' : ℕ} {rd3 : ℝ} (h : InBin lo hi m b rd3) (h' : InBin lo hi m b' rd3) : b = b' := by
  obtain ⟨h1, h2, h3⟩ := h
  obtain ⟨h1', h2', h3'⟩ := h'
  have hm : (0 : ℝ) < m := by exact_mod_cast (by omega : 0 < m)
  have hw : 0 < (hi - lo) / m := div_pos (by linarith) hm
  have a1 : (b : ℝ) < b' + 1 := by
    have : (b : ℝ) * ((hi - lo) / m) < (b' + 1) * ((hi - lo) / m) := by linarith
    exact lt_of_mul_lt_mul_right this hw.le
  have a2 : (b' : ℝ) < b + 1 := by
    have : (b' : ℝ) * ((hi - lo) / m) < (b + 1) * ((hi - lo) / m) := by linarith
    exact lt_of_mul_lt_mul_right this hw.le
  have a1' : b < b' + 1 := by exact_mod_cast a1
  have a2' : b' < b + 1 := by exact_mod_cast a2
  omega

theorem getBinNo_eq {lo hi : ℝ} (hlh : lo < hi) {m b : ℕ} {rd3 : ℝ} (h : InBin lo hi m b rd3) : getBinNo lo hi rd3 m = b := by
  obtain ⟨h1, h2, h3⟩ := h
  have hm : (0 : ℝ) < m := by exact_mod_cast (by omega : 0 < m)
  have hd : 0 < hi - lo := by linarith
  have hw : 0 < (hi - lo) / m := div_pos hd hm
  have hbm : (b : ℝ) + 1 ≤ m := by exact_mod_cast h1
  have hend : lo + m * ((hi - lo) / m) = hi := by field_simp; ring
  have hb0 : (0 : ℝ) ≤ b := Nat.cast_nonneg b
  unfold getBinNo
  simp only
  rw [if_neg]
  · unfold toUint
    have e : (Real.log rd3 / 3 - lo) / (hi - lo) * m = (Real.log rd3 / 3 - lo) / ((hi - lo) / m) := by field_simp
    rw [e, Nat.floor_eq_iff (div_nonneg (by nlinarith) hw.le), le_div_iff₀ hw, div_lt_iff₀ hw]
    constructor <;> linarith
  · push Not
    refine ⟨by nlinarith, by nlinarith, by omega⟩

theorem getBinNo_in {lo hi : ℝ} (hlh : lo < hi) {m : ℕ} {rd3 : ℝ} (h : getBinNo lo hi rd3 m ≠ outOfBins) :
    InBin lo hi m (getBinNo lo hi rd3 m) rd3 := by
  unfold getBinNo at h ⊢
  simp only at h ⊢
  split_ifs at h ⊢ with hc
  · exact absurd rfl h
  · push Not at hc
    obtain ⟨h1, h2, h3⟩ := hc
    have hm : (0 : ℝ) < m := by exact_mod_cast Nat.pos_of_ne_zero h3
    have hd : 0 < hi - lo := by linarith
    have hw : 0 < (hi - lo) / m := div_pos hd hm
    have e : (Real.log rd3 / 3 - lo) / (hi - lo) * m = (Real.log rd3 / 3 - lo) / ((hi - lo) / m) := by field_simp
    have hx0 : 0 ≤ (Real.log rd3 / 3 - lo) / ((hi - lo) / m) := div_nonneg (by linarith) hw.le
    rw [e]
    have f1 := Nat.floor_le hx0
    have f2 := Nat.lt_floor_add_one ((Real.log rd3 / 3 - lo) / ((hi - lo) / m))
    rw [le_div_iff₀ hw] at f1
    rw [div_lt_iff₀ hw] at f2
    refine ⟨?_, by unfold toUint; linarith, by unfold toUint; linarith⟩
    unfold toUint
    rw [Nat.floor_lt hx0, div_lt_iff₀ hw]
    have : (m : ℝ) * ((hi - lo) / m) = hi - lo := by field_simp
    rw [this]; linarith

theorem getBinNo_mono {lo hi : ℝ} (hlh : lo < hi) {m : ℕ} {a b : ℝ} (ha : 0 < a) (hab : a ≤ b) (h1 : getBinNo lo hi a m ≠ outOfBins)
    (h2 : getBinNo lo hi b m ≠ outOfBins) : getBinNo lo hi a m ≤ getBinNo lo hi b m := by
  obtain ⟨a1, a2, a3⟩ := getBinNo_in hlh h1
  obtain ⟨b1, b2, b3⟩ := getBinNo_in hlh h2
  have hl := Real.log_le_log ha hab
  have hm : (0 : ℝ) < m := by exact_mod_cast (by omega : 0 < m)
  have hw : 0 < (hi - lo) / m := div_pos (by linarith) hm
  have : ((getBinNo lo hi a m : ℕ) : ℝ) < (getBinNo lo hi b m : ℕ) + 1 := by
    have : ((getBinNo lo hi a m : ℕ) : ℝ) * ((hi - lo) / m) < ((getBinNo lo hi b m : ℕ) + 1) * ((hi - lo) / m) := by linarith
    exact lt_of_mul_lt_mul_right this hw.le
  have h' : getBinNo lo hi a m < getBinNo lo hi b m + 1 := by exact_mod_cast this
  omega

theorem getBinNo_convex {lo hi : ℝ} {m : ℕ} (hm : m ≤ outOfBins) (hlh : lo < hi) {a b c : ℝ} (ha : 0 < a) (hab : a ≤ b) (hbc : b ≤ c)
    (h1 : getBinNo lo hi a m ≠ outOfBins) (h2 : getBinNo lo hi c m ≠ outOfBins) : getBinNo lo hi b m ≠ outOfBins := by
  have hl1 := Real.log_le_log ha hab
  have hl2 := Real.log_le_log (lt_of_lt_of_le ha hab) hbc
  have g1 : ¬ (Real.log a / 3 < lo ∨ hi ≤ Real.log a / 3 ∨ m = 0) := by
    intro h; apply h1; unfold getBinNo; simp only; rw [if_pos h]
  have g2 : ¬ (Real.log c / 3 < lo ∨ hi ≤ Real.log c / 3 ∨ m = 0) := by
    intro h; apply h2; unfold getBinNo; simp only; rw [if_pos h]
  push Not at g1 g2
  have g3 : ¬ (Real.log b / 3 < lo ∨ hi ≤ Real.log b / 3 ∨ m = 0) := by
    push Not
    exact ⟨by linarith [g1.1], by linarith [g2.2.1], g1.2.2⟩
  push Not at g3
  have hm0 : (0 : ℝ) < m := by exact_mod_cast Nat.pos_of_ne_zero g3.2.2
  have hd : 0 < hi - lo := by linarith
  have : getBinNo lo hi b m < m := by
    unfold getBinNo; simp only
    rw [if_neg (by push Not; exact g3)]
    unfold toUint
    rw [Nat.floor_lt (mul_nonneg (div_nonneg (by linarith) hd.le) hm0.le)]
    have : (Real.log b / 3 - lo) / (hi - lo) < 1 := by rw [div_lt_one hd]; linarith
    nlinarith
  omega

/-! ### Sorted super-droplets -/

section
variable {e : Env} {cnt : ℕ → ℕ} {pop : List Sd} {ord : List ℕ}

/-- the super-droplet at a position of the sorted order -/
theorem sorted_at (hs : Sorted pop ord) {p : ℕ} (hp : p < pop.length) :
    ∃ s, pop[ord.getD p 0]? = some s ∧ ord.getD p 0 < pop.length ∧ at' (sortedKeys e cnt pop ord) p = (s.cell, binOf e cnt s) := by
  have hl : ord.length = pop.length := by simpa using hs.perm.length_eq
  have hp' : p < ord.length := by omega
  have hmem : ord.getD p 0 ∈ List.range pop.length := by
    rw [← hs.perm.mem_iff, List.getD_eq_getElem _ _ hp']; exact List.getElem_mem hp'
  have hlt := List.mem_range.1 hmem
  obtain ⟨s, hsome⟩ : ∃ s, pop[ord.getD p 0]? = some s := ⟨_, List.getElem?_eq_getElem hlt⟩
  refine ⟨s, hsome, hlt, ?_⟩
  unfold at' sortedKeys
  rw [List.getD_eq_getElem _ _ (by simpa using hp'), List.getElem_map]
  rw [List.getD_eq_getElem _ _ hp'] at hsome
  rw [hsome]

theorem keys_length (hs : Sorted pop ord) : (sortedKeys e cnt pop ord).length = pop.length := by
  unfold sortedKeys; rw [List.length_map]; simpa using hs.perm.length_eq

/-- every super-droplet has a position -/
theorem position (hs : Sorted pop ord) {i : ℕ} (hi : i < pop.length) : ∃ p < pop.length, ord.getD p 0 = i := by
  have : i ∈ ord := hs.perm.mem_iff.2 (List.mem_range.2 hi)
  obtain ⟨p, hp, rfl⟩ := List.getElem_of_mem this
  exact ⟨p, by have : ord.length = pop.length := by simpa using hs.perm.length_eq
               omega, List.getD_eq_getElem _ _ hp⟩

theorem position_inj (hs : Sorted pop ord) {p q : ℕ} (hp : p < pop.length) (hq : q < pop.length) (h : ord.getD p 0 = ord.getD q 0) : p = q := by
  have hl : ord.length = pop.length := by simpa using hs.perm.length_eq
  rw [List.getD_eq_getElem _ _ (by omega), List.getD_eq_getElem _ _ (by omega)] at h
  exact (List.Nodup.getElem_inj_iff (hs.perm.nodup_iff.2 List.nodup_range)).1 h

theorem good (hs : Sorted pop ord) (hlh : e.lo < e.hi) (hpos : ∀ s ∈ pop, 0 < s.rd3) (hc : ∀ c, cnt c ≤ outOfBins) :
    Good (sortedKeys e cnt pop ord) := by
  have hl : ord.length = pop.length := by simpa using hs.perm.length_eq
  constructor
  · intro p q hpq hq
    rw [keys_length hs] at hq
    obtain ⟨a, ha, _, ha'⟩ := sorted_at (e := e) (cnt := cnt) hs (show p < pop.length by omega)
    obtain ⟨b, hb, _, hb'⟩ := sorted_at (e := e) (cnt := cnt) hs hq
    rw [ha', hb']
    simp only
    rcases hs.sorted p q hpq (by omega) a b ha hb with h | ⟨h1, h2⟩
    · exact Or.inl h
    · refine Or.inr ⟨h1, ?_⟩
      by_contra hn
      push Not at hn
      obtain ⟨n1, n2, n3⟩ := hn
      unfold binOf at n1 n2 n3
      rw [h1] at n1 n3
      have := getBinNo_mono hlh (hpos a (List.mem_of_getElem? ha)) h2 n1 n2
      omega
  · intro p q r hpq hqr hr he h1 h2
    rw [keys_length hs] at hr
    obtain ⟨a, ha, _, ha'⟩ := sorted_at (e := e) (cnt := cnt) hs (show p < pop.length by omega)
    obtain ⟨b, hb, _, hb'⟩ := sorted_at (e := e) (cnt := cnt) hs (show q < pop.length by omega)
    obtain ⟨c, hcc, _, hc'⟩ := sorted_at (e := e) (cnt := cnt) hs hr
    rw [ha'] at he h1
    rw [hc'] at he h2
    rw [hb']
    simp only at he h1 h2 ⊢
    have s1 := hs.sorted p q hpq (by omega) a b ha hb
    have s2 := hs.sorted q r hqr (by omega) b c hb hcc
    have e1 : a.cell = b.cell := by omega
    have e2 : b.cell = c.cell := by omega
    have r1 : a.rd3 ≤ b.rd3 := by rcases s1 with h | h; omega; exact h.2
    have r2 : b.rd3 ≤ c.rd3 := by rcases s2 with h | h; omega; exact h.2
    unfold binOf at *
    rw [e1] at h1
    rw [← e2] at h2
    exact getBinNo_convex (hc _) hlh (hpos a (List.mem_of_getElem? ha)) r1 r2 h1 h2

/-- the pairs in the bins are sorted -/
theorem filter_sorted {K : List (ℕ × ℕ)} (hK : Good K) : (K.filter fun p => p.2 ≠ outOfBins).Pairwise NotAfter := by
  rw [List.pairwise_filter, List.pairwise_iff_getElem]
  intro i j hi hj hij h1 h2
  have := hK.mono i j hij hj
  unfold at' at this
  rw [List.getD_eq_getElem _ _ hi, List.getD_eq_getElem _ _ hj] at this
  simp only [ne_eq, decide_not, Bool.not_eq_eq_eq_not, Bool.not_true, decide_eq_false_iff_not] at h1 h2
  unfold NotAfter
  omega

/-! ### Slots -/

/-- all pairs (cell, bin) of the source, in order -/
def slotList (cnt : ℕ → ℕ) (nCell : ℕ) : List (ℕ × ℕ) := (List.range nCell).flatMap fun c => (List.range (cnt c)).map fun j => (c, j)

theorem mem_slotList {nCell : ℕ} {x : ℕ × ℕ} : x ∈ slotList cnt nCell ↔ x.1 < nCell ∧ x.2 < cnt x.1 := by
  unfold slotList
  simp only [List.mem_flatMap, List.mem_range, List.mem_map]
  constructor
  · rintro ⟨c, hc, j, hj, rfl⟩; exact ⟨hc, hj⟩
  · rintro ⟨h1, h2⟩; exact ⟨x.1, h1, x.2, h2, rfl⟩

theorem nodup_slotList (nCell : ℕ) : (slotList cnt nCell).Nodup := by
  unfold slotList
  rw [List.nodup_flatMap]
  refine ⟨fun c _ => List.nodup_range.map fun a b h => (Prod.mk.inj h).2, ?_⟩
  refine List.Pairwise.imp_of_mem ?_ (List.nodup_range (n := nCell))
  intro a b _ _ hab x hx hy
  obtain ⟨_, _, rfl⟩ := List.mem_map.1 hx
  obtain ⟨_, _, h⟩ := List.mem_map.1 hy
  exact hab (Prod.mk.inj h).1.symm

theorem length_slotList : (slotList cnt e.d.nCell).length = total e cnt := by
  unfold slotList total
  rw [List.length_flatMap]; simp

/-- (cell, bin) of the new super-droplets -/
theorem new_keys {r : Rnd} (hlh : e.lo < e.hi) (hu : ∀ p, 0 ≤ r.lnrd p ∧ r.lnrd p < 1) (ho : r.order.Perm (List.range e.d.nCell)) (old : ℕ) :
    (List.range (total e cnt)).map (fun i => (newCell cnt r old i, getBinNo e.lo e.hi (newRd3 e cnt r old i) (cnt (newCell cnt r old i)))) =
      slotList cnt e.d.nCell := by
  unfold total slotList
  rw [range_scan, List.map_flatMap]
  apply List.flatMap_congr
  intro c hc
  rw [List.map_map]
  apply List.map_congr_left
  intro j hj
  have hc' := List.mem_range.1 hc
  have hj' := List.mem_range.1 hj
  have hcell : newCell cnt r old (((List.range c).map cnt).sum + j) = c := by
    unfold newCell
    rw [← Nat.add_assoc]
    exact (cells_assigned cnt e.d.nCell r.order ho old _).1 c hc' j hj'
  have hs := stratified hlh hu cnt e.d.nCell r.order ho old (fun _ => 0) hc' hj'
  simp only [Function.comp, hcell]
  congr 1
  apply getBinNo_eq hlh
  refine ⟨hj', ?_, ?_⟩
  · rw [newRd3, log_rd3]; exact hs.1
  · rw [newRd3, log_rd3]; exact hs.2

/-! ### The super-droplets picked -/

/-- runs in the bins -/
noncomputable def inner (K : List (ℕ × ℕ)) : List ℕ := (List.range (runs K).length).filter fun g => ((runs K).getD g (0, 0)).1 ≠ outOfBins

theorem binsIn_eq : binsIn e cnt pop ord = (inner (sortedKeys e cnt pop ord)).map fun g =>
    (((runs (sortedKeys e cnt pop ord)).getD g (0, 0)).1, size (runs (sortedKeys e cnt pop ord)) g, start (runs (sortedKeys e cnt pop ord)) g) := by
  unfold binsIn inner
  simp only
  rw [List.filter_map]
  rfl

/-- position picked in the `i`-th run -/
noncomputable def pos (K : List (ℕ × ℕ)) (u : ℕ → ℝ) (i : ℕ) : ℕ :=
  start (runs K) ((inner K).getD i 0) + toUint (u i * size (runs K) ((inner K).getD i 0))

theorem picked_length {r : Rnd} : (picked e cnt r pop ord).length = (inner (sortedKeys e cnt pop ord)).length := by
  unfold picked; rw [binsIn_eq]; simp

theorem picked_get {r : Rnd} {i : ℕ} (hi : i < (picked e cnt r pop ord).length) :
    (picked e cnt r pop ord)[i] = ord.getD (pos (sortedKeys e cnt pop ord) r.pick i) 0 := by
  have hi' := hi
  rw [picked_length] at hi'
  unfold pos
  rw [List.getD_eq_getElem _ _ hi']
  simp only [picked, binsIn_eq, List.getElem_map, List.getElem_zipIdx, Nat.zero_add]

theorem inner_mem {K : List (ℕ × ℕ)} {g : ℕ} : g ∈ inner K ↔ g < (runs K).length ∧ ((runs K).getD g (0, 0)).1 ≠ outOfBins := by
  unfold inner; simp

theorem inner_nodup (K : List (ℕ × ℕ)) : (inner K).Nodup := List.nodup_range.filter _

theorem pos_inRun {K : List (ℕ × ℕ)} {u : ℕ → ℝ} (hu : ∀ i, 0 ≤ u i ∧ u i < 1) {i : ℕ} (hi : i < (inner K).length) :
    InRun K ((inner K).getD i 0) (pos K u i) := by
  have hg : (inner K).getD i 0 ∈ inner K := by rw [List.getD_eq_getElem _ _ hi]; exact List.getElem_mem hi
  obtain ⟨h1, _⟩ := inner_mem.1 hg
  have hs := runs_pos K h1
  refine ⟨h1, by unfold pos; omega, ?_⟩
  unfold pos toUint
  have hsr : (0 : ℝ) < size (runs K) ((inner K).getD i 0) := by exact_mod_cast hs
  have : ⌊u i * size (runs K) ((inner K).getD i 0)⌋₊ < size (runs K) ((inner K).getD i 0) := by
    rw [Nat.floor_lt (mul_nonneg (hu i).1 hsr.le)]
    nlinarith [(hu i).2]
  omega

theorem inRun_unique {K : List (ℕ × ℕ)} {g g' p : ℕ} (h : InRun K g p) (h' : InRun K g' p) : g = g' :=
  inRun_same h h' (le_refl _) fun r h1 h2 => by rw [show r = p by omega]

/-- a picked super-droplet stands for one run -/
theorem picked_run {r : Rnd} (hs : Sorted pop ord) (hu : ∀ i, 0 ≤ r.pick i ∧ r.pick i < 1) {i : ℕ} (hi : i < (picked e cnt r pop ord).length) :
    InRun (sortedKeys e cnt pop ord) ((inner (sortedKeys e cnt pop ord)).getD i 0) (pos (sortedKeys e cnt pop ord) r.pick i) ∧
    pos (sortedKeys e cnt pop ord) r.pick i < pop.length ∧ (at' (sortedKeys e cnt pop ord) (pos (sortedKeys e cnt pop ord) r.pick i)).2 ≠ outOfBins := by
  have hi' := hi
  rw [picked_length] at hi'
  have h1 := pos_inRun (K := sortedKeys e cnt pop ord) hu hi'
  have h2 := h1.lt
  rw [keys_length hs] at h2
  refine ⟨h1, h2, ?_⟩
  rw [h1.key]
  have hg : (inner (sortedKeys e cnt pop ord)).getD i 0 ∈ inner (sortedKeys e cnt pop ord) := by
    rw [List.getD_eq_getElem _ _ hi']; exact List.getElem_mem hi'
  exact (inner_mem.1 hg).2

theorem pos_inj {r : Rnd} (hs : Sorted pop ord) (hu : ∀ i, 0 ≤ r.pick i ∧ r.pick i < 1) {i j : ℕ} (hi : i < (picked e cnt r pop ord).length)
    (hj : j < (picked e cnt r pop ord).length) {p q : ℕ} (hp : p = pos (sortedKeys e cnt pop ord) r.pick i)
    (hq : q = pos (sortedKeys e cnt pop ord) r.pick j) {g : ℕ} (hg : InRun (sortedKeys e cnt pop ord) g p) (hg' : InRun (sortedKeys e cnt pop ord) g q) :
    i = j := by
  subst hp hq
  have a := inRun_unique (picked_run hs hu hi).1 hg
  have b := inRun_unique (picked_run hs hu hj).1 hg'
  have hi' := hi; have hj' := hj
  rw [picked_length] at hi' hj'
  rw [List.getD_eq_getElem _ _ hi'] at a
  rw [List.getD_eq_getElem _ _ hj'] at b
  exact (List.Nodup.getElem_inj_iff (inner_nodup _)).1 (a.trans b.symm)

/-- no super-droplet is picked twice, so the parallel update of multiplicities is free of conflicts -/
theorem picked_nodup {r : Rnd} (hs : Sorted pop ord) (hu : ∀ i, 0 ≤ r.pick i ∧ r.pick i < 1) : (picked e cnt r pop ord).Nodup := by
  rw [List.nodup_iff_injective_get]
  intro i j hij
  simp only [List.get_eq_getElem] at hij
  rw [picked_get i.2, picked_get j.2] at hij
  have h1 := picked_run hs hu i.2
  have h2 := picked_run hs hu j.2
  have := position_inj hs h1.2.1 h2.2.1 hij
  exact Fin.ext (pos_inj hs hu i.2 j.2 rfl rfl h1.1 (by rw [← this]; exact h1.1))

theorem modify_fold {α : Type} (f : α → α) (ids : List ℕ) (hn : ids.Nodup) (l : List α) (i : ℕ) :
    (ids.foldl (fun l id => l.modify id f) l)[i]? = if i ∈ ids then (l[i]?).map f else l[i]? := by
  induction ids generalizing l with
  | nil => simp
  | cons a t ih =>
    rw [List.nodup_cons] at hn
    rw [List.foldl_cons, ih hn.2]
    by_cases hia : i = a
    · subst hia
      simp [hn.1]
    · have : (l.modify a f)[i]? = l[i]? := by rw [List.getElem?_modify]; simp [Ne.symm hia]
      rw [this]; simp [hia]

theorem modify_fold_length {α : Type} (f : α → α) (ids : List ℕ) (l : List α) : (ids.foldl (fun l id => l.modify id f) l).length = l.length := by
  induction ids generalizing l with
  | nil => rfl
  | cons a t ih => rw [List.foldl_cons, ih]; simp

end

end LCP.Src
