import Verif.Hskpng.Remove

/-!
# Removal of dead super-droplets: C10
-/
namespace LCP.Remove

/-! ### Specification -/

/-- one super-droplet: multiplicity, real attributes, dissolved masses of the species (none without chemistry) -/
structure SD where
  n : ℕ
  attrs : List ℝ
  chem : List ℝ

/-- the super-droplets stored: number `p` is made of the `p`-th entry of every vector (for chemistry: of every
species block) -/
def sds (s : Store) : List SD :=
  (List.range s.nPart).map (fun p =>
    { n := s.n.getD p 0
      attrs := s.reals.map (fun v => v.getD p 0)
      chem := if s.chem then (List.range chemAll).map (fun i => (s.vec i).getD (s.bgn i + p) 0) else [] })

/-- All attribute vectors have `n_part` entries, chemistry vectors one block of `n_part` entries per species, and
the block iterators are up to date. -/
structure WF (s : Store) : Prop where
  n : s.n.length = s.nPart
  reals : ∀ v ∈ s.reals, v.length = s.nPart
  ante : s.chem = true → s.ante.length = 3 * s.nPart
  rhs : s.chem = true → s.rhs.length = 4 * s.nPart
  post : s.chem = true → s.post.length = 1 * s.nPart
  bgn : s.chem = true → ∀ i < 8, s.bgn i = (if i < 3 then i else if i < 7 then i - 3 else i - 7) * s.nPart
  fin : s.chem = true → ∀ i < 8, s.fin i = (if i < 3 then i + 1 else if i < 7 then i + 1 - 3 else i + 1 - 7) * s.nPart

/-! ### Lemmas -/

/-- ids of survivors -/
def surv (n : List ℕ) : List ℕ := (List.range n.length).filter (fun p => !(n.getD p 0 == 0))

theorem list_eq_map_getD {α : Type} (l : List α) (d : α) : l = (List.range l.length).map (fun p => l.getD p d) := by
  apply List.ext_getElem
  · simp
  · intro i h1 h2
    simp [h1]

theorem kept_eq {α : Type} (l : List α) (n : List ℕ) (h : l.length = n.length) (d : α) :
    kept l n = (surv n).map (fun p => l.getD p d) := by
  unfold kept surv
  have hz : l.zip n = (List.range n.length).map (fun p => (l.getD p d, n.getD p 0)) := by
    apply List.ext_getElem
    · simp [h]
    · intro i h1 h2
      simp at h1
      simp [h1.1, h1.2]
  rw [hz, List.filter_map, List.map_map]
  rfl

theorem kept_length {α : Type} (l : List α) (n : List ℕ) (h : l.length = n.length) :
    (kept l n).length = (surv n).length := by
  cases l with
  | nil =>
    have : n = [] := List.eq_nil_of_length_eq_zero (by simpa using h.symm)
    subst this; rfl
  | cons a l => rw [kept_eq _ n h a]; simp

theorem surv_length_le (n : List ℕ) : (surv n).length ≤ n.length := by
  unfold surv
  exact (List.length_filter_le _ _).trans (by simp)

/-- one chemistry step on its vector, block `b` of size `np` -/
def bstep (np : ℕ) (n : List ℕ) (v : List ℝ) (b : ℕ) : List ℝ :=
  v.take (b * np) ++ kept ((v.drop (b * np)).take np) n ++ v.drop ((b + 1) * np)

theorem length_block {v : List ℝ} {np b nb : ℕ} (h : nb * np ≤ v.length) (hb : b < nb) :
    ((v.drop (b * np)).take np).length = np := by
  have : (b + 1) * np ≤ nb * np := Nat.mul_le_mul_right _ hb
  rw [Nat.add_mul] at this
  simp; omega

theorem fold_bstep (np : ℕ) (n : List ℕ) (v : List ℝ) (nb : ℕ) (h : v.length = nb * np) :
    ∀ j ≤ nb, ((List.range j).reverse).foldl (bstep np n)
      (v.take (j * np) ++ ((List.range' j (nb - j)).map (fun b => kept ((v.drop (b * np)).take np) n)).flatten) =
      ((List.range nb).map (fun b => kept ((v.drop (b * np)).take np) n)).flatten := by
  intro j
  induction j with
  | zero =>
    intro _
    simp [List.range_eq_range']
  | succ j ih =>
    intro hj
    have hle : (j + 1) * np ≤ nb * np := Nat.mul_le_mul_right _ hj
    rw [List.range_succ, List.reverse_append, List.reverse_singleton, List.singleton_append, List.foldl_cons]
    rw [← ih (by omega)]
    congr 1
    unfold bstep
    have e1 : (v.take ((j+1) * np)).length = (j+1)*np := by simp; omega
    have e0 : j * np ≤ (j+1)*np := Nat.mul_le_mul_right _ (by omega)
    have e2 : (j+1)*np = j*np + np := by ring
    rw [List.take_append_of_le_length (by omega), List.drop_append_of_le_length (by omega),
      List.take_take, min_eq_left e0]
    rw [List.drop_append, List.drop_eq_nil_of_le (as := List.take _ v) e1.le, e1, Nat.sub_self, List.drop_zero, List.nil_append]
    rw [List.append_assoc]
    congr 1
    rw [show nb - j = (nb - (j+1)) + 1 by omega, List.range'_succ, List.map_cons, List.flatten_cons]
    congr 1
    rw [List.take_append_of_le_length (by simp; omega), List.drop_take, List.take_take, min_eq_left (by omega)]

theorem fold_bstep' (np : ℕ) (n : List ℕ) (v : List ℝ) (nb : ℕ) (h : v.length = nb * np) :
    ((List.range nb).reverse).foldl (bstep np n) v =
      ((List.range nb).map (fun b => kept ((v.drop (b * np)).take np) n)).flatten := by
  have := fold_bstep np n v nb h nb le_rfl
  simpa [List.take_of_length_le h.le] using this

theorem getD_flatten {α : Type} (B : List (List α)) (m : ℕ) (h : ∀ b ∈ B, b.length = m) (d : α) :
    ∀ i p, i < B.length → p < m → B.flatten.getD (i * m + p) d = (B.getD i []).getD p d := by
  induction B with
  | nil => intro i p hi; simp at hi
  | cons b B ih =>
    intro i p hi hp
    have hb := h b (by simp)
    cases i with
    | zero =>
      rw [Nat.zero_mul, Nat.zero_add, List.flatten_cons, List.getD_append _ _ _ _ (by omega)]
      rfl
    | succ i =>
      rw [List.flatten_cons, List.getD_append_right _ _ _ _ (by rw [hb, show (i+1)*m+p = i*m+p+m by ring]; omega), List.getD_cons_succ, hb,
        ← ih (fun b hb => h b (by simp [hb])) i p (by simpa using hi) hp]
      congr 1
      rw [show (i+1)*m+p = i*m+p+m by ring]; omega

theorem length_flatten_const {α : Type} (B : List (List α)) (m : ℕ) (h : ∀ b ∈ B, b.length = m) :
    B.flatten.length = B.length * m := by
  induction B with
  | nil => simp
  | cons b B ih =>
    rw [List.flatten_cons, List.length_append, ih (fun b hb => h b (by simp [hb])), h b (by simp), List.length_cons]
    ring

/-- the chemistry vector after the loop -/
def compacted (np : ℕ) (n : List ℕ) (v : List ℝ) (nb : ℕ) : List ℝ :=
  ((List.range nb).map (fun b => kept ((v.drop (b * np)).take np) n)).flatten

theorem compacted_length {np : ℕ} {n : List ℕ} (hn : n.length = np) {v : List ℝ} {nb : ℕ} (h : v.length = nb * np) :
    (compacted np n v nb).length = nb * (surv n).length := by
  unfold compacted
  rw [length_flatten_const _ (surv n).length]
  · simp
  · intro b hb
    obtain ⟨i, hi, rfl⟩ := List.mem_map.1 hb
    exact kept_length _ _ (by rw [length_block h.ge (by simpa using hi), hn])

theorem compacted_getD {np : ℕ} {n : List ℕ} (hn : n.length = np) {v : List ℝ} {nb : ℕ} (h : v.length = nb * np)
    {b p : ℕ} (hb : b < nb) (hp : p < (surv n).length) :
    (compacted np n v nb).getD (b * (surv n).length + p) 0 = v.getD (b * np + (surv n).getD p 0) 0 := by
  unfold compacted
  have hbl := length_block h.ge hb
  rw [getD_flatten _ (surv n).length ?_ 0 b p (by simpa using hb) hp]
  · have hsm : (surv n).getD p 0 < np := by
      rw [List.getD_eq_getElem _ _ hp]
      have := List.getElem_mem hp
      unfold surv at this
      rw [List.mem_filter] at this
      rw [← hn]; simpa [surv] using this.1
    have hmap : ((List.range nb).map (fun b => kept ((v.drop (b * np)).take np) n)).getD b [] =
        kept ((v.drop (b * np)).take np) n := by
      rw [List.getD_eq_getElem _ _ (by simpa using hb)]
      simp only [List.getElem_map, List.getElem_range]
    rw [hmap]
    rw [kept_eq _ n (by rw [hbl, hn]) 0, List.getD_eq_getElem _ _ (by simpa using hp), List.getElem_map,
      ← List.getD_eq_getElem _ 0 hp]
    simp only [List.getD_eq_getElem?_getD] at hsm ⊢
    rw [List.getElem?_take_of_lt (by simpa using hsm), List.getElem?_drop]
  · intro c hc
    obtain ⟨i, hi, rfl⟩ := List.mem_map.1 hc
    exact kept_length _ _ (by rw [length_block h.ge (by simpa using hi), hn])


theorem resize_of_le {α : Type} (l : List α) (m : ℕ) (v : α) (h : m ≤ l.length) : resize l m v = l.take m := by
  unfold resize; rw [show m - l.length = 0 by omega]; simp

theorem take_removeIf {α : Type} (l : List α) (n : List ℕ) (h : l.length = n.length) (junk : ℕ → α) :
    (removeIf l n junk).take (surv n).length = kept l n ∧ (removeIf l n junk).length = l.length := by
  have := kept_length l n h
  have h2 := surv_length_le n
  constructor
  · unfold removeIf; rw [← this, List.take_left]
  · unfold removeIf; simp; omega

theorem chemBody_eq (junk : ℕ → ℕ → ℝ) (s : Store) (i : ℕ) (hf : s.fin i ≤ (s.vec i).length)
    (hb : s.bgn i ≤ s.fin i) (hn : s.n.length = s.fin i - s.bgn i) :
    chemBody junk s i = s.setVec i ((s.vec i).take (s.bgn i) ++
      kept (((s.vec i).drop (s.bgn i)).take (s.fin i - s.bgn i)) s.n ++ (s.vec i).drop (s.fin i)) := by
  unfold chemBody
  have hbl : (((s.vec i).drop (s.bgn i)).take (s.fin i - s.bgn i)).length = s.fin i - s.bgn i := by
    simp; omega
  obtain ⟨h1, h2⟩ := take_removeIf _ s.n (hbl.trans hn.symm) (junk i)
  have h3 := kept_length _ s.n (hbl.trans hn.symm)
  have ht : ((s.vec i).take (s.bgn i)).length = s.bgn i := by simp; omega
  have h4 := surv_length_le s.n
  simp only
  congr 1
  congr 1
  · rw [List.append_assoc, List.take_append, List.take_of_length_le (by omega), ht, Nat.add_sub_cancel_left, h3,
      List.take_append_of_le_length (by omega), h1]
  · rw [List.drop_append, List.drop_eq_nil_of_le (by rw [List.length_append, ht, h2, hbl]; omega), List.length_append, ht, h2, hbl]
    rw [show s.fin i - (s.bgn i + (s.fin i - s.bgn i)) = 0 by omega]; simp

theorem bstep_length {np : ℕ} {n : List ℕ} {v : List ℝ} {b : ℕ} (h : (b + 1) * np ≤ v.length) :
    b * np ≤ (bstep np n v b).length := by
  have : b * np ≤ (b+1) * np := Nat.mul_le_mul_right _ (by omega)
  unfold bstep
  simp; omega

/-- the chemistry loop compacts each of the three vectors block by block -/
theorem chemLoop {s : Store} (h : WF s) (hc : s.chem = true) (junk : ℕ → ℕ → ℝ) :
    ((List.range chemAll).reverse).foldl (chemBody junk) s =
      { s with ante := compacted s.nPart s.n s.ante 3, rhs := compacted s.nPart s.n s.rhs 4,
               post := compacted s.nPart s.n s.post 1 } := by
  have hb := h.bgn hc
  have hf := h.fin hc
  have step : ∀ (t : Store) (i b : ℕ), t.bgn i = b * t.nPart → t.fin i = (b + 1) * t.nPart → t.n.length = t.nPart →
      (b + 1) * t.nPart ≤ (t.vec i).length → chemBody junk t i = t.setVec i (bstep t.nPart t.n (t.vec i) b) := by
    intro t i b h1 h2 h3 h4
    have : (b + 1) * t.nPart - b * t.nPart = t.nPart := by rw [show (b+1) * t.nPart = b * t.nPart + t.nPart by ring]; omega
    rw [chemBody_eq junk t i (by omega) (by rw [h1, h2]; exact Nat.mul_le_mul_right _ (by omega)) (by rw [h1, h2, this, h3])]
    rw [h1, h2, this]; rfl
  have hn := h.n
  have la := h.ante hc
  have lr := h.rhs hc
  have lp := h.post hc
  have b7 : s.bgn 7 = 0 * s.nPart := hb 7 (by omega)
  have f7 : s.fin 7 = (0 + 1) * s.nPart := hf 7 (by omega)
  have b6 : s.bgn 6 = 3 * s.nPart := hb 6 (by omega)
  have f6 : s.fin 6 = (3 + 1) * s.nPart := hf 6 (by omega)
  have b5 : s.bgn 5 = 2 * s.nPart := hb 5 (by omega)
  have f5 : s.fin 5 = (2 + 1) * s.nPart := hf 5 (by omega)
  have b4 : s.bgn 4 = 1 * s.nPart := hb 4 (by omega)
  have f4 : s.fin 4 = (1 + 1) * s.nPart := hf 4 (by omega)
  have b3 : s.bgn 3 = 0 * s.nPart := hb 3 (by omega)
  have f3 : s.fin 3 = (0 + 1) * s.nPart := hf 3 (by omega)
  have b2 : s.bgn 2 = 2 * s.nPart := hb 2 (by omega)
  have f2 : s.fin 2 = (2 + 1) * s.nPart := hf 2 (by omega)
  have b1 : s.bgn 1 = 1 * s.nPart := hb 1 (by omega)
  have f1 : s.fin 1 = (1 + 1) * s.nPart := hf 1 (by omega)
  have b0 : s.bgn 0 = 0 * s.nPart := hb 0 (by omega)
  have f0 : s.fin 0 = (0 + 1) * s.nPart := hf 0 (by omega)
  have er : (List.range chemAll).reverse = [7, 6, 5, 4, 3, 2, 1, 0] := rfl
  rw [er]
  simp only [List.foldl_cons, List.foldl_nil]
  have r3 : 3 * s.nPart ≤ (bstep s.nPart s.n s.rhs 3).length := bstep_length (by omega)
  have r2 : 2 * s.nPart ≤ (bstep s.nPart s.n (bstep s.nPart s.n s.rhs 3) 2).length := bstep_length (by omega)
  have r1 : 1 * s.nPart ≤ (bstep s.nPart s.n (bstep s.nPart s.n (bstep s.nPart s.n s.rhs 3) 2) 1).length :=
    bstep_length (by omega)
  have a2 : 2 * s.nPart ≤ (bstep s.nPart s.n s.ante 2).length := bstep_length (by omega)
  have a1 : 1 * s.nPart ≤ (bstep s.nPart s.n (bstep s.nPart s.n s.ante 2) 1).length := bstep_length (by omega)
  let B := bstep s.nPart s.n
  let mk := fun (P R A : List ℝ) => ({ s with post := P, rhs := R, ante := A } : Store)
  have e7 : chemBody junk s 7 = mk (B s.post 0) s.rhs s.ante :=
    step s 7 0 b7 f7 hn (by show (0 + 1) * s.nPart ≤ s.post.length; omega)
  have e6 : chemBody junk (mk (B s.post 0) s.rhs s.ante) 6 = mk (B s.post 0) (B s.rhs 3) s.ante :=
    step (mk (B s.post 0) s.rhs s.ante) 6 3 b6 f6 hn (by show (3 + 1) * s.nPart ≤ s.rhs.length; omega)
  have e5 : chemBody junk (mk (B s.post 0) (B s.rhs 3) s.ante) 5 = mk (B s.post 0) (B (B s.rhs 3) 2) s.ante :=
    step (mk (B s.post 0) (B s.rhs 3) s.ante) 5 2 b5 f5 hn r3
  have e4 : chemBody junk (mk (B s.post 0) (B (B s.rhs 3) 2) s.ante) 4 =
      mk (B s.post 0) (B (B (B s.rhs 3) 2) 1) s.ante :=
    step (mk (B s.post 0) (B (B s.rhs 3) 2) s.ante) 4 1 b4 f4 hn r2
  have e3 : chemBody junk (mk (B s.post 0) (B (B (B s.rhs 3) 2) 1) s.ante) 3 =
      mk (B s.post 0) (B (B (B (B s.rhs 3) 2) 1) 0) s.ante :=
    step (mk (B s.post 0) (B (B (B s.rhs 3) 2) 1) s.ante) 3 0 b3 f3 hn (by
      show (0 + 1) * s.nPart ≤ (B (B (B s.rhs 3) 2) 1).length; rw [Nat.zero_add]; exact r1)
  have e2 : ∀ R, chemBody junk (mk (B s.post 0) R s.ante) 2 = mk (B s.post 0) R (B s.ante 2) := fun R =>
    step (mk (B s.post 0) R s.ante) 2 2 b2 f2 hn (by show (2 + 1) * s.nPart ≤ s.ante.length; omega)
  have e1 : ∀ R, chemBody junk (mk (B s.post 0) R (B s.ante 2)) 1 = mk (B s.post 0) R (B (B s.ante 2) 1) := fun R =>
    step (mk (B s.post 0) R (B s.ante 2)) 1 1 b1 f1 hn a2
  have e0 : ∀ R, chemBody junk (mk (B s.post 0) R (B (B s.ante 2) 1)) 0 = mk (B s.post 0) R (B (B (B s.ante 2) 1) 0) :=
    fun R => step (mk (B s.post 0) R (B (B s.ante 2) 1)) 0 0 b0 f0 hn (by
      show (0 + 1) * s.nPart ≤ (B (B s.ante 2) 1).length; rw [Nat.zero_add]; exact a1)
  rw [e7, e6, e5, e4, e3, e2, e1, e0]
  have ca : compacted s.nPart s.n s.ante 3 = _ := (fold_bstep' s.nPart s.n s.ante 3 la).symm
  have cr : compacted s.nPart s.n s.rhs 4 = _ := (fold_bstep' s.nPart s.n s.rhs 4 lr).symm
  have cp : compacted s.nPart s.n s.post 1 = _ := (fold_bstep' s.nPart s.n s.post 1 lp).symm
  rw [ca, cr, cp]
  rfl

theorem surv_getD_lt (n : List ℕ) {p : ℕ} (hp : p < (surv n).length) :
    (surv n).getD p 0 < n.length ∧ n.getD ((surv n).getD p 0) 0 ≠ 0 := by
  rw [List.getD_eq_getElem _ _ hp]
  have h1 := List.getElem_mem hp
  have h2 := (List.mem_filter (p := fun p => !(n.getD p 0 == 0)) (as := List.range n.length)).1 h1
  refine ⟨by simpa using h2.1, ?_⟩
  have := h2.2
  simpa using this

/-- a compacted column entry -/
theorem kept_getD {α : Type} (l : List α) (n : List ℕ) (h : l.length = n.length) (d : α) {p : ℕ}
    (hp : p < (surv n).length) : (kept l n).getD p d = l.getD ((surv n).getD p 0) d := by
  rw [kept_eq l n h d, List.getD_eq_getElem _ _ (by simpa using hp), List.getElem_map, ← List.getD_eq_getElem _ 0 hp]

/-- closed form of the result -/
theorem removeN0_eq (junkC junkR : ℕ → ℕ → ℝ) (junkN : ℕ → ℕ) (fillN : ℕ) (fill : ℕ → ℝ) {s : Store} (h : WF s) :
    (removeN0 junkC junkR junkN fillN fill s).nPart = (surv s.n).length ∧
    (removeN0 junkC junkR junkN fillN fill s).n = kept s.n s.n ∧
    (removeN0 junkC junkR junkN fillN fill s).reals = s.reals.map (fun v => kept v s.n) ∧
    (removeN0 junkC junkR junkN fillN fill s).chem = s.chem ∧
    (s.chem = true →
      (removeN0 junkC junkR junkN fillN fill s).ante = compacted s.nPart s.n s.ante 3 ∧
      (removeN0 junkC junkR junkN fillN fill s).rhs = compacted s.nPart s.n s.rhs 4 ∧
      (removeN0 junkC junkR junkN fillN fill s).post = compacted s.nPart s.n s.post 1 ∧
      (removeN0 junkC junkR junkN fillN fill s).bgn = (fun i => (i - if i < chemRhsBeg then 0 else if i < chemRhsFin then chemRhsBeg else chemRhsFin) * (surv s.n).length) ∧
      (removeN0 junkC junkR junkN fillN fill s).fin = (fun i => (i + 1 - if i < chemRhsBeg then 0 else if i < chemRhsFin then chemRhsBeg else chemRhsFin) * (surv s.n).length)) := by
  have hn := h.n
  have htake : s.n.take s.nPart = s.n := List.take_of_length_le hn.le
  have hdrop : s.n.drop s.nPart = [] := List.drop_eq_nil_of_le hn.le
  have hk : (kept s.n s.n).length = (surv s.n).length := kept_length _ _ rfl
  have hle := surv_length_le s.n
  have hn' : resize (removeIf s.n s.n junkN) (surv s.n).length fillN = kept s.n s.n := by
    obtain ⟨h1, h2⟩ := take_removeIf s.n s.n rfl junkN
    rw [resize_of_le _ _ _ (by omega), h1]
  have hr : ∀ (m : ℕ), (((s.reals.zipIdx m).map (fun (q : List ℝ × ℕ) =>
      removeIf (q.1.take s.nPart) s.n (junkR q.2) ++ q.1.drop s.nPart)).zipIdx m).map
        (fun q => resize q.1 (surv s.n).length (fill q.2)) = s.reals.map (fun v => kept v s.n) := by
    have hall := h.reals
    generalize s.reals = R at hall
    induction R with
    | nil => intro m; rfl
    | cons v R ih =>
      intro m
      have hv : v.length = s.nPart := hall v (by simp)
      simp only [List.zipIdx_cons, List.map_cons]
      rw [ih (fun v hv => hall v (by simp [hv])) (m + 1)]
      congr 1
      obtain ⟨h1, h2⟩ := take_removeIf v s.n (by omega) (junkR m)
      rw [List.take_of_length_le hv.le, List.drop_eq_nil_of_le hv.le, List.append_nil,
        resize_of_le _ _ _ (by omega), h1]
  have rs : ∀ (v : List ℝ) (nb : ℕ), v.length = nb * s.nPart → resize (compacted s.nPart s.n v nb) (nb * (surv s.n).length) 0 =
      compacted s.nPart s.n v nb := by
    intro v nb hv
    have := compacted_length hn hv
    rw [resize_of_le _ _ _ this.ge, List.take_of_length_le this.le]
  unfold removeN0
  cases hc : s.chem with
  | false =>
    simp only [resizeNpart, htake, hdrop, hk, List.append_nil, hn', hr, hc, Bool.false_eq_true, if_false]
    exact ⟨trivial, trivial, trivial, trivial, fun h => by simp at h⟩
  | true =>
    rw [if_pos rfl, chemLoop h hc]
    simp only [resizeNpart, htake, hdrop, hk, List.append_nil, hn', hr, hc, initChem, if_true]
    exact ⟨trivial, trivial, trivial, trivial, fun _ => ⟨rs _ 3 (h.ante hc), rs _ 4 (h.rhs hc), rs _ 1 (h.post hc), trivial, trivial⟩⟩

/-- **C10** Whatever values `thrust::remove_if` leaves behind (`junk*`) and `resize` would fill in: afterwards the
stored super-droplets are exactly the previous ones with non-zero multiplicity, in the same order and with all
attributes (chemistry included) staying together; all vectors are again consistently sized. -/
theorem remove_keeps_exactly_live (junkC junkR : ℕ → ℕ → ℝ) (junkN : ℕ → ℕ) (fillN : ℕ) (fill : ℕ → ℝ)
    {s : Store} (h : WF s) :
    sds (removeN0 junkC junkR junkN fillN fill s) = (sds s).filter (fun d => d.n ≠ 0) ∧
      WF (removeN0 junkC junkR junkN fillN fill s) := by
  obtain ⟨e1, e2, e3, e4, e5⟩ := removeN0_eq junkC junkR junkN fillN fill h
  generalize removeN0 junkC junkR junkN fillN fill s = t at *
  have hn := h.n
  constructor
  · unfold sds
    rw [List.filter_map]
    have hsv : (List.range s.nPart).filter ((fun d : SD => decide (d.n ≠ 0)) ∘ fun p =>
        { n := s.n.getD p 0
          attrs := s.reals.map (fun v => v.getD p 0)
          chem := if s.chem then (List.range chemAll).map (fun i => (s.vec i).getD (s.bgn i + p) 0) else [] }) = surv s.n := by
      unfold surv
      rw [hn]
      apply List.filter_congr
      intro p _
      have hd : ∀ x : ℕ, decide (x ≠ 0) = !(x == 0) := by intro x; cases x <;> rfl
      exact hd _
    rw [hsv, e1, list_eq_map_getD (surv s.n) 0, List.map_map]
    simp only [List.length_map, List.length_range]
    apply List.map_congr_left
    intro p hp
    have hp : p < (surv s.n).length := by simpa using hp
    simp only [Function.comp]
    congr 1
    · rw [e2, kept_getD s.n s.n rfl 0 hp]
    · rw [e3, List.map_map]
      apply List.map_congr_left
      intro v hv
      exact kept_getD v s.n (by rw [h.reals v hv, hn]) 0 hp
    · rw [e4]
      cases hc : s.chem with
      | false => rfl
      | true =>
        obtain ⟨a1, a2, a3, a4, a5⟩ := e5 hc
        simp only [if_true]
        apply List.map_congr_left
        intro i hi
        have hi : i < 8 := by simpa [chemAll] using hi
        rw [a4, h.bgn hc i hi]
        unfold Store.vec
        simp only [chemRhsBeg, chemRhsFin]
        rw [a1, a2, a3]
        by_cases c1 : i < 3
        · simp only [if_pos c1]
          exact compacted_getD hn (h.ante hc) c1 hp
        · by_cases c2 : i < 7
          · simp only [if_neg c1, if_pos c2]
            exact compacted_getD hn (h.rhs hc) (by omega) hp
          · simp only [if_neg c1, if_neg c2]
            exact compacted_getD hn (h.post hc) (by omega) hp
  · refine ⟨?_, ?_, ?_, ?_, ?_, ?_, ?_⟩
    · rw [e2, e1, kept_length _ _ rfl]
    · intro v hv
      rw [e3] at hv
      obtain ⟨w, hw, rfl⟩ := List.mem_map.1 hv
      rw [e1, kept_length _ _ (by rw [h.reals w hw, hn])]
    · intro hc; rw [e4] at hc
      rw [(e5 hc).1, e1, compacted_length hn (h.ante hc)]
    · intro hc; rw [e4] at hc
      rw [(e5 hc).2.1, e1, compacted_length hn (h.rhs hc)]
    · intro hc; rw [e4] at hc
      rw [(e5 hc).2.2.1, e1, compacted_length hn (h.post hc)]
    · intro hc i hi; rw [e4] at hc
      rw [(e5 hc).2.2.2.1, e1]
      simp only [chemRhsBeg, chemRhsFin]
      by_cases c1 : i < 3
      · simp only [if_pos c1]; rfl
      · by_cases c2 : i < 7
        · simp only [if_neg c1, if_pos c2]
        · simp only [if_neg c1, if_neg c2]
    · intro hc i hi; rw [e4] at hc
      rw [(e5 hc).2.2.2.2, e1]
      simp only [chemRhsBeg, chemRhsFin]
      by_cases c1 : i < 3
      · simp only [if_pos c1]; rfl
      · by_cases c2 : i < 7
        · simp only [if_neg c1, if_pos c2]
        · simp only [if_neg c1, if_neg c2]

/-- **C10** `hskpng_resize_npart` never throws here: the number of super-droplets does not grow. -/
theorem remove_fits (junkC junkR : ℕ → ℕ → ℝ) (junkN : ℕ → ℕ) (fillN : ℕ) (fill : ℕ → ℝ)
    {s : Store} (h : WF s) (nSdMax : ℕ) (hm : s.nPart ≤ nSdMax) :
    (removeN0 junkC junkR junkN fillN fill s).nPart ≤ nSdMax := by
  rw [(removeN0_eq junkC junkR junkN fillN fill h).1]
  have := surv_length_le s.n
  have := h.n
  omega

/-! ### Non-vacuity -/

/-- two super-droplets with one attribute and chemistry; the first one is dead -/
def exStore : Store :=
  { nPart := 2, n := [0, 5], reals := [[1, 2]], chem := true
    ante := [10, 11, 12, 13, 14, 15], rhs := [20, 21, 22, 23, 24, 25, 26, 27], post := [30, 31]
    bgn := fun i => (if i < 3 then i else if i < 7 then i - 3 else i - 7) * 2
    fin := fun i => (if i < 3 then i + 1 else if i < 7 then i + 1 - 3 else i + 1 - 7) * 2 }

example : WF exStore := by
  refine ⟨rfl, ?_, fun _ => rfl, fun _ => rfl, fun _ => rfl, fun _ _ _ => rfl, fun _ _ _ => rfl⟩
  intro v hv
  simp [exStore] at hv
  subst hv; rfl

example : (sds exStore).filter (fun d => d.n ≠ 0) = [⟨5, [2], [11, 13, 15, 21, 23, 25, 27, 31]⟩] := by
  simp [sds, exStore, List.range_succ, chemAll, Store.vec, chemRhsBeg, chemRhsFin]

end LCP.Remove
