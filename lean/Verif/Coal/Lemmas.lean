import Verif.Coal.Model
import Verif.Coal.PairLoop
import Mathlib.Algebra.BigOperators.Group.Finset.Basic
import Mathlib.Data.List.NodupEquivFin
import Mathlib.Data.List.GetD

/-! # Helper lemmas for coalescence -/
namespace LCP.Coal
open PairLoop
noncomputable section

/-- The sort contract for an environment. -/
abbrev Env.Sorted (e : Env) : Prop := IsCellSort e.N e.ijk e.sid

section sort
variable {e : Env} (h : e.Sorted)
include h

theorem sid_length : e.sid.length = e.N := by
  simpa using h.perm.length_eq

theorem sid_nodup : e.sid.Nodup := h.perm.nodup_iff.2 List.nodup_range

theorem id_lt {p : ℕ} (hp : p < e.N) : e.id p < e.N := by
  have hl := sid_length h
  have : e.id p ∈ e.sid := by
    unfold Env.id
    rw [List.getD_eq_getElem _ _ (by omega)]
    exact List.getElem_mem _
  simpa using h.perm.mem_iff.1 this

theorem id_ge {p : ℕ} (hp : e.N ≤ p) : e.id p = p := by
  unfold Env.id
  rw [List.getD_eq_default _ _ (by rw [sid_length h]; exact hp)]

theorem id_injective : Function.Injective e.id := by
  intro p q hpq
  have hl := sid_length h
  by_cases hp : p < e.N <;> by_cases hq : q < e.N
  · unfold Env.id at hpq
    rw [List.getD_eq_getElem _ _ (by omega), List.getD_eq_getElem _ _ (by omega)] at hpq
    exact (List.Nodup.getElem_inj_iff (sid_nodup h)).1 hpq
  · have h1 := id_lt h hp
    rw [id_ge h (by omega : e.N ≤ q)] at hpq; omega
  · have h1 := id_lt h hq
    rw [id_ge h (by omega : e.N ≤ p)] at hpq; omega
  · rw [id_ge h (by omega : e.N ≤ q), id_ge h (by omega : e.N ≤ p)] at hpq; exact hpq

theorem exists_pos {i : ℕ} (hi : i < e.N) : ∃ p < e.N, e.id p = i := by
  have : i ∈ e.sid := h.perm.mem_iff.2 (by simpa using hi)
  obtain ⟨p, hp, rfl⟩ := List.getElem_of_mem this
  rw [sid_length h] at hp
  exact ⟨p, hp, by unfold Env.id; rw [List.getD_eq_getElem]⟩

/-- sums over ids are sums over sorted positions -/
theorem sum_id {M : Type*} [AddCommMonoid M] (w : ℕ → M) :
    ∑ i ∈ Finset.range e.N, w i = ∑ p ∈ Finset.range e.N, w (e.id p) := by
  symm
  apply Finset.sum_bij (fun p _ => e.id p)
  · intro p hp; simpa using id_lt h (by simpa using hp)
  · intro p _ q _ hpq; exact id_injective h hpq
  · intro i hi
    obtain ⟨p, hp, rfl⟩ := exists_pos h (by simpa using hi)
    exact ⟨p, by simpa using hp, rfl⟩
  · intros; rfl

theorem cell_mono {p q : ℕ} (hpq : p ≤ q) (hq : q < e.N) : e.cell p ≤ e.cell q := by
  rcases Nat.lt_or_eq_of_le hpq with hlt | rfl
  · have hl := sid_length h
    have := List.pairwise_iff_getElem.1 h.sorted p q (by simpa [hl] using by omega) (by simpa [hl] using hq) hlt
    unfold Env.cell Env.id
    rw [List.getD_eq_getElem _ _ (by omega), List.getD_eq_getElem _ _ (by omega)]
    simpa using this
  · exact le_rfl

theorem cnt_eq (c : ℕ) : e.cnt c = (e.sid.map e.ijk).countP (fun k => decide (k = c)) := by
  have hk : (e.sid.map (fun i => (e.ijk i, 1))).map Prod.fst = e.sid.map e.ijk := by simp
  unfold Env.cnt hskpngCount
  rw [scatter_reduceByKey _ _ (by rw [hk]; exact h.sorted), sumAt_map_ones]
  rw [List.countP_map, ← List.countP_eq_length_filter]
  rfl

theorem off_eq (c : ℕ) : e.off c = (e.sid.map e.ijk).countP (fun k => decide (k < c)) := by
  induction c with
  | zero => simp [Env.off, exclusiveScan]
  | succ c ih =>
    have : e.off (c + 1) = e.off c + e.cnt c := rfl
    rw [this, ih, cnt_eq h]
    generalize e.sid.map e.ijk = K
    induction K with
    | nil => rfl
    | cons k K ihK =>
      simp only [List.countP_cons]
      have : (if decide (k < c + 1) = true then 1 else 0) = (if decide (k < c) = true then 1 else 0) + (if decide (k = c) = true then 1 else 0) := by
        simp only [decide_eq_true_eq]; split_ifs <;> omega
      omega

theorem off_le {p : ℕ} (hp : p < e.N) : e.off (e.cell p) ≤ p := by
  rw [off_eq h]
  have hl := sid_length h
  conv_lhs => rw [← List.take_append_drop p (e.sid.map e.ijk), List.countP_append]
  have h0 : ((e.sid.map e.ijk).drop p).countP (fun k => decide (k < e.cell p)) = 0 := by
    rw [List.countP_eq_zero]
    intro k hk
    obtain ⟨j, hj, rfl⟩ := List.getElem_of_mem hk
    simp only [decide_eq_true_eq, not_lt]
    rw [List.length_drop, List.length_map, hl] at hj
    have := cell_mono h (p := p) (q := p + j) (by omega) (by omega)
    rw [List.getElem_drop, List.getElem_map]
    refine this.trans (le_of_eq ?_)
    unfold Env.cell Env.id
    rw [List.getD_eq_getElem _ _ (by omega)]
  have h1 : ((e.sid.map e.ijk).take p).countP (fun k => decide (k < e.cell p)) ≤ p := by
    refine List.countP_le_length.trans ?_
    simp
  omega

theorem off_eq_of_new {p : ℕ} (hp : p + 1 < e.N) (hc : e.cell p ≠ e.cell (p + 1)) :
    e.off (e.cell (p + 1)) = p + 1 := by
  apply le_antisymm (off_le h hp)
  rw [off_eq h]
  have hl := sid_length h
  conv_rhs => rw [← List.take_append_drop (p + 1) (e.sid.map e.ijk), List.countP_append]
  have h1 : ((e.sid.map e.ijk).take (p + 1)).countP (fun k => decide (k < e.cell (p + 1))) = p + 1 := by
    have : ((e.sid.map e.ijk).take (p + 1)).length = p + 1 := by
      rw [List.length_take, List.length_map, hl]; omega
    conv_rhs => rw [← this]
    rw [List.countP_eq_length]
    intro k hk
    obtain ⟨j, hj, rfl⟩ := List.getElem_of_mem hk
    rw [this] at hj
    simp only [decide_eq_true_eq]
    have h2 := cell_mono h (p := j) (q := p) (by omega) (by omega)
    have h3 := cell_mono h (p := p) (q := p + 1) (by omega) (by omega)
    have h4 : ((e.sid.map e.ijk).take (p + 1))[j] = e.cell j := by
      rw [List.getElem_take, List.getElem_map]
      unfold Env.cell Env.id
      rw [List.getD_eq_getElem _ _ (by omega)]
    rw [h4]; omega
  omega

/-- index in cell continues iff the cell is the same -/
theorem cix_succ_iff {p : ℕ} (hp : p + 1 < e.N) :
    e.cix p + 1 = e.cix (p + 1) ↔ e.cell p = e.cell (p + 1) := by
  unfold Env.cix
  constructor
  · intro heq
    by_contra hc
    rw [off_eq_of_new h hp hc] at heq
    omega
  · intro hc
    have := off_le h (p := p) (by omega)
    rw [← hc]; omega

end sort

/-- kind of the collider iteration -/
def kind (e : Env) (p : ℕ) : Kind :=
  if e.N ≤ p + 1 ∨ e.cix p % 2 ≠ 0 then .skip
  else if e.cell p = e.cell (p + 1) then .pair else .single

theorem kind_pair_iff (e : Env) (p : ℕ) :
    kind e p = .pair ↔ p + 1 < e.N ∧ e.cix p % 2 = 0 ∧ e.cell p = e.cell (p + 1) := by
  unfold kind
  by_cases h1 : e.N ≤ p + 1 ∨ e.cix p % 2 ≠ 0
  · simp only [h1, if_true, reduceCtorEq, false_iff]
    omega
  · by_cases h2 : e.cell p = e.cell (p + 1)
    · simp only [h1, h2, if_true, if_false, true_iff, and_true]; omega
    · simp only [h1, h2, if_false, reduceCtorEq, false_iff]
      tauto

theorem kind_disj {e : Env} (h : e.Sorted) (p : ℕ) (hp : kind e p = .pair) : kind e (p + 1) = .skip := by
  obtain ⟨h1, h2, h3⟩ := (kind_pair_iff e p).1 hp
  have := (cix_succ_iff h h1).2 h3
  unfold kind
  rw [if_pos]
  right; omega

/-- attributes and col as seen at sorted position `q` -/
def view (e : Env) (s : State) (q : ℕ) : SD × ℝ := (s.sd (e.id q), s.col q)

/-- outcome of a candidate pair -/
def colPair (e : Env) (p : ℕ) (x y : SD × ℝ) : (SD × ℝ) × (SD × ℝ) :=
  let c := colNo0 e p x.1 y.1 x.2
  if c = 0 then ((x.1, 0), (y.1, 0))
  else if y.1.n ≤ x.1.n then
    let k := if 0 < y.1.n then min c (x.1.n / y.1.n) else c
    (((collide x.1 y.1 k).1, (k : ℝ)), ((collide x.1 y.1 k).2, na_ge_nb))
  else
    let k := if 0 < x.1.n then min c (y.1.n / x.1.n) else c
    (((collide y.1 x.1 k).2, (k : ℝ)), ((collide y.1 x.1 k).1, nb_gt_na))

theorem view_colliderStep {e : Env} (h : e.Sorted) (s : State) (p : ℕ) (hp : p + 1 < e.N) :
    view e (colliderStep e s p) = step (kind e) (fun _ x => (x.1, 0)) (colPair e) (view e s) p := by
  have hinj := id_injective h
  have hp01 : p + 1 ≠ p := by omega
  funext q
  unfold colliderStep step
  by_cases h1 : e.cix p % 2 ≠ 0
  · have : kind e p = .skip := by unfold kind; rw [if_pos (Or.inr h1)]
    rw [this, if_pos h1]
  · have hN : ¬ (e.N ≤ p + 1 ∨ e.cix p % 2 ≠ 0) := by omega
    by_cases h2 : e.cix p + 1 ≠ e.cix (p + 1)
    · have hc : e.cell p ≠ e.cell (p + 1) := fun hc => h2 ((cix_succ_iff h hp).2 hc)
      have : kind e p = .single := by unfold kind; rw [if_neg hN, if_neg hc]
      rw [this, if_neg h1, if_pos h2]
      by_cases hq : q = p
      · subst hq; simp [view]
      · simp [view, hq]
    · have hc : e.cell p = e.cell (p + 1) := (cix_succ_iff h hp).1 (not_not.1 h2)
      have : kind e p = .pair := by unfold kind; rw [if_neg hN, if_pos hc]
      rw [this, if_neg h1, if_neg h2]
      simp only [colPair, view]
      have hid : e.id p ≠ e.id (p + 1) := fun h => by have := hinj h; omega
      by_cases hz : colNo0 e p (s.sd (e.id p)) (s.sd (e.id (p + 1))) (s.col p) = 0
      · simp only [hz, if_true]
        by_cases hq : q = p
        · subst hq; simp
        · by_cases hq1 : q = p + 1
          · subst hq1; simp
          · simp [hq, hq1, view]
      · simp only [hz, if_false]
        generalize colNo0 e p (s.sd (e.id p)) (s.sd (e.id (p + 1))) (s.col p) = cc
        by_cases hn : (s.sd (e.id (p + 1))).n ≤ (s.sd (e.id p)).n
        · simp only [hn, if_true]
          by_cases hb : 0 < (s.sd (e.id (p + 1))).n <;> simp only [hb, if_true, if_false]
          all_goals
            by_cases hq : q = p
            · subst hq; simp [hid]
            · by_cases hq1 : q = p + 1
              · subst hq1; simp
              · have e1 : e.id q ≠ e.id p := fun h => hq (hinj h)
                have e2 : e.id q ≠ e.id (p + 1) := fun h => hq1 (hinj h)
                simp [hq, hq1, e1, e2, view]
        · simp only [hn, if_false]
          by_cases hb : 0 < (s.sd (e.id p)).n <;> simp only [hb, if_true, if_false]
          all_goals
            by_cases hq : q = p
            · subst hq; simp [hid]
            · by_cases hq1 : q = p + 1
              · subst hq1; simp
              · have e1 : e.id q ≠ e.id p := fun h => hq (hinj h)
                have e2 : e.id q ≠ e.id (p + 1) := fun h => hq1 (hinj h)
                simp [hq, hq1, e1, e2, view]

theorem view_collider_pass {e : Env} (h : e.Sorted) (L : List ℕ) (hL : L.Perm (List.range (e.N - 1))) (s : State) :
    view e (pass colliderStep e L s) = apply (kind e) (fun _ x => (x.1, 0)) (colPair e) (view e s) := by
  rw [← foldl_eq_apply (kind e) _ _ (kind_disj h) L (hL.nodup_iff.2 List.nodup_range)]
  · have hlt : ∀ p ∈ L, p + 1 < e.N := by
      intro p hp; have := hL.mem_iff.1 hp; simp at this; omega
    clear hL
    unfold pass
    induction L generalizing s with
    | nil => rfl
    | cons p t ih =>
      rw [List.foldl_cons, List.foldl_cons, ih _ (fun q hq => hlt q (List.mem_cons_of_mem _ hq)),
        view_colliderStep h s p (hlt p (by simp))]
  · intro p hp
    rw [hL.mem_iff, List.mem_range]
    unfold kind at hp
    by_contra hcon
    rw [if_pos (Or.inl (by omega))] at hp
    exact hp rfl

/-! ### passes acting on the receiving super-droplet -/

/-- generic form of summator/weighted_summator/selector/invalidator -/
def recvStep (u : SD → SD → ℝ → SD) (e : Env) (s : State) (p : ℕ) : State :=
  if s.col p ≤ 0 then s
  else if s.col (p + 1) = na_ge_nb then
    { s with sd := Function.update s.sd (e.id (p + 1)) (u (s.sd (e.id p)) (s.sd (e.id (p + 1))) (s.col p)) }
  else
    { s with sd := Function.update s.sd (e.id p) (u (s.sd (e.id (p + 1))) (s.sd (e.id p)) (s.col p)) }

def uChem (i : ℕ) (d r : SD) (k : ℝ) : SD := { r with chem := Function.update r.chem i (r.chem i + k * d.chem i) }
def uKappa (d r : SD) (k : ℝ) : SD := { r with kpa := kappaLoop d.kpa d.rd3 ⌈k⌉₊ r.kpa (r.rd3 - k * d.rd3) }
def uInc (d r : SD) (_ : ℝ) : SD := { r with inc := max d.inc r.inc }
def uRc2 (_ r : SD) (_ : ℝ) : SD := { r with rc2 := invalid }

theorem summatorStep_eq (i : ℕ) : summatorStep i = recvStep (uChem i) := by
  funext e s p; unfold summatorStep recvStep uChem; rfl
theorem kappaStep_eq : kappaStep = recvStep uKappa := by
  funext e s p; unfold kappaStep recvStep uKappa; rfl
theorem incloudStep_eq : incloudStep = recvStep uInc := by
  funext e s p; unfold incloudStep recvStep uInc
  simp only [max_comm]
theorem rc2Step_eq : rc2Step = recvStep uRc2 := by
  funext e s p; unfold rc2Step recvStep uRc2; rfl

/-- pair-level effect of `recvStep` -/
def recvPair (u : SD → SD → ℝ → SD) (x y : SD × ℝ) : (SD × ℝ) × (SD × ℝ) :=
  if x.2 ≤ 0 then (x, y)
  else if y.2 = na_ge_nb then (x, (u x.1 y.1 x.2, y.2))
  else ((u y.1 x.1 x.2, x.2), y)

/-- the col vector is non-positive except at the first positions of candidate pairs -/
def ColOk (e : Env) (c : ℕ → SD × ℝ) : Prop := ∀ p, p + 1 < e.N → kind e p ≠ .pair → (c p).2 ≤ 0

theorem recvStep_col (u : SD → SD → ℝ → SD) (e : Env) (s : State) (p : ℕ) : (recvStep u e s p).col = s.col := by
  unfold recvStep; split_ifs <;> rfl

theorem view_recvStep {e : Env} (h : e.Sorted) (u : SD → SD → ℝ → SD) (s : State) (p : ℕ) (hp : p + 1 < e.N)
    (hc : ColOk e (view e s)) :
    view e (recvStep u e s p) = step (kind e) (fun _ x => x) (fun _ => recvPair u) (view e s) p := by
  have hinj := id_injective h
  funext q
  by_cases hk : kind e p = .pair
  · unfold step recvStep
    rw [hk]
    simp only [recvPair, view]
    have hp01 : p ≠ p + 1 := by omega
    have hid : e.id p ≠ e.id (p + 1) := fun h => by have := hinj h; omega
    by_cases h0 : s.col p ≤ 0
    · simp only [h0, if_true]
      by_cases hq : q = p
      · subst hq; simp
      · by_cases hq1 : q = p + 1
        · subst hq1; simp
        · simp [hq, hq1, view]
    · simp only [h0, if_false]
      by_cases h1 : s.col (p + 1) = na_ge_nb
      · simp only [h1, if_true]
        by_cases hq : q = p
        · subst hq; simp [hid]
        · by_cases hq1 : q = p + 1
          · subst hq1; simp [h1]
          · have e2 : e.id q ≠ e.id (p + 1) := fun h => hq1 (hinj h)
            simp [hq, hq1, e2, view]
      · simp only [h1, if_false]
        by_cases hq : q = p
        · subst hq; simp
        · by_cases hq1 : q = p + 1
          · subst hq1; simp [hid.symm]
          · have e1 : e.id q ≠ e.id p := fun h => hq (hinj h)
            simp [hq, hq1, e1, view]
  · have h0 : s.col p ≤ 0 := hc p hp hk
    have : recvStep u e s p = s := by unfold recvStep; rw [if_pos h0]
    rw [this]
    unfold step
    cases hkk : kind e p with
    | pair => exact absurd hkk hk
    | skip => rfl
    | single =>
      simp

theorem view_recv_pass {e : Env} (h : e.Sorted) (u : SD → SD → ℝ → SD) (L : List ℕ)
    (hL : L.Perm (List.range (e.N - 1))) (s : State) (hc : ColOk e (view e s)) :
    view e (pass (recvStep u) e L s) = apply (kind e) (fun _ x => x) (fun _ => recvPair u) (view e s) := by
  rw [← foldl_eq_apply (kind e) _ _ (kind_disj h) L (hL.nodup_iff.2 List.nodup_range)]
  · have hlt : ∀ p ∈ L, p + 1 < e.N := by
      intro p hp; have := hL.mem_iff.1 hp; simp at this; omega
    clear hL
    unfold pass
    induction L generalizing s with
    | nil => rfl
    | cons p t ih =>
      have hc' : ColOk e (view e (recvStep u e s p)) := by
        intro q hq hk; have := hc q hq hk
        simpa [view, recvStep_col] using this
      rw [List.foldl_cons, List.foldl_cons, ih _ hc' (fun q hq => hlt q (List.mem_cons_of_mem _ hq)),
        view_recvStep h u s p (hlt p (by simp)) hc]
  · intro p hp
    rw [hL.mem_iff, List.mem_range]
    unfold kind at hp
    by_contra hcon
    rw [if_pos (Or.inl (by omega))] at hp
    exact hp rfl

theorem pass_recv_col (u : SD → SD → ℝ → SD) (e : Env) (L : List ℕ) (s : State) :
    (pass (recvStep u) e L s).col = s.col := by
  unfold pass
  induction L generalizing s with
  | nil => rfl
  | cons p t ih => rw [List.foldl_cons, ih, recvStep_col]

theorem colPair_snd_nonpos (e : Env) (p : ℕ) (x y : SD × ℝ) : (colPair e p x y).2.2 ≤ 0 := by
  unfold colPair
  simp only
  split_ifs <;> simp [na_ge_nb, nb_gt_na]

theorem colOk_collider {e : Env} (h : e.Sorted) (c : ℕ → SD × ℝ) :
    ColOk e (apply (kind e) (fun _ x => (x.1, 0)) (colPair e) c) := by
  intro p hp hk
  unfold apply
  cases hkk : kind e p with
  | pair => exact absurd hkk hk
  | single => simp
  | skip =>
    simp only
    have hodd : e.cix p % 2 ≠ 0 := by
      unfold kind at hkk
      by_contra hcon
      rw [if_neg (by omega)] at hkk
      split_ifs at hkk
    have h1 : 1 ≤ p := by
      by_contra h0
      have : p = 0 := by omega
      subst this
      simp [Env.cix] at hodd
    -- the previous position is in the same cell with an even index
    have hprev : kind e (p - 1) = .pair := by
      rw [kind_pair_iff]
      have hp' : p - 1 + 1 = p := by omega
      rw [hp']
      have hsame : e.cell (p - 1) = e.cell p := by
        by_contra hne
        have := off_eq_of_new h (p := p - 1) (by omega) (by rwa [hp'])
        rw [hp'] at this
        unfold Env.cix at hodd
        rw [this] at hodd
        simp at hodd
      have := (cix_succ_iff h (p := p - 1) (by omega)).2 (by rwa [hp'])
      rw [hp'] at this
      exact ⟨by omega, by omega, hsame⟩
    simp only [h1, hprev, and_self, if_true]
    exact colPair_snd_nonpos _ _ _ _

/-- pair-level effect of the whole `coal` -/
def coalPair (o : Opts) (e : Env) (p : ℕ) (x y : SD × ℝ) : (SD × ℝ) × (SD × ℝ) :=
  let z := colPair e p x y
  let z := (List.range o.nChem).foldl (fun z i => recvPair (uChem i) z.1 z.2) z
  let z := if o.kappa then recvPair uKappa z.1 z.2 else z
  let z := if o.incloud then recvPair uInc z.1 z.2 else z
  if o.rc2 then recvPair uRc2 z.1 z.2 else z

theorem chem_passes {e : Env} (h : e.Sorted) (L : List ℕ) (sch : ℕ → List ℕ)
    (hL : ∀ i, (sch i).Perm (List.range (e.N - 1))) (s : State)
    (g : ℕ → SD × ℝ → SD × ℝ) (f : ℕ → SD × ℝ → SD × ℝ → (SD × ℝ) × (SD × ℝ)) (c : ℕ → SD × ℝ)
    (hv : view e s = apply (kind e) g f c) (hc : ColOk e (view e s)) :
    view e (L.foldl (fun s i => pass (recvStep (uChem i)) e (sch i) s) s) =
      apply (kind e) g (fun p x y => L.foldl (fun z i => recvPair (uChem i) z.1 z.2) (f p x y)) c
    ∧ ColOk e (view e (L.foldl (fun s i => pass (recvStep (uChem i)) e (sch i) s) s)) := by
  induction L generalizing s f with
  | nil => exact ⟨hv, hc⟩
  | cons i t ih =>
    rw [List.foldl_cons]
    have hc' : ColOk e (view e (pass (recvStep (uChem i)) e (sch i) s)) := by
      intro q hq hk; have := hc q hq hk
      simpa [view, pass_recv_col] using this
    have := ih (pass (recvStep (uChem i)) e (sch i) s) (fun p x y => recvPair (uChem i) (f p x y).1 (f p x y).2)
      (by rw [view_recv_pass h _ _ (hL i) _ hc, hv, apply_apply _ _ _ _ _ (kind_disj h)]) hc'
    simpa using this

/-- Refinement: the whole coalescence step acts pair by pair, independently of the schedules. -/
theorem coal_view {o : Opts} {e : Env} (h : e.Sorted) {σ : Scheds} (hσ : σ.Valid e.N) {s s' : State}
    (hr : coal o e σ s = some s') :
    view e s' = apply (kind e) (fun _ x => (x.1, 0)) (coalPair o e) (view e s) := by
  unfold coal at hr
  by_cases hN : e.N = 0
  · rw [if_pos hN] at hr; exact absurd hr (by simp)
  rw [if_neg hN] at hr
  simp only [Option.some.injEq] at hr
  have h0 := view_collider_pass h σ.coll hσ.coll s
  have hc0 : ColOk e (view e (pass colliderStep e σ.coll s)) := by rw [h0]; exact colOk_collider h _
  generalize pass colliderStep e σ.coll s = s0 at hr h0 hc0
  simp only [summatorStep_eq, kappaStep_eq, incloudStep_eq, rc2Step_eq] at hr
  obtain ⟨h1, hc1⟩ := chem_passes h (List.range o.nChem) σ.chem hσ.chem s0 _ _ _ h0 hc0
  generalize (List.range o.nChem).foldl (fun s i => pass (recvStep (uChem i)) e (σ.chem i) s) s0 = s1 at hr h1 hc1
  have key : ∀ (b : Bool) (u : SD → SD → ℝ → SD) (L : List ℕ) (_ : L.Perm (List.range (e.N - 1))) (t : State)
      (f : ℕ → SD × ℝ → SD × ℝ → (SD × ℝ) × (SD × ℝ))
      (_ : view e t = apply (kind e) (fun _ x => (x.1, 0)) f (view e s)) (_ : ColOk e (view e t)),
      view e (if b then pass (recvStep u) e L t else t) =
        apply (kind e) (fun _ x => (x.1, 0)) (fun p x y => if b then recvPair u (f p x y).1 (f p x y).2 else f p x y) (view e s) ∧
      ColOk e (view e (if b then pass (recvStep u) e L t else t)) := by
    intro b u L hL t f ht hct
    cases b with
    | false => exact ⟨by simpa using ht, by simpa using hct⟩
    | true =>
      simp only [if_true]
      refine ⟨?_, ?_⟩
      · rw [view_recv_pass h u L hL t hct, ht, apply_apply _ _ _ _ _ (kind_disj h)]
      · intro q hq hk; have := hct q hq hk
        simpa [view, pass_recv_col] using this
  obtain ⟨h2, hc2⟩ := key o.kappa uKappa σ.kappa hσ.kappa s1 _ h1 hc1
  generalize (if o.kappa = true then pass (recvStep uKappa) e σ.kappa s1 else s1) = s2 at hr h2 hc2
  obtain ⟨h3, hc3⟩ := key o.incloud uInc σ.incloud hσ.incloud s2 _ h2 hc2
  generalize (if o.incloud = true then pass (recvStep uInc) e σ.incloud s2 else s2) = s3 at hr h3 hc3
  obtain ⟨h4, -⟩ := key o.rc2 uRc2 σ.rc2 hσ.rc2 s3 _ h3 hc3
  rw [← hr, h4]
  rfl

end
end LCP.Coal
