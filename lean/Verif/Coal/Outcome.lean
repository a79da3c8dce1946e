import Verif.Coal.Lemmas
import Verif.Coal.PairSum
import Mathlib.Tactic.FieldSimp
import Mathlib.Tactic.Positivity

/-! # Outcome of a candidate pair and of the whole step (helper lemmas) -/
namespace LCP.Coal
open PairLoop
noncomputable section

/-- donor after `k` collisions with receiver of multiplicity `r.n` -/
def donated (d r : SD) (k : ℕ) : SD := { d with n := subU64 d.n (k * r.n) }

/-- receiver after `k` collisions -/
def merged (o : Opts) (d r : SD) (k : ℕ) : SD where
  n := r.n
  rw2 := cbrt (k * d.rw2 * √d.rw2 + r.rw2 * √r.rw2) * cbrt (k * d.rw2 * √d.rw2 + r.rw2 * √r.rw2)
  rd3 := k * d.rd3 + r.rd3
  vt := invalid
  kpa := if o.kappa then kappaLoop d.kpa d.rd3 k r.kpa r.rd3 else r.kpa
  chem := fun i => if i < o.nChem then r.chem i + k * d.chem i else r.chem i
  inc := if o.incloud then max d.inc r.inc else r.inc
  rc2 := if o.rc2 then invalid else r.rc2

/-- the receiver after the chemistry passes for the species in `L` -/
theorem chem_fold_r (L : List ℕ) (hL : L.Nodup) (d r : SD) (k : ℝ) :
    L.foldl (fun r i => uChem i d r k) r =
      { r with chem := fun i => if i ∈ L then r.chem i + k * d.chem i else r.chem i } := by
  induction L generalizing r with
  | nil => simp
  | cons i t ih =>
    rw [List.nodup_cons] at hL
    rw [List.foldl_cons, ih hL.2]
    unfold uChem
    congr 1
    funext j
    by_cases hj : j = i
    · subst hj; simp [hL.1]
    · simp [hj]

theorem recv_fold_a (L : List ℕ) (k : ℝ) (hk : 0 < k) (d r : SD) :
    L.foldl (fun z i => recvPair (uChem i) z.1 z.2) ((d, k), (r, na_ge_nb)) =
      ((d, k), (L.foldl (fun r i => uChem i d r k) r, na_ge_nb)) := by
  induction L generalizing r with
  | nil => rfl
  | cons i t ih =>
    rw [List.foldl_cons, List.foldl_cons, ← ih]
    simp [recvPair, not_le.2 hk]

theorem nb_ne : nb_gt_na ≠ na_ge_nb := by norm_num [nb_gt_na, na_ge_nb]

theorem recv_fold_b (L : List ℕ) (k : ℝ) (hk : 0 < k) (d r : SD) :
    L.foldl (fun z i => recvPair (uChem i) z.1 z.2) ((r, k), (d, nb_gt_na)) =
      ((L.foldl (fun r i => uChem i d r k) r, k), (d, nb_gt_na)) := by
  induction L generalizing r with
  | nil => rfl
  | cons i t ih =>
    rw [List.foldl_cons, List.foldl_cons, ← ih]
    simp [recvPair, not_le.2 hk, nb_ne]

theorem recv_fold_0 (L : List ℕ) (a b : SD) (y : ℝ) :
    L.foldl (fun z i => recvPair (uChem i) z.1 z.2) ((a, (0:ℝ)), (b, y)) = ((a, 0), (b, y)) := by
  induction L with
  | nil => rfl
  | cons i t ih => rw [List.foldl_cons]; simpa [recvPair] using ih

/-- What can happen to a candidate pair. -/
inductive Outcome (o : Opts) (e : Env) (p : ℕ) (a b : SD) (u : ℝ) : SD → SD → Prop
  | miss : colNo0 e p a b u = 0 → Outcome o e p a b u a b
  | ab (k : ℕ) : colNo0 e p a b u ≠ 0 → b.n ≤ a.n → 1 ≤ k → k * b.n ≤ a.n →
      k = (if 0 < b.n then min (colNo0 e p a b u) (a.n / b.n) else colNo0 e p a b u) →
      Outcome o e p a b u (donated a b k) (merged o a b k)
  | ba (k : ℕ) : colNo0 e p a b u ≠ 0 → a.n < b.n → 1 ≤ k → k * a.n ≤ b.n →
      k = (if 0 < a.n then min (colNo0 e p a b u) (b.n / a.n) else colNo0 e p a b u) →
      Outcome o e p a b u (merged o b a k) (donated b a k)

theorem limiter {c m M : ℕ} (hc : c ≠ 0) (h : m ≤ M) :
    1 ≤ (if 0 < m then min c (M / m) else c) ∧ (if 0 < m then min c (M / m) else c) * m ≤ M := by
  by_cases h0 : 0 < m
  · simp only [h0, if_true]
    have h1 : 1 ≤ M / m := (Nat.one_le_div_iff h0).2 h
    refine ⟨by omega, ?_⟩
    calc min c (M / m) * m ≤ M / m * m := Nat.mul_le_mul_right _ (min_le_right _ _)
      _ ≤ M := Nat.div_mul_le_self _ _
  · have : m = 0 := by omega
    subst this
    simp only [lt_self_iff_false, if_false, Nat.mul_zero]
    omega

theorem coalPair_outcome (o : Opts) (e : Env) (p : ℕ) (x y : SD × ℝ) :
    Outcome o e p x.1 y.1 x.2 (coalPair o e p x y).1.1 (coalPair o e p x y).2.1 := by
  by_cases hz : colNo0 e p x.1 y.1 x.2 = 0
  · have : coalPair o e p x y = ((x.1, 0), (y.1, 0)) := by
      unfold coalPair colPair
      simp only [hz, if_true]
      rw [recv_fold_0]
      cases o.kappa <;> cases o.incloud <;> cases o.rc2 <;> simp [recvPair]
    rw [this]
    exact .miss hz
  · by_cases hn : y.1.n ≤ x.1.n
    · obtain ⟨h1, h2⟩ := limiter hz hn
      have hcol : colPair e p x y =
          ((donated x.1 y.1 (if 0 < y.1.n then min (colNo0 e p x.1 y.1 x.2) (x.1.n / y.1.n) else colNo0 e p x.1 y.1 x.2),
            (((if 0 < y.1.n then min (colNo0 e p x.1 y.1 x.2) (x.1.n / y.1.n) else colNo0 e p x.1 y.1 x.2) : ℕ) : ℝ)),
           ((collide x.1 y.1 (if 0 < y.1.n then min (colNo0 e p x.1 y.1 x.2) (x.1.n / y.1.n) else colNo0 e p x.1 y.1 x.2)).2,
            na_ge_nb)) := by
        unfold colPair
        rw [if_neg hz, if_pos hn]; rfl
      generalize hgk : (if 0 < y.1.n then min (colNo0 e p x.1 y.1 x.2) (x.1.n / y.1.n) else colNo0 e p x.1 y.1 x.2) = k at h1 h2 hcol
      have hk : (0:ℝ) < k := by exact_mod_cast h1
      have : coalPair o e p x y = ((donated x.1 y.1 k, (k:ℝ)), (merged o x.1 y.1 k, na_ge_nb)) := by
        unfold coalPair
        rw [hcol]
        simp only
        rw [recv_fold_a _ _ hk, chem_fold_r _ List.nodup_range]
        cases hK : o.kappa <;> cases hI : o.incloud <;> cases hR : o.rc2 <;>
          simp [recvPair, not_le.2 hk, merged, collide, donated, uKappa, uInc, uRc2, hK, hI, hR]
      rw [this]
      exact .ab k hz hn h1 h2 hgk.symm
    · obtain ⟨h1, h2⟩ := limiter hz (by omega : x.1.n ≤ y.1.n)
      have hcol : colPair e p x y =
          (((collide y.1 x.1 (if 0 < x.1.n then min (colNo0 e p x.1 y.1 x.2) (y.1.n / x.1.n) else colNo0 e p x.1 y.1 x.2)).2,
            (((if 0 < x.1.n then min (colNo0 e p x.1 y.1 x.2) (y.1.n / x.1.n) else colNo0 e p x.1 y.1 x.2) : ℕ) : ℝ)),
           (donated y.1 x.1 (if 0 < x.1.n then min (colNo0 e p x.1 y.1 x.2) (y.1.n / x.1.n) else colNo0 e p x.1 y.1 x.2),
            nb_gt_na)) := by
        unfold colPair
        rw [if_neg hz, if_neg hn]; rfl
      generalize hgk : (if 0 < x.1.n then min (colNo0 e p x.1 y.1 x.2) (y.1.n / x.1.n) else colNo0 e p x.1 y.1 x.2) = k at h1 h2 hcol
      have hk : (0:ℝ) < k := by exact_mod_cast h1
      have : coalPair o e p x y = ((merged o y.1 x.1 k, (k:ℝ)), (donated y.1 x.1 k, nb_gt_na)) := by
        unfold coalPair
        rw [hcol]
        simp only
        rw [recv_fold_b _ _ hk, chem_fold_r _ List.nodup_range]
        cases hK : o.kappa <;> cases hI : o.incloud <;> cases hR : o.rc2 <;>
          simp [recvPair, not_le.2 hk, nb_ne, merged, collide, donated, uKappa, uInc, uRc2, hK, hI, hR]
      rw [this]
      exact .ba k hz (by omega) h1 h2 hgk.symm

theorem subU64_eq {x y : ℕ} (hx : x < 2 ^ 64) (h : y ≤ x) : subU64 x y = x - y := by
  unfold subU64
  have : y % 2 ^ 64 = y := Nat.mod_eq_of_lt (by omega)
  rw [this]; omega

theorem kind_lt {e : Env} (p : ℕ) (hk : kind e p ≠ .skip) : p + 1 < e.N := by
  unfold kind at hk
  by_contra hcon
  rw [if_pos (Or.inl (by omega))] at hk
  exact hk rfl

/-- Conservation/dissipation principle: an extensive quantity `w` whose pair sum is related by the
pairwise rule obeys the same relation for every cell. -/
theorem coal_cell_sum {o : Opts} {e : Env} (h : e.Sorted) {σ : Scheds} (hσ : σ.Valid e.N) {s s' : State}
    (hr : coal o e σ s = some s') (w : SD → ℝ) (c : ℕ) :
    (∑ i ∈ Finset.range e.N, if e.ijk i = c then w (s'.sd i) else 0) =
    (∑ i ∈ Finset.range e.N, if e.ijk i = c then w (s.sd i) else 0) +
      ((List.range (e.N - 1)).map
        (delta (kind e) (coalPair o e) (fun q x => if e.cell q = c then w x.1 else 0) (view e s))).sum := by
  rw [sum_id h (fun i => if e.ijk i = c then w (s'.sd i) else 0), sum_id h (fun i => if e.ijk i = c then w (s.sd i) else 0)]
  have := sum_apply (kind e) (fun _ x => (x.1, (0:ℝ))) (coalPair o e) (kind_disj h) e.N kind_lt
    (fun q (x : SD × ℝ) => if e.cell q = c then w x.1 else 0) (fun _ _ => rfl) (view e s)
  rw [← coal_view h hσ hr] at this
  exact this

theorem coal_cell_conserved {o : Opts} {e : Env} (h : e.Sorted) {σ : Scheds} (hσ : σ.Valid e.N) {s s' : State}
    (hr : coal o e σ s = some s') (w : SD → ℝ)
    (hw : ∀ p u x y, p + 1 < e.N → Outcome o e p (s.sd (e.id p)) (s.sd (e.id (p + 1))) u x y →
      w x + w y = w (s.sd (e.id p)) + w (s.sd (e.id (p + 1)))) (c : ℕ) :
    (∑ i ∈ Finset.range e.N, if e.ijk i = c then w (s'.sd i) else 0) =
    (∑ i ∈ Finset.range e.N, if e.ijk i = c then w (s.sd i) else 0) := by
  rw [coal_cell_sum h hσ hr]
  have : (List.range (e.N - 1)).map
        (delta (kind e) (coalPair o e) (fun q x => if e.cell q = c then w x.1 else 0) (view e s)) =
        (List.range (e.N - 1)).map (fun _ => (0:ℝ)) := by
    apply List.map_congr_left
    intro p _
    unfold delta
    by_cases hk : kind e p = .pair
    · obtain ⟨h1, -, h3⟩ := (kind_pair_iff e p).1 hk
      have := hw p _ _ _ h1 (coalPair_outcome o e p (view e s p) (view e s (p + 1)))
      simp only [hk, if_true, ← h3]
      by_cases hc : e.cell p = c
      · simp only [hc, if_true]
        simp only [view] at this ⊢
        linarith
      · simp [hc]
    · simp [hk]
  rw [this]
  simp

theorem coal_cell_le {o : Opts} {e : Env} (h : e.Sorted) {σ : Scheds} (hσ : σ.Valid e.N) {s s' : State}
    (hr : coal o e σ s = some s') (w : SD → ℝ)
    (hw : ∀ p u x y, p + 1 < e.N → Outcome o e p (s.sd (e.id p)) (s.sd (e.id (p + 1))) u x y →
      w x + w y ≤ w (s.sd (e.id p)) + w (s.sd (e.id (p + 1)))) (c : ℕ) :
    (∑ i ∈ Finset.range e.N, if e.ijk i = c then w (s'.sd i) else 0) ≤
    (∑ i ∈ Finset.range e.N, if e.ijk i = c then w (s.sd i) else 0) := by
  rw [coal_cell_sum h hσ hr]
  have : ((List.range (e.N - 1)).map
        (delta (kind e) (coalPair o e) (fun q x => if e.cell q = c then w x.1 else 0) (view e s))).sum ≤
        ((List.range (e.N - 1)).map (fun _ => (0:ℝ))).sum := by
    apply List.sum_le_sum
    intro p _
    unfold delta
    by_cases hk : kind e p = .pair
    · obtain ⟨h1, -, h3⟩ := (kind_pair_iff e p).1 hk
      have := hw p _ _ _ h1 (coalPair_outcome o e p (view e s p) (view e s (p + 1)))
      simp only [hk, if_true, ← h3]
      by_cases hc : e.cell p = c
      · simp only [hc, if_true]
        simp only [view] at this ⊢
        linarith
      · simp [hc]
    · simp [hk]
  simp at this
  linarith

/-- pointwise description of the final state -/
theorem coal_pointwise {o : Opts} {e : Env} (h : e.Sorted) {σ : Scheds} (hσ : σ.Valid e.N) {s s' : State}
    (hr : coal o e σ s = some s') (q : ℕ) :
    s'.sd (e.id q) =
      (apply (kind e) (fun _ x => (x.1, 0)) (coalPair o e) (view e s) q).1 := by
  rw [← coal_view h hσ hr]; rfl

theorem Outcome.elim {o : Opts} {e : Env} {p : ℕ} {a b : SD} {u : ℝ} {x y : SD} (H : Outcome o e p a b u x y) :
    (x = a ∧ y = b) ∨ ∃ k : ℕ, 1 ≤ k ∧
      ((k * b.n ≤ a.n ∧ x = donated a b k ∧ y = merged o a b k) ∨
       (k * a.n ≤ b.n ∧ x = merged o b a k ∧ y = donated b a k)) := by
  cases H with
  | miss => exact Or.inl ⟨rfl, rfl⟩
  | ab k _ _ h1 h2 _ => exact Or.inr ⟨k, h1, Or.inl ⟨h2, rfl, rfl⟩⟩
  | ba k _ _ h1 h2 _ => exact Or.inr ⟨k, h1, Or.inr ⟨h2, rfl, rfl⟩⟩

theorem Outcome.hit {o : Opts} {e : Env} {p : ℕ} {a b : SD} {u : ℝ} {x y : SD} (H : Outcome o e p a b u x y)
    (hc : colNo0 e p a b u ≠ 0) (hn : b.n ≤ a.n) : ∃ k : ℕ, 1 ≤ k ∧ k * b.n ≤ a.n ∧ x = donated a b k := by
  cases H with
  | miss h => exact absurd h hc
  | ab k _ _ h1 h2 _ => exact ⟨k, h1, h2, rfl⟩
  | ba k _ h _ _ _ => omega

/-- every super-droplet is untouched or takes part in exactly one merger within its cell -/
theorem coal_each {o : Opts} {e : Env} (h : e.Sorted) {σ : Scheds} (hσ : σ.Valid e.N) {s s' : State}
    (hr : coal o e σ s = some s') (i : ℕ) (hi : i < e.N) :
    s'.sd i = s.sd i ∨ ∃ j < e.N, j ≠ i ∧ e.ijk j = e.ijk i ∧ ∃ k : ℕ, 1 ≤ k ∧
      ((k * (s.sd j).n ≤ (s.sd i).n ∧ s'.sd i = donated (s.sd i) (s.sd j) k ∧ s'.sd j = merged o (s.sd i) (s.sd j) k) ∨
       (k * (s.sd i).n ≤ (s.sd j).n ∧ s'.sd i = merged o (s.sd j) (s.sd i) k ∧ s'.sd j = donated (s.sd j) (s.sd i) k)) := by
  obtain ⟨q, hq, rfl⟩ := exists_pos h hi
  have hpw := coal_pointwise h hσ hr
  have hpair : ∀ p, kind e p = .pair →
      Outcome o e p (s.sd (e.id p)) (s.sd (e.id (p + 1))) (s.col p) (s'.sd (e.id p)) (s'.sd (e.id (p + 1))) := by
    intro p hk
    have h1 := hpw p
    have h2 := hpw (p + 1)
    simp only [PairLoop.apply, hk] at h1
    simp only [PairLoop.apply, kind_disj h p hk, Nat.add_sub_cancel, hk] at h2
    have := coalPair_outcome o e p (view e s p) (view e s (p + 1))
    rw [h1, h2]
    simpa [view] using this
  cases hk : kind e q with
  | pair =>
    obtain ⟨h1, -, h3⟩ := (kind_pair_iff e q).1 hk
    have hne : e.id (q + 1) ≠ e.id q := fun hh => by have := id_injective h hh; omega
    rcases (hpair q hk).elim with ⟨hx, -⟩ | ⟨k, hk1, hh⟩
    · exact Or.inl hx
    · exact Or.inr ⟨_, id_lt h h1, hne, h3.symm, k, hk1, hh⟩
  | single =>
    left
    have := hpw q
    simpa [PairLoop.apply, hk, view] using this
  | skip =>
    by_cases hprev : 1 ≤ q ∧ kind e (q - 1) = .pair
    · obtain ⟨h1, -, h3⟩ := (kind_pair_iff e (q - 1)).1 hprev.2
      have hq' : q - 1 + 1 = q := by omega
      have hne : e.id (q - 1) ≠ e.id q := fun hh => by have := id_injective h hh; omega
      have key := hpair (q - 1) hprev.2
      rw [hq'] at key h3
      rcases key.elim with ⟨-, hy⟩ | ⟨k, hk1, hh⟩
      · exact Or.inl hy
      · refine Or.inr ⟨_, id_lt h (by omega), hne, h3, k, hk1, ?_⟩
        rcases hh with ⟨a1, a2, a3⟩ | ⟨a1, a2, a3⟩
        · exact Or.inr ⟨a1, a3, a2⟩
        · exact Or.inl ⟨a1, a3, a2⟩
    · left
      have := hpw q
      simpa [PairLoop.apply, hk, hprev, view] using this

theorem cube_cbrt {x : ℝ} (hx : 0 ≤ x) : √(cbrt x * cbrt x) ^ 3 = x := by
  have h0 : 0 ≤ cbrt x := Real.rpow_nonneg hx _
  rw [Real.sqrt_mul_self h0]
  unfold cbrt
  rw [← Real.rpow_natCast, ← Real.rpow_mul hx]
  norm_num

theorem rw3_eq {x : ℝ} (hx : 0 ≤ x) : x * √x = √x ^ 3 := by
  have := Real.mul_self_sqrt hx
  calc x * √x = √x * √x * √x := by rw [this]
    _ = √x ^ 3 := by ring

theorem kappaLoop_mul (kd rd : ℝ) (hrd : 0 ≤ rd) (m : ℕ) :
    ∀ (k r : ℝ), 0 < r → kappaLoop kd rd m k r * (r + m * rd) = k * r + m * (kd * rd) := by
  induction m with
  | zero => intro k r _; simp [kappaLoop]
  | succ m ih =>
    intro k r hr
    have := ih ((kd * rd + k * r) / (rd + r)) (r + rd) (by linarith)
    rw [kappaLoop]
    have hne : rd + r ≠ 0 := by linarith
    have e1 : r + ((m + 1 : ℕ) : ℝ) * rd = r + rd + m * rd := by push_cast; ring
    rw [e1, this]
    have : (kd * rd + k * r) / (rd + r) * (r + rd) = kd * rd + k * r := by
      rw [add_comm r rd, div_mul_cancel₀ _ hne]
    rw [this]; push_cast; ring

end
end LCP.Coal
