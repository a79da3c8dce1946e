import Verif.Float.Moment
import Mathlib.Analysis.SpecialFunctions.Pow.Real
import Mathlib.Algebra.BigOperators.Group.Finset.Basic
import Mathlib.Algebra.Order.BigOperators.Group.Finset

/-!
# C126: drift of dry and liquid volume by coalescence in floating-point arithmetic

Source: src/impl/coalescence/particles_impl_coal.ipp:109-143, 184-268.  Multiplicities and numbers of collisions are integers and
exact.  In which pairs collisions happen, and how many, is left open apart from the limiter (`k n_r ≤ n_d`); that a super-droplet
belongs to at most one pair is proved for the model of the loop in `Coal/` (C04).  Fused multiply-add (`fma`) is allowed; a
reordering of the operations is not.
-/
namespace LCP.Float

/-- multiplicity, squared wet radius, cubed dry radius of one super-droplet -/
structure Drop where
  n : ℕ
  rw2 : ℝ
  rd3 : ℝ

/-- the arithmetic of the machine: rounding, square root, cubic root, contraction of products and sums -/
structure Arith where
  fl : ℝ → ℝ
  sq : ℝ → ℝ
  cb : ℝ → ℝ
  fma : Bool

/-- the arithmetic rounds to nearest, the two roots are accurate to one rounding -/
structure Arith.Ok (A : Arith) (p : ℕ) : Prop where
  round : Rounds p A.fl
  root : ∀ x, 0 ≤ x → |A.sq x - Real.sqrt x| ≤ Real.sqrt x * 2 ^ (-(p : ℤ))
  cube : ∀ x, 0 ≤ x → |A.cb x - x ^ (1 / 3 : ℝ)| ≤ x ^ (1 / 3 : ℝ) * 2 ^ (-(p : ℤ))

/-- `a * b + c` -/
noncomputable def Arith.mulAdd (A : Arith) (a b c : ℝ) : ℝ := if A.fma then A.fl (a * b + c) else A.fl (A.fl (a * b) + c)

/-- new wet size of the receiver (particles_impl_coal.ipp:127-133) -/
noncomputable def mergedRw2 (A : Arith) (k : ℕ) (d r : Drop) : ℝ :=
  let v := A.mulAdd (A.fl (A.fl k * d.rw2)) (A.sq d.rw2) (A.fl (r.rw2 * A.sq r.rw2))
  A.fl (A.cb v * A.cb v)

/-- new dry size of the receiver (particles_impl_coal.ipp:136-137); `col_no` is converted to `real_t` -/
noncomputable def mergedRd3 (A : Arith) (k : ℕ) (d r : Drop) : ℝ := A.mulAdd (A.fl k) d.rd3 r.rd3

/-- `k` collisions of each of the droplets of `rcv` with droplets of `don` -/
structure Ev where
  don : ℕ
  rcv : ℕ
  k : ℕ

/-- `detail::collide` (particles_impl_coal.ipp:109-143) -/
noncomputable def hit (A : Arith) (s : ℕ → Drop) (e : Ev) : ℕ → Drop :=
  Function.update (Function.update s e.don { s e.don with n := (s e.don).n - e.k * (s e.rcv).n }) e.rcv
    { n := (s e.rcv).n, rw2 := mergedRw2 A e.k (s e.don) (s e.rcv), rd3 := mergedRd3 A e.k (s e.don) (s e.rcv) }

/-- the super-droplets taking part -/
def ids (l : List Ev) : List ℕ := l.flatMap fun e => [e.don, e.rcv]

/-- one coalescence substep: the pairs in which collisions happen, in some order (particles_impl_coal.ipp:440-456) -/
noncomputable def sub (A : Arith) (l : List Ev) (s : ℕ → Drop) : ℕ → Drop := l.foldl (hit A) s

/-- pairs are disjoint, within the population and obey the limiter (particles_impl_coal.ipp:240-262) -/
structure SubOk (N : ℕ) (s : ℕ → Drop) (l : List Ev) : Prop where
  disjoint : (ids l).Nodup
  inside : ∀ i ∈ ids l, i < N
  limit : ∀ e ∈ l, e.k * (s e.rcv).n ≤ (s e.don).n

/-- any number of substeps -/
noncomputable def runs (A : Arith) : List (List Ev) → (ℕ → Drop) → (ℕ → Drop)
  | [], s => s
  | l :: t, s => runs A t (sub A l s)

/-- every substep is one the collider can make from where it starts -/
def RunOk (A : Arith) (N : ℕ) : List (List Ev) → (ℕ → Drop) → Prop
  | [], _ => True
  | l :: t, s => SubOk N s l ∧ RunOk A N t (sub A l s)

/-- dry volume of the population, without the factor 4π/3 (specification) -/
noncomputable def dryVol (N : ℕ) (s : ℕ → Drop) : ℝ := ∑ i ∈ Finset.range N, ((s i).n : ℝ) * (s i).rd3

/-- liquid volume of the population, without the factor 4π/3 (specification) -/
noncomputable def wetVol (N : ℕ) (s : ℕ → Drop) : ℝ := ∑ i ∈ Finset.range N, ((s i).n : ℝ) * (s i).rw2 ^ (3 / 2 : ℝ)

/-! ### calculus of relative errors -/

theorem Within.refl (e x : ℝ) : Within e 0 x x := ⟨by simp, by simp⟩

theorem Within.trans {e x y z : ℝ} {m m' : ℕ} (he0 : 0 ≤ e) (he1 : e ≤ 1) (h : Within e m x y) (h' : Within e m' y z) :
    Within e (m + m') x z := by
  have p1 : 0 ≤ (1 - e) ^ m' := pow_nonneg (by linarith) _
  have p2 : 0 ≤ (1 + e) ^ m' := pow_nonneg (by linarith) _
  constructor
  · calc x * (1 - e) ^ (m + m') = x * (1 - e) ^ m * (1 - e) ^ m' := by rw [pow_add]; ring
      _ ≤ y * (1 - e) ^ m' := mul_le_mul_of_nonneg_right h.1 p1
      _ ≤ z := h'.1
  · calc z ≤ y * (1 + e) ^ m' := h'.2
      _ ≤ x * (1 + e) ^ m * (1 + e) ^ m' := mul_le_mul_of_nonneg_right h.2 p2
      _ = x * (1 + e) ^ (m + m') := by rw [pow_add]; ring

theorem Within.mul {e x y x' y' : ℝ} {m m' : ℕ} (he0 : 0 ≤ e) (he1 : e ≤ 1) (hx : 0 ≤ x) (hx' : 0 ≤ x') (h : Within e m x y)
    (h' : Within e m' x' y') : Within e (m + m') (x * x') (y * y') := by
  have hy := h.nonneg he1 hx
  have hy' := h'.nonneg he1 hx'
  have p1 : 0 ≤ (1 - e) ^ m' := pow_nonneg (by linarith) _
  have p2 : 0 ≤ (1 + e) ^ m := pow_nonneg (by linarith) _
  constructor
  · calc x * x' * (1 - e) ^ (m + m') = (x * (1 - e) ^ m) * (x' * (1 - e) ^ m') := by rw [pow_add]; ring
      _ ≤ y * y' := mul_le_mul h.1 h'.1 (mul_nonneg hx' p1) hy
  · calc y * y' ≤ (x * (1 + e) ^ m) * (x' * (1 + e) ^ m') := mul_le_mul h.2 h'.2 hy' (mul_nonneg hx p2)
      _ = x * x' * (1 + e) ^ (m + m') := by rw [pow_add]; ring

theorem Within.rpow {e x y q : ℝ} {m m' : ℕ} (he0 : 0 ≤ e) (he1 : e < 1) (hx : 0 ≤ x) (hq : 0 ≤ q) (hm : q * m ≤ m')
    (h : Within e m x y) : Within e m' (x ^ q) (y ^ q) := by
  have hy := h.nonneg he1.le hx
  have a : ((1 - e) ^ m : ℝ) ^ q = (1 - e) ^ (q * m) := by
    rw [← Real.rpow_natCast, ← Real.rpow_mul (by linarith)]; ring_nf
  have b : ((1 + e) ^ m : ℝ) ^ q = (1 + e) ^ (q * m) := by
    rw [← Real.rpow_natCast, ← Real.rpow_mul (by linarith)]; ring_nf
  constructor
  · calc x ^ q * (1 - e) ^ m' = x ^ q * (1 - e) ^ (m' : ℝ) := by rw [Real.rpow_natCast]
      _ ≤ x ^ q * (1 - e) ^ (q * m) :=
        mul_le_mul_of_nonneg_left (Real.rpow_le_rpow_of_exponent_ge (by linarith) (by linarith) hm) (Real.rpow_nonneg hx _)
      _ = (x * (1 - e) ^ m) ^ q := by rw [← a, Real.mul_rpow hx (pow_nonneg (by linarith) _)]
      _ ≤ y ^ q := Real.rpow_le_rpow (mul_nonneg hx (pow_nonneg (by linarith) _)) h.1 hq
  · calc y ^ q ≤ (x * (1 + e) ^ m) ^ q := Real.rpow_le_rpow hy h.2 hq
      _ = x ^ q * (1 + e) ^ (q * m) := by rw [← b, Real.mul_rpow hx (pow_nonneg (by linarith) _)]
      _ ≤ x ^ q * (1 + e) ^ (m' : ℝ) :=
        mul_le_mul_of_nonneg_left (Real.rpow_le_rpow_of_exponent_le (by linarith) hm) (Real.rpow_nonneg hx _)
      _ = x ^ q * (1 + e) ^ m' := by rw [Real.rpow_natCast]

theorem Within.of_abs {e x y : ℝ} (h : |y - x| ≤ x * e) : Within e 1 x y := by
  have := abs_le.1 h
  constructor <;> rw [pow_one] <;> linarith [this.1, this.2]

theorem eps_lt_one {p : ℕ} (hp : 1 ≤ p) : (2 : ℝ) ^ (-(p : ℤ)) < 1 := by
  rw [zpow_neg, inv_lt_one₀ (two_zpow_pos _)]
  exact one_lt_zpow₀ (by norm_num) (by exact_mod_cast hp)

theorem mulAdd_within {A : Arith} {p : ℕ} (h : A.Ok p) (hp : 1 ≤ p) {m m' : ℕ} {a b c a' b' c' : ℝ} (ha : 0 ≤ a) (hb : 0 ≤ b) (hc : 0 ≤ c)
    (h1 : Within (2 ^ (-(p : ℤ))) m a a') (h2 : Within (2 ^ (-(p : ℤ))) m' b b') (h3 : Within (2 ^ (-(p : ℤ))) (m + m' + 1) c c') :
    Within (2 ^ (-(p : ℤ))) (m + m' + 2) (a * b + c) (A.mulAdd a' b' c') := by
  have e0 := (eps_pos p).le
  have e1 := eps_le_one p
  have hm := h1.mul e0 e1 ha hb h2
  unfold Arith.mulAdd
  split_ifs
  · exact Within.round h.round hp (by positivity) ((hm.mono e0 e1 (by positivity) (by omega : m + m' ≤ m + m' + 1)).add h3)
  · exact Within.round h.round hp (by positivity) ((Within.round h.round hp (by positivity) hm).add h3)

theorem rd3_within {A : Arith} {p : ℕ} (h : A.Ok p) (hp : 1 ≤ p) (k : ℕ) (d r : Drop) (hd : 0 ≤ d.rd3) (hr : 0 ≤ r.rd3) :
    Within (2 ^ (-(p : ℤ))) 3 (k * d.rd3 + r.rd3) (mergedRd3 A k d r) := by
  have e0 := (eps_pos p).le
  have e1 := eps_le_one p
  exact mulAdd_within h hp (m := 1) (m' := 0) (Nat.cast_nonneg k) hd hr (Within.round h.round hp (Nat.cast_nonneg k) (Within.refl _ _))
    (Within.refl _ _) ((Within.refl _ _).mono e0 e1 hr (by omega))

theorem three_half {x : ℝ} (hx : 0 ≤ x) : x * Real.sqrt x = x ^ (3 / 2 : ℝ) := by
  rcases hx.eq_or_lt with h | h
  · rw [← h]; simp [Real.zero_rpow (by norm_num : (3 / 2 : ℝ) ≠ 0)]
  · rw [show (3 / 2 : ℝ) = 1 + 1 / 2 by norm_num, Real.rpow_add h, Real.rpow_one, Real.sqrt_eq_rpow]

theorem rw2_within {A : Arith} {p : ℕ} (h : A.Ok p) (hp : 1 ≤ p) (k : ℕ) (d r : Drop) (hd : 0 ≤ d.rw2) (hr : 0 ≤ r.rw2) :
    Within (2 ^ (-(p : ℤ))) 11 (k * d.rw2 ^ (3 / 2 : ℝ) + r.rw2 ^ (3 / 2 : ℝ)) (mergedRw2 A k d r ^ (3 / 2 : ℝ)) := by
  have e0 := (eps_pos p).le
  have e1 := eps_le_one p
  have e2 := eps_lt_one hp
  have hk : (0 : ℝ) ≤ k := Nat.cast_nonneg k
  have w1 := Within.round h.round hp hk (Within.refl _ _)
  have w2 := Within.round h.round hp (mul_nonneg hk hd) (w1.mul e0 e1 hk hd (Within.refl _ _))
  have s1 := Within.of_abs (h.root d.rw2 hd)
  have s2 := Within.of_abs (h.root r.rw2 hr)
  have w3 := Within.round h.round hp (mul_nonneg hr (Real.sqrt_nonneg _)) ((Within.refl _ _).mul e0 e1 hr (Real.sqrt_nonneg _) s2)
  have w4 := mulAdd_within h hp (mul_nonneg hk hd) (Real.sqrt_nonneg _) (mul_nonneg hr (Real.sqrt_nonneg _)) w2 s1
    (w3.mono e0 e1 (mul_nonneg hr (Real.sqrt_nonneg _)) (by omega))
  rw [mul_assoc, three_half hd, three_half hr] at w4
  have hV : 0 ≤ k * d.rw2 ^ (3 / 2 : ℝ) + r.rw2 ^ (3 / 2 : ℝ) := by positivity
  unfold mergedRw2
  simp only
  generalize A.mulAdd (A.fl (A.fl k * d.rw2)) (A.sq d.rw2) (A.fl (r.rw2 * A.sq r.rw2)) = v at *
  generalize (k : ℝ) * d.rw2 ^ (3 / 2 : ℝ) + r.rw2 ^ (3 / 2 : ℝ) = V at *
  have hv := w4.nonneg e1 hV
  have c1 : Within (2 ^ (-(p : ℤ))) 2 (V ^ (1 / 3 : ℝ)) (v ^ (1 / 3 : ℝ)) :=
    w4.rpow e0 e2 hV (by norm_num) (by norm_num)
  have c2 : Within (2 ^ (-(p : ℤ))) 3 (V ^ (1 / 3 : ℝ)) (A.cb v) := c1.trans e0 e1 (Within.of_abs (h.cube v hv))
  have hV3 := Real.rpow_nonneg hV (1 / 3 : ℝ)
  have c3 := Within.round h.round hp (mul_nonneg hV3 hV3) (c2.mul e0 e1 hV3 hV3 c2)
  have c4 := c3.rpow (m' := 11) e0 e2 (mul_nonneg hV3 hV3) (by norm_num : (0:ℝ) ≤ 3 / 2) (by norm_num)
  have ev : (V ^ (1 / 3 : ℝ) * V ^ (1 / 3 : ℝ)) ^ (3 / 2 : ℝ) = V := by
    rw [← sq, ← Real.rpow_natCast, ← Real.rpow_mul hV, ← Real.rpow_mul hV]; norm_num
  rwa [ev] at c4

/-! ### one substep -/

theorem hit_other (A : Arith) (s : ℕ → Drop) (e : Ev) (i : ℕ) (h1 : i ≠ e.don) (h2 : i ≠ e.rcv) : hit A s e i = s i := by
  unfold hit; rw [Function.update_of_ne h2, Function.update_of_ne h1]

theorem sub_other (A : Arith) (l : List Ev) (s : ℕ → Drop) (i : ℕ) (h : i ∉ ids l) : sub A l s i = s i := by
  induction l generalizing s with
  | nil => rfl
  | cons e t ih =>
    simp only [ids, List.flatMap_cons, List.mem_append, List.mem_cons, List.not_mem_nil, or_false, not_or] at h
    have := ih (hit A s e) (by simpa [ids] using h.2)
    unfold sub at *
    rw [List.foldl_cons, this, hit_other A s e i h.1.1 h.1.2]

theorem pair_within {e : ℝ} (he0 : 0 ≤ e) (he1 : e ≤ 1) {m nd nr k : ℕ} {x y y' : ℝ} (hx : 0 ≤ x)
    (hk : k * nr ≤ nd) (h : Within e m (k * x + y) y') :
    Within e m (nd * x + nr * y) (((nd - k * nr : ℕ) : ℝ) * x + nr * y') := by
  have a : Within e m (((nd - k * nr : ℕ) : ℝ) * x) (((nd - k * nr : ℕ) : ℝ) * x) :=
    (Within.refl _ _).mono he0 he1 (by positivity) (Nat.zero_le _)
  have b : Within e m ((nr : ℝ) * (k * x + y)) (nr * y') :=
    ⟨by rw [mul_assoc]; exact mul_le_mul_of_nonneg_left h.1 (Nat.cast_nonneg _),
     by rw [mul_assoc]; exact mul_le_mul_of_nonneg_left h.2 (Nat.cast_nonneg _)⟩
  have c := a.add b
  rw [Nat.cast_sub hk] at c ⊢
  push_cast at c ⊢
  have e : ((nd : ℝ) - k * nr) * x + nr * (k * x + y) = nd * x + nr * y := by ring
  rwa [e] at c

theorem sum_within_finset {e : ℝ} (m : ℕ) (U : Finset ℕ) (f g : ℕ → ℝ) (h : ∀ i ∈ U, Within e m (f i) (g i)) :
    Within e m (∑ i ∈ U, f i) (∑ i ∈ U, g i) :=
  ⟨by rw [Finset.sum_mul]; exact Finset.sum_le_sum fun i hi => (h i hi).1,
   by rw [Finset.sum_mul]; exact Finset.sum_le_sum fun i hi => (h i hi).2⟩

/-- the sum of `n * w` over any set of super-droplets holding the pairs, if a merger of one pair is accurate to `m` roundings -/
theorem sub_total {A : Arith} {e : ℝ} (he0 : 0 ≤ e) (he1 : e ≤ 1) (m : ℕ) (w : Drop → ℝ)
    (hn : ∀ d n, w { d with n := n } = w d)
    (Good : Drop → Prop) (hgn : ∀ d n, Good d → Good { d with n := n }) (hgw : ∀ d, Good d → 0 ≤ w d)
    (hm : ∀ (k : ℕ) d r, Good d → Good r →
      Within e m (k * w d + w r) (w ⟨r.n, mergedRw2 A k d r, mergedRd3 A k d r⟩) ∧ Good ⟨r.n, mergedRw2 A k d r, mergedRd3 A k d r⟩) :
    ∀ (l : List Ev) (s : ℕ → Drop) (U : Finset ℕ), (ids l).Nodup → (∀ i ∈ ids l, i ∈ U) →
      (∀ e ∈ l, e.k * (s e.rcv).n ≤ (s e.don).n) → (∀ i ∈ U, Good (s i)) →
      Within e m (∑ i ∈ U, ((s i).n : ℝ) * w (s i)) (∑ i ∈ U, ((sub A l s i).n : ℝ) * w (sub A l s i)) ∧
        ∀ i ∈ U, Good (sub A l s i) := by
  intro l
  induction l with
  | nil =>
    intro s U _ _ _ hg
    refine ⟨?_, hg⟩
    exact (Within.refl _ _).mono he0 he1 (Finset.sum_nonneg fun i hi => mul_nonneg (Nat.cast_nonneg _) (hgw _ (hg i hi)))
      (Nat.zero_le _)
  | cons ev t ih =>
    intro s U hnd hU hlim hg
    simp only [ids, List.flatMap_cons, List.cons_append, List.nil_append, List.nodup_cons, List.mem_cons, not_or] at hnd hU
    obtain ⟨⟨hne, hd⟩, hr, hnt⟩ := hnd
    have hdU : ev.don ∈ U := hU _ (Or.inl rfl)
    have hrU : ev.rcv ∈ U := hU _ (Or.inr (Or.inl rfl))
    obtain ⟨V, hV⟩ : ∃ V, V = (U.erase ev.don).erase ev.rcv := ⟨_, rfl⟩
    have hVmem : ∀ i, i ∈ V ↔ i ∈ U ∧ i ≠ ev.don ∧ i ≠ ev.rcv := by
      intro i; rw [hV]; simp only [Finset.mem_erase]; tauto
    have split : ∀ f : ℕ → ℝ, ∑ i ∈ U, f i = (f ev.don + f ev.rcv) + ∑ i ∈ V, f i := by
      intro f
      rw [hV, ← Finset.add_sum_erase U f hdU, ← Finset.add_sum_erase (U.erase ev.don) f (Finset.mem_erase.2 ⟨Ne.symm hne, hrU⟩)]
      ring
    have hs1 : ∀ i ∈ V, hit A s ev i = s i := fun i hi => hit_other A s ev i ((hVmem i).1 hi).2.1 ((hVmem i).1 hi).2.2
    have hsub : ∀ i, sub A (ev :: t) s i = sub A t (hit A s ev) i := fun i => rfl
    have htmem : ∀ i ∈ ids t, i ∈ V := by
      intro i hi
      rw [hVmem]
      refine ⟨hU i (Or.inr (Or.inr hi)), ?_, ?_⟩
      · rintro rfl; exact hd hi
      · rintro rfl; exact hr hi
    have hidon : ∀ e' ∈ t, e'.don ∈ ids t ∧ e'.rcv ∈ ids t := by
      intro e' he'
      unfold ids
      constructor <;> exact List.mem_flatMap.2 ⟨e', he', by simp⟩
    obtain ⟨ih1, ih2⟩ := ih (hit A s ev) V hnt htmem (by
        intro e' he'
        obtain ⟨m1, m2⟩ := hidon e' he'
        rw [hs1 _ (htmem _ m1), hs1 _ (htmem _ m2)]
        exact hlim e' (List.mem_cons_of_mem _ he'))
      (fun i hi => by rw [hs1 i hi]; exact hg i ((hVmem i).1 hi).1)
    have fd : sub A t (hit A s ev) ev.don = { s ev.don with n := (s ev.don).n - ev.k * (s ev.rcv).n } := by
      rw [sub_other A t _ _ hd]
      unfold hit; rw [Function.update_of_ne hne, Function.update_self]
    have fr : sub A t (hit A s ev) ev.rcv =
        ⟨(s ev.rcv).n, mergedRw2 A ev.k (s ev.don) (s ev.rcv), mergedRd3 A ev.k (s ev.don) (s ev.rcv)⟩ := by
      rw [sub_other A t _ _ hr]
      unfold hit; rw [Function.update_self]
    obtain ⟨mm, mg⟩ := hm ev.k (s ev.don) (s ev.rcv) (hg _ hdU) (hg _ hrU)
    constructor
    · simp only [hsub]
      rw [split, split]
      refine Within.add ?_ ?_
      · rw [fd, fr]
        simp only
        rw [hn (s ev.don) ((s ev.don).n - ev.k * (s ev.rcv).n)]
        exact pair_within he0 he1 (hgw _ (hg _ hdU)) (hlim ev (List.mem_cons_self ..)) mm
      · rw [Finset.sum_congr rfl fun i hi => by rw [← hs1 i hi]]
        exact ih1
    · intro i hi
      rw [hsub]
      by_cases h1 : i = ev.don
      · rw [h1, fd]; exact hgn _ _ (hg _ hdU)
      · by_cases h2 : i = ev.rcv
        · rw [h2, fr]; exact mg
        · exact ih2 i ((hVmem i).2 ⟨hi, h1, h2⟩)

/-- sizes are not negative -/
def NonNeg (N : ℕ) (s : ℕ → Drop) : Prop := ∀ i < N, 0 ≤ (s i).rw2 ∧ 0 ≤ (s i).rd3

theorem mergedRw2_nonneg {A : Arith} {p : ℕ} (h : A.Ok p) (k : ℕ) (d r : Drop) : 0 ≤ mergedRw2 A k d r :=
  le_nearest (h.round _) (zero_mem p) (mul_self_nonneg _)

/-- one substep: the dry volume changes by three roundings at most, the liquid volume by eleven, whatever collides -/
theorem sub_drift {A : Arith} {p : ℕ} (h : A.Ok p) (hp : 1 ≤ p) (N : ℕ) (s : ℕ → Drop) (l : List Ev) (hl : SubOk N s l) (hs : NonNeg N s) :
    Within (2 ^ (-(p : ℤ))) 3 (dryVol N s) (dryVol N (sub A l s)) ∧
    Within (2 ^ (-(p : ℤ))) 11 (wetVol N s) (wetVol N (sub A l s)) ∧ NonNeg N (sub A l s) := by
  have e0 := (eps_pos p).le
  have e1 := eps_le_one p
  have hg : ∀ k d r, (0 ≤ d.rw2 ∧ 0 ≤ d.rd3) → (0 ≤ r.rw2 ∧ 0 ≤ r.rd3) → 0 ≤ mergedRw2 A k d r ∧ 0 ≤ mergedRd3 A k d r := by
    intro k d r hd hr
    exact ⟨mergedRw2_nonneg h k d r,
      (rd3_within h hp k d r hd.2 hr.2).nonneg e1 (add_nonneg (mul_nonneg (Nat.cast_nonneg _) hd.2) hr.2)⟩
  have a := sub_total (A := A) e0 e1 3 Drop.rd3 (fun _ _ => rfl) (fun d => 0 ≤ d.rw2 ∧ 0 ≤ d.rd3) (fun _ _ h => h) (fun _ h => h.2)
    (fun k d r hd hr => ⟨rd3_within h hp k d r hd.2 hr.2, hg k d r hd hr⟩) l s (Finset.range N) hl.disjoint
    (fun i hi => Finset.mem_range.2 (hl.inside i hi)) hl.limit (fun i hi => hs i (Finset.mem_range.1 hi))
  have b := sub_total (A := A) e0 e1 11 (fun d => d.rw2 ^ (3 / 2 : ℝ)) (fun _ _ => rfl) (fun d => 0 ≤ d.rw2 ∧ 0 ≤ d.rd3) (fun _ _ h => h)
    (fun _ h => Real.rpow_nonneg h.1 _)
    (fun k d r hd hr => ⟨rw2_within h hp k d r hd.1 hr.1, hg k d r hd hr⟩) l s (Finset.range N) hl.disjoint
    (fun i hi => Finset.mem_range.2 (hl.inside i hi)) hl.limit (fun i hi => hs i (Finset.mem_range.1 hi))
  exact ⟨a.1, b.1, fun i hi => a.2 i (Finset.mem_range.2 hi)⟩

/-- **C126.** For every population, every arithmetic and every history of `T` coalescence substeps, the dry volume of the population
stays within `3 T` and its liquid volume within `11 T` roundings of the initial ones (relative), and no size becomes negative. -/
theorem coal_drift {A : Arith} {p : ℕ} (h : A.Ok p) (hp : 1 ≤ p) (N : ℕ) (H : List (List Ev)) (s : ℕ → Drop) (hH : RunOk A N H s)
    (hs : NonNeg N s) :
    (dryVol N s * (1 - 2 ^ (-(p : ℤ))) ^ (3 * H.length) ≤ dryVol N (runs A H s) ∧
      dryVol N (runs A H s) ≤ dryVol N s * (1 + 2 ^ (-(p : ℤ))) ^ (3 * H.length)) ∧
    (wetVol N s * (1 - 2 ^ (-(p : ℤ))) ^ (11 * H.length) ≤ wetVol N (runs A H s) ∧
      wetVol N (runs A H s) ≤ wetVol N s * (1 + 2 ^ (-(p : ℤ))) ^ (11 * H.length)) ∧
    NonNeg N (runs A H s) := by
  have e0 := (eps_pos p).le
  have e1 := eps_le_one p
  suffices hh : ∀ (H : List (List Ev)) (s : ℕ → Drop), RunOk A N H s → NonNeg N s →
      Within (2 ^ (-(p : ℤ))) (3 * H.length) (dryVol N s) (dryVol N (runs A H s)) ∧
      Within (2 ^ (-(p : ℤ))) (11 * H.length) (wetVol N s) (wetVol N (runs A H s)) ∧ NonNeg N (runs A H s) from hh H s hH hs
  intro H
  induction H with
  | nil => intro s _ hs; exact ⟨Within.refl _ _, Within.refl _ _, hs⟩
  | cons l t ih =>
    intro s hH hs
    obtain ⟨a, b, c⟩ := sub_drift h hp N s l hH.1 hs
    obtain ⟨a', b', c'⟩ := ih (sub A l s) hH.2 c
    refine ⟨?_, ?_, c'⟩
    · have := a.trans e0 e1 a'
      rw [List.length_cons, show 3 * (t.length + 1) = 3 + 3 * t.length by ring]
      exact this
    · have := b.trans e0 e1 b'
      rw [List.length_cons, show 11 * (t.length + 1) = 11 + 11 * t.length by ring]
      exact this

/-! ### the loss is systematic -/

/-- a raindrop that has collected the aerosol of 2²⁵ droplets, in an ocean of fresh droplets -/
def rainIn (M : ℕ) : ℕ → Drop := fun i => if i = 0 then ⟨M, 1, 1⟩ else ⟨1, 1, 2 ^ 25⟩

theorem fl_one {p : ℕ} {fl : ℝ → ℝ} (h : Rounds p fl) (hp : 1 ≤ p) : fl 1 = 1 :=
  nearest_self (h 1) (by have := nat_mem (n := 1) hp (Nat.one_le_two_pow); simpa using this)

/-- **C126, sharpness.** In single precision the bound on dry volume is no artefact: a raindrop that has collected the aerosol of
2²⁵ droplets collects one more in each of `T` substeps; the multiplicity of the droplets falls by one each time, but the dry
size of the raindrop never changes: the aerosol of all `T` droplets is gone, without bound. -/
theorem coal_absorption {A : Arith} (h : A.Ok 24) (M T : ℕ) (hT : T ≤ M) :
    ∃ H : List (List Ev), H.length = T ∧ RunOk A 2 H (rainIn M) ∧ NonNeg 2 (rainIn M) ∧
      dryVol 2 (runs A H (rainIn M)) = dryVol 2 (rainIn M) - T := by
  have key : ∀ (T : ℕ) (s : ℕ → Drop), T ≤ (s 0).n → (s 0).rd3 = 1 → (s 1).n = 1 → (s 1).rd3 = 2 ^ 25 →
      RunOk A 2 (List.replicate T [⟨0, 1, 1⟩]) s ∧
      dryVol 2 (runs A (List.replicate T [⟨0, 1, 1⟩]) s) = dryVol 2 s - T := by
    intro T
    induction T with
    | zero => intro s _ _ _ _; simp [RunOk, runs]
    | succ T ih =>
      intro s h0 h1 h2 h3
      have e0 : sub A [⟨0, 1, 1⟩] s 0 = { s 0 with n := (s 0).n - 1 } := by
        simp [sub, hit, h2]
      have e1 : (sub A [⟨0, 1, 1⟩] s 1).n = 1 ∧ (sub A [⟨0, 1, 1⟩] s 1).rd3 = 2 ^ 25 := by
        refine ⟨by simp [sub, hit, h2], ?_⟩
        simp only [sub, List.foldl_cons, List.foldl_nil, hit, Function.update_self, mergedRd3, Arith.mulAdd, h1, h3, Nat.cast_one,
          fl_one h.round (by norm_num), mul_one]
        have : (1 : ℝ) + 2 ^ 25 = 2 ^ 25 + 1 := by ring
        rw [this, big_plus_one h.round]; simp
      obtain ⟨i1, i2⟩ := ih (sub A [⟨0, 1, 1⟩] s) (by rw [e0]; simp; omega) (by rw [e0]; exact h1) e1.1 e1.2
      constructor
      · rw [List.replicate_succ]
        refine ⟨⟨by simp [ids], by simp [ids], ?_⟩, i1⟩
        intro e he
        rw [List.mem_singleton] at he
        subst he
        simp only [h2]; omega
      · rw [List.replicate_succ]
        show dryVol 2 (runs A _ (sub A [⟨0, 1, 1⟩] s)) = _
        rw [i2]
        unfold dryVol
        simp only [Finset.sum_range_succ, Finset.sum_range_zero, e0, e1.1, e1.2, h1, h2, h3]
        rw [Nat.cast_sub (by omega)]
        push_cast
        ring
  refine ⟨List.replicate T [⟨0, 1, 1⟩], by simp, ?_⟩
  obtain ⟨a, b⟩ := key T (rainIn M) (by simpa [rainIn] using hT) (by simp [rainIn]) (by simp [rainIn]) (by simp [rainIn])
  exact ⟨a, fun i _ => by unfold rainIn; split_ifs <;> constructor <;> norm_num, b⟩

/-- non-vacuity: an arithmetic of single precision exists, and the history of `coal_absorption` meets the hypotheses of `coal_drift` -/
theorem arith_exists (p : ℕ) (hp : 1 ≤ p) (fma : Bool) : ∃ A : Arith, A.Ok p ∧ A.fma = fma := by
  obtain ⟨fl, h⟩ := exists_rounds hp
  refine ⟨⟨fl, fun x => fl (Real.sqrt x), fun x => fl (x ^ (1 / 3 : ℝ)), fma⟩, ⟨h, fun x hx => ?_, fun x hx => ?_⟩, rfl⟩
  · have := rel_error hp (h (Real.sqrt x))
    rwa [abs_of_nonneg (Real.sqrt_nonneg x)] at this
  · have := rel_error hp (h (x ^ (1 / 3 : ℝ)))
    rwa [abs_of_nonneg (Real.rpow_nonneg hx _)] at this

example : ∃ (A : Arith) (H : List (List Ev)) (s : ℕ → Drop), A.Ok 24 ∧ H.length = 1000 ∧ RunOk A 2 H s ∧ NonNeg 2 s ∧
    dryVol 2 (runs A H s) = dryVol 2 s - 1000 := by
  obtain ⟨A, h, -⟩ := arith_exists 24 (by norm_num) false
  obtain ⟨H, h1, h2, h3, h4⟩ := coal_absorption h 1000000 1000 (by norm_num)
  exact ⟨A, H, _, h, h1, h2, h3, by rw [h4]; norm_num⟩

end LCP.Float
