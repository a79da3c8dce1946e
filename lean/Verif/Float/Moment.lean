import Verif.Float.Model
import Verif.Float.Lemmas
import Verif.Float.Dt

/-!
# C121: diagnosed moments in floating-point arithmetic, for every order of summation
-/
namespace LCP.Float

/-- the exact moment of order `k` -/
noncomputable def exactMoment (k : ℝ → ℝ) (specific : Bool) (dv rhod : ℝ) (l : List Item) : ℝ :=
  (l.map (fun a => a.n * k a.x)).sum / (if specific then dv * rhod else 1)

/-- `y` approximates `x ≥ 0` after at most `m` rounded operations -/
def Within (e : ℝ) (m : ℕ) (x y : ℝ) : Prop := x * (1 - e) ^ m ≤ y ∧ y ≤ x * (1 + e) ^ m

section within
variable {e : ℝ} {m m' : ℕ} {x y x' y' : ℝ}

theorem Within.nonneg (he1 : e ≤ 1) (hx : 0 ≤ x) (h : Within e m x y) : 0 ≤ y :=
  le_trans (mul_nonneg hx (pow_nonneg (by linarith) _)) h.1

theorem Within.mono (he0 : 0 ≤ e) (he1 : e ≤ 1) (hx : 0 ≤ x) (h : Within e m x y) (hm : m ≤ m') : Within e m' x y :=
  ⟨le_trans (mul_le_mul_of_nonneg_left (pow_le_pow_of_le_one (by linarith) (by linarith) hm) hx) h.1,
    le_trans h.2 (mul_le_mul_of_nonneg_left (pow_le_pow_right₀ (by linarith) hm) hx)⟩

theorem Within.add (h : Within e m x y) (h' : Within e m x' y') : Within e m (x + x') (y + y') :=
  ⟨by rw [add_mul]; exact add_le_add h.1 h'.1, by rw [add_mul]; exact add_le_add h.2 h'.2⟩

theorem Within.div (h : Within e m x y) {d : ℝ} (hd : 0 < d) : Within e m (x / d) (y / d) :=
  ⟨by rw [div_mul_eq_mul_div]; exact div_le_div_of_nonneg_right h.1 hd.le,
    by rw [div_mul_eq_mul_div]; exact div_le_div_of_nonneg_right h.2 hd.le⟩

end within

theorem eps_le_one (p : ℕ) : (2 : ℝ) ^ (-(p : ℤ)) ≤ 1 := zpow_le_one_of_nonpos₀ (by norm_num) (by omega)

/-- one more rounded operation -/
theorem Within.round {p : ℕ} {fl : ℝ → ℝ} (h : Rounds p fl) (hp : 1 ≤ p) {m : ℕ} {x y : ℝ} (hx : 0 ≤ x)
    (hw : Within (2 ^ (-(p : ℤ))) m x y) : Within (2 ^ (-(p : ℤ))) (m + 1) x (fl y) := by
  have hy := hw.nonneg (eps_le_one p) hx
  have a := abs_le.1 (rel_error hp (h y))
  rw [abs_of_nonneg hy] at a
  obtain ⟨e, he⟩ : ∃ e : ℝ, e = 2 ^ (-(p : ℤ)) := ⟨_, rfl⟩
  have he0 : 0 < e := he ▸ eps_pos p
  have he1 : e ≤ 1 := he ▸ eps_le_one p
  rw [← he] at a hw ⊢
  constructor
  · calc x * (1 - e) ^ (m + 1) = x * (1 - e) ^ m * (1 - e) := by ring
      _ ≤ y * (1 - e) := mul_le_mul_of_nonneg_right hw.1 (by linarith)
      _ ≤ fl y := by linarith [a.1]
  · calc fl y ≤ y * (1 + e) := by linarith [a.2]
      _ ≤ x * (1 + e) ^ m * (1 + e) := mul_le_mul_of_nonneg_right hw.2 (by linarith)
      _ = x * (1 + e) ^ (m + 1) := by ring

theorem leaves_pos {α : Type} (t : Sum α) : 0 < t.leaves.length := by
  induction t with
  | leaf a => simp [Sum.leaves]
  | node l r ihl ihr => simp [Sum.leaves]; omega

/-- a sum of `N` approximations, in any order of additions -/
theorem sum_within {p : ℕ} {fl : ℝ → ℝ} (h : Rounds p fl) (hp : 1 ≤ p) {α : Type} {f g : α → ℝ} {m : ℕ} (hg : ∀ a, 0 ≤ g a)
    (hf : ∀ a, Within (2 ^ (-(p : ℤ))) m (g a) (f a)) (t : Sum α) :
    Within (2 ^ (-(p : ℤ))) (m + (t.leaves.length - 1)) ((t.leaves.map g).sum) (t.eval fl f) := by
  have hnn : ∀ l : List α, 0 ≤ (l.map g).sum := fun l => List.sum_nonneg (by simp only [List.mem_map]; rintro _ ⟨a, _, rfl⟩; exact hg a)
  induction t with
  | leaf a => simpa [Sum.leaves, Sum.eval] using hf a
  | node l r ihl ihr =>
    have pl := leaves_pos l
    have pr := leaves_pos r
    have k : m + ((Sum.node l r).leaves.length - 1) = (m + (l.leaves.length + r.leaves.length - 2)) + 1 := by
      simp only [Sum.leaves, List.length_append]; omega
    have e0 := (eps_pos p).le
    have e1 := eps_le_one p
    rw [k]
    have hs : ((Sum.node l r).leaves.map g).sum = (l.leaves.map g).sum + (r.leaves.map g).sum := by
      simp [Sum.leaves]
    rw [hs]
    simp only [Sum.eval]
    refine Within.round h hp (add_nonneg (hnn _) (hnn _)) (Within.add ?_ ?_)
    · exact ihl.mono e0 e1 (hnn _) (by omega)
    · exact ihr.mono e0 e1 (hnn _) (by omega)

/-- **C121** the relative error of a diagnosed moment of `N` super-droplets: `N+4` roundings at most, whatever the order of summation
(`pow` may be wrong by one rounding as well) -/
theorem moment_error {p : ℕ} {fl : ℝ → ℝ} (h : Rounds p fl) (hp : 1 ≤ p) {pow k : ℝ → ℝ} (hk : ∀ x, 0 ≤ k x)
    (hpow : ∀ x, |pow x - k x| ≤ k x * 2 ^ (-(p : ℤ))) {specific : Bool} {dv rhod : ℝ} (hv : 0 < dv) (hr : 0 < rhod) (t : Sum Item) :
    exactMoment k specific dv rhod t.leaves * (1 - 2 ^ (-(p : ℤ))) ^ (t.leaves.length + 4) ≤ momentFl fl pow specific dv rhod t ∧
      momentFl fl pow specific dv rhod t ≤ exactMoment k specific dv rhod t.leaves * (1 + 2 ^ (-(p : ℤ))) ^ (t.leaves.length + 4) := by
  have e0 := (eps_pos p).le
  have e1 := eps_le_one p
  have hg : ∀ a : Item, 0 ≤ (a.n : ℝ) * k a.x := fun a => mul_nonneg (Nat.cast_nonneg _) (hk _)
  have hterm : ∀ a : Item, Within (2 ^ (-(p : ℤ))) 3 ((a.n : ℝ) * k a.x) (termFl fl pow a) := by
    intro a
    have hn : Within (2 ^ (-(p : ℤ))) 1 (a.n : ℝ) (fl a.n) :=
      Within.round h hp (Nat.cast_nonneg _) (m := 0) ⟨by simp, by simp⟩
    have b := abs_le.1 (hpow a.x)
    unfold termFl
    refine Within.round h hp (hg a) ?_
    have hf0 := hn.nonneg e1 (Nat.cast_nonneg _)
    have hk0 := hk a.x
    generalize (2 : ℝ) ^ (-(p : ℤ)) = e at *
    obtain ⟨n1, n2⟩ := hn
    rw [pow_one] at n1 n2
    constructor
    · calc (a.n : ℝ) * k a.x * (1 - e) ^ 2 = (a.n * (1 - e)) * (k a.x * (1 - e)) := by ring
        _ ≤ fl a.n * pow a.x := mul_le_mul n1 (by linarith [b.1]) (mul_nonneg hk0 (by linarith)) hf0
    · calc fl a.n * pow a.x ≤ (a.n * (1 + e)) * (k a.x * (1 + e)) :=
            mul_le_mul n2 (by linarith [b.2]) (by nlinarith [b.1]) (by positivity)
        _ = (a.n : ℝ) * k a.x * (1 + e) ^ 2 := by ring
  have hs := sum_within h hp hg hterm t
  have hlen := leaves_pos t
  have hs0 : 0 ≤ ((t.leaves.map fun a => (a.n : ℝ) * k a.x).sum) :=
    List.sum_nonneg (by simp only [List.mem_map]; rintro _ ⟨a, _, rfl⟩; exact hg a)
  unfold exactMoment momentFl
  cases specific
  · simp only [Bool.false_eq_true, if_false, div_one]
    exact hs.mono e0 e1 hs0 (by omega)
  · simp only [if_true]
    have w1 := Within.round h hp (div_nonneg hs0 hv.le) (hs.div hv)
    have w2 := Within.round h hp (div_nonneg (div_nonneg hs0 hv.le) hr.le) (w1.div hr)
    rw [div_div] at w2
    exact w2.mono e0 e1 (div_nonneg hs0 (by positivity)) (by omega)

/-- **C121** two orders of summation of the same super-droplets (another schedule, another number of threads) differ by a relative error
of at most `2(N+4)` roundings -/
theorem moment_order {p : ℕ} {fl : ℝ → ℝ} (h : Rounds p fl) (hp : 1 ≤ p) {pow k : ℝ → ℝ} (hk : ∀ x, 0 ≤ k x)
    (hpow : ∀ x, |pow x - k x| ≤ k x * 2 ^ (-(p : ℤ))) {specific : Bool} {dv rhod : ℝ} (hv : 0 < dv) (hr : 0 < rhod) {t t' : Sum Item}
    (ht : t.leaves.Perm t'.leaves) :
    momentFl fl pow specific dv rhod t * (1 - 2 ^ (-(p : ℤ))) ^ (t.leaves.length + 4) ≤
      momentFl fl pow specific dv rhod t' * (1 + 2 ^ (-(p : ℤ))) ^ (t.leaves.length + 4) := by
  obtain ⟨_, a⟩ := moment_error h hp hk hpow (specific := specific) hv hr t
  obtain ⟨b, _⟩ := moment_error h hp hk hpow (specific := specific) hv hr t'
  have e0 := (eps_pos p).le
  have e1 := eps_le_one p
  have hex : exactMoment k specific dv rhod t.leaves = exactMoment k specific dv rhod t'.leaves := by
    unfold exactMoment; rw [(ht.map _).sum_eq]
  rw [← hex, ← ht.length_eq] at b
  generalize (2 : ℝ) ^ (-(p : ℤ)) = e at *
  generalize t.leaves.length + 4 = m at *
  generalize exactMoment k specific dv rhod t.leaves = E at *
  have c1 := mul_le_mul_of_nonneg_right a (pow_nonneg (by linarith : 0 ≤ 1 - e) m)
  have c2 := mul_le_mul_of_nonneg_right b (pow_nonneg (by linarith : 0 ≤ 1 + e) m)
  calc _ ≤ E * (1 + e) ^ m * (1 - e) ^ m := c1
    _ = E * (1 - e) ^ m * (1 + e) ^ m := by ring
    _ ≤ _ := c2

/-- **C121** a moment is diagnosed as zero exactly if it is zero -/
theorem moment_zero_iff {p : ℕ} {fl : ℝ → ℝ} (h : Rounds p fl) (hp : 1 ≤ p) {pow k : ℝ → ℝ} (hk : ∀ x, 0 ≤ k x)
    (hpow : ∀ x, |pow x - k x| ≤ k x * 2 ^ (-(p : ℤ))) {specific : Bool} {dv rhod : ℝ} (hv : 0 < dv) (hr : 0 < rhod) (t : Sum Item) :
    momentFl fl pow specific dv rhod t = 0 ↔ ∀ a ∈ t.leaves, a.n = 0 ∨ k a.x = 0 := by
  obtain ⟨a, b⟩ := moment_error h hp hk hpow (specific := specific) hv hr t
  have hlt : (2 : ℝ) ^ (-(p : ℤ)) < 1 := zpow_lt_one_of_neg₀ (by norm_num) (by omega)
  have e0 := eps_pos p
  have hg : ∀ a ∈ t.leaves.map (fun a : Item => (a.n : ℝ) * k a.x), 0 ≤ a := by
    simp only [List.mem_map]; rintro _ ⟨a, _, rfl⟩; exact mul_nonneg (Nat.cast_nonneg _) (hk _)
  have hden : (0 : ℝ) < (if specific then dv * rhod else 1) := by split_ifs <;> positivity
  have hE : exactMoment k specific dv rhod t.leaves = 0 ↔ ∀ a ∈ t.leaves, a.n = 0 ∨ k a.x = 0 := by
    unfold exactMoment
    rw [div_eq_zero_iff, or_iff_left hden.ne']
    clear a b
    generalize t.leaves = l at *
    induction l with
    | nil => simp
    | cons b l ih =>
      have h1 := hg ((b.n : ℝ) * k b.x) (by simp)
      have h2 : ∀ a ∈ l.map (fun a : Item => (a.n : ℝ) * k a.x), 0 ≤ a := fun a ha => hg a (by simp at ha ⊢; tauto)
      have h3 := List.sum_nonneg h2
      rw [List.map_cons, List.sum_cons, add_eq_zero_iff_of_nonneg h1 h3, ih h2]
      simp
  rw [← hE]
  have hE0 : 0 ≤ exactMoment k specific dv rhod t.leaves := div_nonneg (List.sum_nonneg hg) hden.le
  constructor
  · intro hz
    rw [hz] at a
    by_contra hc
    have : 0 < exactMoment k specific dv rhod t.leaves := lt_of_le_of_ne hE0 (Ne.symm hc)
    have := mul_pos this (pow_pos (by linarith : 0 < 1 - (2 : ℝ) ^ (-(p : ℤ))) (t.leaves.length + 4))
    linarith
  · intro hz
    rw [hz] at a b
    simp only [zero_mul] at a b
    linarith

/-- number of real droplets among the items -/
def total (l : List Item) : ℕ := (l.map Item.n).sum

/-- **C121** the number of droplets in a cell is exact, for every order of summation, up to `2^p` droplets (the zeroth power is 1) -/
theorem count_exact_partial {p : ℕ} {fl : ℝ → ℝ} (h : Rounds p fl) (hp : 1 ≤ p) {pow : ℝ → ℝ} (hpow : ∀ x, pow x = 1) {dv rhod : ℝ}
    (t : Sum Item) (hN : total t.leaves ≤ 2 ^ p) : momentFl fl pow false dv rhod t = total t.leaves := by
  simp only [momentFl, Bool.false_eq_true, if_false]
  induction t with
  | leaf a =>
    simp only [total, Sum.leaves, List.map_cons, List.map_nil, List.sum_cons, List.sum_nil, add_zero] at hN
    simp only [Sum.eval, termFl, hpow, mul_one, total, Sum.leaves, List.map_cons, List.map_nil, List.sum_cons, List.sum_nil, add_zero]
    rw [nearest_self (h a.n) (nat_mem hp hN), nearest_self (h a.n) (nat_mem hp hN)]
  | node l r ihl ihr =>
    have e : total (Sum.node l r).leaves = total l.leaves + total r.leaves := by simp [total, Sum.leaves]
    rw [e] at hN
    simp only [Sum.eval]
    rw [ihl (by omega), ihr (by omega), e, ← Nat.cast_add, nearest_self (h _) (nat_mem hp hN)]

/-- adding droplets one after another -/
def fromLeft (a : Item) (l : List Item) : Sum Item := l.foldl (fun t b => .node t (.leaf b)) (.leaf a)

theorem big_plus_one {fl : ℝ → ℝ} (h : Rounds 24 fl) : fl (2 ^ 25 + 1) = 2 ^ 25 := by
  have hm : ((2 : ℝ) ^ 25) ∈ F 24 := by have := zpow_mem (p := 24) (by norm_num) 25; norm_num at this ⊢; exact this
  have a := (h (2 ^ 25 + 1)).2 _ hm
  rw [show (2 : ℝ) ^ 25 - (2 ^ 25 + 1) = -1 by ring, abs_neg, abs_one] at a
  have hge := le_nearest (h (2 ^ 25 + 1)) hm (by norm_num)
  have hup := (abs_le.1 a).2
  obtain ⟨j, hj⟩ := multiple (h (2 ^ 25 + 1)).1 (m := 25) (by rw [abs_of_pos (by linarith [show (0 : ℝ) < 2 ^ 25 by norm_num])]; norm_num at hge ⊢; exact hge)
  norm_num at hj hge hup ⊢
  rw [hj] at hge hup ⊢
  have c1 : (8388608 : ℤ) ≤ j := by
    by_contra hc
    have : j ≤ 8388607 := by omega
    have : (j : ℝ) ≤ 8388607 := by exact_mod_cast this
    linarith
  have c2 : j ≤ 8388608 := by
    by_contra hc
    have : 8388609 ≤ j := by omega
    have : (8388609 : ℝ) ≤ j := by exact_mod_cast this
    linarith
  have : j = 8388608 := by omega
  rw [this]; norm_num

/-- **C121 is false beyond**: in single precision, after a super-droplet of multiplicity `2^25` any number of super-droplets of multiplicity
one may follow and none of them is counted -/
theorem count_stagnates {fl : ℝ → ℝ} (h : Rounds 24 fl) {pow : ℝ → ℝ} (hpow : ∀ x, pow x = 1) (dv rhod : ℝ) (N : ℕ) :
    momentFl fl pow false dv rhod (fromLeft ⟨2 ^ 25, 1⟩ (List.replicate N ⟨1, 1⟩)) = 2 ^ 25 ∧
      total (fromLeft ⟨2 ^ 25, 1⟩ (List.replicate N ⟨1, 1⟩)).leaves = 2 ^ 25 + N := by
  simp only [momentFl, Bool.false_eq_true, if_false]
  have hm : ((2 : ℝ) ^ 25) ∈ F 24 := by have := zpow_mem (p := 24) (by norm_num) 25; norm_num at this ⊢; exact this
  have h1 : fl 1 = 1 := nearest_self (h 1) (by simpa using nat_mem (p := 24) (n := 1) (by norm_num) (by norm_num))
  have hbig : termFl fl pow ⟨2 ^ 25, 1⟩ = 2 ^ 25 := by
    simp only [termFl, hpow, mul_one]
    rw [show ((2 ^ 25 : ℕ) : ℝ) = 2 ^ 25 by norm_num, nearest_self (h _) hm, nearest_self (h _) hm]
  have hone : termFl fl pow ⟨1, 1⟩ = 1 := by simp only [termFl, hpow, mul_one, Nat.cast_one, h1]
  have key : ∀ N : ℕ, ∀ t : Sum Item, t.eval fl (termFl fl pow) = 2 ^ 25 →
      ((List.replicate N (⟨1, 1⟩ : Item)).foldl (fun t b => Sum.node t (.leaf b)) t).eval fl (termFl fl pow) = 2 ^ 25 ∧
      total ((List.replicate N (⟨1, 1⟩ : Item)).foldl (fun t b => Sum.node t (.leaf b)) t).leaves = total t.leaves + N := by
    intro N
    induction N with
    | zero => intro t ht; exact ⟨ht, rfl⟩
    | succ N ih =>
      intro t ht
      rw [List.replicate_succ, List.foldl_cons]
      obtain ⟨a, b⟩ := ih (.node t (.leaf ⟨1, 1⟩)) (by simp only [Sum.eval]; rw [ht, hone, big_plus_one h])
      refine ⟨a, ?_⟩
      rw [b]; simp [total, Sum.leaves]; omega
  obtain ⟨a, b⟩ := key N (.leaf ⟨2 ^ 25, 1⟩) hbig
  exact ⟨a, by rw [show total (Sum.leaf (⟨2 ^ 25, 1⟩ : Item)).leaves = 2 ^ 25 by simp [total, Sum.leaves]] at b; exact b⟩

/-- **C121** and the result depends on the order of summation: the same four super-droplets, two orders, two numbers of droplets -/
theorem count_order_dependent {fl : ℝ → ℝ} (h : Rounds 24 fl) {pow : ℝ → ℝ} (hpow : ∀ x, pow x = 1) (dv rhod : ℝ) :
    ∃ t t' : Sum Item, t.leaves = t'.leaves ∧ t.leaves.length = 4 ∧
      momentFl fl pow false dv rhod t = 2 ^ 25 ∧ momentFl fl pow false dv rhod t' = 2 ^ 25 + 4 := by
  refine ⟨fromLeft ⟨2 ^ 25, 1⟩ (List.replicate 3 ⟨1, 1⟩),
    .node (.leaf ⟨2 ^ 25, 1⟩) (.node (.leaf ⟨1, 1⟩) (.node (.leaf ⟨1, 1⟩) (.leaf ⟨1, 1⟩))), rfl, rfl,
    (count_stagnates h hpow dv rhod 3).1, ?_⟩
  have hF : ∀ n : ℕ, n ≤ 2 ^ 24 → fl n = n := fun n hn => nearest_self (h _) (nat_mem (by norm_num) hn)
  have hm : ((2 : ℝ) ^ 25) ∈ F 24 := by have := zpow_mem (p := 24) (by norm_num) 25; norm_num at this ⊢; exact this
  have h1 : fl 1 = 1 := by simpa using hF 1 (by norm_num)
  have h2 : fl 2 = 2 := by simpa using hF 2 (by norm_num)
  have h3 : fl 3 = 3 := by simpa using hF 3 (by norm_num)
  have hs : fl (2 ^ 25 + 3) = 2 ^ 25 + 4 := by
    have := round_eval h (x := 2 ^ 25 + 3) 8388609 2 (by norm_num) (by norm_num) (by norm_num) (by rw [abs_lt]; norm_num)
    rw [this]; norm_num
  simp only [momentFl, Bool.false_eq_true, if_false, Sum.eval, termFl, hpow, mul_one, Nat.cast_one, h1]
  rw [show ((2 ^ 25 : ℕ) : ℝ) = 2 ^ 25 by norm_num, nearest_self (h _) hm, nearest_self (h _) hm, show (1 : ℝ) + 1 = 2 by norm_num, h2, show (1 : ℝ) + 2 = 3 by norm_num, h3, hs]

/-- `moment_error` for the third moment of two droplets, with any implementation of `pow` that is exact to one rounding -/
example {fl : ℝ → ℝ} (h : Rounds 53 fl) :
    momentFl fl (fun x => fl (|x| ^ 3)) true 1000 1 (.node (.leaf ⟨100, 1⟩) (.leaf ⟨7, 2⟩)) ≤
      (100 + 56) / 1000 * (1 + 2 ^ (-(53 : ℤ))) ^ 6 := by
  have := (moment_error h (by norm_num) (pow := fun x => fl (|x| ^ 3)) (k := fun x => |x| ^ 3) (fun x => by positivity)
    (fun x => by
      have := rel_error (by norm_num) (h (|x| ^ 3))
      rwa [abs_of_nonneg (show (0 : ℝ) ≤ |x| ^ 3 by positivity)] at this)
    (specific := true) (dv := 1000) (rhod := 1) (by norm_num) (by norm_num) (.node (.leaf ⟨100, 1⟩) (.leaf ⟨7, 2⟩))).2
  simp only [Sum.leaves, exactMoment] at this
  norm_num at this ⊢
  exact this

end LCP.Float
