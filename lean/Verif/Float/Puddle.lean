import Verif.Float.Moment
import Verif.Float.Sedi

/-!
# C138: accumulated precipitation in floating-point arithmetic

Sources: src/impl/boundary_conditions/particles_impl_bcnd.ipp:31-54 (`count_vol`), 77-89 (`count_num`), 244-301 (bottom edge), src/particles_ctor.ipp:72-75 (zero at the start).
Every output of the puddle is a `real_t` to which the sum over the super-droplets that fell out in the time step is added, for the whole run.  Super-droplets that did not
fall out enter the sum with multiplicity zero, as does the initial value of the reduction.
-/
namespace LCP.Float

/-- `count_vol` (particles_impl_bcnd.ipp:39-53): `4./3.` is a `double`, hence the products are rounded to the precision of `fq` and only the result to `real_t`; the
multiplicity has been copied to a vector of `real_t` (l. 244-258); `pi` is the constant of type `real_t`, `pow` the library's power -/
noncomputable def volFl (fl fq : ℝ → ℝ) (pi : ℝ) (pow : ℝ → ℝ) (a : Item) : ℝ := fl (fq (fq (fq (fq (4 / 3) * pi) * fl a.n) * pow a.x))

/-- `count_num` for a liquid droplet (particles_impl_bcnd.ipp:83-88) -/
def numFl (fl : ℝ → ℝ) (a : Item) : ℝ := fl a.n

/-- an output of the puddle after a run (particles_impl_bcnd.ipp:260-301): `f` is the contribution of a super-droplet, one sum per time step -/
noncomputable def puddleFl (fl : ℝ → ℝ) (f : Item → ℝ) (run : List (Sum Item)) : ℝ := run.foldl (fun P t => fl (P + t.eval fl f)) 0

/-! ### Specification -/

/-- volume that fell out in a run; `cube` gives the cube of the radius -/
noncomputable def fallenVolume (cube : ℝ → ℝ) (run : List (Sum Item)) : ℝ := (run.map fun t => (t.leaves.map fun a => 4 / 3 * Real.pi * a.n * cube a.x).sum).sum

/-- number of droplets that fell out in a run -/
def fallenNumber (run : List (Sum Item)) : ℕ := (run.map fun t => (t.leaves.map Item.n).sum).sum

/-! ### Accuracy -/

/-- a rounding to a higher precision is at least as good -/
theorem Within.round' {p q : ℕ} {fq : ℝ → ℝ} (h : Rounds q fq) (hp : 1 ≤ p) (hpq : p ≤ q) {m : ℕ} {x y : ℝ} (hx : 0 ≤ x)
    (hw : Within (2 ^ (-(p : ℤ))) m x y) : Within (2 ^ (-(p : ℤ))) (m + 1) x (fq y) := by
  have hy := hw.nonneg (eps_le_one p) hx
  have hw1 : Within (2 ^ (-(q : ℤ))) 1 y (fq y) := Within.round h (hp.trans hpq) hy (m := 0) ⟨by simp, by simp⟩
  have hle : (2 : ℝ) ^ (-(q : ℤ)) ≤ 2 ^ (-(p : ℤ)) := zpow_le_zpow_right₀ (by norm_num) (by omega)
  obtain ⟨a, b⟩ := hw1
  have e1 := eps_le_one p
  have e0 := (eps_pos p).le
  rw [pow_one] at a b
  constructor
  · calc x * (1 - 2 ^ (-(p : ℤ))) ^ (m + 1) = x * (1 - 2 ^ (-(p : ℤ))) ^ m * (1 - 2 ^ (-(p : ℤ))) := by ring
      _ ≤ y * (1 - 2 ^ (-(p : ℤ))) := mul_le_mul_of_nonneg_right hw.1 (by linarith)
      _ ≤ y * (1 - 2 ^ (-(q : ℤ))) := mul_le_mul_of_nonneg_left (by linarith) hy
      _ ≤ fq y := a
  · calc fq y ≤ y * (1 + 2 ^ (-(q : ℤ))) := b
      _ ≤ y * (1 + 2 ^ (-(p : ℤ))) := mul_le_mul_of_nonneg_left (by linarith) hy
      _ ≤ x * (1 + 2 ^ (-(p : ℤ))) ^ m * (1 + 2 ^ (-(p : ℤ))) := mul_le_mul_of_nonneg_right hw.2 (by linarith)
      _ = x * (1 + 2 ^ (-(p : ℤ))) ^ (m + 1) := by ring

theorem vol_within {p q : ℕ} {fl fq : ℝ → ℝ} (h : Rounds p fl) (hq : Rounds q fq) (hp : 1 ≤ p) (hpq : p ≤ q) {pi : ℝ} (hpi : |pi - Real.pi| ≤ Real.pi * 2 ^ (-(p : ℤ)))
    {pow cube : ℝ → ℝ} (hk : ∀ x, 0 ≤ cube x) (hpow : ∀ x, |pow x - cube x| ≤ cube x * 2 ^ (-(p : ℤ))) (a : Item) :
    Within (2 ^ (-(p : ℤ))) 8 (4 / 3 * Real.pi * a.n * cube a.x) (volFl fl fq pi pow a) := by
  have e0 := (eps_pos p).le
  have e1 := eps_le_one p
  have hpi0 := Real.pi_pos.le
  have w0 : Within (2 ^ (-(p : ℤ))) 1 (4 / 3) (fq (4 / 3)) := Within.round' hq hp hpq (by norm_num) (m := 0) ⟨by simp, by simp⟩
  have of_abs : ∀ x y : ℝ, |y - x| ≤ x * 2 ^ (-(p : ℤ)) → Within (2 ^ (-(p : ℤ))) 1 x y := by
    intro x y hxy
    have := abs_le.1 hxy
    constructor <;> rw [pow_one] <;> linarith
  have w1 := Within.round' hq hp hpq (by positivity) (w0.mul e0 e1 (by norm_num) hpi0 (of_abs _ _ hpi))
  have w2 : Within (2 ^ (-(p : ℤ))) 1 (a.n : ℝ) (fl a.n) := Within.round h hp (Nat.cast_nonneg _) (m := 0) ⟨by simp, by simp⟩
  have w3 := Within.round' hq hp hpq (by positivity) (w1.mul e0 e1 (by positivity) (Nat.cast_nonneg _) w2)
  have hn : 0 ≤ 4 / 3 * Real.pi * (a.n : ℝ) := by positivity
  have w4 := Within.round' hq hp hpq (mul_nonneg hn (hk _)) (w3.mul e0 e1 hn (hk a.x) (of_abs _ _ (hpow a.x)))
  have w5 := Within.round h hp (mul_nonneg hn (hk _)) w4
  exact w5.mono e0 e1 (mul_nonneg hn (hk _)) (by norm_num)

/-- accumulation over the time steps -/
theorem puddle_within {p : ℕ} {fl : ℝ → ℝ} (h : Rounds p fl) (hp : 1 ≤ p) {f g : Item → ℝ} {m N : ℕ} (hg : ∀ a, 0 ≤ g a)
    (hf : ∀ a, Within (2 ^ (-(p : ℤ))) m (g a) (f a)) (run : List (Sum Item)) (hN : ∀ t ∈ run, t.leaves.length ≤ N) :
    Within (2 ^ (-(p : ℤ))) (m + N + run.length) ((run.map fun t => (t.leaves.map g).sum).sum) (puddleFl fl f run) := by
  have e0 := (eps_pos p).le
  have e1 := eps_le_one p
  have hnn : ∀ l : List Item, 0 ≤ (l.map g).sum := fun l => List.sum_nonneg (by simp only [List.mem_map]; rintro _ ⟨a, _, rfl⟩; exact hg a)
  have key : ∀ (run : List (Sum Item)) (k : ℕ) (X P : ℝ), (∀ t ∈ run, t.leaves.length ≤ N) → 0 ≤ X → Within (2 ^ (-(p : ℤ))) (m + N + k) X P →
      Within (2 ^ (-(p : ℤ))) (m + N + (k + run.length)) (X + (run.map fun t => (t.leaves.map g).sum).sum) (run.foldl (fun P t => fl (P + t.eval fl f)) P) := by
    intro run
    induction run with
    | nil => intro k X P _ _ hw; simpa using hw
    | cons t l ih =>
      intro k X P hl hX hw
      have hs := sum_within h hp hg hf t
      have ht := hl t (by simp)
      have w := Within.round h hp (add_nonneg hX (hnn _)) (hw.add (hs.mono e0 e1 (hnn _) (by omega : m + (t.leaves.length - 1) ≤ m + N + k)))
      have := ih (k + 1) (X + (t.leaves.map g).sum) _ (fun t ht => hl t (List.mem_cons_of_mem _ ht)) (add_nonneg hX (hnn _)) w
      rw [List.map_cons, List.sum_cons, List.foldl_cons, List.length_cons, ← add_assoc X, show k + (l.length + 1) = k + 1 + l.length by omega]
      exact this
  have := key run 0 0 0 hN le_rfl ⟨by simp, by simp⟩
  simpa [puddleFl] using this

/-- **C138 (volume).** For every order of summation, at every number of threads, the accumulated volume is the volume that fell out up to one rounding per time step, one per
super-droplet, and eight -/
theorem puddle_volume {p q : ℕ} {fl fq : ℝ → ℝ} (h : Rounds p fl) (hq : Rounds q fq) (hp : 1 ≤ p) (hpq : p ≤ q) {pi : ℝ} (hpi : |pi - Real.pi| ≤ Real.pi * 2 ^ (-(p : ℤ)))
    {pow cube : ℝ → ℝ} (hk : ∀ x, 0 ≤ cube x) (hpow : ∀ x, |pow x - cube x| ≤ cube x * 2 ^ (-(p : ℤ))) (run : List (Sum Item)) (N : ℕ) (hN : ∀ t ∈ run, t.leaves.length ≤ N) :
    fallenVolume cube run * (1 - 2 ^ (-(p : ℤ))) ^ (8 + N + run.length) ≤ puddleFl fl (volFl fl fq pi pow) run ∧
    puddleFl fl (volFl fl fq pi pow) run ≤ fallenVolume cube run * (1 + 2 ^ (-(p : ℤ))) ^ (8 + N + run.length) :=
  puddle_within h hp (fun a => mul_nonneg (by have := Real.pi_pos; positivity) (hk _)) (vol_within h hq hp hpq hpi hk hpow) run hN

theorem add_nonneg_ge {p : ℕ} {fl : ℝ → ℝ} (h : Rounds p fl) {P s : ℝ} (hP : P ∈ F p) (hs : 0 ≤ s) : P ≤ fl (P + s) :=
  le_nearest (h _) hP (by linarith)

theorem eval_nonneg {p : ℕ} {fl : ℝ → ℝ} (h : Rounds p fl) {f : Item → ℝ} (hf : ∀ a, 0 ≤ f a) (t : Sum Item) : 0 ≤ t.eval fl f := by
  induction t with
  | leaf a => exact hf a
  | node l r ihl ihr => exact le_nearest (h _) (zero_mem p) (add_nonneg ihl ihr)

theorem puddle_mem {p : ℕ} {fl : ℝ → ℝ} (h : Rounds p fl) (f : Item → ℝ) (run : List (Sum Item)) : puddleFl fl f run ∈ F p := by
  rcases List.eq_nil_or_concat run with rfl | ⟨l, t, rfl⟩
  · exact zero_mem p
  · simp only [puddleFl, List.concat_eq_append, List.foldl_append, List.foldl_cons, List.foldl_nil]
    exact (h _).1

/-- **C138 (never decreasing).** Whatever falls out, an output of the puddle does not decrease -/
theorem puddle_grows {p : ℕ} {fl : ℝ → ℝ} (h : Rounds p fl) {f : Item → ℝ} (hf : ∀ a, 0 ≤ f a) (run later : List (Sum Item)) :
    puddleFl fl f run ≤ puddleFl fl f (run ++ later) := by
  induction later using List.reverseRecOn with
  | nil => simp
  | append_singleton l t ih =>
    refine ih.trans ?_
    have e : puddleFl fl f (run ++ (l ++ [t])) = fl (puddleFl fl f (run ++ l) + t.eval fl f) := by
      simp [puddleFl, ← List.append_assoc, List.foldl_append]
    rw [e]
    exact add_nonneg_ge h (puddle_mem h f _) (eval_nonneg h hf t)

/-- **C138 (number).** The number of droplets that fell out is exact as long as it is at most `2^p` -/
theorem puddle_number {p : ℕ} {fl : ℝ → ℝ} (h : Rounds p fl) (hp : 1 ≤ p) (run : List (Sum Item)) (hN : fallenNumber run ≤ 2 ^ p) :
    puddleFl fl (numFl fl) run = fallenNumber run := by
  have hsum : ∀ t : Sum Item, (t.leaves.map Item.n).sum ≤ 2 ^ p → t.eval fl (numFl fl) = ((t.leaves.map Item.n).sum : ℕ) := by
    intro t ht
    have := count_exact_partial h hp (pow := fun _ => 1) (fun _ => rfl) (dv := 1) (rhod := 1) t ht
    simp only [momentFl, Bool.false_eq_true, if_false] at this
    rw [total] at this
    rw [← this]
    clear this
    induction t with
    | leaf a =>
      simp only [Sum.leaves, List.map_cons, List.map_nil, List.sum_cons, List.sum_nil, add_zero] at ht
      simp only [Sum.eval, numFl, termFl, mul_one]
      rw [nearest_self (h a.n) (nat_mem hp ht), nearest_self (h a.n) (nat_mem hp ht)]
    | node l r ihl ihr =>
      simp only [Sum.leaves, List.map_append, List.sum_append] at ht
      simp only [Sum.eval]
      rw [ihl (by omega), ihr (by omega)]
  induction run using List.reverseRecOn with
  | nil => simp [puddleFl, fallenNumber]
  | append_singleton l t ih =>
    have e : fallenNumber (l ++ [t]) = fallenNumber l + (t.leaves.map Item.n).sum := by simp [fallenNumber]
    have e2 : puddleFl fl (numFl fl) (l ++ [t]) = fl (puddleFl fl (numFl fl) l + t.eval fl (numFl fl)) := by simp [puddleFl]
    rw [e] at hN
    rw [e2, e, ih (by omega), hsum t (by omega), ← Nat.cast_add, nearest_self (h _) (nat_mem hp hN)]

/-! ### Light rain after heavy rain -/

/-- a contribution of less than half a unit in the last place is lost -/
theorem add_stuck {p : ℕ} {fl : ℝ → ℝ} (h : Rounds p fl) (hp : 1 ≤ p) (m : ℤ) {P s : ℝ} (hP : P ∈ F p) (hm : 2 ^ m < P) (h0 : 0 ≤ s) (h1 : s < 2 ^ (m - p)) :
    fl (P + s) = P := by
  by_contra hne
  have a := gap_below hp hP hm (h (P + s)).1 hne
  have b := (h (P + s)).2 P hP
  rw [show P - (P + s) = -s by ring, abs_neg, abs_of_nonneg h0] at b
  have half : (2 : ℝ) ^ (m + 1 - p) = 2 * 2 ^ (m - (p : ℤ)) := by
    rw [show m + 1 - (p : ℤ) = (m - p) + 1 by ring, zpow_add_one₀ (by norm_num)]; ring
  have c : |fl (P + s) - P| ≤ |fl (P + s) - (P + s)| + s := by
    calc |fl (P + s) - P| = |(fl (P + s) - (P + s)) + s| := by congr 1; ring
      _ ≤ |fl (P + s) - (P + s)| + |s| := abs_add_le _ _
      _ = _ := by rw [abs_of_nonneg h0]
  linarith

/-- **C138 is false for light rain after heavy rain.** Once an output of the puddle exceeds `2^m`, time steps adding less than `2^(m-p)` (half a unit in the last place) leave it
as it is, however many of them there are: everything that falls out in them is lost -/
theorem light_rain_lost {p : ℕ} {fl : ℝ → ℝ} (h : Rounds p fl) (hp : 1 ≤ p) (m : ℤ) {f : Item → ℝ} (run later : List (Sum Item)) (hP : 2 ^ m < puddleFl fl f run)
    (hl : ∀ t ∈ later, 0 ≤ t.eval fl f ∧ t.eval fl f < 2 ^ (m - p)) : puddleFl fl f (run ++ later) = puddleFl fl f run := by
  induction later using List.reverseRecOn with
  | nil => simp
  | append_singleton l t ih =>
    have e : puddleFl fl f (run ++ (l ++ [t])) = fl (puddleFl fl f (run ++ l) + t.eval fl f) := by
      simp [puddleFl, ← List.append_assoc, List.foldl_append]
    rw [e, ih fun t ht => hl t (by simp [ht])]
    obtain ⟨a, b⟩ := hl t (by simp)
    exact add_stuck h hp m (puddle_mem h f _) hP a b

/-- just above a power of two the numbers are two units apart -/
theorem top_stuck {p : ℕ} {fl : ℝ → ℝ} (h : Rounds p fl) (hp : 1 ≤ p) (j : ℤ) {s : ℝ} (h0 : 0 ≤ s) (h1 : s < 2 ^ j) : fl (2 ^ (j + p) + s) = 2 ^ (j + p) := by
  have hm := zpow_mem (p := p) hp (j + p)
  have a := (h (2 ^ (j + p) + s)).2 _ hm
  rw [show (2 : ℝ) ^ (j + (p : ℤ)) - (2 ^ (j + (p : ℤ)) + s) = -s by ring, abs_neg, abs_of_nonneg h0] at a
  have hge := le_nearest (h (2 ^ (j + (p : ℤ)) + s)) hm (by linarith)
  obtain ⟨i, hi⟩ := multiple (h (2 ^ (j + (p : ℤ)) + s)).1 (m := j + p) (by rw [abs_of_nonneg (le_trans (by positivity) hge)]; exact hge)
  have hup := (abs_le.1 a).2
  have hj0 : (0 : ℝ) < 2 ^ j := by positivity
  have e1 : (2 : ℝ) ^ (j + (p : ℤ) + 1 - p) = 2 * 2 ^ j := by
    rw [show j + (p : ℤ) + 1 - p = j + 1 by ring, zpow_add_one₀ (by norm_num)]; ring
  have e2 : (2 : ℝ) ^ (j + (p : ℤ)) = ((2 ^ (p - 1) : ℤ) : ℝ) * (2 * 2 ^ j) := by
    push_cast
    obtain ⟨n, rfl⟩ : ∃ n, p = n + 1 := ⟨p - 1, by omega⟩
    rw [zpow_add₀ (by norm_num), zpow_natCast, Nat.add_sub_cancel, pow_succ]; ring
  rw [e1] at hi
  rw [e2] at hi hge hup ⊢
  rw [hi] at hge hup ⊢
  have c1 : (2 ^ (p - 1) : ℤ) ≤ i := by
    have := le_of_mul_le_mul_right hge (by positivity)
    exact_mod_cast this
  have c2 : i < 2 ^ (p - 1) + 1 := by
    have : (i : ℝ) * (2 * 2 ^ j) < (((2 ^ (p - 1) : ℤ) : ℝ) + 1) * (2 * 2 ^ j) := by linarith
    have := lt_of_mul_lt_mul_right this (by positivity)
    exact_mod_cast this
  have : i = 2 ^ (p - 1) := by omega
  rw [this]

/-- **C138 is false for long runs.** If in no time step as much as `2^j` falls out, the output of the puddle never exceeds `2^(j+p)`, whatever the length of the run -/
theorem puddle_saturates {p : ℕ} {fl : ℝ → ℝ} (h : Rounds p fl) (hp : 1 ≤ p) (j : ℤ) {f : Item → ℝ} (run : List (Sum Item))
    (hs : ∀ t ∈ run, 0 ≤ t.eval fl f ∧ t.eval fl f < 2 ^ j) : puddleFl fl f run ≤ 2 ^ (j + p) := by
  induction run using List.reverseRecOn with
  | nil => simp only [puddleFl, List.foldl_nil]; positivity
  | append_singleton l t ih =>
    have e : puddleFl fl f (l ++ [t]) = fl (puddleFl fl f l + t.eval fl f) := by simp [puddleFl]
    have hle := ih fun t ht => hs t (by simp [ht])
    obtain ⟨a, b⟩ := hs t (by simp)
    rw [e]
    rcases hle.eq_or_lt with q | q
    · rw [q, top_stuck h hp j a b]
    · have := nearest_mono (h (puddleFl fl f l + t.eval fl f)) (h (2 ^ (j + p) + t.eval fl f)) (by linarith)
      rwa [top_stuck h hp j a b] at this

/-- in single precision: one droplet in each of `T` time steps, and the number of droplets that fell out is never reported to be more than 33554432 -/
theorem drizzle_lost {fl : ℝ → ℝ} (h : Rounds 24 fl) (T : ℕ) (x : ℝ) :
    fallenNumber (List.replicate T (.leaf ⟨1, x⟩)) = T ∧ puddleFl fl (numFl fl) (List.replicate T (.leaf ⟨1, x⟩)) ≤ 33554432 := by
  have h1 : fl 1 = 1 := nearest_self (h 1) (by simpa using nat_mem (p := 24) (n := 1) (by norm_num) (by norm_num))
  refine ⟨by simp [fallenNumber, Sum.leaves], ?_⟩
  have := puddle_saturates h (by norm_num) 1 (f := numFl fl) (List.replicate T (.leaf ⟨1, x⟩)) fun t ht => by
    rw [List.eq_of_mem_replicate ht]
    simp only [Sum.eval, numFl, Nat.cast_one, h1]
    norm_num
  norm_num at this
  exact this

/-- non-vacuity: a shower of forty million droplets in one time step, then drizzle for ever: not one of its droplets is counted -/
example {fl : ℝ → ℝ} (h : Rounds 24 fl) (T : ℕ) : puddleFl fl (numFl fl) ([.leaf ⟨40000000, 1⟩] ++ List.replicate T (.leaf ⟨1, 1⟩)) = 40000000 := by
  have h1 : fl 1 = 1 := nearest_self (h 1) (by simpa using nat_mem (p := 24) (n := 1) (by norm_num) (by norm_num))
  have hm : (40000000 : ℝ) ∈ F 24 := ⟨5000000, 3, by norm_num, by norm_num⟩
  have e : puddleFl fl (numFl fl) [.leaf ⟨40000000, 1⟩] = 40000000 := by
    simp only [puddleFl, List.foldl_cons, List.foldl_nil, Sum.eval, numFl, zero_add]
    rw [show ((40000000 : ℕ) : ℝ) = 40000000 by norm_num, nearest_self (h _) hm, nearest_self (h _) hm]
  rw [light_rain_lost h (by norm_num) 25 _ _ (by rw [e]; norm_num) fun t ht => ?_, e]
  rw [List.eq_of_mem_replicate ht]
  simp only [Sum.eval, numFl, Nat.cast_one, h1]
  norm_num

/-- non-vacuity of `puddle_volume`: one droplet of a micrometre in each of two steps, exact functions and constant -/
example {fl fq : ℝ → ℝ} (h : Rounds 24 fl) (hq : Rounds 53 fq) :
    puddleFl fl (volFl fl fq Real.pi fun x => |x| ^ 3) [.leaf ⟨5, 1e-6⟩, .leaf ⟨7, 1e-6⟩] ≤
      fallenVolume (fun x => |x| ^ 3) [.leaf ⟨5, 1e-6⟩, .leaf ⟨7, 1e-6⟩] * (1 + 2 ^ (-(24 : ℤ))) ^ 11 :=
  (puddle_volume h hq (by norm_num) (by norm_num) (by simp; positivity) (fun x => by positivity) (fun x => by simp) _ 1 (by simp [Sum.leaves])).2

end LCP.Float
