import Verif.Float.Coal

/-!
# C127: hygroscopicity after collisions in floating-point arithmetic

Source: src/impl/coalescence/particles_impl_coal.ipp:61-96 (`weighted_summator`), called for all pairs after `collider` when there is
more than one hygroscopicity.  Pairs are disjoint, so doing both for one pair after another gives the same (Coal/, C04).
Without contraction of products and sums; the number of collisions is below 2^31 (`int ci`).
-/
namespace LCP.Float

/-- dry size the receiver had before the collisions, recovered by a subtraction (particles_impl_coal.ipp:69-74) -/
noncomputable def oldRd3 (fl : ℝ → ℝ) (k : ℕ) (new don : ℝ) : ℝ := fl (new - fl (fl k * don))

/-- the mean of two hygroscopicities weighted by dry volumes (particles_impl_coal.ipp:81-83, 90-92) -/
noncomputable def kapMean (fl : ℝ → ℝ) (kd vd kr vr : ℝ) : ℝ := fl (fl (fl (kd * vd) + fl (kr * vr)) / fl (vd + vr))

/-- loop over collisions of the pair: hygroscopicity and dry size of the receiver (particles_impl_coal.ipp:76-94) -/
noncomputable def kapLoop (fl : ℝ → ℝ) (kd vd : ℝ) : ℕ → ℝ × ℝ → ℝ × ℝ
  | 0, q => q
  | m + 1, q => kapLoop fl kd vd m (kapMean fl kd vd q.1 q.2, fl (q.2 + vd))

/-- trip count of `for(int ci=0; ci<col; ++ci)`, `col` being `real_t` (particles_impl_coal.ipp:76, 265) -/
noncomputable def trips (fl : ℝ → ℝ) (k : ℕ) : ℕ := ⌈fl k⌉₊

/-- sizes and hygroscopicities of the population -/
structure Pop where
  d : ℕ → Drop
  kap : ℕ → ℝ

/-- collisions of one pair: `collide`, then `weighted_summator` with the new sizes; nothing if `col_no` is 0
(particles_impl_coal.ipp:65, 109-143) -/
noncomputable def hitK (A : Arith) (s : Pop) (e : Ev) : Pop :=
  { d := hit A s.d e
    kap := Function.update s.kap e.rcv
      (kapLoop A.fl (s.kap e.don) (hit A s.d e e.don).rd3 (trips A.fl e.k)
        (s.kap e.rcv, oldRd3 A.fl e.k (hit A s.d e e.rcv).rd3 (hit A s.d e e.don).rd3)).1 }

/-- any number of collisions of pairs, over any number of substeps -/
noncomputable def runK (A : Arith) (l : List Ev) (s : Pop) : Pop := l.foldl (hitK A) s

/-- number of averages taken in a history -/
noncomputable def averages (A : Arith) (l : List Ev) : ℕ := (l.map fun e => trips A.fl e.k).sum

theorem oldRd3_nonneg {fl : ℝ → ℝ} {p : ℕ} (h : Rounds p fl) {k : ℕ} {don r : ℝ} (hr : 0 ≤ r) :
    0 ≤ oldRd3 fl k (fl (fl (fl k * don) + r)) don := by
  have a : fl (fl k * don) ≤ fl (fl (fl k * don) + r) := le_nearest (h _) (h _).1 (by linarith)
  exact le_nearest (h _) (zero_mem p) (by linarith)

/-- factors by which one average can lower or raise the extreme hygroscopicities -/
noncomputable def lower (p : ℕ) : ℝ := (1 - 2 ^ (-(p : ℤ))) ^ 3 / (1 + 2 ^ (-(p : ℤ)))
noncomputable def upper (p : ℕ) : ℝ := (1 + 2 ^ (-(p : ℤ))) ^ 3 / (1 - 2 ^ (-(p : ℤ)))

theorem eps_le_half {p : ℕ} (hp : 1 ≤ p) : (2 : ℝ) ^ (-(p : ℤ)) ≤ 1 / 2 := by
  calc (2 : ℝ) ^ (-(p : ℤ)) ≤ 2 ^ (-1 : ℤ) := zpow_le_zpow_right₀ (by norm_num) (by omega)
    _ = 1 / 2 := by norm_num

theorem lower_pos {p : ℕ} (hp : 1 ≤ p) : 0 < lower p := by
  have := eps_le_half hp; have := eps_pos p
  unfold lower; exact div_pos (pow_pos (by linarith) _) (by linarith)

theorem lower_le_one {p : ℕ} (hp : 1 ≤ p) : lower p ≤ 1 := by
  have := eps_le_half hp; have := eps_pos p
  unfold lower
  rw [div_le_one (by linarith)]
  exact (pow_le_one₀ (by linarith) (by linarith)).trans (by linarith)

theorem one_le_upper {p : ℕ} (hp : 1 ≤ p) : 1 ≤ upper p := by
  have := eps_le_half hp; have := eps_pos p
  unfold upper
  rw [one_le_div (by linarith)]
  exact le_trans (by linarith) (one_le_pow₀ (n := 3) (by linarith : (1:ℝ) ≤ 1 + 2 ^ (-(p : ℤ))))

theorem fl_within {fl : ℝ → ℝ} {p : ℕ} (h : Rounds p fl) (hp : 1 ≤ p) {x : ℝ} (hx : 0 ≤ x) :
    x * (1 - 2 ^ (-(p : ℤ))) ≤ fl x ∧ fl x ≤ x * (1 + 2 ^ (-(p : ℤ))) := by
  have := rel_error hp (h x)
  rw [abs_of_nonneg hx, abs_le] at this
  constructor <;> nlinarith [this.1, this.2]

theorem kapMean_range {fl : ℝ → ℝ} {p : ℕ} (h : Rounds p fl) (hp : 1 ≤ p) {kd vd kr vr lo hi : ℝ} (hlo : 0 ≤ lo)
    (hkd : lo ≤ kd ∧ kd ≤ hi) (hkr : lo ≤ kr ∧ kr ≤ hi) (hvd : 0 < vd) (hvr : 0 ≤ vr) :
    lo * lower p ≤ kapMean fl kd vd kr vr ∧ kapMean fl kd vd kr vr ≤ hi * upper p := by
  have e1 := eps_le_half hp
  have e0 := eps_pos p
  have kd0 : 0 ≤ kd := hlo.trans hkd.1
  have kr0 : 0 ≤ kr := hlo.trans hkr.1
  have hi0 : 0 ≤ hi := kd0.trans hkd.2
  have hw : ∀ x : ℝ, 0 ≤ x → x * (1 - 2 ^ (-(p : ℤ))) ≤ fl x ∧ fl x ≤ x * (1 + 2 ^ (-(p : ℤ))) := fun x hx => fl_within h hp hx
  unfold kapMean lower upper
  generalize (2 : ℝ) ^ (-(p : ℤ)) = e at *
  have ne : 0 < 1 - e := by linarith
  have pe : 0 < 1 + e := by linarith
  have V0 : 0 < vd + vr := by linarith
  obtain ⟨a1, a2⟩ := hw _ (mul_nonneg kd0 hvd.le)
  obtain ⟨b1, b2⟩ := hw _ (mul_nonneg kr0 hvr)
  obtain ⟨c1, c2⟩ := hw _ V0.le
  have A0 : 0 ≤ fl (kd * vd) := le_trans (mul_nonneg (mul_nonneg kd0 hvd.le) ne.le) a1
  have B0 : 0 ≤ fl (kr * vr) := le_trans (mul_nonneg (mul_nonneg kr0 hvr) ne.le) b1
  have D0 : 0 < fl (vd + vr) := lt_of_lt_of_le (mul_pos V0 ne) c1
  obtain ⟨s1, s2⟩ := hw _ (add_nonneg A0 B0)
  have l1 : lo * (vd + vr) * (1 - e) ≤ fl (kd * vd) + fl (kr * vr) := by
    have u1 := mul_le_mul_of_nonneg_right (mul_le_mul_of_nonneg_right hkd.1 hvd.le) ne.le
    have u2 := mul_le_mul_of_nonneg_right (mul_le_mul_of_nonneg_right hkr.1 hvr) ne.le
    nlinarith [u1, u2, a1, b1]
  have l2 : fl (kd * vd) + fl (kr * vr) ≤ hi * (vd + vr) * (1 + e) := by
    have u1 := mul_le_mul_of_nonneg_right (mul_le_mul_of_nonneg_right hkd.2 hvd.le) pe.le
    have u2 := mul_le_mul_of_nonneg_right (mul_le_mul_of_nonneg_right hkr.2 hvr) pe.le
    nlinarith [u1, u2, a2, b2]
  generalize fl (fl (kd * vd) + fl (kr * vr)) = N at *
  generalize fl (kd * vd) + fl (kr * vr) = S at *
  have N1 : lo * (vd + vr) * (1 - e) ^ 2 ≤ N := by
    have := mul_le_mul_of_nonneg_right l1 ne.le
    nlinarith [this, s1]
  have N2 : N ≤ hi * (vd + vr) * (1 + e) ^ 2 := by
    have := mul_le_mul_of_nonneg_right l2 pe.le
    nlinarith [this, s2]
  have N0 : 0 ≤ N := le_trans (mul_nonneg (mul_nonneg hlo V0.le) (sq_nonneg _)) N1
  have q1 : lo * ((1 - e) ^ 2 / (1 + e)) ≤ N / fl (vd + vr) := by
    rw [le_div_iff₀ D0]
    calc lo * ((1 - e) ^ 2 / (1 + e)) * fl (vd + vr) ≤ lo * ((1 - e) ^ 2 / (1 + e)) * ((vd + vr) * (1 + e)) :=
          mul_le_mul_of_nonneg_left c2 (mul_nonneg hlo (div_nonneg (sq_nonneg _) pe.le))
      _ = lo * (vd + vr) * (1 - e) ^ 2 := by field_simp
      _ ≤ N := N1
  have q2 : N / fl (vd + vr) ≤ hi * ((1 + e) ^ 2 / (1 - e)) := by
    rw [div_le_iff₀ D0]
    calc N ≤ hi * (vd + vr) * (1 + e) ^ 2 := N2
      _ = hi * ((1 + e) ^ 2 / (1 - e)) * ((vd + vr) * (1 - e)) := by field_simp
      _ ≤ hi * ((1 + e) ^ 2 / (1 - e)) * fl (vd + vr) :=
          mul_le_mul_of_nonneg_left c1 (mul_nonneg hi0 (div_nonneg (sq_nonneg _) ne.le))
  obtain ⟨r1, r2⟩ := hw _ (div_nonneg N0 D0.le)
  constructor
  · calc lo * ((1 - e) ^ 3 / (1 + e)) = lo * ((1 - e) ^ 2 / (1 + e)) * (1 - e) := by ring
      _ ≤ N / fl (vd + vr) * (1 - e) := mul_le_mul_of_nonneg_right q1 ne.le
      _ ≤ _ := r1
  · calc fl (N / fl (vd + vr)) ≤ N / fl (vd + vr) * (1 + e) := r2
      _ ≤ hi * ((1 + e) ^ 2 / (1 - e)) * (1 + e) := mul_le_mul_of_nonneg_right q2 pe.le
      _ = _ := by ring

theorem kapLoop_range {fl : ℝ → ℝ} {p : ℕ} (h : Rounds p fl) (hp : 1 ≤ p) {kd vd lo hi : ℝ} (hlo : 0 ≤ lo)
    (hkd : lo ≤ kd ∧ kd ≤ hi) (hvd : 0 < vd) (m j : ℕ) (q : ℝ × ℝ) (hq : lo * lower p ^ j ≤ q.1 ∧ q.1 ≤ hi * upper p ^ j)
    (hv : 0 ≤ q.2) :
    lo * lower p ^ (j + m) ≤ (kapLoop fl kd vd m q).1 ∧ (kapLoop fl kd vd m q).1 ≤ hi * upper p ^ (j + m) := by
  have hi0 : 0 ≤ hi := hlo.trans (hkd.1.trans hkd.2)
  induction m generalizing j q with
  | zero => simpa [kapLoop] using hq
  | succ m ih =>
    have L1 : lo * lower p ^ j ≤ lo := mul_le_of_le_one_right hlo (pow_le_one₀ (lower_pos hp).le (lower_le_one hp))
    have U1 : hi ≤ hi * upper p ^ j := le_mul_of_one_le_right hi0 (one_le_pow₀ (one_le_upper hp))
    obtain ⟨a, b⟩ := kapMean_range h hp (mul_nonneg hlo (pow_nonneg (lower_pos hp).le j)) ⟨L1.trans hkd.1, hkd.2.trans U1⟩ hq hvd hv
    have := ih (j + 1) (kapMean fl kd vd q.1 q.2, fl (q.2 + vd)) ⟨by rw [pow_succ, ← mul_assoc]; exact a, by rw [pow_succ, ← mul_assoc]; exact b⟩
      (le_nearest (h _) (zero_mem p) (by linarith))
    rw [show j + (m + 1) = j + 1 + m by ring]
    exact this

/-- **C127.** For every population with positive dry sizes and hygroscopicities between `lo` and `hi`, and every history of
collisions (any pairs, any number of collisions, any number of substeps): every hygroscopicity stays within the initial range up to
four roundings per average taken, and dry sizes stay positive. -/
theorem kappa_range {A : Arith} {p : ℕ} (h : A.Ok p) (hf : A.fma = false) (hp : 1 ≤ p) (lo hi : ℝ) (hlo : 0 ≤ lo) (l : List Ev)
    (s : Pop) (hne : ∀ e ∈ l, e.don ≠ e.rcv) (hv : ∀ i, 0 < (s.d i).rd3) (hk : ∀ i, lo ≤ s.kap i ∧ s.kap i ≤ hi) (i : ℕ) :
    lo * ((1 - 2 ^ (-(p : ℤ))) ^ 3 / (1 + 2 ^ (-(p : ℤ)))) ^ averages A l ≤ (runK A l s).kap i ∧
    (runK A l s).kap i ≤ hi * ((1 + 2 ^ (-(p : ℤ))) ^ 3 / (1 - 2 ^ (-(p : ℤ)))) ^ averages A l ∧ 0 < ((runK A l s).d i).rd3 := by
  show lo * lower p ^ averages A l ≤ _ ∧ _ ≤ hi * upper p ^ averages A l ∧ _
  have hi0 : 0 ≤ hi := hlo.trans ((hk 0).1.trans (hk 0).2)
  suffices H : ∀ (l : List Ev) (s : Pop) (j : ℕ), (∀ e ∈ l, e.don ≠ e.rcv) → (∀ i, 0 < (s.d i).rd3) →
      (∀ i, lo * lower p ^ j ≤ s.kap i ∧ s.kap i ≤ hi * upper p ^ j) →
      ∀ i, lo * lower p ^ (j + averages A l) ≤ (runK A l s).kap i ∧ (runK A l s).kap i ≤ hi * upper p ^ (j + averages A l) ∧
        0 < ((runK A l s).d i).rd3 by
    have := H l s 0 hne hv (by simpa using hk) i
    rwa [Nat.zero_add] at this
  clear hne hv hk i s l
  intro l
  induction l with
  | nil => intro s j _ hv hk i; simpa [runK, averages] using ⟨(hk i).1, (hk i).2, hv i⟩
  | cons e t ih =>
    intro s j hne hv hk i
    have hne1 := hne e (List.mem_cons_self ..)
    have hd : (hit A s.d e e.don).rd3 = (s.d e.don).rd3 := by
      unfold hit; rw [Function.update_of_ne hne1, Function.update_self]
    have hr : (hit A s.d e e.rcv).rd3 = A.fl (A.fl (A.fl e.k * (s.d e.don).rd3) + (s.d e.rcv).rd3) := by
      unfold hit; rw [Function.update_self]
      simp [mergedRd3, Arith.mulAdd, hf]
    have hv' : ∀ i, 0 < ((hitK A s e).d i).rd3 := by
      intro i
      show 0 < (hit A s.d e i).rd3
      by_cases h1 : i = e.rcv
      · subst h1
        rw [hr]
        have k0 : 0 ≤ A.fl e.k := le_nearest (h.round _) (zero_mem p) (Nat.cast_nonneg _)
        have t0 : 0 ≤ A.fl (A.fl e.k * (s.d e.don).rd3) := le_nearest (h.round _) (zero_mem p) (mul_nonneg k0 (hv _).le)
        have := (fl_within h.round hp (add_nonneg t0 (hv e.rcv).le)).1
        refine lt_of_lt_of_le (mul_pos (by linarith [hv e.rcv]) ?_) this
        linarith [eps_le_half hp]
      · by_cases h2 : i = e.don
        · subst h2; rw [hd]; exact hv _
        · unfold hit; rw [Function.update_of_ne h1, Function.update_of_ne h2]; exact hv _
    have hk' : ∀ i, lo * lower p ^ (j + trips A.fl e.k) ≤ (hitK A s e).kap i ∧ (hitK A s e).kap i ≤ hi * upper p ^ (j + trips A.fl e.k) := by
      intro i
      have L : ∀ m n, m ≤ n → lo * lower p ^ n ≤ lo * lower p ^ m := fun m n hmn =>
        mul_le_mul_of_nonneg_left (pow_le_pow_of_le_one (lower_pos hp).le (lower_le_one hp) hmn) hlo
      have U : ∀ m n, m ≤ n → hi * upper p ^ m ≤ hi * upper p ^ n := fun m n hmn =>
        mul_le_mul_of_nonneg_left (pow_le_pow_right₀ (one_le_upper hp) hmn) hi0
      show _ ≤ Function.update s.kap e.rcv _ i ∧ Function.update s.kap e.rcv _ i ≤ _
      by_cases h1 : i = e.rcv
      · subst h1
        rw [Function.update_self, hd, hr]
        have := kapLoop_range (lo := lo * lower p ^ j) (hi := hi * upper p ^ j) h.round hp
          (mul_nonneg hlo (pow_nonneg (lower_pos hp).le j)) (hk e.don) (hv e.don) (trips A.fl e.k) 0
          (s.kap e.rcv, oldRd3 A.fl e.k (A.fl (A.fl (A.fl e.k * (s.d e.don).rd3) + (s.d e.rcv).rd3)) (s.d e.don).rd3)
          (by simpa using hk e.rcv) (oldRd3_nonneg h.round (hv e.rcv).le)
        rw [Nat.zero_add, mul_assoc, mul_assoc, ← pow_add, ← pow_add] at this
        exact this
      · rw [Function.update_of_ne h1]
        exact ⟨(L _ _ (by omega)).trans (hk i).1, (hk i).2.trans (U _ _ (by omega))⟩
    have := ih (hitK A s e) (j + trips A.fl e.k) (fun e' he' => hne e' (List.mem_cons_of_mem _ he')) hv' hk' i
    have av : averages A (e :: t) = trips A.fl e.k + averages A t := by simp [averages]
    rw [av, ← Nat.add_assoc]
    exact this

/-- where no operation rounds, the loop takes the mean weighted by dry volume: after `m` collisions the receiver holds its own
hygroscopic volume and that of `m` donors -/
theorem kapLoop_exact (kd vd : ℝ) (hvd : 0 < vd) (m : ℕ) (kr vr : ℝ) (hvr : 0 ≤ vr) :
    (kapLoop id kd vd m (kr, vr)).1 * (vr + m * vd) = kr * vr + m * (kd * vd) ∧ (kapLoop id kd vd m (kr, vr)).2 = vr + m * vd := by
  induction m generalizing kr vr with
  | zero => simp [kapLoop]
  | succ m ih =>
    obtain ⟨a, b⟩ := ih (kapMean id kd vd kr vr) (vr + vd) (by linarith)
    have e : kapLoop id kd vd (m + 1) (kr, vr) = kapLoop id kd vd m (kapMean id kd vd kr vr, vr + vd) := rfl
    rw [e]
    refine ⟨?_, by rw [b]; push_cast; ring⟩
    have : kapMean id kd vd kr vr * (vr + vd) = kd * vd + kr * vr := by
      have : vd + vr ≠ 0 := by linarith
      simp only [kapMean, id_eq]
      rw [add_comm vr vd]
      field_simp
    rw [this] at a
    push_cast
    rw [show vr + (m + 1) * vd = vr + vd + m * vd by ring, a]
    ring

/-- as long as `col_no` is representable the number of averages is the number of collisions -/
theorem trips_eq {fl : ℝ → ℝ} {p : ℕ} (h : Rounds p fl) (hp : 1 ≤ p) {k : ℕ} (hk : k ≤ 2 ^ p) : trips fl k = k := by
  unfold trips
  rw [nearest_self (h k) (nat_mem hp hk), Nat.ceil_natCast]

/-- and a lucky average is exact: equal hygroscopicities, sizes and a representable product -/
example {fl : ℝ → ℝ} (h : Rounds 24 fl) : kapMean fl 1 1 1 1 = 1 := by
  have f1 := fl_one h (by norm_num)
  have f2 : fl 2 = 2 := nearest_self (h 2) (by have := nat_mem (p := 24) (n := 2) (by norm_num) (by norm_num); simpa using this)
  unfold kapMean
  norm_num [f1, f2]

/-- non-vacuity: three collisions of one pair in single precision -/
example : ∃ (A : Arith) (s : Pop), A.Ok 24 ∧ A.fma = false ∧ (∀ i, 0 < (s.d i).rd3) ∧ (∀ i, 0.3 ≤ s.kap i ∧ s.kap i ≤ 1.28) ∧
    averages A [⟨0, 1, 3⟩] = 3 := by
  obtain ⟨A, h, hf⟩ := arith_exists 24 (by norm_num) false
  refine ⟨A, ⟨fun i => ⟨10, 1, i + 1⟩, fun i => if i = 0 then 0.3 else 1.28⟩, h, hf, fun i => ?_, fun i => ?_, ?_⟩
  · show (0 : ℝ) < i + 1
    positivity
  · show (0.3 : ℝ) ≤ (if i = 0 then 0.3 else 1.28) ∧ (if i = 0 then (0.3 : ℝ) else 1.28) ≤ 1.28
    split_ifs <;> norm_num
  · simp [averages, trips_eq h.round (by norm_num) (show 3 ≤ 2 ^ 24 by norm_num)]

end LCP.Float
