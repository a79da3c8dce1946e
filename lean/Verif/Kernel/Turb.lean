import Verif.Kernel.Laws

/-!
# C73: turbulent collision kernels (onishi_hall, onishi_hall_davis_no_waals)
-/
namespace LCP.Kernel
noncomputable section
open LCP.Coal

/-! ### enhancement of collision efficiency (Wang et al. 2009) -/

theorem wangEta_ok : wangEta.length = 11 ∧ ∀ a ∈ wangEta, a.length = 2 ∧ ∀ b ∈ a, b.length = 7 ∧ ∀ e ∈ b, (1 : ℝ) ≤ e := by
  constructor
  · rfl
  · simp only [wangEta, List.forall_mem_cons, List.length_cons, List.length_nil]
    norm_num

theorem wangAt_ge (i j k : ℕ) (hi : i < 11) (hj : j < 2) (hk : k < 7) : ∃ e, wangAt i j k = some e ∧ 1 ≤ e := by
  obtain ⟨h1, h2⟩ := wangEta_ok
  have hi' : i < wangEta.length := by omega
  obtain ⟨h3, h4⟩ := h2 _ (List.getElem_mem hi')
  have hj' : j < (wangEta[i]).length := by omega
  obtain ⟨h5, h6⟩ := h4 _ (List.getElem_mem hj')
  have hk' : k < (wangEta[i][j]).length := by omega
  refine ⟨wangEta[i][j][k], ?_, h6 _ (List.getElem_mem hk')⟩
  unfold wangAt
  rw [List.getElem?_eq_getElem hi', Option.bind_eq_bind, Option.bind_some, List.getElem?_eq_getElem hj', Option.bind_eq_bind, Option.bind_some, List.getElem?_eq_getElem hk']

open Classical in
theorem wangNR_spec (R : ℝ) (h : R < 100e-6) : ∃ hlt : wangNR R < wangR.length, R < wangR[wangNR R] ∧ ∀ k (hk : k < wangNR R), wangR[k]'(by omega) ≤ R := by
  have hlt : wangNR R < wangR.length := List.findIdx_lt_length_of_exists ⟨100e-6, by simp [wangR], by simpa using h⟩
  refine ⟨hlt, ?_, ?_⟩
  · have := List.findIdx_getElem (w := hlt)
    exact of_decide_eq_true this
  · intro k hk
    have := List.not_of_lt_findIdx hk
    simpa using this

open Classical in
theorem wangNrat_spec (x : ℝ) (h0 : 0 ≤ x) (h : x < 1) : ∃ hlt : wangNrat x < wangRat.length, 1 ≤ wangNrat x ∧ x < wangRat[wangNrat x] ∧
    wangRat[wangNrat x - 1]'(by omega) ≤ x := by
  set m := wangRat.tail.findIdx (fun a => decide (a > x)) with hm
  have e : wangNrat x = 1 + m := rfl
  have hlt : m < wangRat.tail.length := List.findIdx_lt_length_of_exists ⟨1, by simp [wangRat], by simpa using h⟩
  have hlen : wangRat.tail.length = 10 := rfl
  have hlen' : wangRat.length = 11 := rfl
  refine ⟨by omega, by omega, ?_, ?_⟩
  · have := List.findIdx_getElem (w := hlt)
    simp only [gt_iff_lt, List.getElem_tail, decide_eq_true_eq] at this
    simpa [e, add_comm 1 m] using this
  · rcases Nat.eq_zero_or_pos m with h1 | h1
    · simp only [e, h1]; simpa [wangRat] using h0
    · have := List.not_of_lt_findIdx (i := m - 1) (p := fun a => decide (a > x)) (xs := wangRat.tail) (by omega)
      simp only [gt_iff_lt, List.getElem_tail, not_lt, decide_eq_false_iff_not] at this
      have h2 : m - 1 + 1 = 1 + m - 1 := by omega
      simp only [h2] at this
      simpa [e] using this

/-- bilinear interpolation stays above a lower bound of the four values -/
theorem bilinear_ge (e0 e1 e2 e3 R Ra Rb x xa xb : ℝ) (h0 : 1 ≤ e0) (h1 : 1 ≤ e1) (h2 : 1 ≤ e2) (h3 : 1 ≤ e3) (hR : Ra ≤ R ∧ R < Rb) (hx : xa ≤ x ∧ x < xb) :
    1 ≤ (e0 * (Rb - R) * (xb - x) + e1 * (R - Ra) * (xb - x) + e2 * (Rb - R) * (x - xa) + e3 * (R - Ra) * (x - xa)) / (Rb - Ra) / (xb - xa) := by
  have p1 : 0 < Rb - R := by linarith [hR.2]
  have p2 : 0 ≤ R - Ra := by linarith [hR.1]
  have p3 : 0 < xb - x := by linarith [hx.2]
  have p4 : 0 ≤ x - xa := by linarith [hx.1]
  rw [le_div_iff₀ (by linarith), le_div_iff₀ (by linarith)]
  have q0 : 0 ≤ (e0 - 1) * ((Rb - R) * (xb - x)) := mul_nonneg (by linarith) (by positivity)
  have q1 : 0 ≤ (e1 - 1) * ((R - Ra) * (xb - x)) := mul_nonneg (by linarith) (by positivity)
  have q2 : 0 ≤ (e2 - 1) * ((Rb - R) * (x - xa)) := mul_nonneg (by linarith) (by positivity)
  have q3 : 0 ≤ (e3 - 1) * ((R - Ra) * (x - xa)) := mul_nonneg (by linarith) (by positivity)
  nlinarith [q0, q1, q2, q3]

/-- **C73 (enhancement).** For two droplets of different sizes, the larger one below or above 100 micrometers, the factor by which turbulence changes the efficiency is defined and not below one. -/
theorem wang_ge_one_partial (r1 r2 eps : ℝ) (h1 : 0 ≤ r1) (h2 : 0 ≤ r2) (hne : r1 ≠ r2) (h100 : max r1 r2 ≠ 100e-6) : ∃ w, wang r1 r2 eps = some w ∧ 1 ≤ w := by
  wlog h : r2 < r1 generalizing r1 r2
  · rw [wang_symm]
    exact this r2 r1 h2 h1 hne.symm (by rwa [max_comm]) (lt_of_le_of_ne (not_lt.1 h) hne)
  rw [max_eq_left h.le] at h100
  unfold wang
  simp only [if_pos h]
  rcases lt_or_gt_of_ne h100 with hR | hR
  swap
  · exact ⟨1, by rw [if_pos hR], le_rfl⟩
  rw [if_neg (by linarith)]
  have hpos : 0 < r1 := lt_of_le_of_lt h2 h
  obtain ⟨l1, a1, a2⟩ := wangNR_spec r1 hR
  obtain ⟨l2, b1, b2, b3⟩ := wangNrat_spec (r2 / r1) (by positivity) (by rw [div_lt_one hpos]; exact h)
  have l1' : wangNR r1 < 7 := l1
  have l2' : wangNrat (r2 / r1) < 11 := l2
  have hj : (if eps ≤ 2.5e-2 then 0 else 1) < 2 := by split_ifs <;> norm_num
  generalize (if eps ≤ 2.5e-2 then 0 else 1) = j at hj
  by_cases hz : wangNR r1 = 0
  · obtain ⟨e, he, h⟩ := wangAt_ge (wangNrat (r2 / r1)) j (wangNR r1) l2' hj l1'
    exact ⟨e, by rw [if_pos hz]; exact he, h⟩
  · rw [if_neg hz]
    obtain ⟨e0, he0, g0⟩ := wangAt_ge (wangNrat (r2 / r1) - 1) j (wangNR r1 - 1) (by omega) hj (by omega)
    obtain ⟨e1, he1, g1⟩ := wangAt_ge (wangNrat (r2 / r1) - 1) j (wangNR r1) (by omega) hj (by omega)
    obtain ⟨e2, he2, g2⟩ := wangAt_ge (wangNrat (r2 / r1)) j (wangNR r1 - 1) (by omega) hj (by omega)
    obtain ⟨e3, he3, g3⟩ := wangAt_ge (wangNrat (r2 / r1)) j (wangNR r1) (by omega) hj (by omega)
    rw [List.getElem?_eq_getElem l1, List.getElem?_eq_getElem l2, List.getElem?_eq_getElem (show wangNR r1 - 1 < wangR.length by omega),
      List.getElem?_eq_getElem (show wangNrat (r2 / r1) - 1 < wangRat.length by omega), he0, he1, he2, he3]
    refine ⟨_, rfl, bilinear_ge _ _ _ _ _ _ _ _ _ _ g0 g1 g2 g3 ⟨a2 _ (by omega), a1⟩ ⟨b3, b2⟩⟩

open Classical in
/-- **C73 (disagreement: equal radii).** For two droplets of the same radius, not larger than 100 micrometers, the factor is read from outside of its table. -/
theorem wang_equal_radii_outside (r eps : ℝ) (h0 : 0 < r) (h : r ≤ 100e-6) : wang r r eps = none := by
  have hrat : wangNrat (r / r) = 11 := by
    rw [div_self h0.ne']
    unfold wangNrat
    have : wangRat.tail.findIdx (fun a => decide (a > (1 : ℝ))) = wangRat.tail.length := by
      rw [List.findIdx_eq_length]
      simp only [wangRat, List.tail_cons, List.forall_mem_cons]
      norm_num
    rw [this]; rfl
  have h11 : ∀ j k, wangAt 11 j k = none := fun j k => rfl
  unfold wang
  simp only [if_neg (lt_irrefl r), if_neg (not_lt.2 h), hrat, h11, gt_iff_lt]
  split_ifs <;> first | rfl | (cases wangR[wangNR r - 1]? <;> cases wangR[wangNR r]? <;> rfl)

open Classical in
/-- **C73 (disagreement: 100 micrometers).** The same if the larger radius is exactly 100 micrometers. -/
theorem wang_100_outside (r eps : ℝ) (h : r < 100e-6) : wang 100e-6 r eps = none := by
  have hn : wangNR 100e-6 = 7 := by
    unfold wangNR
    have : wangR.findIdx (fun a => decide (a > (100e-6 : ℝ))) = wangR.length := by
      rw [List.findIdx_eq_length]
      simp only [wangR, List.forall_mem_cons]
      norm_num
    rw [this]; rfl
  unfold wang
  simp only [gt_iff_lt, if_pos h, lt_irrefl, if_false, hn]
  rfl

/-! ### relative velocity and clustering -/

theorem wrA2_nonneg (u g t1 t2 : ℝ) (hg : 0 < g) (h1 : 0 < t1) (h2 : 0 < t2) : 0 ≤ wrA2 u g t1 t2 := by
  unfold wrA2
  have hs : √((1 + t1 + t2) / (1 + t1) / (1 + t2)) ≤ 1 := by
    apply Real.sqrt_le_one.2
    rw [div_div, div_le_one (by positivity)]
    nlinarith [mul_pos h1 h2]
  have hA : 0 ≤ (t1 + t2) - 4 * t1 * t2 / (t1 + t2) * √((1 + t1 + t2) / (1 + t1) / (1 + t2)) := by
    have hq : 0 ≤ 4 * t1 * t2 / (t1 + t2) := by positivity
    have hq' : 4 * t1 * t2 / (t1 + t2) ≤ t1 + t2 := by
      rw [div_le_iff₀ (by positivity)]; nlinarith [sq_nonneg (t1 - t2)]
    nlinarith [mul_le_mul_of_nonneg_left hs hq]
  have hB : 0 ≤ g / (g - 1) * (1 / (1 + t1) / (1 + t2) - 1 / (1 + g * t1) / (1 + g * t2)) := by
    rw [div_div, div_div, div_sub_div _ _ (by positivity) (by positivity), div_mul_div_comm]
    rcases lt_trichotomy g 1 with h | h | h
    · rw [← neg_div_neg_eq]
      apply div_nonneg
      · rw [← mul_neg]
        apply mul_nonneg hg.le
        nlinarith [mul_pos h1 h2, mul_pos hg h1, mul_pos hg h2, mul_pos hg (mul_pos h1 h2)]
      · rw [← neg_mul]
        apply mul_nonneg (by linarith) (by positivity)
    · rw [h, sub_self, zero_mul, div_zero]
    · apply div_nonneg
      · apply mul_nonneg hg.le
        nlinarith [mul_pos h1 h2, mul_pos hg h1, mul_pos hg h2, mul_pos hg (mul_pos h1 h2), mul_pos (sub_pos.2 h) h1, mul_pos (sub_pos.2 h) h2, mul_pos (sub_pos.2 h) (mul_pos h1 h2),
          mul_pos hg (mul_pos (sub_pos.2 h) (mul_pos h1 h2))]
      · apply mul_nonneg (by linarith) (by positivity)
  calc 0 ≤ u * u * (((t1 + t2) - 4 * t1 * t2 / (t1 + t2) * √((1 + t1 + t2) / (1 + t1) / (1 + t2))) * (g / (g - 1) * (1 / (1 + t1) / (1 + t2) - 1 / (1 + g * t1) / (1 + g * t2)))) :=
        mul_nonneg (mul_self_nonneg _) (mul_nonneg hA hB)
    _ = _ := by ring

theorem gMono_nonneg (Re St StO : ℝ) (hR : 0 < Re) (hS : 0 < St) : 0 ≤ gMono Re St StO := by
  have ht : ∀ x : ℝ, 0 ≤ 0.5 * (1 - Real.tanh x) ∧ 0.5 * (1 - Real.tanh x) ≤ 1 ∧ 0 ≤ 0.5 * (1 + Real.tanh x) := by
    intro x
    have h1 := Real.neg_one_lt_tanh x
    have h2 := Real.tanh_lt_one x
    refine ⟨by linarith, by linarith, by linarith⟩
  unfold gMono
  simp only []
  obtain ⟨a1, a2, -⟩ := ht ((log10 St - log10 ((0.38 / 110 * Re) ^ (0.25 : ℝ))) / (0.06 * Re ^ (0.30 : ℝ)))
  obtain ⟨-, -, b3⟩ := ht ((log10 St - log10 (Common.cbrt (0.38 / 0.16) * Common.cbrt (0.38 / 0.16) * Common.cbrt Re)) / 0.4)
  apply add_nonneg (add_nonneg _ _) _
  · apply mul_nonneg _ (Real.rpow_nonneg a1 _)
    split_ifs <;> positivity
  · apply mul_nonneg _ (Real.rpow_nonneg (by linarith) _)
    split_ifs <;> positivity
  · exact mul_nonneg (by positivity) b3

/-- for a positive Kolmogorov length all arguments of square roots are non-negative and the kernel is at least the one for droplets following the air (shear only), without clustering -/
theorem nogravWith_ge (leta r1 r2 Re eps dnu q : ℝ) (hl : 0 < leta) (h1 : 0 < r1) (h2 : 0 < r2) (hRe : 0 < Re) (he : 0 < eps) (hnu : 0 < dnu) (hq : 0 < q) :
    2 * Real.pi * (r1 + r2) ^ 2 * √(2 / (15 * Real.pi) * (dnu * (r1 + r2) / leta ^ 2) ^ 2) ≤ nogravWith leta r1 r2 Re eps dnu q := by
  unfold nogravWith
  simp only []
  have hpi := Real.pi_pos
  set T1 := q * 4 * r1 * r1 / 18 / dnu with hT1
  set T2 := q * 4 * r2 * r2 / 18 / dnu with hT2
  have t1 : 0 < T1 := by positivity
  have t2 : 0 < T2 := by positivity
  set Te := Re * (leta * leta / dnu) / √15
  have hTe : 0 < Te := by positivity
  set u := √(Re / √(15 / dnu / eps)) with hu
  have hu' : 0 < u := by positivity
  set phi := max (2.5 * T2 / Te / (2.5 * T1 / Te)) (2.5 * T1 / Te / (2.5 * T2 / Te)) with hphi
  have hphi' : 0 < phi := lt_of_lt_of_le (by positivity) (le_max_left _ _)
  have hg : 0 < phi * (0.183 * u * u / (dnu * dnu / leta / leta)) := by positivity
  have hw := wrA2_nonneg u _ (2.5 * T1 / Te) (2.5 * T2 / Te) hg (by positivity) (by positivity)
  set W := wrA2 u (phi * (0.183 * u * u / (dnu * dnu / leta / leta))) (2.5 * T1 / Te) (2.5 * T2 / Te)
  set c := 1 + 0.6 * Real.exp (-(phi - 1) ^ (1.5 : ℝ))
  have hc : 0 < c := by positivity
  set x := max (T2 / T1) (T1 / T2)
  have htx := Real.neg_one_lt_tanh (x - 3)
  have hRG : 0 ≤ 2.6 * Real.exp (-x) + 0.205 * Real.exp (-0.0206 * x) * 0.5 * (1 + Real.tanh (x - 3)) := by
    have : 0 ≤ 1 + Real.tanh (x - 3) := by linarith
    positivity
  have hR1 : 1 ≤ 1 + (2.6 * Real.exp (-x) + 0.205 * Real.exp (-0.0206 * x) * 0.5 * (1 + Real.tanh (x - 3))) *
      √(gMono Re (T1 / (leta * leta / dnu)) (T2 / (leta * leta / dnu)) + 1 - 1) * √(gMono Re (T2 / (leta * leta / dnu)) (T1 / (leta * leta / dnu)) + 1 - 1) := by
    have := mul_nonneg (mul_nonneg hRG (Real.sqrt_nonneg (gMono Re (T1 / (leta * leta / dnu)) (T2 / (leta * leta / dnu)) + 1 - 1)))
      (Real.sqrt_nonneg (gMono Re (T2 / (leta * leta / dnu)) (T1 / (leta * leta / dnu)) + 1 - 1))
    linarith
  have hroot : √(2 / (15 * Real.pi) * (dnu * (r1 + r2) / leta ^ 2) ^ 2) ≤
      √(2 / Real.pi * (c * W / 3 + dnu * dnu * (r1 + r2) * (r1 + r2) / (leta * leta * leta * leta) / 15)) := by
    apply Real.sqrt_le_sqrt
    have e1 : 2 / (15 * Real.pi) * (dnu * (r1 + r2) / leta ^ 2) ^ 2 = 2 / Real.pi * (dnu * dnu * (r1 + r2) * (r1 + r2) / (leta * leta * leta * leta) / 15) := by
      field_simp
    rw [e1]
    apply mul_le_mul_of_nonneg_left _ (by positivity)
    have : 0 ≤ c * W / 3 := by positivity
    linarith
  have hP : 0 ≤ 2 * Real.pi * (r1 + r2) * (r1 + r2) := by positivity
  calc 2 * Real.pi * (r1 + r2) ^ 2 * √(2 / (15 * Real.pi) * (dnu * (r1 + r2) / leta ^ 2) ^ 2)
      = 2 * Real.pi * (r1 + r2) * (r1 + r2) * √(2 / (15 * Real.pi) * (dnu * (r1 + r2) / leta ^ 2) ^ 2) * 1 := by ring
    _ ≤ _ := mul_le_mul (mul_le_mul_of_nonneg_left hroot hP) hR1 zero_le_one (mul_nonneg hP (Real.sqrt_nonneg _))

/-! ### the kernel -/

/-- what the kernel should be, for one pair of droplets: efficiency in still air, enhancement of the efficiency, and the geometric mean square of sedimentation and turbulence -/
def turbulentLaw (e w Kg Kt : ℝ) : ℝ := e * w * √(Kg ^ 2 + Kt ^ 2)

/-- the length of the smallest eddies for kinematic viscosity `nu` and dissipation rate `eps` -/
def kolmogorov (nu eps : ℝ) : ℝ := (nu ^ 3 / eps) ^ (1 / 4 : ℝ)

/-- **C73 (value).** What is computed: like `turbulentLaw`, but with the sedimentation part multiplied by the larger multiplicity and the turbulent part not multiplied. -/
theorem onishi_law_partial (del : ℝ) (air : Air) (a b : SD) (ra rb e w Re : ℝ) (tab : List ℝ) (ha : 0 ≤ ra) (hb : 0 ≤ rb) (h1 : a.rw2 = ra ^ 2) (h2 : b.rw2 = rb ^ 2)
    (he : interpolatedEfficiency (Re :: tab) 1 1100 del ra rb = some e) (hw : wang ra rb Re = some w) :
    kval del air a b (.onishi (Re :: tab) 1100) = some (turbulentLaw e w ((max a.n b.n : ℕ) * hardSpheres ra rb a.vt b.vt)
      (nograv ra rb Re air.diss (air.eta / air.rhod) (Common.rho_w / air.rhod))) := by
  simp only [kval, h1, h2, Real.sqrt_sq ha, Real.sqrt_sq hb, he, geometricCalc_eq a b ra rb ha hb h1 h2]
  unfold turbulentLaw
  simp only [List.length_cons, Nat.zero_lt_succ, List.getElem?_eq_getElem, List.getElem_cons_zero, Option.bind_eq_bind, Option.bind_some]
  rw [sq, sq, hw, Option.bind_some]

/-- **C73 (still air).** Without turbulence (dissipation rate below 1e-10, also always if `turb_coal` is off in `opts`) the kernel is that of sedimentation with the efficiency multiplied by the
enhancement factor. -/
theorem onishi_still (del : ℝ) (air : Air) (a b : SD) (ra rb e w Re : ℝ) (tab : List ℝ) (ha : 0 ≤ ra) (hb : 0 ≤ rb) (h1 : a.rw2 = ra ^ 2) (h2 : b.rw2 = rb ^ 2)
    (he : interpolatedEfficiency (Re :: tab) 1 1100 del ra rb = some e) (hw : wang ra rb Re = some w) (hd : air.diss < 1e-10) :
    kval del air a b (.onishi (Re :: tab) 1100) = some ((max a.n b.n : ℕ) * (e * w * hardSpheres ra rb a.vt b.vt)) := by
  rw [onishi_law_partial del air a b ra rb e w Re tab ha hb h1 h2 he hw]
  have : nograv ra rb Re air.diss (air.eta / air.rhod) (Common.rho_w / air.rhod) = 0 := by unfold nograv; rw [if_pos hd]
  have hh : 0 ≤ hardSpheres ra rb a.vt b.vt := by
    unfold hardSpheres; have := Real.pi_pos; have := abs_nonneg (a.vt - b.vt); positivity
  unfold turbulentLaw
  rw [this, show ((max a.n b.n : ℕ) * hardSpheres ra rb a.vt b.vt) ^ 2 + (0 : ℝ) ^ 2 = ((max a.n b.n : ℕ) * hardSpheres ra rb a.vt b.vt) ^ 2 by ring, Real.sqrt_sq (by positivity)]
  congr 1; ring

/-- **C73 (disagreement: enhancement in still air).** The factor is chosen by comparing the user's Reynolds number with the threshold for the dissipation rate (0.025 m2/s3): for every Reynolds number above
0.025 it is the one for strong turbulence, whatever the dissipation rate. -/
theorem enhancement_ignores_dissipation (r1 r2 Re : ℝ) (hRe : 2.5e-2 < Re) : wang r1 r2 Re = wang r1 r2 (2.5e-2 + 1) := by
  unfold wang
  simp only [if_neg (not_le.2 hRe), if_neg (show ¬((2.5e-2 : ℝ) + 1 ≤ 2.5e-2) by norm_num)]

/-- droplets of 5 and 10 micrometers in perfectly still air: efficiency multiplied by 1.139 -/
theorem enhancement_in_still_air (del : ℝ) (eta rhod e Re : ℝ) (hRe : 2.5e-2 < Re) (tab : List ℝ) (a b : SD) (h1 : a.rw2 = 10e-6 ^ 2) (h2 : b.rw2 = 5e-6 ^ 2)
    (he : interpolatedEfficiency (Re :: tab) 1 1100 del 10e-6 5e-6 = some e) :
    kval del ⟨rhod, eta, 0⟩ a b (.onishi (Re :: tab) 1100) = some ((max a.n b.n : ℕ) * (1.139 * e * hardSpheres 10e-6 5e-6 a.vt b.vt)) := by
  have hw : wang 10e-6 5e-6 Re = some 1.139 := by
    classical
    have hn : wangNR 10e-6 = 1 := by
      unfold wangNR wangR
      rw [List.findIdx_cons, List.findIdx_cons, decide_eq_false (by norm_num), decide_eq_true (by norm_num)]; rfl
    have hr : wangNrat (5e-6 / 10e-6) = 6 := by
      unfold wangNrat wangRat
      simp only [List.tail_cons, List.findIdx_cons]
      norm_num
    unfold wang
    simp only [if_pos (show (10e-6 : ℝ) > 5e-6 by norm_num), if_neg (show ¬((10e-6 : ℝ) > 100e-6) by norm_num), if_neg (not_le.2 hRe), hn, hr]
    show some _ = _
    norm_num
  rw [onishi_still del _ a b 10e-6 5e-6 e 1.139 Re tab (by norm_num) (by norm_num) h1 h2 he hw (by norm_num)]
  congr 1; ring

/-- **C73 (disagreement: Kolmogorov length).** The length is one metre for every viscosity and dissipation rate ... -/
theorem kolmogorov_is_one (nu eps : ℝ) : letaCode nu eps = 1 := by
  unfold letaCode
  norm_num

/-- ... more than three times too large for any gas with kinematic viscosity below 1e-4 m2/s (air: 1.5e-5) whenever the turbulent part is not zero. -/
theorem kolmogorov_wrong (nu eps : ℝ) (hnu : 0 < nu) (hnu' : nu < 1e-4) (he : 1e-10 ≤ eps) : 3 * kolmogorov nu eps < letaCode nu eps := by
  rw [kolmogorov_is_one]
  unfold kolmogorov
  have h1 : nu ^ 3 / eps < 1e-2 := by
    rw [div_lt_iff₀ (by linarith)]
    have : nu ^ 3 < 1e-4 ^ 3 := by gcongr
    have h3 : (1e-4 : ℝ) ^ 3 = 1e-2 * 1e-10 := by norm_num
    nlinarith
  have h2 : (nu ^ 3 / eps) ^ (1 / 4 : ℝ) < (1e-2 : ℝ) ^ (1 / 4 : ℝ) := Real.rpow_lt_rpow (by positivity) h1 (by norm_num)
  have h3 : (1e-2 : ℝ) ^ (1 / 4 : ℝ) ≤ ((1 / 3 : ℝ) ^ (4 : ℕ)) ^ (1 / 4 : ℝ) := Real.rpow_le_rpow (by norm_num) (by norm_num) (by norm_num)
  have h4 : ((1 / 3 : ℝ) ^ (4 : ℕ)) ^ (1 / 4 : ℝ) = 1 / 3 := by
    rw [← Real.rpow_natCast, ← Real.rpow_mul (by norm_num)]; norm_num
  linarith

/-- **C73 (disagreement: multiplicity).** The rate of turbulent collisions of a pair should be multiplied by the larger multiplicity; it is not.  Whenever that multiplicity exceeds one and the turbulent part is
not zero, the value is below the multiplicity times `turbulentLaw`. -/
theorem turbulent_rate_too_low (del : ℝ) (air : Air) (a b : SD) (ra rb e w Re : ℝ) (tab : List ℝ) (ha : 0 < ra) (hb : 0 < rb) (h1 : a.rw2 = ra ^ 2) (h2 : b.rw2 = rb ^ 2)
    (he : interpolatedEfficiency (Re :: tab) 1 1100 del ra rb = some e) (hw : wang ra rb Re = some w) (e0 : 0 < e) (w0 : 1 ≤ w) (hRe : 0 < Re) (hd : 1e-10 ≤ air.diss) (heta : 0 < air.eta)
    (hrho : 0 < air.rhod) (hn : 1 < max a.n b.n) :
    ∃ v, kval del air a b (.onishi (Re :: tab) 1100) = some v ∧
      v < (max a.n b.n : ℕ) * turbulentLaw e w (hardSpheres ra rb a.vt b.vt) (nograv ra rb Re air.diss (air.eta / air.rhod) (Common.rho_w / air.rhod)) := by
  refine ⟨_, onishi_law_partial del air a b ra rb e w Re tab ha.le hb.le h1 h2 he hw, ?_⟩
  have ht : 0 < nograv ra rb Re air.diss (air.eta / air.rhod) (Common.rho_w / air.rhod) := by
    unfold nograv
    rw [if_neg (not_lt.2 hd), kolmogorov_is_one]
    have := Real.pi_pos
    refine lt_of_lt_of_le ?_ (nogravWith_ge 1 ra rb Re air.diss _ _ one_pos ha hb hRe (by linarith) (by positivity) (div_pos (by unfold Common.rho_w; norm_num) hrho))
    positivity
  generalize nograv ra rb Re air.diss (air.eta / air.rhod) (Common.rho_w / air.rhod) = t at ht
  generalize hardSpheres ra rb a.vt b.vt = g
  have hN : (1 : ℝ) < ((max a.n b.n : ℕ) : ℝ) := by exact_mod_cast hn
  generalize ((max a.n b.n : ℕ) : ℝ) = N at hN
  unfold turbulentLaw
  have h3 : √((N * g) ^ 2 + t ^ 2) < N * √(g ^ 2 + t ^ 2) := by
    have e1 : N * √(g ^ 2 + t ^ 2) = √(N ^ 2 * (g ^ 2 + t ^ 2)) := by
      rw [Real.sqrt_mul (by positivity), Real.sqrt_sq (by linarith)]
    rw [e1]
    apply Real.sqrt_lt_sqrt (by positivity)
    have : t ^ 2 < N ^ 2 * t ^ 2 := by
      have h1 : 0 < t ^ 2 := by positivity
      have h2 : 1 < N ^ 2 := by nlinarith
      nlinarith
    nlinarith
  have h4 : 0 < e * w := by positivity
  nlinarith [mul_lt_mul_of_pos_left h3 h4]

/-- **C73 (disagreement: equal sizes).** For two droplets of the same radius up to 100 micrometers (for instance two super-droplets made by splitting one, or before any collision in a monodisperse cloud)
the kernel reads outside of its table. -/
theorem onishi_equal_radii (del : ℝ) (air : Air) (a b : SD) (r Re : ℝ) (tab : List ℝ) (hr : 0 < r) (hr' : r ≤ 100e-6) (h1 : a.rw2 = r ^ 2) (h2 : b.rw2 = r ^ 2) :
    kval del air a b (.onishi (Re :: tab) 1100) = none := by
  simp only [kval, h1, h2, Real.sqrt_sq hr.le]
  simp only [List.length_cons, Nat.zero_lt_succ, List.getElem?_eq_getElem, List.getElem_cons_zero, Option.bind_eq_bind, Option.bind_some, wang_equal_radii_outside r Re hr hr']
  cases interpolatedEfficiency (Re :: tab) 1 1100 del r r <;> rfl

/-- **C73 (defined, at least sedimentation).** In double precision, for droplets of different sizes, the larger one not exactly 100 micrometers: nothing is read outside of tables and
turbulence never lowers the kernel below the one of sedimentation with efficiencies of the same table. -/
theorem onishi_ge_still_partial (tab : Table → List ℝ) (ht : TablesOk tab) (Re : ℝ) (k : Kind) (K : Kern) (hk : k = .onishi_hall ∨ k = .onishi_hall_davis_no_waals)
    (hK : initKernel tab true [Re] k = some K) (del : ℝ) (hd : 0 < del) (hd' : del ≤ 1100) (air : Air) (a b : SD) (ra rb : ℝ) (ha : 0 ≤ ra) (hb : 0 ≤ rb)
    (h1 : a.rw2 = ra ^ 2) (h2 : b.rw2 = rb ^ 2) (hne : ra ≠ rb) (h100 : max ra rb ≠ 100e-6) :
    ∃ v e, kval del air a b K = some v ∧ interpolatedEfficiency (tab (if k = .onishi_hall then .hall else .hall_davis_no_waals)) 0 1100 del ra rb = some e ∧ 0 ≤ e ∧
      (max a.n b.n : ℕ) * (e * hardSpheres ra rb a.vt b.vt) ≤ v := by
  have hT : ∀ t : Table, K = .onishi ([Re] ++ tab t) 1100 → ∃ v e, kval del air a b K = some v ∧ interpolatedEfficiency (tab t) 0 1100 del ra rb = some e ∧ 0 ≤ e ∧
      (max a.n b.n : ℕ) * (e * hardSpheres ra rb a.vt b.vt) ≤ v := by
    rintro t rfl
    obtain ⟨B, hB⟩ := exists_bound (tab t) (ht.nonneg t)
    obtain ⟨e, he, e0, -⟩ := eff_bounds (tab t) 0 del ra rb 0 B (by rw [ht.length]) hd hd' ha hb
      (fun i hi j hj => entry_mem _ 0 i j 0 B (by rw [ht.length]) hi hj (by simpa using hB))
    have he' : interpolatedEfficiency (Re :: tab t) 1 1100 del ra rb = some e := by
      rw [← he]; unfold interpolatedEfficiency
      have hv : ∀ i j, (Re :: tab t)[vectorIndex i j 1]? = (tab t)[vectorIndex i j 0]? := by
        intro i j; rw [vectorIndex_eq, vectorIndex_eq, Nat.add_comm 1, List.getElem?_cons_succ, Nat.zero_add]
      simp only [hv]
    obtain ⟨w, hw, w1⟩ := wang_ge_one_partial ra rb Re ha hb hne h100
    refine ⟨_, e, onishi_law_partial del air a b ra rb e w Re (tab t) ha hb h1 h2 he' hw, he, e0, ?_⟩
    have hh : 0 ≤ hardSpheres ra rb a.vt b.vt := by
      unfold hardSpheres; have := Real.pi_pos; have := abs_nonneg (a.vt - b.vt); positivity
    generalize hardSpheres ra rb a.vt b.vt = g at hh
    generalize nograv ra rb Re air.diss (air.eta / air.rhod) (Common.rho_w / air.rhod) = t
    have hN : (0 : ℝ) ≤ ((max a.n b.n : ℕ) : ℝ) := Nat.cast_nonneg _
    generalize ((max a.n b.n : ℕ) : ℝ) = N at hN
    unfold turbulentLaw
    have h3 : N * g ≤ √((N * g) ^ 2 + t ^ 2) := by
      apply Real.le_sqrt_of_sq_le; nlinarith [sq_nonneg t]
    have h4 : e ≤ e * w := by nlinarith
    calc N * (e * g) = e * (N * g) := by ring
      _ ≤ e * w * √((N * g) ^ 2 + t ^ 2) := mul_le_mul h4 h3 (by positivity) (by nlinarith)
  rcases hk with rfl | rfl
  · exact hT .hall (Option.some.inj hK).symm
  · exact hT .hall_davis_no_waals (Option.some.inj hK).symm

/-! ### the hypotheses can be met -/

/-- a table for the examples: efficiency one everywhere -/
theorem ones_ok : TablesOk (fun _ => List.replicate 20301 1) := ⟨fun _ => List.length_replicate .., fun _ e he => by rw [List.eq_of_mem_replicate he]; norm_num⟩

theorem ones_entry (i j : ℕ) (hi : i ≤ 200) (hj : j ≤ 200) : 1 ≤ entry (100 :: List.replicate 20301 1) 1 i j ∧ entry (100 :: List.replicate 20301 1) 1 i j ≤ 1 := by
  refine entry_mem _ 1 i j 1 1 (by rw [List.length_cons, List.length_replicate]) hi hj ?_
  intro e he
  rw [List.drop_succ_cons, List.drop_zero] at he
  rw [List.eq_of_mem_replicate he]; exact ⟨le_rfl, le_rfl⟩

example : ∃ v, kval 1e-6 ⟨1, 1.8e-5, 1e-2⟩ exA exB (.onishi ([100] ++ List.replicate 20301 1) 1100) = some v ∧ 0 < v := by
  obtain ⟨v, e, hv, he, -, h⟩ := onishi_ge_still_partial _ ones_ok 100 .onishi_hall _ (Or.inl rfl) rfl 1e-6 (by norm_num) (by norm_num) ⟨1, 1.8e-5, 1e-2⟩ exA exB 10e-6 20e-6 (by norm_num)
    (by norm_num) rfl rfl (by norm_num) (by norm_num)
  refine ⟨v, hv, lt_of_lt_of_le ?_ h⟩
  obtain ⟨e', he', h1, -⟩ := eff_bounds (List.replicate 20301 1) 0 1e-6 10e-6 20e-6 1 1 (by rw [List.length_replicate]) (by norm_num) (by norm_num) (by norm_num) (by norm_num)
    (fun i hi j hj => entry_mem _ 0 i j 1 1 (by rw [List.length_replicate]) hi hj (fun e he => by
      rw [List.drop_zero] at he; rw [List.eq_of_mem_replicate he]; exact ⟨le_rfl, le_rfl⟩))
  have : e = e' := Option.some.inj (he.symm.trans he')
  have hpi := Real.pi_pos
  have hh : 0 < hardSpheres 10e-6 20e-6 exA.vt exB.vt := by
    unfold hardSpheres
    have : 0 < |exA.vt - exB.vt| := abs_pos.2 (by norm_num [exA, exB])
    positivity
  have hm : 0 < ((max exA.n exB.n : ℕ) : ℝ) := by norm_num [exA, exB]
  have : 0 < e := by linarith
  positivity

example : ∃ v, kval 1e-6 ⟨1, 1.8e-5, 1e-2⟩ exA exB (.onishi (100 :: List.replicate 20301 1) 1100) = some v := by
  obtain ⟨e, he, h1, -⟩ := eff_bounds (100 :: List.replicate 20301 1) 1 1e-6 10e-6 20e-6 1 1 (by rw [List.length_cons, List.length_replicate]) (by norm_num) (by norm_num) (by norm_num) (by norm_num)
    (fun i hi j hj => ones_entry i j hi hj)
  obtain ⟨w, hw, w1⟩ := wang_ge_one_partial 10e-6 20e-6 100 (by norm_num) (by norm_num) (by norm_num) (by norm_num)
  obtain ⟨v, hv, -⟩ := turbulent_rate_too_low 1e-6 ⟨1, 1.8e-5, 1e-2⟩ exA exB 10e-6 20e-6 e w 100 _ (by norm_num) (by norm_num) rfl rfl he hw (by linarith) w1 (by norm_num) (by norm_num)
    (by norm_num) (by norm_num) (by norm_num [exA, exB])
  exact ⟨v, hv⟩

example : kval 1e-6 ⟨1, 1.8e-5, 1e-2⟩ exA exA (.onishi (100 :: List.replicate 20301 1) 1100) = none :=
  onishi_equal_radii _ _ _ _ 10e-6 _ _ (by norm_num) (by norm_num) rfl rfl

end
end LCP.Kernel
