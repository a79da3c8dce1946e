import Verif.Float.Sedi

/-!
# C131: total water in condensation with per-cell substeps, in floating-point arithmetic

Source: src/particles_step.ipp:237-256 (the loop), src/impl/condensation/percell/sstp_percell_step.ipp:13-50,
src/impl/condensation/percell/particles_impl_cond.ipp:25-49 and 104-135, src/impl/common/save_liq_ice_content_before_change.ipp:13-31,
src/impl/common/particles_impl_update_th_rv.ipp:85-125.  One cell; the wet sizes after each substep are arbitrary (whatever the solver gave);
the additions of a moment are done in any order, another one in each substep.  No ice.  Each `thrust::transform` writes its result to
memory, hence every operation below is rounded; division by `sstp` is rounded once.
-/
namespace LCP.Float

/-- `sstp_percell_step` for one cell (sstp_percell_step.ipp:13-49); `δ` is `tmp`, the change of the field since the last call -/
noncomputable def preFl (fl : ℝ → ℝ) (S step : ℕ) (δ rv : ℝ) : ℝ :=
  if S = 1 then rv
  else if step = 0 then fl (rv - fl (fl (fl (S - 1) * δ) / S))
  else fl (rv + fl (δ / S))

/-- `drw_mom3 = -before` then `+ after` (particles_impl_cond.ipp:37-48, 112-133), times `rho_w 4/3 pi` and subtracted from `rv`
(particles_impl_update_th_rv.ipp:89-124) -/
noncomputable def vapFl (fl : ℝ → ℝ) (c rv before after : ℝ) : ℝ := fl (rv - fl (fl (after + -before) * c))

/-- the loop over substeps (particles_step.ipp:237-256); the moment after a substep is the one before the next
(particles_impl_cond.ipp:104-122, 37-48) -/
noncomputable def condFl (fl : ℝ → ℝ) (c : ℝ) (S : ℕ) (δ : ℝ) : ℕ → ℝ → ℝ → List ℝ → ℝ
  | _, rv, _, [] => rv
  | step, rv, before, after :: l => condFl fl c S δ (step + 1) (vapFl fl c (preFl fl S step δ rv) before after) after l

/-- water vapour never exceeds `R` during the loop (in magnitude) -/
def VapBound (fl : ℝ → ℝ) (c R : ℝ) (S : ℕ) (δ : ℝ) : ℕ → ℝ → ℝ → List ℝ → Prop
  | _, _, _, [] => True
  | step, rv, before, after :: l =>
    |preFl fl S step δ rv| ≤ R ∧ |vapFl fl c (preFl fl S step δ rv) before after| ≤ R ∧
      VapBound fl c R S δ (step + 1) (vapFl fl c (preFl fl S step δ rv) before after) after l

/-- total variation of a sequence -/
def variation : ℝ → List ℝ → ℝ
  | _, [] => 0
  | b, a :: l => |a - b| + variation a l

/-- last of a sequence -/
def final : ℝ → List ℝ → ℝ
  | b, [] => b
  | _, a :: l => final a l

/-- the error of a rounding is small relative to the result as well -/
theorem err_out {p : ℕ} (hp : 1 ≤ p) {x y : ℝ} (h : Nearest p x y) : |y - x| ≤ |y| * 2 ^ (-(p : ℤ)) := by
  by_cases hx : x = 0
  · subst hx
    have := nearest_self h (zero_mem p)
    simp [this]
  · obtain ⟨m, h1, h2⟩ := exists_mem_Ico_zpow (abs_pos.2 hx) (by norm_num : (1 : ℝ) < 2)
    refine le_trans (abs_error hp h h2.le) ?_
    rw [sub_eq_add_neg, zpow_add₀ (by norm_num)]
    refine mul_le_mul_of_nonneg_right ?_ (two_zpow_pos _).le
    have hm := zpow_mem hp m
    rcases le_abs.1 h1 with h3 | h3
    · exact (le_nearest h hm h3).trans (le_abs_self _)
    · have := nearest_le h (neg_mem hm) (by linarith)
      exact le_abs.2 (Or.inr (by linarith))

/-- what `sstp_percell_step` adds in exact arithmetic -/
noncomputable def inc (S step : ℕ) (δ : ℝ) : ℝ := if S = 1 then 0 else if step = 0 then -((S - 1) * δ / S) else δ / S

/-- bound on the rounding error of that increment -/
noncomputable def incErr (u : ℝ) (S step : ℕ) (δ : ℝ) : ℝ :=
  if S = 1 then 0 else if step = 0 then |δ| * (3 * u + 3 * u ^ 2 + u ^ 3) else |δ| * u / S

theorem pre_err {p : ℕ} {fl : ℝ → ℝ} (h : Rounds p fl) (hp : 1 ≤ p) {R : ℝ} (S step : ℕ) (hS : 1 ≤ S) (δ rv : ℝ)
    (hR : |preFl fl S step δ rv| ≤ R) :
    |preFl fl S step δ rv - (rv + inc S step δ)| ≤ R * 2 ^ (-(p : ℤ)) + incErr (2 ^ (-(p : ℤ))) S step δ := by
  have e0 := eps_pos p
  have hR0 : 0 ≤ R := (abs_nonneg _).trans hR
  have S0 : (1 : ℝ) ≤ S := by exact_mod_cast hS
  have Sp : (0 : ℝ) < S := by linarith
  unfold preFl inc incErr at *
  split_ifs at * with h1 h2
  · simp; positivity
  · have a := (err_out hp (h (rv - fl (fl (fl (S - 1) * δ) / S)))).trans (mul_le_mul_of_nonneg_right hR e0.le)
    have b1 := rel_error hp (h ((S : ℝ) - 1))
    have b2 := rel_error hp (h (fl ((S : ℝ) - 1) * δ))
    have b3 := rel_error hp (h (fl (fl ((S : ℝ) - 1) * δ) / S))
    generalize fl (rv - fl (fl (fl (S - 1) * δ) / S)) = y at *
    generalize fl (fl (fl ((S : ℝ) - 1) * δ) / S) = z3 at *
    generalize fl (fl ((S : ℝ) - 1) * δ) = z2 at *
    generalize fl ((S : ℝ) - 1) = z1 at *
    generalize (2 : ℝ) ^ (-(p : ℤ)) = u at *
    rw [abs_of_nonneg (by linarith : (0 : ℝ) ≤ S - 1)] at b1
    have c1 : |z1| ≤ S * (1 + u) := by
      have := abs_le.1 b1
      exact abs_le.2 ⟨by nlinarith [this.1], by nlinarith [this.2]⟩
    have d0 := abs_nonneg δ
    have c2 : |z2 - (S - 1) * δ| ≤ S * |δ| * (2 * u + u ^ 2) := by
      have : z2 - (S - 1) * δ = (z2 - z1 * δ) + (z1 - (S - 1)) * δ := by ring
      rw [this]
      refine (abs_add_le _ _).trans ?_
      rw [abs_mul]
      rw [abs_mul] at b2
      have k1 : |z1| * |δ| * u ≤ S * (1 + u) * |δ| * u := by gcongr
      have k2 : |z1 - (S - 1)| * |δ| ≤ S * u * |δ| := by
        refine mul_le_mul_of_nonneg_right (b1.trans ?_) d0
        nlinarith
      nlinarith
    have c3 : |z2 / S - (S - 1) * δ / S| ≤ |δ| * (2 * u + u ^ 2) := by
      rw [← sub_div, abs_div, abs_of_pos Sp, div_le_iff₀ Sp]
      linarith
    have c4 : |z2 / S| ≤ |δ| * (1 + 2 * u + u ^ 2) := by
      have q : |(S - 1) * δ / S| ≤ |δ| := by
        rw [abs_div, abs_of_pos Sp, abs_mul, abs_of_nonneg (by linarith : (0 : ℝ) ≤ S - 1), div_le_iff₀ Sp]
        nlinarith
      have := abs_sub_abs_le_abs_sub (z2 / S) ((S - 1) * δ / S)
      nlinarith
    have c5 : |z3 - (S - 1) * δ / S| ≤ |δ| * (3 * u + 3 * u ^ 2 + u ^ 3) := by
      have : z3 - (S - 1) * δ / S = (z3 - z2 / S) + (z2 / S - (S - 1) * δ / S) := by ring
      rw [this]
      refine (abs_add_le _ _).trans ?_
      have := mul_le_mul_of_nonneg_right c4 e0.le
      nlinarith
    have : y - (rv + -((S - 1) * δ / S)) = (y - (rv - z3)) - (z3 - (S - 1) * δ / S) := by ring
    rw [this]
    exact (abs_sub _ _).trans (add_le_add a c5)
  · have a := (err_out hp (h (rv + fl (δ / S)))).trans (mul_le_mul_of_nonneg_right hR e0.le)
    have b := rel_error hp (h (δ / S))
    rw [abs_div, abs_of_pos Sp] at b
    have : fl (rv + fl (δ / S)) - (rv + δ / S) = (fl (rv + fl (δ / S)) - (rv + fl (δ / S))) + (fl (δ / S) - δ / S) := by ring
    rw [this]
    refine (abs_add_le _ _).trans (add_le_add a (b.trans (le_of_eq ?_)))
    ring

theorem vap_err {p : ℕ} {fl : ℝ → ℝ} (h : Rounds p fl) (hp : 1 ≤ p) {R c : ℝ} (hc : 0 ≤ c) (rv b a : ℝ)
    (hR : |vapFl fl c rv b a| ≤ R) :
    |vapFl fl c rv b a + c * a - (rv + c * b)| ≤ R * 2 ^ (-(p : ℤ)) + c * |a - b| * (2 * 2 ^ (-(p : ℤ)) + (2 ^ (-(p : ℤ))) ^ 2) := by
  have e0 := eps_pos p
  unfold vapFl at *
  have k := (err_out hp (h (rv - fl (fl (a + -b) * c)))).trans (mul_le_mul_of_nonneg_right hR e0.le)
  have b1 := rel_error hp (h (a + -b))
  have b2 := rel_error hp (h (fl (a + -b) * c))
  generalize fl (rv - fl (fl (a + -b) * c)) = y at *
  generalize fl (fl (a + -b) * c) = z2 at *
  generalize fl (a + -b) = z1 at *
  generalize (2 : ℝ) ^ (-(p : ℤ)) = u at *
  rw [← sub_eq_add_neg] at b1
  have d0 := abs_nonneg (a - b)
  have c1 : |z1| ≤ |a - b| * (1 + u) := by
    have := abs_sub_abs_le_abs_sub z1 (a - b)
    linarith
  have : y + c * a - (rv + c * b) = (y - (rv - z2)) - (z2 - z1 * c) - c * (z1 - (a - b)) := by ring
  rw [this]
  refine (abs_sub _ _).trans ?_
  have k2 : |c * (z1 - (a - b))| ≤ c * (|a - b| * u) := by rw [abs_mul, abs_of_nonneg hc]; exact mul_le_mul_of_nonneg_left b1 hc
  have k3 : |z2 - z1 * c| ≤ |a - b| * (1 + u) * c * u := by
    refine b2.trans ?_
    rw [abs_mul, abs_of_nonneg hc]
    gcongr
  have := abs_sub (y - (rv - z2)) (z2 - z1 * c)
  nlinarith

/-- sums of `f` over the substeps from `step` on -/
noncomputable def over (f : ℕ → ℝ) : ℕ → List ℝ → ℝ
  | _, [] => 0
  | step, _ :: l => f step + over f (step + 1) l

theorem loop_err {p : ℕ} {fl : ℝ → ℝ} (h : Rounds p fl) (hp : 1 ≤ p) {R c : ℝ} (hc : 0 ≤ c) (S : ℕ) (hS : 1 ≤ S) (δ : ℝ)
    (l : List ℝ) (step : ℕ) (rv b : ℝ) (hR : VapBound fl c R S δ step rv b l) :
    |condFl fl c S δ step rv b l + c * final b l - (rv + c * b + over (fun j => inc S j δ) step l)| ≤
      2 * l.length * (R * 2 ^ (-(p : ℤ))) + over (fun j => incErr (2 ^ (-(p : ℤ))) S j δ) step l +
        c * variation b l * (2 * 2 ^ (-(p : ℤ)) + (2 ^ (-(p : ℤ))) ^ 2) := by
  induction l generalizing step rv b with
  | nil => simp [condFl, final, over, variation]
  | cons a l ih =>
    obtain ⟨h1, h2, h3⟩ := hR
    have i := ih (step + 1) _ a h3
    have j1 := pre_err h hp S step hS δ rv h1
    have j2 := vap_err h hp hc _ b a h2
    show |condFl fl c S δ (step + 1) (vapFl fl c (preFl fl S step δ rv) b a) a l + c * final a l -
      (rv + c * b + (inc S step δ + over (fun j => inc S j δ) (step + 1) l))| ≤
      2 * ((l.length + 1 : ℕ) : ℝ) * (R * 2 ^ (-(p : ℤ))) + (incErr (2 ^ (-(p : ℤ))) S step δ + over (fun j => incErr (2 ^ (-(p : ℤ))) S j δ) (step + 1) l) +
        c * (|a - b| + variation a l) * (2 * 2 ^ (-(p : ℤ)) + (2 ^ (-(p : ℤ))) ^ 2)
    generalize condFl fl c S δ (step + 1) (vapFl fl c (preFl fl S step δ rv) b a) a l = Y at *
    generalize vapFl fl c (preFl fl S step δ rv) b a = v at *
    generalize preFl fl S step δ rv = w at *
    generalize over (fun j => inc S j δ) (step + 1) l = o at *
    generalize over (fun j => incErr (2 ^ (-(p : ℤ))) S j δ) (step + 1) l = o' at *
    have : Y + c * final a l - (rv + c * b + (inc S step δ + o)) =
      (Y + c * final a l - (v + c * a + o)) + ((v + c * a - (w + c * b)) + (w - (rv + inc S step δ))) := by ring
    rw [this]
    refine (abs_add_le _ _).trans ?_
    have := abs_add_le (v + c * a - (w + c * b)) (w - (rv + inc S step δ))
    push_cast
    linarith

theorem over_later (f : ℕ → ℝ) (k : ℝ) (hf : ∀ j, j ≠ 0 → f j = k) (l : List ℝ) (step : ℕ) (hs : step ≠ 0) :
    over f step l = l.length * k := by
  induction l generalizing step with
  | nil => simp [over]
  | cons a l ih => simp only [over]; rw [hf step hs, ih (step + 1) (by omega)]; simp; ring

/-- the increments of the substeps of one call cancel -/
theorem over_inc (S : ℕ) (δ : ℝ) (l : List ℝ) (hl : l.length = S) (hS : 1 ≤ S) : over (fun j => inc S j δ) 0 l = 0 := by
  by_cases h1 : S = 1
  · subst h1
    obtain ⟨a, rfl⟩ := List.length_eq_one_iff.1 hl
    simp [over, inc]
  · cases l with
    | nil => simp [over]
    | cons a l =>
      have S0 : (S : ℝ) ≠ 0 := by positivity
      simp only [List.length_cons] at hl
      have e : (l.length : ℝ) = S - 1 := by rw [← hl]; push_cast; ring
      simp only [over]
      rw [over_later _ (δ / S) (fun j hj => by simp [inc, h1, hj]) l 1 (by norm_num), e]
      simp only [inc, h1, if_false, if_true]
      field_simp
      ring

theorem over_incErr (u : ℝ) (hu : 0 ≤ u) (S : ℕ) (δ : ℝ) (l : List ℝ) (hl : l.length = S) (hS : 1 ≤ S) :
    over (fun j => incErr u S j δ) 0 l ≤ |δ| * (4 * u + 3 * u ^ 2 + u ^ 3) := by
  have d0 := abs_nonneg δ
  by_cases h1 : S = 1
  · subst h1
    obtain ⟨a, rfl⟩ := List.length_eq_one_iff.1 hl
    simp [over, incErr]; positivity
  · cases l with
    | nil => simp [over]; positivity
    | cons a l =>
      have S0 : (0 : ℝ) < S := by positivity
      simp only [List.length_cons] at hl
      have e : (l.length : ℝ) = S - 1 := by rw [← hl]; push_cast; ring
      simp only [over]
      rw [over_later _ (|δ| * u / S) (fun j hj => by simp [incErr, h1, hj]) l 1 (by norm_num), e]
      simp only [incErr, h1, if_false, if_true]
      have : ((S : ℝ) - 1) * (|δ| * u / S) ≤ |δ| * u := by
        rw [mul_div_assoc', div_le_iff₀ S0]
        nlinarith [mul_nonneg d0 hu]
      linarith

/-- **C131, one call.** With the computed moments taken as they are, a call to `step_cond` with `S` substeps changes the total water of a cell by
at most two roundings of the water vapour per substep, about four of the increment `δ` and about two of the water exchanged. -/
theorem call_drift {p : ℕ} {fl : ℝ → ℝ} (h : Rounds p fl) (hp : 1 ≤ p) {R c : ℝ} (hc : 0 ≤ c) (δ rv b : ℝ) (l : List ℝ) (hl : l ≠ [])
    (hR : VapBound fl c R l.length δ 0 rv b l) :
    |condFl fl c l.length δ 0 rv b l + c * final b l - (rv + c * b)| ≤
      2 * l.length * (R * 2 ^ (-(p : ℤ))) + |δ| * (4 * 2 ^ (-(p : ℤ)) + 3 * (2 ^ (-(p : ℤ))) ^ 2 + (2 ^ (-(p : ℤ))) ^ 3) +
        c * variation b l * (2 * 2 ^ (-(p : ℤ)) + (2 ^ (-(p : ℤ))) ^ 2) := by
  have hS : 1 ≤ l.length := List.length_pos_iff.2 hl
  have a := loop_err h hp hc l.length hS δ l 0 rv b hR
  rw [over_inc _ _ _ rfl hS, add_zero] at a
  have b := over_incErr (2 ^ (-(p : ℤ))) (eps_pos p).le l.length δ l rfl hS
  linarith

theorem Within.abs {e : ℝ} {m : ℕ} {x y : ℝ} (he0 : 0 ≤ e) (he1 : e ≤ 1) (hx : 0 ≤ x) (h : Within e m x y) : |y - x| ≤ x * ((1 + e) ^ m - 1) := by
  have a := one_add_mul_le_pow (by linarith : -2 ≤ e) m
  have b := one_add_mul_le_pow (by linarith : -2 ≤ -e) m
  rw [← sub_eq_add_neg] at b
  have k : 1 - (1 - e) ^ m ≤ (1 + e) ^ m - 1 := by linarith
  obtain ⟨h1, h2⟩ := h
  have := mul_le_mul_of_nonneg_left k hx
  exact abs_le.2 ⟨by linarith, by linarith⟩

/-- what a call to `step_cond` finds in the cell: `ext` is what the flow model added to the water vapour since the last call, `δ` the
increment that is spread over the substeps, then the droplets (with an order of summation) before the first and after each substep -/
structure CondCall where
  ext : ℝ
  δ : ℝ
  first : Sum Item
  rest : List (Sum Item)

/-- the last state of the droplets -/
def lastSum : Sum Item → List (Sum Item) → Sum Item
  | b, [] => b
  | _, a :: l => lastSum a l

/-- a history of calls: `W rv liq rv' liq' ext T` - starting with water vapour `rv` and liquid water `liq`, after `T` calls there are `rv'` and
`liq'`, and the flow model has added `ext`.  Liquid water is `c` times the exact third moment; between the calls it does not change.
Water vapour stays below `R`, liquid water below `L`; there are at most `N` super-droplets and `S` substeps -/
inductive CondHist (fl pow k : ℝ → ℝ) (specific : Bool) (dv rhod c R L : ℝ) (N S : ℕ) : ℝ → ℝ → ℝ → ℝ → ℝ → ℕ → Prop
  | nil (rv liq : ℝ) : CondHist fl pow k specific dv rhod c R L N S rv liq rv liq 0 0
  | call (rv liq rv' liq' ext : ℝ) (T : ℕ) (h : CondHist fl pow k specific dv rhod c R L N S rv liq rv' liq' ext T) (q : CondCall)
      (hl : q.rest ≠ []) (hS : q.rest.length ≤ S) (hδ : |q.δ| ≤ R) (hN : ∀ t ∈ q.first :: q.rest, t.leaves.length ≤ N)
      (hL : ∀ t ∈ q.first :: q.rest, c * exactMoment k specific dv rhod t.leaves ≤ L)
      (hfirst : c * exactMoment k specific dv rhod q.first.leaves = liq')
      (hR : VapBound fl c R q.rest.length q.δ 0 (rv' + q.ext) (momentFl fl pow specific dv rhod q.first)
        (q.rest.map (momentFl fl pow specific dv rhod))) :
      CondHist fl pow k specific dv rhod c R L N S rv liq
        (condFl fl c q.rest.length q.δ 0 (rv' + q.ext) (momentFl fl pow specific dv rhod q.first)
          (q.rest.map (momentFl fl pow specific dv rhod)))
        (c * exactMoment k specific dv rhod (lastSum q.first q.rest).leaves) (ext + q.ext) (T + 1)

/-- the most that total water may drift in a call -/
noncomputable def callBound (u R L : ℝ) (N S : ℕ) : ℝ :=
  2 * S * (R * u) + R * (4 * u + 3 * u ^ 2 + u ^ 3) + S * (L * (1 + u) ^ (N + 4)) * (2 * u + u ^ 2) + 2 * L * ((1 + u) ^ (N + 4) - 1)

theorem final_map (f : Sum Item → ℝ) (b : Sum Item) (l : List (Sum Item)) : final (f b) (l.map f) = f (lastSum b l) := by
  induction l generalizing b with
  | nil => rfl
  | cons a l ih => exact ih a

theorem lastSum_mem (b : Sum Item) (l : List (Sum Item)) : lastSum b l ∈ b :: l := by
  induction l generalizing b with
  | nil => simp [lastSum]
  | cons a l ih => exact List.mem_cons_of_mem _ (ih a)

theorem variation_le {c M : ℝ} (hc : 0 ≤ c) (b : ℝ) (l : List ℝ) (h : ∀ a ∈ b :: l, 0 ≤ a ∧ c * a ≤ M) : c * variation b l ≤ l.length * M := by
  induction l generalizing b with
  | nil => simp [variation]
  | cons a l ih =>
    have i := ih a (fun x hx => h x (List.mem_cons_of_mem _ hx))
    obtain ⟨b0, bM⟩ := h b (by simp)
    obtain ⟨a0, aM⟩ := h a (by simp)
    have : c * |a - b| ≤ M := by
      have ca := mul_nonneg hc a0
      have cb := mul_nonneg hc b0
      rw [← abs_of_nonneg hc, ← abs_mul, mul_sub]
      exact abs_le.2 ⟨by linarith, by linarith⟩
    simp only [variation, List.length_cons]
    push_cast
    linarith

/-- **C131.** Over any history of `T` calls, for any sizes the droplets take, any order of summation and any number of substeps up to `S`,
total water (vapour plus liquid, per mass of dry air) drifts by at most `T` times `callBound`. -/
theorem water_drift {p : ℕ} {fl : ℝ → ℝ} (h : Rounds p fl) (hp : 1 ≤ p) {pow k : ℝ → ℝ} (hk : ∀ x, 0 ≤ k x)
    (hpow : ∀ x, |pow x - k x| ≤ k x * 2 ^ (-(p : ℤ))) {specific : Bool} {dv rhod c R L : ℝ} (hv : 0 < dv) (hr : 0 < rhod) (hc : 0 ≤ c)
    {N S : ℕ} {rv liq rv' liq' ext : ℝ} {T : ℕ} (H : CondHist fl pow k specific dv rhod c R L N S rv liq rv' liq' ext T) :
    |(rv' + liq') - (rv + liq + ext)| ≤ T * callBound (2 ^ (-(p : ℤ))) R L N S := by
  induction H with
  | nil => simp
  | call rv' liq' ext T H q hl hS hδ hN hL hfirst hR ih =>
    have e0 := eps_pos p
    have e1 := eps_le_one p
    have R0 : 0 ≤ R := (abs_nonneg _).trans hδ
    have ex0 : ∀ t : Sum Item, 0 ≤ exactMoment k specific dv rhod t.leaves := by
      intro t
      unfold exactMoment
      refine div_nonneg (List.sum_nonneg ?_) (by split_ifs <;> positivity)
      simp only [List.mem_map]; rintro _ ⟨a, _, rfl⟩; exact mul_nonneg (Nat.cast_nonneg _) (hk _)
    have wi : ∀ t ∈ q.first :: q.rest, Within (2 ^ (-(p : ℤ))) (N + 4) (exactMoment k specific dv rhod t.leaves) (momentFl fl pow specific dv rhod t) := by
      intro t ht
      have w : Within (2 ^ (-(p : ℤ))) (t.leaves.length + 4) (exactMoment k specific dv rhod t.leaves) (momentFl fl pow specific dv rhod t) :=
        moment_error h hp hk hpow (specific := specific) hv hr t
      exact w.mono e0.le e1 (ex0 t) (by have := hN t ht; omega)
    have L0 : 0 ≤ L := (mul_nonneg hc (ex0 q.first)).trans (hL q.first (by simp))
    have one := call_drift h hp hc q.δ (rv' + q.ext) (momentFl fl pow specific dv rhod q.first) (q.rest.map (momentFl fl pow specific dv rhod))
      (by simpa using hl) (by simpa using hR)
    rw [List.length_map, final_map] at one
    have mem := lastSum_mem q.first q.rest
    have va : c * variation (momentFl fl pow specific dv rhod q.first) (q.rest.map (momentFl fl pow specific dv rhod)) ≤
        q.rest.length * (L * (1 + 2 ^ (-(p : ℤ))) ^ (N + 4)) := by
      have := variation_le hc (M := L * (1 + 2 ^ (-(p : ℤ))) ^ (N + 4)) (momentFl fl pow specific dv rhod q.first) (q.rest.map (momentFl fl pow specific dv rhod)) ?_
      · rwa [List.length_map] at this
      · rw [← List.map_cons]
        intro a ha
        obtain ⟨t, ht, rfl⟩ := List.mem_map.1 ha
        have w := wi t ht
        refine ⟨w.nonneg e1 (ex0 t), ?_⟩
        have := mul_le_mul_of_nonneg_left w.2 hc
        refine this.trans ?_
        rw [← mul_assoc]
        exact mul_le_mul_of_nonneg_right (hL t ht) (by positivity)
    have m1 := mul_le_mul_of_nonneg_left ((wi q.first (by simp)).abs e0.le e1 (ex0 _)) hc
    have m2 := mul_le_mul_of_nonneg_left ((wi _ mem).abs e0.le e1 (ex0 _)) hc
    have l1 := hL q.first (by simp)
    have l2 := hL _ mem
    rw [← abs_of_nonneg hc, ← abs_mul, abs_of_nonneg hc, mul_sub, ← mul_assoc] at m1 m2
    have Sn : (q.rest.length : ℝ) ≤ S := by exact_mod_cast hS
    generalize condFl fl c q.rest.length q.δ 0 (rv' + q.ext) (momentFl fl pow specific dv rhod q.first)
          (q.rest.map (momentFl fl pow specific dv rhod)) = Y at *
    generalize variation (momentFl fl pow specific dv rhod q.first) (q.rest.map (momentFl fl pow specific dv rhod)) = V at *
    generalize momentFl fl pow specific dv rhod (lastSum q.first q.rest) = M2 at *
    generalize momentFl fl pow specific dv rhod q.first = M1 at *
    generalize exactMoment k specific dv rhod (lastSum q.first q.rest).leaves = X2 at *
    rw [hfirst] at m1 l1
    generalize (2 : ℝ) ^ (-(p : ℤ)) = u at *
    have g0 : 0 ≤ (1 + u) ^ (N + 4) - 1 := by have := one_le_pow₀ (n := N + 4) (by linarith : 1 ≤ 1 + u); linarith
    have n1 := m1.trans (mul_le_mul_of_nonneg_right l1 g0)
    have n2 := m2.trans (mul_le_mul_of_nonneg_right l2 g0)
    have eq : Y + c * X2 - (rv + liq + (ext + q.ext)) =
        (Y + c * M2 - (rv' + q.ext + c * M1)) + ((c * M1 - liq') - (c * M2 - c * X2)) + (rv' + liq' - (rv + liq + ext)) := by ring
    rw [eq]
    refine (abs_add_le _ _).trans ?_
    have t1 := abs_add_le (Y + c * M2 - (rv' + q.ext + c * M1)) ((c * M1 - liq') - (c * M2 - c * X2))
    have t2 := abs_sub (c * M1 - liq') (c * M2 - c * X2)
    have LG : 0 ≤ L * (1 + u) ^ (N + 4) := mul_nonneg L0 (by positivity)
    have b1 : 2 * (q.rest.length : ℝ) * (R * u) ≤ 2 * S * (R * u) := by have := mul_nonneg R0 e0.le; gcongr
    have b2 : |q.δ| * (4 * u + 3 * u ^ 2 + u ^ 3) ≤ R * (4 * u + 3 * u ^ 2 + u ^ 3) := by gcongr
    have b3 : c * V * (2 * u + u ^ 2) ≤ S * (L * (1 + u) ^ (N + 4)) * (2 * u + u ^ 2) := by
      refine mul_le_mul_of_nonneg_right (va.trans ?_) (by positivity)
      gcongr
    unfold callBound at ih ⊢
    push_cast
    generalize (1 + u) ^ (N + 4) = G at *
    rw [add_mul (T : ℝ) 1, one_mul]
    linarith

/-- **C131, sharpness.** If in each substep less water condenses than half a unit in the last place of the water vapour, the water vapour does
not change at all, whatever their number: all the liquid water comes from nowhere.  (With `S = 1`, `condFl` on a list is a sequence of calls
of one substep each, the moments being added in the same order in all of them.) -/
theorem vapour_stuck {p : ℕ} {fl : ℝ → ℝ} (h : Rounds p fl) (hp : 1 ≤ p) (m : ℤ) {c rv : ℝ} (hrv : rv ∈ F p) (hm : 2 ^ m < rv) (hc : 0 ≤ c)
    (l : List ℝ) (b : ℝ) (hl : List.IsChain (fun x y => x ∈ F p → y ∈ F p → x ≤ y ∧ c * (y - x) < 2 ^ (m - p) * (1 - 2 * 2 ^ (-(p : ℤ)))) (b :: l))
    (hF : ∀ x ∈ b :: l, x ∈ F p) (step : ℕ) : condFl fl c 1 0 step rv b l = rv := by
  have e0 := eps_pos p
  have half : (2 : ℝ) ^ (m + 1 - p) = 2 * 2 ^ (m - (p : ℤ)) := by
    rw [show m + 1 - (p : ℤ) = (m - p) + 1 by ring, zpow_add_one₀ (by norm_num)]; ring
  have u0 := two_zpow_pos (m - p)
  have stay : ∀ f : ℝ, 0 ≤ f → f < 2 ^ (m - (p : ℤ)) → fl (rv - f) = rv := by
    intro f hf hf'
    by_contra hne
    have a := gap_below hp hrv hm (h (rv - f)).1 hne
    have b := (h (rv - f)).2 rv hrv
    rw [show rv - (rv - f) = f by ring, abs_of_nonneg hf] at b
    have c : |fl (rv - f) - rv| ≤ |fl (rv - f) - (rv - f)| + f := by
      calc |fl (rv - f) - rv| = |(fl (rv - f) - (rv - f)) + (-f)| := by congr 1; ring
        _ ≤ |fl (rv - f) - (rv - f)| + |-f| := abs_add_le _ _
        _ = _ := by rw [abs_neg, abs_of_nonneg hf]
    linarith
  induction l generalizing b step with
  | nil => rfl
  | cons a l ih =>
    rw [List.isChain_cons_cons] at hl
    obtain ⟨hab, hlt⟩ := hl.1 (hF b (by simp)) (hF a (by simp))
    have q1 := le_nearest (h (a + -b)) (zero_mem p) (by linarith)
    have r1 := rel_error hp (h (a + -b))
    rw [abs_of_nonneg (by linarith : 0 ≤ a + -b)] at r1
    have q2 := le_nearest (h (fl (a + -b) * c)) (zero_mem p) (mul_nonneg q1 hc)
    have r2 := rel_error hp (h (fl (a + -b) * c))
    rw [abs_of_nonneg (mul_nonneg q1 hc)] at r2
    have s1 := (abs_le.1 r1).2
    have s2 := (abs_le.1 r2).2
    have small : fl (fl (a + -b) * c) < 2 ^ (m - (p : ℤ)) := by
      generalize fl (fl (a + -b) * c) = z2 at *
      generalize fl (a + -b) = z1 at *
      generalize (2 : ℝ) ^ (-(p : ℤ)) = u at *
      generalize (2 : ℝ) ^ (m - (p : ℤ)) = U at *
      have t1 : z1 * c ≤ c * (a - b) * (1 + u) := by nlinarith
      have t2 : z2 ≤ c * (a - b) * (1 + u) * (1 + u) := by nlinarith
      have t3 : c * (a - b) * (1 + u) * (1 + u) < U * (1 - 2 * u) * (1 + u) * (1 + u) := by gcongr
      have t4 : U * (1 - 2 * u) * (1 + u) * (1 + u) ≤ U := by
        have : (1 - 2 * u) * (1 + u) * (1 + u) ≤ 1 := by nlinarith [pow_pos e0 2, pow_pos e0 3]
        nlinarith
      linarith
    have one : vapFl fl c (preFl fl 1 step 0 rv) b a = rv := by
      simp only [preFl, if_true, vapFl]
      exact stay _ q2 small
    show condFl fl c 1 0 (step + 1) (vapFl fl c (preFl fl 1 step 0 rv) b a) a l = rv
    rw [one]
    exact ih a hl.2 (fun x hx => hF x (List.mem_cons_of_mem _ hx)) (step + 1)

theorem chain_range (P : ℝ → ℝ → Prop) (f : ℕ → ℝ) (hP : ∀ j, P (f j) (f (j + 1))) (T j : ℕ) :
    List.IsChain P (f j :: (List.range' (j + 1) T).map f) := by
  induction T generalizing j with
  | zero => simp
  | succ T ih =>
    rw [List.range'_succ, List.map_cons, List.isChain_cons_cons]
    exact ⟨hP j, ih (j + 1)⟩

theorem final_range (f : ℕ → ℝ) (T j : ℕ) : final (f j) ((List.range' (j + 1) T).map f) = f (j + T) := by
  induction T generalizing j with
  | zero => simp [final]
  | succ T ih =>
    rw [List.range'_succ, List.map_cons]
    show final (f (j + 1)) _ = _
    rw [ih (j + 1)]; congr 1; ring

/-- in single precision, with water vapour at 10 g/kg (0.0099945068359375 is representable): there are droplet populations (third moments
`j 2^-44`) such that over `T ≤ 2^24` calls liquid water grows steadily, in the end to `T` times 0.24 micrograms per kilogram, and the water vapour never changes -/
theorem water_from_nowhere {fl : ℝ → ℝ} (h : Rounds 24 fl) {c : ℝ} (hc : 4188 ≤ c) (hc' : c ≤ 4189) (T : ℕ) (hT : T ≤ 2 ^ 24) :
    ∃ l : List ℝ, l.length = T ∧ (∀ x ∈ l, x ∈ F 24) ∧ condFl fl c 1 0 0 (655 / 65536) 0 l = 655 / 65536 ∧
      T * 2.38e-10 ≤ c * final 0 l := by
  have hrange : ∀ x ∈ (0 : ℝ) :: (List.range' 1 T).map (fun j : ℕ => (j : ℝ) * 2 ^ (-44 : ℤ)), x ∈ F 24 := by
    intro x hx
    rcases List.mem_cons.1 hx with rfl | hx
    · exact zero_mem 24
    · obtain ⟨j, hj, rfl⟩ := List.mem_map.1 hx
      rw [List.mem_range'_1] at hj
      exact scale_mem (nat_mem (p := 24) (by norm_num) (by omega)) _
  refine ⟨(List.range' 1 T).map (fun j : ℕ => (j : ℝ) * 2 ^ (-44 : ℤ)), by simp, fun x hx => hrange x (List.mem_cons_of_mem _ hx), ?_, ?_⟩
  · refine vapour_stuck h (by norm_num) (-7) ?_ (by norm_num) (by linarith) _ _ ?_ hrange 0
    · have := scale_mem (nat_mem (p := 24) (n := 655) (by norm_num) (by norm_num)) (-16)
      norm_num at this ⊢; exact this
    · have := chain_range (fun x y => x ∈ F 24 → y ∈ F 24 → x ≤ y ∧ c * (y - x) < 2 ^ ((-7 : ℤ) - (24 : ℕ)) * (1 - 2 * 2 ^ (-((24 : ℕ) : ℤ))))
        (fun j : ℕ => (j : ℝ) * 2 ^ (-44 : ℤ)) (fun j _ _ => ⟨by push_cast; norm_num, by push_cast; norm_num; linarith⟩) T 0
      simpa using this
  · have := final_range (fun j : ℕ => (j : ℝ) * 2 ^ (-44 : ℤ)) T 0
    simp only [Nat.cast_zero, zero_mul, zero_add] at this
    rw [this]
    have T0 : (0 : ℝ) ≤ T := Nat.cast_nonneg _
    norm_num
    nlinarith

/-- the hypotheses of `water_drift` are met: one call with two substeps, in which droplets grow -/
example : ∃ fl : ℝ → ℝ, Rounds 24 fl ∧ ∃ R L liq' rv', CondHist fl (fun x => x) (fun x => |x|) false 1 1 1 R L 1 2 1 1 rv' liq' 0 1 ∧ liq' = 3 := by
  obtain ⟨fl, h⟩ := exists_rounds (p := 24) (by norm_num)
  obtain ⟨q, hq⟩ : ∃ q : CondCall, q = ⟨0, 0, .leaf ⟨1, 1⟩, [.leaf ⟨1, 2⟩, .leaf ⟨1, 3⟩]⟩ := ⟨_, rfl⟩
  have vb : ∀ (S : ℕ) (δ : ℝ) (l : List ℝ) (step : ℕ) (rv b : ℝ), ∃ R, VapBound fl 1 R S δ step rv b l := by
    intro S δ l
    induction l with
    | nil => intros; exact ⟨0, trivial⟩
    | cons a l ih =>
      intro step rv b
      obtain ⟨R, hR⟩ := ih (step + 1) (vapFl fl 1 (preFl fl S step δ rv) b a) a
      have mono : ∀ (l : List ℝ) (step : ℕ) (rv b R R' : ℝ), R ≤ R' → VapBound fl 1 R S δ step rv b l → VapBound fl 1 R' S δ step rv b l := by
        intro l
        induction l with
        | nil => intros; trivial
        | cons a l ih => intro step rv b R R' hle hR; exact ⟨hR.1.trans hle, hR.2.1.trans hle, ih _ _ _ _ _ hle hR.2.2⟩
      refine ⟨max R (max |preFl fl S step δ rv| |vapFl fl 1 (preFl fl S step δ rv) b a|), ?_, ?_, ?_⟩
      · exact (le_max_left _ _).trans (le_max_right _ _)
      · exact (le_max_right _ _).trans (le_max_right _ _)
      · exact mono _ _ _ _ _ _ (le_max_left _ _) hR
  obtain ⟨R, hR⟩ := vb 2 0 (q.rest.map (momentFl fl (fun x => x) false 1 1)) 0 (1 + q.ext) (momentFl fl (fun x => x) false 1 1 q.first)
  have R0 : 0 ≤ R := by rw [hq] at hR; exact (abs_nonneg _).trans hR.1
  have len : q.rest.length = 2 := by rw [hq]; rfl
  have := CondHist.call (fl := fl) (pow := fun x => x) (k := fun x => |x|) (specific := false) (dv := 1) (rhod := 1) (c := 1) (R := R) (L := 3) (N := 1) (S := 2)
    (rv := 1) (liq := 1) 1 1 0 0 (.nil 1 1) q (by rw [hq]; simp) (by rw [len]) (by rw [hq]; simpa using R0)
    (by rw [hq]; simp [Sum.leaves]) (by rw [hq]; simp [Sum.leaves, exactMoment]; norm_num) (by rw [hq]; simp [Sum.leaves, exactMoment]) (by rw [len, show q.δ = 0 by rw [hq]]; exact hR)
  refine ⟨fl, h, R, 3, _, _, by simpa [hq] using this, ?_⟩
  simp [lastSum, exactMoment, Sum.leaves]

end LCP.Float
