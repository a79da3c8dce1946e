import Verif.Blk1m.Model
import Verif.Common.Props
import Mathlib.Data.List.GetD
import Mathlib.Tactic.Ring
import Mathlib.Tactic.Linarith
import Mathlib.Tactic.FieldSimp
import Mathlib.Tactic.Positivity
import Mathlib.Tactic.NormNum
import Mathlib.Tactic.IntervalCases

/-!
# Cell-wise tendencies of the single-moment scheme (C40, C41, C50)
-/
namespace LCP.Blk1m
open LCP.Common

/-- total water tendency -/
def Dots.water (d : Dots) : ℝ := d.rv + d.rc + d.rr + d.ria + d.rib
/-- total ice tendency -/
def Dots.ice (d : Dots) : ℝ := d.ria + d.rib

/-- the option check shared by all functions: exactly one of `const_p` and `th_dry` -/
theorem Tp_isSome (o : Opts) (rhod p th rv : ℝ) : (Tp o rhod p th rv).isSome ↔ o.const_p ≠ o.th_dry := by
  unfold Tp
  cases o.const_p <;> cases o.th_dry <;> simp

/-- the array functions are the per-cell ones applied to every cell -/
theorem onCells_iff (f : Cell → Dots → Option Dots) (cells : List (Cell × Dots)) (ds : List Dots) :
    onCells f cells = some ds ↔ List.Forall₂ (fun x d => f x.1 x.2 = some d) cells ds := by
  unfold onCells
  induction cells generalizing ds with
  | nil => simp [pure]
  | cons x xs ih =>
    simp only [List.mapM_cons, Option.bind_eq_bind, Option.pure_def]
    cases hf : f x.1 x.2 with
    | none =>
      simp only [Option.bind_none]
      constructor
      · intro h; exact absurd h (by simp)
      · intro h
        cases h with
        | cons h1 _ => rw [hf] at h1; exact absurd h1 (by simp)
    | some d =>
      simp only [Option.bind_some]
      cases hm : List.mapM (fun x => f x.1 x.2) xs with
      | none =>
        simp only [Option.bind_none]
        constructor
        · intro h; exact absurd h (by simp)
        · intro h
          cases h with
          | cons _ h2 => rw [(ih _).2 h2] at hm; exact absurd hm (by simp)
      | some l =>
        simp only [Option.bind_some, Option.some.injEq]
        constructor
        · rintro rfl
          exact List.Forall₂.cons hf ((ih l).1 hm)
        · intro h
          cases h with
          | cons h1 h2 =>
            rw [hf] at h1
            rw [(ih _).2 h2] at hm
            simp only [Option.some.injEq] at h1 hm
            rw [h1, hm]

/-- **C40 (warm rain).** Autoconversion and collection move water from cloud to rain only. -/
theorem warm_conserves (o : Opts) (c : Cell) (d : Dots) :
    (rhsWarm o c d).rc + (rhsWarm o c d).rr = d.rc + d.rr ∧ (rhsWarm o c d).rv = d.rv ∧ (rhsWarm o c d).th = d.th ∧
      (rhsWarm o c d).ria = d.ria ∧ (rhsWarm o c d).rib = d.rib := by
  refine ⟨?_, rfl, rfl, rfl, rfl⟩
  unfold rhsWarm
  ring

/-- **C40 (with rain evaporation).** Water is conserved and the potential-temperature tendency is the latent heat of the
vapour produced: `c_pd (T/θ) Δ(dθ/dt) = - l_v(T) Δ(drv/dt)`. -/
theorem revap_conserves (o : Opts) (dt : ℝ) (c : Cell) (d d' : Dots) (T p : ℝ) (hT : Tp o c.rhod c.p c.th c.rv = some (T, p))
    (hT0 : T ≠ 0) (hth : c.th ≠ 0) (h : rhsRevap o dt c d = some d') :
    d'.water = d.water ∧ d'.ria = d.ria ∧ d'.rib = d.rib ∧
    c_pd * (T / c.th) * (d'.th - d.th) = -l_v T * (d'.rv - d.rv) := by
  unfold rhsRevap at h
  simp only [hT, Option.some.injEq] at h
  subst h
  have hc : c_pd ≠ 0 := c_pd_pos.ne'
  refine ⟨by simp only [Dots.water, rhsWarm]; ring, rfl, rfl, ?_⟩
  simp only [rhsWarm]
  unfold d_th_d_rv
  field_simp
  ring

/-- **C40 (with ice).** Water is conserved, and the potential-temperature tendency is that of the phase changes:
`c_pd (T/θ) Δ(dθ/dt) = - l_v(T) Δ(drv/dt) + l_f(T) Δ(dri/dt)`. -/
theorem ice_conserves (epsm oob : ℝ) (o : Opts) (dt : ℝ) (c : Cell) (d d' : Dots) (T p : ℝ)
    (hT : Tp o c.rhod c.p c.th c.rv = some (T, p)) (hT0 : T ≠ 0) (hth : c.th ≠ 0) (h : rhsIce epsm oob o dt c d = some d') :
    d'.water = d.water ∧
    c_pd * (T / c.th) * (d'.th - d.th) = -l_v T * (d'.rv - d.rv) + l_f T * (d'.ice - d.ice) := by
  have hc : c_pd ≠ 0 := c_pd_pos.ne'
  have key : ∀ d1 : Dots, d1.water = d.water → d1.ria = d.ria → d1.rib = d.rib →
      c_pd * (T / c.th) * (d1.th - d.th) = -l_v T * (d1.rv - d.rv) →
      ∀ a1 a2 a3 a4 a5 a6 a7 a8 : ℝ, ∀ d2 : Dots, d2 = ⟨d1.th + c.th / T * l_s T / c_pd * (a1 + a2)
        + c.th / T * l_f T / c_pd * (a3 + a4 + a5 - a8 - a7), d1.rv + (-a1 - a2), d1.rc + (-a3 - a4), d1.rr + (a7 - a5 + a8),
        d1.ria + (a3 + a1 - a6 - a7), d1.rib + (a5 + a6 + a2 + a4 - a8)⟩ →
      d2.water = d.water ∧ c_pd * (T / c.th) * (d2.th - d.th) = -l_v T * (d2.rv - d.rv) + l_f T * (d2.ice - d.ice) := by
    intro d1 h1 h2 h3 h4 a1 a2 a3 a4 a5 a6 a7 a8 d2 e
    subst e
    constructor
    · rw [← h1]; simp only [Dots.water]; ring
    · simp only [Dots.ice]
      have e1 : c_pd * (T / c.th) * (d1.th + c.th / T * l_s T / c_pd * (a1 + a2)
        + c.th / T * l_f T / c_pd * (a3 + a4 + a5 - a8 - a7) - d.th) = c_pd * (T / c.th) * (d1.th - d.th)
          + l_s T * (a1 + a2) + l_f T * (a3 + a4 + a5 - a8 - a7) := by field_simp; ring
      rw [e1, h4, hess, h2, h3]
      ring
  unfold rhsIce at h
  by_cases hn : o.adj_nwtrph = true
  · simp only [hn, if_true, hT] at h
    cases hr : rhsRevap o dt c d with
    | none => rw [hr] at h; simp at h
    | some d1 =>
      rw [hr] at h
      simp only [Option.some.injEq] at h
      obtain ⟨q1, q2, q3, q4⟩ := revap_conserves o dt c d d1 T p hT hT0 hth hr
      exact key d1 q1 q2 q3 q4 _ _ _ _ _ _ _ _ d' h.symm
  · simp only [hn, hT, Bool.false_eq_true, if_false] at h
    simp only [Option.some.injEq] at h
    obtain ⟨q1, q2, q3, q4, q5⟩ := warm_conserves o c d
    refine key (rhsWarm o c d) ?_ q4 q5 ?_ _ _ _ _ _ _ _ _ d' h.symm
    · simp only [Dots.water]; linarith
    · rw [q2, q3]; ring

/-- **C40.** The call throws exactly when `const_p` and `th_dry` are both set or both unset. -/
theorem ice_throws_iff (epsm oob : ℝ) (o : Opts) (dt : ℝ) (c : Cell) (d : Dots) :
    rhsIce epsm oob o dt c d = none ↔ o.const_p = o.th_dry := by
  have hs := Tp_isSome o c.rhod c.p c.th c.rv
  unfold rhsIce
  rcases hT : Tp o c.rhod c.p c.th c.rv with _ | ⟨T, p⟩
  · rw [hT] at hs
    simp only [Option.isSome_none, Bool.false_eq_true, ne_eq, false_iff, not_not] at hs
    by_cases hn : o.adj_nwtrph = true <;> simp [hn, hs, rhsRevap, hT]
  · rw [hT] at hs
    simp only [Option.isSome_some, ne_eq, true_iff] at hs
    by_cases hn : o.adj_nwtrph = true <;> simp [hn, hs, rhsRevap, hT]

/-- a cell to instantiate the theorems with: dry potential temperature option set, sub-saturated rainy air -/
noncomputable def exCell : Cell := ⟨1, 1e5, 300, 1e-3, 1e-3, 1e-3, 1e-4, 1e-4⟩

/-- hypotheses of `revap_conserves` are met by the default options -/
example : ∃ T p d', Tp {} exCell.rhod exCell.p exCell.th exCell.rv = some (T, p) ∧ T ≠ 0 ∧ exCell.th ≠ 0 ∧
    rhsRevap {} 1 exCell ⟨0, 0, 0, 0, 0, 0⟩ = some d' := by
  have hT : Tp {} exCell.rhod exCell.p exCell.th exCell.rv = some (Tdry exCell.th exCell.rhod,
    pDry exCell.rhod exCell.rv (Tdry exCell.th exCell.rhod)) := by simp [Tp]
  have hp : Tdry exCell.th exCell.rhod ≠ 0 := by
    have := c_pd_pos
    have := R_d_pos
    unfold Tdry exCell
    have h0 : (0:ℝ) < 1 * R_d / p_1000 := by unfold p_1000; positivity
    exact (Real.rpow_pos_of_pos (mul_pos (by norm_num) (Real.rpow_pos_of_pos h0 _)) _).ne'
  exact ⟨_, _, _, hT, hp, by unfold exCell; norm_num, by unfold rhsRevap; simp only [hT]; rfl⟩

/-- hypotheses of `ice_conserves` are met by the default options -/
example (epsm oob : ℝ) : ∃ d', rhsIce epsm oob {} 1 exCell ⟨0, 0, 0, 0, 0, 0⟩ = some d' := by
  rcases h : rhsIce epsm oob {} 1 exCell ⟨0, 0, 0, 0, 0, 0⟩ with _ | d'
  · rw [ice_throws_iff] at h; simp at h
  · exact ⟨d', rfl⟩

/-- **C40 (disabled processes).** With all processes disabled and no rain (or RK4 adjustment) nothing changes. -/
theorem ice_all_off (epsm oob : ℝ) (o : Opts) (dt : ℝ) (c : Cell) (d : Dots) (hd : 0 < dt) (h0 : o.const_p ≠ o.th_dry)
    (h1 : o.conv = false) (h2 : o.accr = false) (h3 : o.homA1 = false) (h4 : o.homA2 = false) (h5 : o.hetA = false)
    (h6 : o.hetB = false) (h7 : o.depA = false) (h8 : o.depB = false) (h9 : o.rimA = false) (h10 : o.rimB = false)
    (h11 : o.melA = false) (h12 : o.melB = false) (h13 : o.adj_nwtrph = false)
    (hp : 0 ≤ c.rv ∧ 0 ≤ c.rc ∧ 0 ≤ c.rr ∧ 0 ≤ c.ria ∧ 0 ≤ c.rib) : rhsIce epsm oob o dt c d = some d := by
  obtain ⟨a, b, e, f, g⟩ := hp
  have hs := (Tp_isSome o c.rhod c.p c.th c.rv).2 h0
  rcases hT : Tp o c.rhod c.p c.th c.rv with _ | ⟨T, p⟩
  · rw [hT] at hs; simp at hs
  · unfold rhsIce
    simp only [hT, h1, h2, h3, h4, h5, h6, h7, h8, h9, h10, h11, h12, h13, rhsWarm, Bool.false_eq_true, if_false, add_zero]
    rw [min_eq_right (div_nonneg a hd.le), min_eq_right (div_nonneg b hd.le), min_eq_right (div_nonneg e hd.le),
      min_eq_right (div_nonneg f hd.le), min_eq_right (div_nonneg g hd.le)]
    simp

/-- **C40, negation.** The option `revp` does not switch off rain evaporation in `rhs_cellwise_revap`: its value is irrelevant. -/
theorem revp_ignored (o : Opts) (dt : ℝ) (c : Cell) (d : Dots) : rhsRevap { o with revp := false } dt c d = rhsRevap o dt c d := rfl

/-- rain does evaporate with `revp = false`: in subsaturated air with rain the tendency of rain is strictly below its
warm-rain value -/
theorem revp_ignored_effect (o : Opts) (dt : ℝ) (c : Cell) (d : Dots) (T p : ℝ) (_hrevp : o.revp = false)
    (hT : Tp o c.rhod c.p c.th c.rv = some (T, p)) (hp : p_vs T < p) (hp0 : 0 < p) (hrho : 0 < c.rhod) (hdt : 0 < dt) (hrr : 0 < c.rr)
    (hsub : c.rv < r_vs T p) : ∃ d', rhsRevap o dt c d = some d' ∧ d'.rr < (rhsWarm o c d).rr ∧ d.rv < d'.rv := by
  have hs := r_vs_pos T p hp
  have he : 0 < evaporation c.rv (r_vs T p) c.rr c.rhod p := by
    unfold evaporation
    have h1 : 0 < 1 - c.rv / r_vs T p := by rw [sub_pos, div_lt_one hs]; exact hsub
    have h2 : (0:ℝ) < 1e-3 * c.rhod * c.rr := by positivity
    have h3 : (0:ℝ) < (1e-3 * c.rhod * c.rr) ^ (0.525 : ℝ) := Real.rpow_pos_of_pos h2 _
    have h4 : (0:ℝ) < (1e-3 * c.rhod * c.rr) ^ (0.2046 : ℝ) := Real.rpow_pos_of_pos h2 _
    positivity
  have hx : 0 < min (c.rr / dt) (evaporation c.rv (r_vs T p) c.rr c.rhod p * dt) :=
    lt_min (by positivity) (by positivity)
  refine ⟨_, by unfold rhsRevap; simp only [hT]; rfl, ?_, ?_⟩
  · simp only; linarith
  · simp only [rhsWarm]; linarith

/-! ### Koenig tables -/

theorem ttcoe_range (T : ℝ) : -31 ≤ ttcoe T ∧ ttcoe T ≤ 0 := by
  unfold ttcoe
  exact ⟨le_min (by norm_num) (le_max_left _ _), min_le_left _ _⟩

theorem index1_le (T : ℝ) : index1 T ≤ 31 := by
  unfold index1
  have := ttcoe_range T
  exact Nat.floor_le_of_le (by push_cast; linarith)

theorem index1_spec (T : ℝ) : (index1 T : ℝ) ≤ -ttcoe T ∧ -ttcoe T < index1 T + 1 := by
  unfold index1
  have := ttcoe_range T
  exact ⟨Nat.floor_le (by linarith), Nat.lt_floor_add_one _⟩

/-- **C50.** The table lookup of the deposition/riming coefficients stays inside the 32-element arrays exactly when the
temperature is above 242.16 K (-31 C). -/
theorem koenig_in_bounds_iff (T : ℝ) :
    (index1 T < alphaList.length ∧ index1 T + 1 < alphaList.length ∧ index1 T + 1 < betaList.length) ↔ 242.16 < T := by
  have e1 : alphaList.length = 32 := rfl
  have e2 : betaList.length = 32 := rfl
  rw [e1, e2]
  have hr := ttcoe_range T
  have hle := index1_le T
  constructor
  · rintro ⟨-, h, -⟩
    by_contra hT
    push Not at hT
    have : ttcoe T = -31 := by
      unfold ttcoe
      rw [max_eq_left (by norm_num at hT ⊢; linarith)]; norm_num
    have : index1 T = 31 := by
      unfold index1; rw [this]; norm_num
    omega
  · intro hT
    have h31 : -ttcoe T < 31 := by
      unfold ttcoe
      rcases le_total (max (-31) (T - 273.16)) 0 with h | h
      · rw [min_eq_right h]
        have : -31 < max (-31) (T - 273.16) := lt_max_of_lt_right (by norm_num at hT ⊢; linarith)
        linarith
      · rw [min_eq_left h]; norm_num
    have h2 := (index1_spec T).1
    have : (index1 T : ℝ) < 31 := by linarith
    have : index1 T < 31 := by exact_mod_cast this
    omega

/-- **C50.** Whatever is read beyond the arrays has weight zero: in exact arithmetic the coefficients do not depend on it. -/
theorem koenig_oob_weight (tab : List ℝ) (hl : tab.length = 32) (oob oob' T : ℝ) : interpTab tab oob T = interpTab tab oob' T := by
  unfold interpTab
  simp only
  have hle := index1_le T
  have g1 : ∀ x, tab.getD (index1 T) x = tab[index1 T]'(by omega) := fun x => List.getD_eq_getElem _ _ _
  rw [g1, g1]
  by_cases h : index1 T = 31
  · have hr := ttcoe_range T
    have hs := index1_spec T
    rw [h] at hs
    push_cast at hs
    have : -ttcoe T - (index1 T : ℝ) = 0 := by rw [h]; push_cast; linarith [hs.1]
    rw [this]; ring
  · have g2 : ∀ x, tab.getD (index1 T + 1) x = tab[index1 T + 1]'(by omega) := fun x => List.getD_eq_getElem _ _ _
    rw [g2, g2]

/-- **C50.** The interpolated coefficients lie between the extreme table entries; in particular they are non-negative. -/
theorem koenig_range (tab : List ℝ) (hl : tab.length = 32) (oob T lo hi : ℝ) (h : ∀ x ∈ tab, lo ≤ x ∧ x ≤ hi) :
    lo ≤ interpTab tab oob T ∧ interpTab tab oob T ≤ hi := by
  have hlo : lo ≤ hi := by
    have : tab[0]'(by omega) ∈ tab := List.getElem_mem _
    exact (h _ this).1.trans (h _ this).2
  rw [koenig_oob_weight tab hl oob lo T]
  unfold interpTab
  simp only
  have hle := index1_le T
  have hs := index1_spec T
  have hb : ∀ i, lo ≤ tab.getD i lo ∧ tab.getD i lo ≤ hi := by
    intro i
    by_cases hi' : i < tab.length
    · rw [List.getD_eq_getElem _ _ hi']; exact h _ (List.getElem_mem _)
    · rw [List.getD_eq_default _ _ (by omega)]; exact ⟨le_refl _, hlo⟩
  have d0 : 0 ≤ -ttcoe T - (index1 T : ℝ) := by linarith [hs.1]
  have d1 : -ttcoe T - (index1 T : ℝ) ≤ 1 := by linarith [hs.2]
  obtain ⟨a1, a2⟩ := hb (index1 T)
  obtain ⟨b1, b2⟩ := hb (index1 T + 1)
  generalize -ttcoe T - (index1 T : ℝ) = x at *
  generalize tab.getD (index1 T) lo = u at *
  generalize tab.getD (index1 T + 1) lo = w at *
  constructor
  · nlinarith
  · nlinarith

theorem coeffAlpha_nonneg (oob T : ℝ) : 0 ≤ coeffAlpha oob T := by
  refine (koenig_range alphaList rfl oob T 0 1 ?_).1
  intro x hx
  simp only [alphaList, List.mem_cons, List.not_mem_nil, or_false] at hx
  rcases hx with h|h|h|h|h|h|h|h|h|h|h|h|h|h|h|h|h|h|h|h|h|h|h|h|h|h|h|h|h|h|h|h <;> subst h <;> norm_num

theorem coeffBeta_range (oob T : ℝ) : 0 ≤ coeffBeta oob T ∧ coeffBeta oob T ≤ 1 := by
  refine koenig_range betaList rfl oob T 0 1 ?_
  intro x hx
  simp only [betaList, List.mem_cons, List.not_mem_nil, or_false] at hx
  rcases hx with h|h|h|h|h|h|h|h|h|h|h|h|h|h|h|h|h|h|h|h|h|h|h|h|h|h|h|h|h|h|h|h <;> subst h <;> norm_num

/-! ### Signs of the rates -/

theorem massA_pos (ria T rhod : ℝ) : 0 < massA ria T rhod := by
  unfold massA
  exact lt_of_lt_of_le (by norm_num) (le_max_left _ _)

theorem massB_pos (epsm rib rhod : ℝ) : 0 < massB epsm rib rhod := by
  unfold massB
  exact lt_of_lt_of_le (by norm_num) (le_max_left _ _)

theorem omexp_nonneg : (0:ℝ) ≤ 1 - Real.exp (-1) ∧ 1 - Real.exp (-1) ≤ 1 := by
  have := Real.exp_pos (-1)
  have : Real.exp (-1) ≤ 1 := Real.exp_le_one_iff.2 (by norm_num)
  constructor <;> linarith

/-- **C40 (signs).** Every process rate is non-negative, i.e. goes in the direction of its name; deposition changes sign with
the saturation over ice. -/
theorem rates_nonneg (epsm oob ria rib rc rr rv rvs rvsi T rhod dt : ℝ) (hrc : 0 ≤ rc) (hrr : 0 ≤ rr) (hria : 0 ≤ ria)
    (hrib : 0 ≤ rib) (hrho : 0 < rhod) (hdt : 0 < dt) (he : 0 < epsm) :
    0 ≤ homA1 rv rvs rvsi T ∧ 0 ≤ homA2 rc T ∧ 0 ≤ hetA ria rc T rhod ∧ 0 ≤ hetB1 rr ria T rhod ∧ 0 ≤ hetB2 rr ria T rhod ∧
    0 ≤ meltA ria T rhod dt ∧ 0 ≤ meltB epsm rib T rhod dt ∧ 0 ≤ rimA epsm oob ria rc rv rvs rvsi T rhod ∧
    0 ≤ rimB1 epsm oob rib rc rr rv rvs rvsi T rhod ∧ 0 ≤ rimB2 epsm oob rib rc rr rv rvs rvsi T rhod ∧
    (rvsi ≤ rvs → rvsi ≤ rv → 0 ≤ depA epsm oob ria rv rvs rvsi T rhod ∧ 0 ≤ depB epsm oob rib rv rvs rvsi T rhod) ∧
    (rvsi ≤ rvs → rv ≤ rvsi → depA epsm oob ria rv rvs rvsi T rhod ≤ 0 ∧ depB epsm oob rib rv rvs rvsi T rhod ≤ 0) := by
  have hmA := massA_pos ria T rhod
  have hmB := massB_pos epsm rib rhod
  have ho := omexp_nonneg.1
  have ha := coeffAlpha_nonneg oob T
  have hpi := Real.pi_pos
  have hlam : ∀ x, 0 ≤ x → 0 ≤ lambdaRain x rhod := fun x hx =>
    Real.rpow_nonneg (by have : (0:ℝ) < rho_w := by norm_num [rho_w]
                         positivity) _
  have hlb : 0 < lambdaB epsm rib rhod :=
    Real.rpow_pos_of_pos (by have : 0 < rhod * rib + epsm := by positivity
                             positivity) _
  have hN : 0 ≤ Nra rr ria T rhod := by
    unfold Nra
    simp only
    have := hlam rr hrr
    positivity
  have hrim : ∀ ri m rc', 0 ≤ ri → 0 < m → 0 ≤ riming epsm oob ri rc' rv rvs rvsi T rhod m := by
    intro ri m rc' hri hm
    unfold riming
    simp only
    refine add_nonneg ?_ ?_
    · split_ifs
      · have : ∀ x : ℝ, 0 ≤ max 0 x * ri / m := fun x => by have := le_max_left (0:ℝ) x; positivity
        exact this _
      · have : ∀ x : ℝ, 0 ≤ max 0 x * ri / m := fun x => by have := le_max_left (0:ℝ) x; positivity
        exact this _
      · exact le_refl _
    · split_ifs
      · simp
      · have : ∀ x : ℝ, 0 ≤ max 0 x * ri / m := fun x => by have := le_max_left (0:ℝ) x; positivity
        exact this _
      · exact le_refl _
  have hrB : 0 ≤ rimB epsm oob rib rc rv rvs rvsi T rhod := by
    unfold rimB
    split_ifs
    · exact le_refl _
    · exact hrim _ _ _ hrib hmB
  have hfrac : 0 ≤ rc / (rc + rr + 1e-10) ∧ rc / (rc + rr + 1e-10) ≤ 1 := by
    have : (0:ℝ) < rc + rr + 1e-10 := by norm_num; linarith
    refine ⟨by positivity, (div_le_one this).2 (by norm_num; linarith)⟩
  refine ⟨?_, ?_, ?_, ?_, ?_, ?_, ?_, ?_, ?_, ?_, ?_, ?_⟩
  · unfold homA1
    simp only
    have : ∀ x : ℝ, 0 ≤ (1 - Real.exp (-1)) * max 0 x := fun x => mul_nonneg ho (le_max_left _ _)
    split_ifs <;> first | exact this _ | exact le_refl _
  · unfold homA2
    split_ifs
    · positivity
    · exact le_refl _
  · unfold hetA
    split_ifs
    · exact le_refl _
    · exact mul_nonneg ho (le_min hrc (le_max_left _ _))
  · unfold hetB1
    split_ifs
    · exact le_refl _
    · have := hlam rr hrr
      have : (0:ℝ) < rho_w := by norm_num [rho_w]
      positivity
  · unfold hetB2
    split_ifs
    · exact le_refl _
    · positivity
  · unfold meltA
    split_ifs
    · exact le_refl _
    · simp only
      refine le_min (by positivity) ?_
      have h1 : ∀ x : ℝ, 0 ≤ max 1 x := fun x => le_trans zero_le_one (le_max_left _ _)
      have h2 : 0 ≤ max 0 (T - 273.16) := le_max_left _ _
      have h3 : 0 ≤ (massA ria T rhod / 0.025) ^ (0.5 : ℝ) := Real.rpow_nonneg (by positivity) _
      have := h1 (0.78 + 0.27 * ((massA ria T rhod / 0.025) ^ (0.5 : ℝ) * velA ria rhod * rhod / visc T) ^ (0.5 : ℝ))
      positivity
  · unfold meltB
    split_ifs
    · exact le_refl _
    · simp only
      refine le_min (by positivity) ?_
      have h1 : ∀ x : ℝ, 0 ≤ max 1 x := fun x => le_trans zero_le_one (le_max_left _ _)
      have h2 : 0 ≤ max 0 (T - 273.16) := le_max_left _ _
      have := h1 (0.78 + 0.27 * (1 / lambdaB epsm rib rhod * velB epsm rib rhod * rhod / visc T) ^ (0.5 : ℝ))
      positivity
  · unfold rimA
    split_ifs
    · exact le_refl _
    · exact hrim _ _ _ hria hmA
  · unfold rimB1
    exact mul_nonneg hfrac.1 hrB
  · unfold rimB2
    exact mul_nonneg (by linarith [hfrac.2]) hrB
  · intro h1 h2
    have hp : ∀ m, 0 < m → 0 ≤ dmAE epsm oob rv rvs rvsi T m := by
      intro m hm
      unfold dmAE
      have : 0 < rvs - rvsi + epsm := by linarith
      have : 0 ≤ rv - rvsi := by linarith
      have : 0 ≤ (m * 1e3) ^ coeffBeta oob T := Real.rpow_nonneg (by positivity) _
      positivity
    constructor
    · unfold depA
      split_ifs
      · exact le_refl _
      · exact mul_nonneg (by positivity) (hp _ hmA)
    · unfold depB
      split_ifs
      · exact le_refl _
      · exact mul_nonneg (by positivity) (hp _ hmB)
  · intro h1 h2
    have hp : ∀ m, 0 < m → dmAE epsm oob rv rvs rvsi T m ≤ 0 := by
      intro m hm
      unfold dmAE
      have h3 : 0 < rvs - rvsi + epsm := by linarith
      have h4 : rv - rvsi ≤ 0 := by linarith
      have h5 : 0 ≤ (m * 1e3) ^ coeffBeta oob T := Real.rpow_nonneg (by positivity) _
      have h6 : 1e-3 * (rv - rvsi) / (rvs - rvsi + epsm) ≤ 0 := div_nonpos_of_nonpos_of_nonneg (by norm_num; linarith) h3.le
      exact mul_nonpos_of_nonpos_of_nonneg (mul_nonpos_of_nonpos_of_nonneg h6 ha) h5
    constructor
    · unfold depA
      split_ifs
      · exact le_refl _
      · exact mul_nonpos_of_nonneg_of_nonpos (by positivity) (hp _ hmA)
    · unfold depB
      split_ifs
      · exact le_refl _
      · exact mul_nonpos_of_nonneg_of_nonpos (by positivity) (hp _ hmB)

end LCP.Blk1m
