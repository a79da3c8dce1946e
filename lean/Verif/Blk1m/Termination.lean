import Verif.Blk1m.AdjProps

/-!
# Termination of the RK4 saturation adjustment (C101)

The loop of `adj_cellwise_rk4` (adj_cellwise.hpp:256-309) has no iteration limit.
-/
namespace LCP.Blk1m
open LCP.Common

/-- the top of the loop is reached in state `u` after exactly `n` executions of the body (adj_cellwise.hpp:256-309) -/
inductive ReachIn (o : Opts) (t : Thermo) (s : Rk) : ℕ → Rk → Prop
  | start : ReachIn o t s 0 s
  | next {n u} : ReachIn o t s n u → rkGuard o u → ¬ (rkStep o t u).2 → ReachIn o t s (n + 1) (rkStep o t u).1

theorem ReachIn.reach {o t s n u} (h : ReachIn o t s n u) : Reach o t s u := by
  induction h with
  | start => exact .start
  | next _ g b ih => exact .next ih g b

theorem Reach.reachIn {o t s u} (h : Reach o t s u) : ∃ n, ReachIn o t s n u := by
  induction h with
  | start => exact ⟨0, .start⟩
  | next _ g b ih => exact ⟨_, .next ih.choose_spec g b⟩

open Classical in
/-- upper bound on the number of steps left: while subsaturated, vapour rises by at least half the tolerance unless a reservoir
is emptied; while supersaturated, vapour falls by half the tolerance -/
noncomputable def rank (o : Opts) (W : ℝ) (u : Rk) : ℝ :=
  if u.rv - u.rs < -o.r_eps then
    2 * (W - u.rv) / o.r_eps + (if u.rc > 0 then 1 else 0) + (if u.rr > 0 then 1 else 0) + 2 * W / o.r_eps + 1
  else if u.rv - u.rs > o.r_eps then 2 * u.rv / o.r_eps else 0

/-- one execution of the body lowers the rank by one -/
theorem rank_step (o : Opts) (t : Thermo) (s u : Rk) (he : 0 < o.r_eps) (hI : Inv s u) (hI' : Inv s (rkStep o t u).1)
    (hg : rkGuard o u) (hb : ¬ (rkStep o t u).2)
    (hov : u.rv - u.rs > o.r_eps → (rkStep o t u).1.rs ≤ u.rs + 3 / 2 * o.r_eps) (hgu : rkGuard o (rkStep o t u).1) :
    rank o (s.rv + s.rc + s.rr) (rkStep o t u).1 + 1 ≤ rank o (s.rv + s.rc + s.rr) u := by
  set W := s.rv + s.rc + s.rr with hW
  have hw := hI.water
  have hw' := hI'.water
  have a1 := hI.rv; have a2 := hI.rc; have a3 := hI.rr
  have b1 := hI'.rv; have b2 := hI'.rc; have b3 := hI'.rr
  rw [← hW] at hw hw'
  set u' := (rkStep o t u).1 with hu'
  have key : ∀ x y : ℝ, x + o.r_eps / 2 ≤ y → 2 * x / o.r_eps + 1 ≤ 2 * y / o.r_eps := by
    intro x y h
    rw [div_add_one he.ne']
    apply (div_le_div_iff_of_pos_right he).2
    linarith
  have mono : ∀ x y : ℝ, x ≤ y → 2 * x / o.r_eps ≤ 2 * y / o.r_eps := by
    intro x y h
    apply (div_le_div_iff_of_pos_right he).2
    linarith
  have nn : ∀ x : ℝ, 0 ≤ x → 0 ≤ 2 * x / o.r_eps := fun x h => by positivity
  rcases drv_cases o u he.le hg a3 with ⟨g, e⟩ | ⟨g, g2, e⟩ | ⟨g, g2, g3, g4, e⟩
  · -- condensation
    have hrv : u'.rv = u.rv - 0.5 * o.r_eps := by
      rw [hu']; unfold rkStep; simp only; rw [if_pos (Or.inl (by linarith))]; simp only; rw [e]; ring
    have hov := hov g
    have hnot : ¬ (u'.rv - u'.rs < -o.r_eps) := by linarith
    have hsup : u'.rv - u'.rs > o.r_eps := by
      rcases hgu with h | ⟨_, h, _⟩
      · exact h
      · exact absurd h hnot
    unfold rank
    rw [if_neg hnot, if_pos hsup, if_neg (by linarith), if_pos g]
    apply key
    rw [hrv]; linarith
  · -- evaporation of cloud water
    have hst : u'.rv = u.rv + min u.rc (0.5 * (u.rs - u.rv)) ∧ u'.rc = u.rc - min u.rc (0.5 * (u.rs - u.rv)) ∧ u'.rr = u.rr := by
      rw [hu']; unfold rkStep; simp only; rw [if_pos (Or.inr g2)]; simp only; rw [e]; exact ⟨rfl, rfl, trivial⟩
    obtain ⟨e1, e2, e3⟩ := hst
    have hmin : 0 ≤ min u.rc (0.5 * (u.rs - u.rv)) := le_min a2 (by linarith)
    unfold rank
    rw [if_pos g, if_pos g2]
    by_cases c1 : u'.rv - u'.rs < -o.r_eps
    · rw [if_pos c1, e3]
      rcases min_choice u.rc (0.5 * (u.rs - u.rv)) with hm | hm
      · rw [hm] at e1 e2
        rw [if_neg (show ¬ u'.rc > 0 by linarith)]
        have := mono (W - u'.rv) (W - u.rv) (by linarith)
        linarith
      · rw [hm] at e1 e2
        have := key (W - u'.rv) (W - u.rv) (by linarith)
        have h2 : (if u'.rc > 0 then (1:ℝ) else 0) ≤ 1 := by split_ifs <;> norm_num
        linarith
    · rw [if_neg c1]
      have h1 := nn (W - u.rv) (by linarith)
      have h2 : (0:ℝ) ≤ (if u.rr > 0 then (1:ℝ) else 0) := by split_ifs <;> norm_num
      have h3 := mono u'.rv W (by linarith)
      have h4 := nn W (by linarith)
      split_ifs <;> linarith
  · -- evaporation of rain
    have hst : u'.rv = u.rv + min u.drrMax (min u.rr (0.5 * (u.rs - u.rv))) ∧ u'.rc = u.rc ∧
        u'.rr = u.rr - min u.drrMax (min u.rr (0.5 * (u.rs - u.rv))) := by
      rw [hu']; unfold rkStep; simp only; rw [if_neg (by rintro (h | h) <;> linarith)]; simp only; rw [e]; exact ⟨rfl, trivial, rfl⟩
    have hbr : min u.drrMax (min u.rr (0.5 * (u.rs - u.rv))) ≠ u.drrMax := by
      intro h
      apply hb
      unfold rkStep; simp only; rw [if_neg (by rintro (h | h) <;> linarith)]; simp only; rw [e, h, sub_self]
    obtain ⟨e1, e2, e3⟩ := hst
    have hm : min u.drrMax (min u.rr (0.5 * (u.rs - u.rv))) = min u.rr (0.5 * (u.rs - u.rv)) := by
      rcases min_choice u.drrMax (min u.rr (0.5 * (u.rs - u.rv))) with h | h
      · exact absurd h hbr
      · exact h
    rw [hm] at e1 e3
    have hmin : 0 ≤ min u.rr (0.5 * (u.rs - u.rv)) := le_min a3 (by linarith)
    unfold rank
    rw [if_pos g, if_neg g2, if_pos g3]
    by_cases c1 : u'.rv - u'.rs < -o.r_eps
    · rw [if_pos c1, e2, if_neg g2]
      rcases min_choice u.rr (0.5 * (u.rs - u.rv)) with hm | hm
      · rw [hm] at e1 e3
        rw [if_neg (show ¬ u'.rr > 0 by linarith)]
        have := mono (W - u'.rv) (W - u.rv) (by linarith)
        linarith
      · rw [hm] at e1 e3
        have := key (W - u'.rv) (W - u.rv) (by linarith)
        have h2 : (if u'.rr > 0 then (1:ℝ) else 0) ≤ 1 := by split_ifs <;> norm_num
        linarith
    · rw [if_neg c1]
      have h1 := nn (W - u.rv) (by linarith)
      have h3 := mono u'.rv W (by linarith)
      have h4 := nn W (by linarith)
      split_ifs <;> linarith

theorem rank_bounds (o : Opts) (s u : Rk) (he : 0 < o.r_eps) (hI : Inv s u) :
    0 ≤ rank o (s.rv + s.rc + s.rr) u ∧ rank o (s.rv + s.rc + s.rr) u ≤ 4 * (s.rv + s.rc + s.rr) / o.r_eps + 3 := by
  have hw := hI.water
  have a1 := hI.rv; have a2 := hI.rc; have a3 := hI.rr
  set W := s.rv + s.rc + s.rr
  have e4 : 4 * W / o.r_eps = 2 * W / o.r_eps + 2 * W / o.r_eps := by ring
  have n1 : 0 ≤ 2 * W / o.r_eps := by have : 0 ≤ W := by linarith
                                      positivity
  have n2 : 0 ≤ 2 * u.rv / o.r_eps := by positivity
  have n3 : 0 ≤ 2 * (W - u.rv) / o.r_eps := by
    apply div_nonneg _ he.le; linarith
  have n4 : 2 * (W - u.rv) / o.r_eps ≤ 2 * W / o.r_eps := (div_le_div_iff_of_pos_right he).2 (by linarith)
  have n5 : 2 * u.rv / o.r_eps ≤ 2 * W / o.r_eps := (div_le_div_iff_of_pos_right he).2 (by linarith)
  unfold rank
  split_ifs <;> constructor <;> linarith

/-- **C101 (partial).** If the tolerance is positive, the saturation mixing ratio is non-negative wherever it is evaluated, and a
condensation step (which lowers vapour by half the tolerance) never raises the saturation mixing ratio by more than one and a half
tolerances, then the loop body runs at most `4 (rv + rc + rr) / r_eps + 4` times, so the loop ends. -/
theorem rk_terminates_partial (o : Opts) (t : Thermo) (s : Rk) (he : 0 < o.r_eps) (h0 : 0 ≤ s.rv ∧ 0 ≤ s.rc ∧ 0 ≤ s.rr)
    (hrs : ∀ u, Reach o t s u → 0 ≤ u.rs)
    (hov : ∀ u, Reach o t s u → u.rv - u.rs > o.r_eps → (rkStep o t u).1.rs ≤ u.rs + 3 / 2 * o.r_eps) :
    (∀ n u, ReachIn o t s n u → (n : ℝ) ≤ 4 * (s.rv + s.rc + s.rr) / o.r_eps + 4) ∧ ∃ s', Run o t s s' := by
  have inv := fun u (h : Reach o t s u) => reach_inv o t s u he.le h0 hrs h
  -- guarded states
  have main : ∀ n u, ReachIn o t s n u → rkGuard o u → (n : ℝ) + rank o (s.rv + s.rc + s.rr) u ≤ 4 * (s.rv + s.rc + s.rr) / o.r_eps + 3 := by
    intro n u h
    induction h with
    | start =>
      intro _
      have := (rank_bounds o s s he (inv s .start)).2
      push_cast; linarith
    | @next n u hu g b ih =>
      intro g'
      have h1 := ih g
      have h2 := rank_step o t s u he (inv u hu.reach) (inv _ (.next hu.reach g b)) g b (hov u hu.reach) g'
      push_cast; linarith
  have bound : ∀ n u, ReachIn o t s n u → (n : ℝ) ≤ 4 * (s.rv + s.rc + s.rr) / o.r_eps + 4 := by
    intro n u h
    cases h with
    | start =>
      have := rank_bounds o s s he (inv s .start)
      push_cast; linarith
    | @next n u hu g b =>
      have h1 := main n u hu g
      have := (rank_bounds o s u he (inv u hu.reach)).1
      push_cast; linarith
  refine ⟨bound, ?_⟩
  by_contra hno
  push Not at hno
  have all : ∀ n, ∃ u, ReachIn o t s n u := by
    intro n
    induction n with
    | zero => exact ⟨s, .start⟩
    | succ n ih =>
      obtain ⟨u, hu⟩ := ih
      by_cases g : rkGuard o u
      · by_cases b : (rkStep o t u).2
        · exact absurd (Or.inr ⟨u, hu.reach, g, b, rfl⟩) (hno _)
        · exact ⟨_, .next hu g b⟩
      · exact absurd (Or.inl ⟨hu.reach, g⟩) (hno u)
  obtain ⟨n, hn⟩ := exists_nat_gt (4 * (s.rv + s.rc + s.rr) / o.r_eps + 4)
  obtain ⟨u, hu⟩ := all n
  have := bound n u hu
  linarith

/-- the loop never ends exactly when the body can be executed any number of times -/
theorem no_run_of_unbounded (o : Opts) (t : Thermo) (s : Rk) (f : ℕ → Rk) (h0 : f 0 = s)
    (hs : ∀ n, rkGuard o (f n) ∧ ¬ (rkStep o t (f n)).2 ∧ (rkStep o t (f n)).1 = f (n + 1)) : ¬ ∃ s', Run o t s s' := by
  have on : ∀ u, Reach o t s u → ∃ n, u = f n := by
    intro u h
    induction h with
    | start => exact ⟨0, h0.symm⟩
    | next _ _ _ ih => obtain ⟨n, rfl⟩ := ih; exact ⟨n + 1, (hs n).2.2⟩
  rintro ⟨s', ⟨h, g⟩ | ⟨u, h, _, b, _⟩⟩
  · obtain ⟨n, rfl⟩ := on _ h; exact g (hs n).1
  · obtain ⟨n, rfl⟩ := on _ h; exact (hs n).2.1 b

/-- linearised thermodynamics of a warm cell: 2500 K per unit of condensed vapour, saturation mixing ratio 30 g/kg at 300 K rising
by 2.8 g/kg per kelvin (the slope of the real curve near 313 K at 1000 hPa) -/
noncomputable def warm : Thermo := ⟨fun _ _ => -2500, fun th _ => 0.03 + 0.0028 * (th - 300)⟩

/-- the three states of the cycle -/
noncomputable def cyc : ℕ → Rk
  | 0 => ⟨300, 0.03004, 0.001, 0, 0, 0.03⟩
  | 1 => ⟨300.025, 0.03003, 0.00101, 0, 0, 0.03007⟩
  | _ => ⟨299.975, 0.03005, 0.00099, 0, 0, 0.02993⟩

theorem cyc_step (i : ℕ) (hi : i < 3) : rkGuard {} (cyc i) ∧ ¬ (rkStep {} warm (cyc i)).2 ∧
    (rkStep {} warm (cyc i)).1 = cyc ((i + 1) % 3) := by
  have hd : ∀ d th rv : ℝ, rk4 warm.F th rv d = (th - 2500 * d, th - 2500 * d) := by
    intro d th rv; unfold rk4 warm; simp only; ext <;> simp only <;> ring
  interval_cases i
  · have e : rkDrv {} (cyc 0) = -0.00001 := by
      unfold rkDrv copysign cyc
      simp only
      rw [if_neg (by norm_num), if_neg (by norm_num), min_eq_left (by norm_num)]
      norm_num [abs_of_pos]
    refine ⟨Or.inl (by norm_num [cyc]), ?_, ?_⟩
    · unfold rkStep; simp only; rw [if_pos (Or.inl (by norm_num [cyc]))]; simp
    · unfold rkStep; simp only; rw [if_pos (Or.inl (by norm_num [cyc])), e, hd]
      norm_num [cyc, warm]
  · have e : rkDrv {} (cyc 1) = 0.00002 := by
      unfold rkDrv copysign cyc
      simp only
      rw [if_pos (by norm_num), if_pos (by norm_num), if_pos (by norm_num), min_eq_right (b := 0.5 * _) (by norm_num)]
      norm_num [abs_of_neg]
    refine ⟨Or.inr ⟨rfl, by norm_num [cyc], Or.inl (by norm_num [cyc])⟩, ?_, ?_⟩
    · unfold rkStep; simp only; rw [if_pos (Or.inr (by norm_num [cyc]))]; simp
    · unfold rkStep; simp only; rw [if_pos (Or.inr (by norm_num [cyc])), e, hd]
      norm_num [cyc, warm]
  · have e : rkDrv {} (cyc 2) = -0.00001 := by
      unfold rkDrv copysign cyc
      simp only
      rw [if_neg (by norm_num), if_neg (by norm_num), min_eq_left (by norm_num)]
      norm_num [abs_of_pos]
    refine ⟨Or.inl (by norm_num [cyc]), ?_, ?_⟩
    · unfold rkStep; simp only; rw [if_pos (Or.inl (by norm_num [cyc]))]; simp
    · unfold rkStep; simp only; rw [if_pos (Or.inl (by norm_num [cyc])), e, hd]
      norm_num [cyc, warm]

/-- **C101, negation for a general closure.** With the default options and a saturation curve as steep as the real one near 313 K
(but linear), a non-negative cell 0.04 g/kg above saturation with 1 g/kg of cloud water alternates for ever between condensation and
evaporation: the loop does not end. -/
theorem rk_infinite_loop : ∃ (t : Thermo) (s : Rk), 0 ≤ s.rv ∧ 0 ≤ s.rc ∧ 0 ≤ s.rr ∧ (∀ u, Reach {} t s u → 0 ≤ u.rs) ∧
    s.rs = t.rs s.th s.rv ∧ (∀ n, ∃ u, ReachIn {} t s n u) ∧ ¬ ∃ s', Run {} t s s' := by
  have hst : ∀ n, rkGuard {} (cyc (n % 3)) ∧ ¬ (rkStep {} warm (cyc (n % 3))).2 ∧ (rkStep {} warm (cyc (n % 3))).1 = cyc ((n + 1) % 3) := by
    intro n
    have := cyc_step (n % 3) (Nat.mod_lt _ (by norm_num))
    rwa [Nat.mod_add_mod] at this
  refine ⟨warm, cyc 0, by norm_num [cyc], by norm_num [cyc], by norm_num [cyc], ?_, by norm_num [cyc, warm], ?_, ?_⟩
  · intro u hu
    have : ∃ n, u = cyc (n % 3) := by
      induction hu with
      | start => exact ⟨0, rfl⟩
      | next _ _ _ ih => obtain ⟨n, rfl⟩ := ih; exact ⟨n + 1, (hst n).2.2⟩
    obtain ⟨n, rfl⟩ := this
    have := Nat.mod_lt n (show 0 < 3 by norm_num)
    interval_cases h : n % 3 <;> norm_num [cyc]
  · intro n
    refine ⟨cyc (n % 3), ?_⟩
    induction n with
    | zero => exact .start
    | succ n ih =>
      have := hst n
      rw [← this.2.2]
      exact .next ih this.1 this.2.1
  · exact no_run_of_unbounded {} warm (cyc 0) (fun n => cyc (n % 3)) rfl hst

/-- non-vacuity of the termination theorem: a cold cell (saturation curve with gain 1), supersaturated by 1 g/kg -/
example : ∃ s', Run {} ⟨fun _ _ => -2500, fun th _ => 0.03 + 0.0004 * max 0 (th - 250)⟩ ⟨300, 0.051, 0.001, 0, 0, 0.05⟩ s' := by
  set t : Thermo := ⟨fun _ _ => -2500, fun th _ => 0.03 + 0.0004 * max 0 (th - 250)⟩ with ht
  have hd : ∀ d th rv : ℝ, rk4 t.F th rv d = (th - 2500 * d, th - 2500 * d) := by
    intro d th rv; unfold rk4; rw [ht]; simp only; ext <;> simp only <;> ring
  have hrs : ∀ u, Reach {} t ⟨300, 0.051, 0.001, 0, 0, 0.05⟩ u → u.rs = t.rs u.th u.rv := by
    intro u h
    cases h with
    | start => rw [ht]; norm_num
    | next h g b =>
      unfold rkStep; simp only; rw [hd]
      split_ifs <;> simp only [ht]
  refine (rk_terminates_partial {} t ⟨300, 0.051, 0.001, 0, 0, 0.05⟩ (by norm_num) ⟨by norm_num, by norm_num, by norm_num⟩ ?_ ?_).2
  · intro u h
    rw [hrs u h, ht]; simp only
    have := le_max_left 0 (u.th - 250)
    positivity
  · intro u h g
    have e : rkDrv {} u = -0.00001 := by
      unfold rkDrv copysign
      have g' : u.rv - u.rs > 2e-5 := g
      simp only
      rw [if_neg (by linarith), if_neg (by linarith), min_eq_left (by norm_num at *; linarith)]
      norm_num [abs_of_pos]
    rw [hrs u h]
    unfold rkStep; simp only
    have g' : u.rv - u.rs > 2e-5 := g
    rw [if_pos (Or.inl (by linarith)), e, hd]
    simp only [ht]
    rcases max_cases 0 (u.th - 2500 * -0.00001 - 250) with ⟨h1, h2⟩ | ⟨h1, h2⟩ <;>
    rcases max_cases 0 (u.th - 250) with ⟨h3, h4⟩ | ⟨h3, h4⟩ <;> rw [h1, h3] <;> norm_num at * <;> linarith

end LCP.Blk1m
