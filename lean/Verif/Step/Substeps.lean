import Mathlib.Algebra.Order.Round
import Mathlib.Algebra.BigOperators.Group.List.Basic
import Mathlib.Data.Real.Basic
import Mathlib.Tactic.Linarith
import Mathlib.Tactic.Positivity
import Mathlib.Tactic.NormNum
import Mathlib.Tactic.FieldSimp
import Mathlib.Tactic.Push
import Mathlib.Tactic.Ring
import Mathlib.Algebra.Order.Archimedean.Real.Basic

/-!
# Substeps of coalescence and chemistry: what is run, for how long, in which order

Sources: src/particles_step.ipp:270-310 (chemistry in step_cond), :380-401 (coalescence in step_async), src/impl/particles_impl_adjust_timesteps.ipp:13-23.

Numbers of substeps are signed (`int`, opts_init.hpp:42, 47), and `opts_init.sstp_coal`, `opts_init.sstp_chem` are not among the things the sanity check looks at
(particles_impl_init_sanity_check.ipp:150-161 has `sstp_cond` and `sstp_cond_act` only).  Overflow of the conversion of `ceil` to `int` is not modelled.
-/
namespace LCP.Substeps

/-- the numbers the user gives: `opts_init.dt`, `opts_init.variable_dt_switch` and one number of substeps -/
structure Given where
  dt0 : ℝ
  varDt : Bool
  n0 : ℤ

/-- adjust_timesteps (particles_impl_adjust_timesteps.ipp:13-23) for one of the numbers of substeps: the number and the time step; `none`: it throws -/
noncomputable def adjust (g : Given) (dt : ℝ) : Option (ℤ × ℝ) :=
  if 0 < dt ∧ g.varDt = false then none
  else some (if 0 < dt ∧ 1 < g.n0 then ⌈g.n0 * dt / g.dt0⌉ else g.n0, if 0 < dt then dt else g.dt0)

/-- what happens in the loops, with the time handed over -/
inductive Ev
  | coal (t : ℝ)
  | vterm
  | vol
  | flag
  | gases (step : ℕ)
  | henry (t : ℝ)
  | dissoc
  | react (t : ℝ)
  | cleanup
  | post

/-- the coalescence loop (particles_step.ipp:384-393): `for (step = 0; step < sstp_coal; ++step)`, the number of turns of which is `sstp_coal.toNat` -/
noncomputable def coalLoop (n : ℤ) (dt : ℝ) : List Ev :=
  (List.range n.toNat).flatMap fun (step : ℕ) => Ev.coal (dt / n) :: if (step : ℤ) + 1 ≠ n then [Ev.vterm] else []

/-- the chemistry loop (particles_step.ipp:272-309) -/
noncomputable def chemLoop (dsl dsc rct : Bool) (n : ℤ) (dt : ℝ) : List Ev :=
  if dsl || dsc || rct then
    (List.range n.toNat).flatMap fun (step : ℕ) =>
      [Ev.vol, Ev.flag] ++ (if dsl then [Ev.gases step, Ev.henry (dt / n), Ev.cleanup] else [])
        ++ (if dsc then [Ev.dissoc, Ev.cleanup] else []) ++ (if rct then [Ev.react (dt / n), Ev.cleanup] else []) ++ [Ev.post]
  else []

/-! ## Specification -/

/-- time spent on collisions -/
noncomputable def coalTime : List Ev → ℝ
  | [] => 0
  | Ev.coal t :: l => t + coalTime l
  | _ :: l => coalTime l

/-- time spent on dissolving gases -/
noncomputable def henryTime : List Ev → ℝ
  | [] => 0
  | Ev.henry t :: l => t + henryTime l
  | _ :: l => henryTime l

/-- time spent on oxidation -/
noncomputable def reactTime : List Ev → ℝ
  | [] => 0
  | Ev.react t :: l => t + reactTime l
  | _ :: l => reactTime l

/-- no two collision substeps follow each other without the fall speeds being renewed -/
def Renewed : List Ev → Prop
  | Ev.coal _ :: Ev.coal _ :: _ => False
  | _ :: l => Renewed l
  | [] => True

theorem coalTime_append (a b : List Ev) : coalTime (a ++ b) = coalTime a + coalTime b := by
  induction a with
  | nil => simp [coalTime]
  | cons e a ih => cases e <;> simp [coalTime, ih, add_assoc]
theorem henryTime_append (a b : List Ev) : henryTime (a ++ b) = henryTime a + henryTime b := by
  induction a with
  | nil => simp [henryTime]
  | cons e a ih => cases e <;> simp [henryTime, ih, add_assoc]
theorem reactTime_append (a b : List Ev) : reactTime (a ++ b) = reactTime a + reactTime b := by
  induction a with
  | nil => simp [reactTime]
  | cons e a ih => cases e <;> simp [reactTime, ih, add_assoc]

theorem flatMap_time {T : List Ev → ℝ} (h0 : T [] = 0) (happ : ∀ a b, T (a ++ b) = T a + T b) (f : ℕ → List Ev) (c : ℝ) (hf : ∀ i, T (f i) = c) (m : ℕ) :
    T ((List.range m).flatMap f) = m * c := by
  induction m with
  | zero => simp [h0]
  | succ m ih => rw [List.range_succ, List.flatMap_append, happ, ih]; simp [hf]; ring

/-- A positive number of substeps stays positive, and the time of a substep does not exceed that at the default time step. -/
theorem adjust_pos {g : Given} {dt : ℝ} {n : ℤ} {t : ℝ} (hd : 0 < g.dt0) (hn : 1 ≤ g.n0) (h : adjust g dt = some (n, t)) :
    1 ≤ n ∧ 0 < t ∧ (1 < g.n0 → t / n ≤ g.dt0 / g.n0) := by
  unfold adjust at h
  split_ifs at h with h1 h2 h3 h3
  all_goals simp only [Option.some.injEq, Prod.mk.injEq] at h
  all_goals obtain ⟨rfl, rfl⟩ := h
  · have hg : (0 : ℝ) < g.n0 := by exact_mod_cast (by omega : 0 < g.n0)
    have hp : 0 < (g.n0 : ℝ) * dt / g.dt0 := by positivity
    have hc := Int.le_ceil ((g.n0 : ℝ) * dt / g.dt0)
    have h1' : 1 ≤ ⌈(g.n0 : ℝ) * dt / g.dt0⌉ := Int.one_le_ceil_iff.mpr hp
    refine ⟨h1', h3, fun _ => ?_⟩
    have hcp : (0 : ℝ) < (⌈(g.n0 : ℝ) * dt / g.dt0⌉ : ℝ) := lt_of_lt_of_le hp hc
    rw [div_le_div_iff₀ hcp hg]
    rw [div_le_iff₀ hd] at hc
    nlinarith
  · exact absurd h2.1 h3
  · refine ⟨hn, h3, fun h => absurd ⟨h3, h⟩ h2⟩
  · exact ⟨hn, hd, fun _ => le_rfl⟩

/-- **C140.** Collisions are computed for the whole time step, in substeps each of which but the first finds renewed fall speeds, if the number of substeps given is at
least one; for other numbers, which are accepted, nothing collides. -/
theorem coal_whole_step {g : Given} {dt : ℝ} {n : ℤ} {t : ℝ} (hd : 0 < g.dt0) (hn : 1 ≤ g.n0) (h : adjust g dt = some (n, t)) :
    coalTime (coalLoop n t) = (if 0 < dt then dt else g.dt0) ∧ Renewed (coalLoop n t) := by
  obtain ⟨hn1, ht, -⟩ := adjust_pos hd hn h
  have ht' : t = if 0 < dt then dt else g.dt0 := by
    unfold adjust at h
    split_ifs at h <;> simp_all
  have hnR : (n : ℝ) ≠ 0 := by exact_mod_cast (by omega : n ≠ 0)
  have hcast : ((n.toNat : ℕ) : ℝ) = (n : ℝ) := by
    have : ((n.toNat : ℕ) : ℤ) = n := Int.toNat_of_nonneg (by omega)
    exact_mod_cast this
  constructor
  · rw [← ht']
    unfold coalLoop
    rw [flatMap_time (by simp [coalTime]) coalTime_append _ (t / n)]
    · rw [hcast]; field_simp
    · intro i; split_ifs <;> simp [coalTime]
  · unfold coalLoop
    have key : ∀ m : ℕ, (m : ℤ) < n → ∀ l, Renewed l →
        Renewed ((List.range m).flatMap (fun (step : ℕ) => Ev.coal (t / n) :: if (step : ℤ) + 1 ≠ n then [Ev.vterm] else []) ++ l) := by
      intro m
      induction m with
      | zero => intro _ l hl; simpa using hl
      | succ m ih =>
        intro hm l hl
        rw [List.range_succ, List.flatMap_append, List.append_assoc]
        refine ih (by push_cast at hm; omega) _ ?_
        have : (m : ℤ) + 1 ≠ n := by push_cast at hm; omega
        simpa [this, Renewed] using hl
    obtain ⟨k, hk⟩ : ∃ k, n.toNat = k + 1 := ⟨n.toNat - 1, by omega⟩
    rw [hk, List.range_succ, List.flatMap_append]
    refine key k (by omega) _ ?_
    have : (k : ℤ) + 1 = n := by omega
    simp [this, Renewed]

/-- **C140.** Dissolution and oxidation, as switched on, are computed for the whole time step. -/
theorem chem_whole_step {g : Given} {dt : ℝ} {n : ℤ} {t : ℝ} (hd : 0 < g.dt0) (hn : 1 ≤ g.n0) (h : adjust g dt = some (n, t)) (dsl dsc rct : Bool) :
    henryTime (chemLoop dsl dsc rct n t) = (if dsl then if 0 < dt then dt else g.dt0 else 0) ∧
      reactTime (chemLoop dsl dsc rct n t) = (if rct then if 0 < dt then dt else g.dt0 else 0) := by
  obtain ⟨hn1, ht, -⟩ := adjust_pos hd hn h
  have ht' : t = if 0 < dt then dt else g.dt0 := by
    unfold adjust at h
    split_ifs at h <;> simp_all
  have hnR : (n : ℝ) ≠ 0 := by exact_mod_cast (by omega : n ≠ 0)
  have hcast : ((n.toNat : ℕ) : ℝ) = (n : ℝ) := by
    have : ((n.toNat : ℕ) : ℤ) = n := Int.toNat_of_nonneg (by omega)
    exact_mod_cast this
  rw [← ht']
  have full : ((n.toNat : ℕ) : ℝ) * (t / n) = t := by rw [hcast]; field_simp
  have H : ∀ f : ℕ → List Ev, ∀ c : ℝ, (∀ i, henryTime (f i) = c) → henryTime ((List.range n.toNat).flatMap f) = n.toNat * c :=
    fun f c h => flatMap_time (by simp [henryTime]) henryTime_append f c h _
  have R : ∀ f : ℕ → List Ev, ∀ c : ℝ, (∀ i, reactTime (f i) = c) → reactTime ((List.range n.toNat).flatMap f) = n.toNat * c :=
    fun f c h => flatMap_time (by simp [reactTime]) reactTime_append f c h _
  unfold chemLoop
  constructor
  · cases dsl
    · by_cases h1 : (false || dsc || rct) = true
      · rw [if_pos h1, H _ 0 (fun i => by cases dsc <;> cases rct <;> simp [henryTime])]; simp
      · rw [if_neg h1]; simp [henryTime]
    · rw [if_pos (by simp), H _ (t / n) (fun i => by cases dsc <;> cases rct <;> simp [henryTime]), full]; simp
  · cases rct
    · by_cases h1 : (dsl || dsc || false) = true
      · rw [if_pos h1, R _ 0 (fun i => by cases dsc <;> cases dsl <;> simp [reactTime])]; simp
      · rw [if_neg h1]; simp [reactTime]
    · rw [if_pos (by simp), R _ (t / n) (fun i => by cases dsc <;> cases dsl <;> simp [reactTime]), full]; simp

/-- **C140 (code).** Zero or negative numbers of substeps are taken as they are: nothing is computed, silently. -/
theorem no_substeps {g : Given} {dt : ℝ} (hn : g.n0 ≤ 0) {n : ℤ} {t : ℝ} (h : adjust g dt = some (n, t)) (dsl dsc rct : Bool) :
    coalLoop n t = [] ∧ chemLoop dsl dsc rct n t = [] := by
  have h2 : ¬(0 < dt ∧ 1 < g.n0) := fun h => by omega
  have hn' : n = g.n0 := by
    unfold adjust at h
    rw [if_neg h2] at h
    split_ifs at h
    all_goals (simp only [Option.some.injEq, Prod.mk.injEq] at h; exact h.1.symm)
  have : n.toNat = 0 := by omega
  unfold coalLoop chemLoop
  simp [this]

/-- **C140 (code).** A time step of zero (or less) means the default time step: everything is computed for `opts_init.dt`. -/
theorem zero_is_default (g : Given) (dt : ℝ) (h : dt ≤ 0) : adjust g dt = some (g.n0, g.dt0) := by
  unfold adjust
  simp [not_lt.mpr h]

/-- three substeps of collisions by default, in a step of a third of the default one -/
example : ∃ n t, adjust ⟨1, true, 3⟩ (1 / 3) = some (n, t) ∧ coalTime (coalLoop n t) = 1 / 3 ∧ Renewed (coalLoop n t) := by
  have h : adjust ⟨1, true, 3⟩ (1 / 3) = some (⌈((3 : ℤ) : ℝ) * (1 / 3) / 1⌉, 1 / 3) := by unfold adjust; norm_num
  have h' := coal_whole_step (by norm_num) (by norm_num) h
  exact ⟨_, _, h, by simpa using h'⟩
/-- switched on, accepted, without effect -/
example : ∃ n t, adjust ⟨1, false, 0⟩ (-1) = some (n, t) ∧ coalTime (coalLoop n t) = 0 := by
  refine ⟨0, 1, by unfold adjust; norm_num, ?_⟩
  rw [(no_substeps (g := ⟨1, false, 0⟩) (dt := -1) (by simp) (by unfold adjust; norm_num) false false false).1]; rfl

end LCP.Substeps
