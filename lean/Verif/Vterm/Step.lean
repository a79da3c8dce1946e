import Verif.Vterm.Laws
import Verif.Coal.Props
import Verif.Adve.Model
import Verif.Cond.Growth
import Verif.Cond.DropletProps

/-!
# C75: which velocities collisions, sedimentation and the next condensation see

`step_async` (src/particles_step.ipp:377-407, 434-435): velocities are computed for all super-droplets, then coalescence sub-steps
mark those of collectors as invalid and recompute them, except after the last sub-step; then sedimentation moves every
super-droplet with its stored velocity.
-/
namespace LCP.Vterm
noncomputable section
open LCP.Coal

/-! ### model -/

open Classical in
/-- one `thrust::transform_if` over all super-droplets writing `vt` (hskpng_vterm.ipp:180-345); `none`: one of them reads outside of the
cache.  `ice_switch` is off, as coalescence requires (particles_impl_init_sanity_check.ipp:165-166). -/
def refresh (f : Air → ℝ → ℝ → ℝ → Option ℝ) (air : ℕ → Air) (ijk : ℕ → ℕ) (N : ℕ) (sd : ℕ → SD) : Option (ℕ → SD) :=
  if ∀ i < N, (f (air (ijk i)) (sd i).rw2 0 (sd i).vt).isSome then
    some fun i => if i < N then { sd i with vt := (f (air (ijk i)) (sd i).rw2 0 (sd i).vt).getD 0 } else sd i
  else none

/-- what differs between the calls of `coal` in one time step: cell volume, kernel, result of shuffling (`env`), order of execution of the
parallel loops, random numbers -/
structure Sub where
  env : Env
  sch : Scheds
  u01 : ℕ → ℝ

/-- the coalescence loop (particles_step.ipp:383-394); the first result lists the states with which `coal` was called -/
def coalLoop (o : Opts) (eq : Eq) (air : ℕ → Air) (ijk : ℕ → ℕ) (N : ℕ) : List Sub → State → Option (List State × State)
  | [], s => some ([], s)
  | [x], s => (coal o x.env x.sch { s with col := x.u01 }).map fun s' => ([s], s')
  | x :: y :: l, s =>
    (coal o x.env x.sch { s with col := x.u01 }).bind fun s1 =>
    (refresh (vtInvalid eq false) air ijk N s1.sd).bind fun sd =>
    (coalLoop o eq air ijk N (y :: l) { s1 with sd := sd }).map fun r => (s :: r.1, r.2)

/-- switches of `opts_t` -/
structure Sw where
  sedi : Bool
  coal : Bool
  cond : Bool

/-- velocities and sedimentation in `step_async` (particles_step.ipp:377-407, 434-435, sedi: particles_impl_sedi.ipp:12-33); the passes in
between (turbulent velocities, advection) change neither velocities nor sizes and are left out.  Results: states with which `coal` was called,
state and positions after sedimentation. -/
def asyncVt (w : Sw) (dt : ℝ) (o : Opts) (eq : Eq) (air : ℕ → Air) (ijk : ℕ → ℕ) (N : ℕ) (subs : List Sub) (s : State) (pos : ℕ → Adve.Pos) :
    Option (List State × State × (ℕ → Adve.Pos)) :=
  (if w.sedi || w.coal || w.cond then refresh (vtAll eq false) air ijk N s.sd else some s.sd).bind fun sd =>
  (if w.coal then coalLoop o eq air ijk N subs { s with sd := sd } else some ([], { s with sd := sd })).map fun r =>
  (r.1, r.2, fun i => if w.sedi then Adve.sedi dt (r.2.sd i).vt (pos i) else pos i)

/-! ### specification -/

/-- every droplet has the velocity that the selected formula gives for its present size -/
def Current (eq : Eq) (air : ℕ → Air) (ijk : ℕ → ℕ) (N : ℕ) (sd : ℕ → SD) : Prop :=
  ∀ i < N, 0 < (sd i).rw2 → vtLiquid eq (air (ijk i)) (sd i).rw2 = some (sd i).vt

/-- the substeps work on the same super-droplets and cells, sorted and executed in any way -/
structure Subs.Ok (ijk : ℕ → ℕ) (N : ℕ) (subs : List Sub) : Prop where
  sorted : ∀ x ∈ subs, x.env.Sorted
  sch : ∀ x ∈ subs, x.sch.Valid x.env.N
  N : ∀ x ∈ subs, x.env.N = N
  ijk : ∀ x ∈ subs, x.env.ijk = ijk

/-- super-droplet `i` received the droplets of another one of its cell in that call of `coal` -/
def Collected (ijk : ℕ → ℕ) (N i : ℕ) (before after : ℕ → SD) : Prop :=
  ∃ j < N, j ≠ i ∧ ijk j = ijk i ∧ (after i).n = (before i).n ∧ ∃ k : ℕ, 1 ≤ k ∧ (after i).rd3 = k * (before j).rd3 + (before i).rd3

/-! ### proofs -/

theorem vtLiquid_some (eq : Eq) (c : Air) (rw2 : ℝ) : ∃ v, vtLiquid eq c rw2 = some v := by
  cases eq with
  | beard77fast =>
    have h := vt0Bin_lt rw2
    have hl : vt0.length = nBin := by unfold vt0; rw [List.length_map, List.length_range]
    unfold vtLiquid
    rw [List.getElem?_eq_getElem (by rw [hl]; exact h)]
    exact ⟨_, rfl⟩
  | _ => exact ⟨_, rfl⟩

theorem vtAll_liquid (eq : Eq) (c : Air) (rw2 a v : ℝ) (h : 0 < rw2) : vtAll eq false c rw2 a v = vtLiquid eq c rw2 := by
  unfold vtAll; rw [if_pos h]

theorem vtAll_some (eq : Eq) (c : Air) (rw2 a v : ℝ) : (vtAll eq false c rw2 a v).isSome := by
  unfold vtAll
  obtain ⟨w, hw⟩ := vtLiquid_some eq c rw2
  split_ifs with h1 h2
  · rw [hw]; rfl
  · rfl
  · rfl

theorem vtInvalid_some (eq : Eq) (c : Air) (rw2 a v : ℝ) : (vtInvalid eq false c rw2 a v).isSome := by
  unfold vtInvalid
  obtain ⟨w, hw⟩ := vtLiquid_some eq c rw2
  split_ifs with h0 h1 h2
  · rw [hw]; rfl
  all_goals rfl

theorem refresh_eq (f : Air → ℝ → ℝ → ℝ → Option ℝ) (hf : ∀ c r a v, (f c r a v).isSome) (air : ℕ → Air) (ijk : ℕ → ℕ) (N : ℕ) (sd : ℕ → SD) :
    ∃ sd', refresh f air ijk N sd = some sd' ∧ ∀ i, (sd' i).n = (sd i).n ∧ (sd' i).rw2 = (sd i).rw2 ∧ (sd' i).rd3 = (sd i).rd3 ∧
      (i < N → f (air (ijk i)) (sd i).rw2 0 (sd i).vt = some (sd' i).vt) := by
  unfold refresh
  rw [if_pos fun i _ => hf _ _ _ _]
  refine ⟨_, rfl, fun i => ?_⟩
  by_cases hi : i < N
  · simp only [if_pos hi, true_and]
    intro _
    obtain ⟨v, hv⟩ := Option.isSome_iff_exists.1 (hf (air (ijk i)) (sd i).rw2 0 (sd i).vt)
    rw [hv]; rfl
  · simp only [if_neg hi, true_and]
    exact fun h => absurd h hi

theorem all_current (eq : Eq) (air : ℕ → Air) (ijk : ℕ → ℕ) (N : ℕ) (sd sd' : ℕ → SD) (h : refresh (vtAll eq false) air ijk N sd = some sd') :
    Current eq air ijk N sd' := by
  obtain ⟨t, h1, h2⟩ := refresh_eq _ (vtAll_some eq) air ijk N sd
  rw [h] at h1; cases h1
  intro i hi hr
  obtain ⟨-, e2, -, e4⟩ := h2 i
  rw [e2] at hr ⊢
  rw [← e4 hi, vtAll_liquid _ _ _ _ _ hr]

/-- effect of one `coal` on velocities -/
theorem coal_vt (o : Opts) (eq : Eq) (air : ℕ → Air) (ijk : ℕ → ℕ) (N : ℕ) (x : Sub) (hs : x.env.Sorted) (hv : x.sch.Valid x.env.N) (hN : x.env.N = N)
    (hi : x.env.ijk = ijk) (s s' : State) (hc : Current eq air ijk N s.sd) (h : coal o x.env x.sch { s with col := x.u01 } = some s') (i : ℕ) (hiN : i < N) :
    (s'.sd i).vt = -1 ∧ Collected ijk N i s.sd s'.sd ∨ (0 < (s'.sd i).rw2 → vtLiquid eq (air (ijk i)) (s'.sd i).rw2 = some (s'.sd i).vt) := by
  subst hN; subst hi
  have hci := hc i hiN
  rcases coal_each hs hv h i hiN with hh | ⟨j, hj, hji, hcell, k, hk, ⟨-, hh, -⟩ | ⟨-, hh, -⟩⟩
  · right; rw [hh]; exact hci
  · right; rw [hh]; exact hci
  · left
    rw [hh]
    refine ⟨rfl, j, hj, hji, hcell, ?_, k, hk, ?_⟩
    · rw [hh]; rfl
    · rw [hh]; rfl

theorem invalid_current (eq : Eq) (air : ℕ → Air) (ijk : ℕ → ℕ) (N : ℕ) (sd sd' : ℕ → SD)
    (hc : ∀ i < N, (sd i).vt = -1 ∨ (0 < (sd i).rw2 → vtLiquid eq (air (ijk i)) (sd i).rw2 = some (sd i).vt))
    (h : refresh (vtInvalid eq false) air ijk N sd = some sd') : Current eq air ijk N sd' := by
  obtain ⟨t, h1, h2⟩ := refresh_eq _ (vtInvalid_some eq) air ijk N sd
  rw [h] at h1; cases h1
  intro i hi hr
  obtain ⟨-, e2, -, e4⟩ := h2 i
  rw [e2] at hr ⊢
  rw [← e4 hi]
  unfold vtInvalid
  split_ifs with h0 
  · rfl
  · rcases hc i hi with hh | hh
    · exact absurd hh h0
    · exact hh hr

/-- the loop: `coal` always sees current velocities; the state after it -/
theorem loop_spec (o : Opts) (eq : Eq) (air : ℕ → Air) (ijk : ℕ → ℕ) (N : ℕ) (subs : List Sub) (hok : Subs.Ok ijk N subs) (s : State)
    (hc : Current eq air ijk N s.sd) (tr : List State) (s' : State) (h : coalLoop o eq air ijk N subs s = some (tr, s')) :
    tr.length = subs.length ∧ (∀ t ∈ tr, Current eq air ijk N t.sd) ∧
    (∀ i < N, (∃ t, tr.getLast? = some t ∧ (s'.sd i).vt = -1 ∧ Collected ijk N i t.sd s'.sd) ∨
      (0 < (s'.sd i).rw2 → vtLiquid eq (air (ijk i)) (s'.sd i).rw2 = some (s'.sd i).vt)) ∧
    (∀ i < N, ∀ t, tr.getLast? = some t → (s'.sd i).rd3 ≠ (t.sd i).rd3 → (s'.sd i).vt = -1) := by
  induction subs generalizing s tr with
  | nil =>
    simp only [coalLoop, Option.some.injEq, Prod.mk.injEq] at h
    obtain ⟨rfl, rfl⟩ := h
    exact ⟨rfl, by simp, fun i hi => Or.inr (hc i hi), by simp⟩
  | cons x l ih =>
    have hx := fun i hi s1 h1 => coal_vt o eq air ijk N x (hok.sorted x (by simp)) (hok.sch x (by simp)) (hok.N x (by simp)) (hok.ijk x (by simp)) s s1 hc h1 i hi
    cases l with
    | nil =>
      simp only [coalLoop, Option.map_eq_some_iff, Prod.mk.injEq] at h
      obtain ⟨s1, h1, rfl, rfl⟩ := h
      refine ⟨rfl, by simpa using hc, fun i hi => ?_, fun i hi t ht hne => ?_⟩
      · rcases hx i hi _ h1 with hh | hh
        · exact Or.inl ⟨s, rfl, hh⟩
        · exact Or.inr hh
      · simp only [List.getLast?_singleton, Option.some.injEq] at ht
        subst ht
        rcases coal_each (hok.sorted x (by simp)) (hok.sch x (by simp)) h1 i (by rw [hok.N x (by simp)]; exact hi) with
          hh | ⟨j, -, -, -, k, -, ⟨-, hh, -⟩ | ⟨-, hh, -⟩⟩
        · exact absurd (by rw [hh]) hne
        · exact absurd (by rw [hh]; rfl) hne
        · rw [hh]; rfl
    | cons y l =>
      simp only [coalLoop, Option.bind_eq_some_iff, Option.map_eq_some_iff] at h
      obtain ⟨s1, h1, sd, h2, ⟨tr1, s2⟩, h3, h4⟩ := h
      simp only [Prod.mk.injEq] at h4
      obtain ⟨rfl, rfl⟩ := h4
      have hc2 := invalid_current eq air ijk N s1.sd sd (fun i hi => (hx i hi _ h1).imp_left (·.1)) h2
      obtain ⟨a, b, c, d⟩ := ih ⟨fun z hz => hok.sorted z (by simp [hz]), fun z hz => hok.sch z (by simp [hz]), fun z hz => hok.N z (by simp [hz]),
        fun z hz => hok.ijk z (by simp [hz])⟩ _ hc2 tr1 h3
      refine ⟨by simp [a], ?_, fun i hi => ?_, fun i hi t ht => ?_⟩
      · intro t ht
        rcases List.mem_cons.1 ht with rfl | ht
        · exact hc
        · exact b t ht
      · rcases c i hi with ⟨t, ht, hh⟩ | hh
        · left
          refine ⟨t, ?_, hh⟩
          cases tr1 with
          | nil => simp at a
          | cons _ _ => rw [List.getLast?_cons_cons]; exact ht
        · exact Or.inr hh
      · cases tr1 with
        | nil => simp at a
        | cons _ _ => rw [List.getLast?_cons_cons] at ht; exact d i hi t ht

/-- **C75 (collisions).** In every coalescence sub-step the kernels are evaluated with velocities that belong to the present sizes, no matter what
velocities were stored before the time step. -/
theorem coal_velocities (w : Sw) (dt : ℝ) (o : Opts) (eq : Eq) (air : ℕ → Air) (ijk : ℕ → ℕ) (N : ℕ) (subs : List Sub) (hok : Subs.Ok ijk N subs)
    (s s' : State) (pos pos' : ℕ → Adve.Pos) (tr : List State) (h : asyncVt w dt o eq air ijk N subs s pos = some (tr, s', pos')) :
    tr.length = (if w.coal then subs.length else 0) ∧ ∀ t ∈ tr, Current eq air ijk N t.sd := by
  simp only [asyncVt, Option.bind_eq_some_iff, Option.map_eq_some_iff, Prod.mk.injEq] at h
  obtain ⟨sd, h1, ⟨tr1, s1⟩, h2, rfl, -, -⟩ := h
  by_cases hw : w.coal = true
  · rw [if_pos (by simp [hw])] at h1
    rw [if_pos hw] at h2 ⊢
    obtain ⟨a, b, -, -⟩ := loop_spec o eq air ijk N subs hok { s with sd := sd } (all_current eq air ijk N s.sd sd h1) tr1 s1 h2
    exact ⟨a, b⟩
  · rw [if_neg hw] at h2 ⊢
    simp only [Option.some.injEq, Prod.mk.injEq] at h2
    obtain ⟨rfl, -⟩ := h2
    exact ⟨rfl, by simp⟩

/-- **C75 (sedimentation), partial.** With sedimentation on, every droplet that has not collected another one in the last coalescence
sub-step falls by the time step times the velocity belonging to its size; a droplet that has collected rises by one metre per second. -/
theorem sedimentation_partial (w : Sw) (hw : w.sedi = true) (dt : ℝ) (o : Opts) (eq : Eq) (air : ℕ → Air) (ijk : ℕ → ℕ) (N : ℕ) (subs : List Sub)
    (hok : Subs.Ok ijk N subs) (s s' : State) (pos pos' : ℕ → Adve.Pos) (tr : List State)
    (h : asyncVt w dt o eq air ijk N subs s pos = some (tr, s', pos')) (i : ℕ) (hi : i < N) (hr : 0 < (s'.sd i).rw2) :
    (∃ v, vtLiquid eq (air (ijk i)) (s'.sd i).rw2 = some v ∧ pos' i = { pos i with z := (pos i).z - dt * v }) ∨
    (w.coal = true ∧ ∃ t, tr.getLast? = some t ∧ Collected ijk N i t.sd s'.sd ∧ (s'.sd i).vt = -1 ∧ pos' i = { pos i with z := (pos i).z + dt }) := by
  simp only [asyncVt, Option.bind_eq_some_iff, Option.map_eq_some_iff, Prod.mk.injEq] at h
  obtain ⟨sd, h1, ⟨tr1, s1⟩, h2, rfl, rfl, h5⟩ := h
  have h5 := congrFun h5 i
  rw [if_pos hw] at h5
  rw [if_pos (by simp [hw])] at h1
  have hcur := all_current eq air ijk N s.sd sd h1
  simp only at h5 hr ⊢
  rw [← h5]
  unfold Adve.sedi
  by_cases hwc : w.coal = true
  · rw [if_pos hwc] at h2
    obtain ⟨-, -, c, -⟩ := loop_spec o eq air ijk N subs hok { s with sd := sd } hcur tr1 s1 h2
    rcases c i hi with ⟨t, ht, hv, hcol⟩ | hh
    · right
      refine ⟨hwc, t, ht, hcol, hv, ?_⟩
      rw [hv, show (pos i).z - dt * (-1) = (pos i).z + dt by ring]
    · exact Or.inl ⟨_, hh hr, rfl⟩
  · left
    rw [if_neg hwc] at h2
    simp only [Option.some.injEq, Prod.mk.injEq] at h2
    obtain ⟨-, rfl⟩ := h2
    exact ⟨_, hcur i hi hr, rfl⟩

/-- **C75, refuted part.** For any number of sub-steps: a super-droplet that collected dry matter in the last one has velocity -1 afterwards and
sedimentation lifts it. -/
theorem collectors_rise (w : Sw) (hw : w.sedi = true) (hc : w.coal = true) (dt : ℝ) (o : Opts) (eq : Eq) (air : ℕ → Air) (ijk : ℕ → ℕ) (N : ℕ)
    (subs : List Sub) (hok : Subs.Ok ijk N subs) (s s' : State) (pos pos' : ℕ → Adve.Pos) (tr : List State)
    (h : asyncVt w dt o eq air ijk N subs s pos = some (tr, s', pos')) (i : ℕ) (hi : i < N) (t : State) (ht : tr.getLast? = some t)
    (hd : (s'.sd i).rd3 ≠ (t.sd i).rd3) : (s'.sd i).vt = -1 ∧ (pos' i).z = (pos i).z + dt := by
  simp only [asyncVt, Option.bind_eq_some_iff, Option.map_eq_some_iff, Prod.mk.injEq] at h
  obtain ⟨sd, h1, ⟨tr1, s1⟩, h2, rfl, rfl, h5⟩ := h
  have h5 := congrFun h5 i
  rw [if_pos hw] at h5
  rw [if_pos (by simp [hw])] at h1
  rw [if_pos hc] at h2
  obtain ⟨-, -, -, d⟩ := loop_spec o eq air ijk N subs hok { s with sd := sd } (all_current eq air ijk N s.sd sd h1) tr1 s1 h2
  have := d i hi t ht hd
  refine ⟨this, ?_⟩
  rw [← h5]
  unfold Adve.sedi
  simp only [this]
  ring

/-- without coalescence every droplet falls -/
theorem sedimentation_no_coal (w : Sw) (hw : w.sedi = true) (hc : w.coal = false) (dt : ℝ) (o : Opts) (eq : Eq) (air : ℕ → Air) (ha : ∀ c, (air c).Usual)
    (ijk : ℕ → ℕ) (N : ℕ) (s : State) (pos : ℕ → Adve.Pos) (hdt : 0 < dt) (hr : ∀ i < N, 0 < (s.sd i).rw2 ∧ √(s.sd i).rw2 ≤ 3e-3) :
    ∃ s' pos', asyncVt w dt o eq air ijk N [] s pos = some ([], s', pos') ∧ ∀ i < N, (pos' i).z < (pos i).z ∧ (pos' i).x = (pos i).x := by
  obtain ⟨sd, h1, h2⟩ := refresh_eq _ (vtAll_some eq) air ijk N s.sd
  refine ⟨{ s with sd := sd }, fun i => Adve.sedi dt (sd i).vt (pos i), ?_, fun i hi => ?_⟩
  · simp only [asyncVt, hw, hc, Bool.true_or, if_true, h1, Option.bind_some, Bool.false_eq_true, if_false, Option.map_some]
  · obtain ⟨-, -, -, e⟩ := h2 i
    obtain ⟨v, hv, hp⟩ := vtLiquid_pos eq (air (ijk i)) (ha _) (s.sd i).rw2 (hr i hi).1 (hr i hi).2
    have e := e hi
    rw [vtAll_liquid _ _ _ _ _ (hr i hi).1, hv, Option.some.injEq] at e
    simp only [Adve.sedi, ← e, and_true]
    have := mul_pos hdt hp
    linarith

/-! ### a concrete time step: two droplets of 20 µm collide, the collector rises -/

/-- 20 µm droplets -/
def exSD (i : ℕ) : SD := { Coal.exSD i with rw2 := 20e-6 ^ 2, rd3 := 1e-21 }
/-- one sub-step with a kernel leading to two collisions of the first pair -/
def exSub : Sub := ⟨exEnv, exSch, fun _ => 1 / 2⟩
/-- initial state -/
def exSt : State := ⟨exSD, fun _ => 0, false⟩

theorem exSub_ok : Subs.Ok exEnv.ijk 3 [exSub] where
  sorted x hx := by rw [List.mem_singleton.1 hx]; exact exEnv_sorted
  sch x hx := by rw [List.mem_singleton.1 hx]; exact exSch_valid
  N x hx := by rw [List.mem_singleton.1 hx]; rfl
  ijk x hx := by rw [List.mem_singleton.1 hx]; rfl

/-- one collision of the second super-droplet with droplets of the first -/
theorem ex_collides (s : State) (hn : ∀ i, (s.sd i).n = (exSD i).n) (hr : ∀ i, (s.sd i).rd3 = (exSD i).rd3) (hcol : s.col = fun _ => 1 / 2) :
    ∃ s', coal ⟨0, false, false, false⟩ exEnv exSch s = some s' ∧ (s'.sd 1).rd3 ≠ (s.sd 1).rd3 := by
  obtain ⟨s', hs'⟩ : ∃ s', coal ⟨0, false, false, false⟩ exEnv exSch s = some s' := ⟨_, rfl⟩
  refine ⟨s', hs', ?_⟩
  have hpw := coal_pointwise exEnv_sorted exSch_valid hs' 0
  have hk : kind exEnv 0 = .pair := by decide
  have hcnt : exEnv.scl 0 = 1 := by
    have : exEnv.cnt 0 = 2 := by decide
    rw [scl_eq, this]; norm_num [scaleFactor]
  have hcell : exEnv.cell 0 = 0 := by decide
  have hprob : ∀ a b, prob exEnv 0 a b = 2 := by
    intro a b; unfold prob; rw [hcell, hcnt]; norm_num [exEnv]
  have hc : ∀ a b u, 0 ≤ u → colNo0 exEnv 0 a b u = 2 := by
    intro a b u hu
    unfold colNo0; rw [hprob]
    have : ⌊(2:ℝ)⌋₊ = 2 := by norm_num
    rw [this]; simp [hu]
  have hid0 : exEnv.id 0 = 0 := by decide
  have hid1 : exEnv.id 1 = 1 := by decide
  have hn0 : (s.sd 0).n = 5 := by rw [hn]; rfl
  have hn1 : (s.sd 1).n = 2 := by rw [hn]; rfl
  have hless : (s'.sd 0).n ≠ 5 := by
    simp only [PairLoop.apply, hk, hid0] at hpw
    have ho := coalPair_outcome ⟨0, false, false, false⟩ exEnv 0 (view exEnv s 0) (view exEnv s 1)
    obtain ⟨k, hk1, hk2, hx⟩ := ho.hit (by rw [hc _ _ _ (by simp [view, hcol])]; norm_num) (by simp [view, hid0, hid1, hn0, hn1])
    simp only [view, hid0, hid1] at hk2 hx
    rw [hpw]
    show (coalPair ⟨0, false, false, false⟩ exEnv 0 (view exEnv s 0) (view exEnv s 1)).1.1.n ≠ 5
    rw [show (coalPair ⟨0, false, false, false⟩ exEnv 0 (view exEnv s 0) (view exEnv s 1)).1.1 = _ from hx]
    simp only [donated, hn0, hn1] at hk2 ⊢
    rw [subU64_eq (by norm_num) hk2]; omega
  rcases coal_each exEnv_sorted exSch_valid hs' 0 (by decide) with hh | ⟨j, hj, hj0, hcl, k, hk1, ⟨-, -, hh⟩ | ⟨-, hh, -⟩⟩
  · exact absurd (by rw [hh, hn0]) hless
  · have hj1 : j = 1 := by
      have : j < 3 := hj
      rcases (by omega : j = 1 ∨ j = 2) with rfl | rfl
      · rfl
      · exact absurd hcl (by decide)
    subst hj1
    rw [hh]
    show (k : ℝ) * (s.sd 0).rd3 + (s.sd 1).rd3 ≠ (s.sd 1).rd3
    rw [hr 0]
    have hk1' : (1 : ℝ) ≤ k := by exact_mod_cast hk1
    have : (0 : ℝ) < (k : ℝ) * (exSD 0).rd3 := mul_pos (by linarith) (by norm_num [exSD])
    linarith
  · exact absurd (by rw [hh]; exact hn0) hless

/-- the usual case of one sub-step per time step: a cloud droplet of 20 µm that collects another one rises by 1 m in the 1 s time step -/
theorem rises (eq : Eq) (pos : ℕ → Adve.Pos) : ∃ tr s' pos',
    asyncVt ⟨true, true, true⟩ 1 ⟨0, false, false, false⟩ eq (fun _ => exAir) exEnv.ijk 3 [exSub] exSt pos = some (tr, s', pos') ∧
    (pos' 1).z = (pos 1).z + 1 := by
  obtain ⟨sd, h1, h2⟩ := refresh_eq _ (vtAll_some eq) (fun _ => exAir) exEnv.ijk 3 exSt.sd
  obtain ⟨s', h3, h4⟩ := ex_collides { exSt with sd := sd, col := fun _ => 1 / 2 } (fun i => (h2 i).1) (fun i => (h2 i).2.2.1) rfl
  have hrun : asyncVt ⟨true, true, true⟩ 1 ⟨0, false, false, false⟩ eq (fun _ => exAir) exEnv.ijk 3 [exSub] exSt pos =
      some ([{ exSt with sd := sd }], s', fun i => Adve.sedi 1 (s'.sd i).vt (pos i)) := by
    simp only [asyncVt, Bool.or_true, if_true, h1, Option.bind_some, coalLoop, exSub, h3, Option.map_some]
  refine ⟨_, _, _, hrun, ?_⟩
  exact (collectors_rise _ rfl rfl _ _ eq _ _ _ _ exSub_ok _ _ _ _ _ hrun 1 (by norm_num) _ rfl h4).2

end
end LCP.Vterm
