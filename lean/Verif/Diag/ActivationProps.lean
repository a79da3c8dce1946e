import Verif.Diag.Activation
import Verif.Diag.Props
import Verif.Coal.Outcome

/-!
# C83: which super-droplets count as activated, and for how long

`diag_rw_ge_rc` and `diag_RH_ge_Sc` against the maximum of the Koehler curve; in-cloud times against the history of the
super-droplet and of those it has collected.
-/
namespace LCP.Activ
open LCP.Common

/-! ### Sizes against the critical size -/

theorem rw3_cr_ge (d kappa T : ℝ) (hd : 0 < d) (hk : 0 < kappa)
    (hb : 3 * kappa * 1e8 * cbrt (1e8 * d) < kelvinA T * (1e8 - 1) * (1e8 + kappa - 1)) : d ≤ Toms.rw3_cr d kappa T := by
  obtain ⟨h1, h2⟩ := rw3_cr_bracket d kappa T hd hk
  have h3 := h2.2 hb
  have hle : d ≤ 1e8 * d := by norm_num; linarith
  obtain ⟨-, -, a, b, q1, q2, q3, q4, -⟩ := Toms.solve_bracket Toms.dbl (rw3_cr_minfun d kappa T) (Toms.tolEps Toms.dbl 16) d (1e8 * d) 100
      (by norm_num [Toms.dbl]) (by norm_num [Toms.dbl]) (le_max_right _ _) (by norm_num) hle (mul_neg_of_pos_of_neg h1 h3)
  unfold Toms.rw3_cr Toms.solveDbl
  rw [show (1e0 : ℝ) * d = d by norm_num]
  linarith

theorem rc2_le_iff (d kappa T rw2 : ℝ) (h0 : 0 ≤ rw2) (hr : 0 ≤ Toms.rw3_cr d kappa T) :
    rc2 d kappa T ≤ rw2 ↔ Toms.rw3_cr d kappa T ≤ √rw2 ^ 3 := by
  unfold rc2
  set w := Toms.rw3_cr d kappa T
  have e1 : w ^ (2 / 3 : ℝ) = (w ^ (1 / 3 : ℝ)) ^ 2 := by
    rw [← Real.rpow_natCast, ← Real.rpow_mul hr]; norm_num
  have e2 : (w ^ (1 / 3 : ℝ)) ^ 3 = w := by
    rw [← Real.rpow_natCast, ← Real.rpow_mul hr]; norm_num
  have hp : 0 ≤ w ^ (1 / 3 : ℝ) := Real.rpow_nonneg hr _
  rw [e1, ← Real.le_sqrt hp h0]
  constructor
  · intro h
    calc w = (w ^ (1 / 3 : ℝ)) ^ 3 := e2.symm
      _ ≤ √rw2 ^ 3 := pow_le_pow_left₀ hp h 3
  · intro h
    rw [← e2] at h
    exact (pow_le_pow_iff_left₀ hp (Real.sqrt_nonneg _) (by norm_num)).1 h

/-- Specification: `v` is the critical volume: the Koehler curve (equilibrium humidity over a drop of radius `r`) is largest there -/
def IsCritical (d kappa T v : ℝ) : Prop :=
  d < v ∧ ∀ w, d < w → w ≠ v → (w - d) / (w - d * (1 - kappa)) * Real.exp (kelvinA T / w ^ (1 / 3 : ℝ)) <
    (v - d) / (v - d * (1 - kappa)) * Real.exp (kelvinA T / v ^ (1 / 3 : ℝ))

theorem koehler_cbrt (d kappa T w : ℝ) (hw : 0 ≤ w) :
    koehler d kappa T (cbrt w) = (w - d) / (w - d * (1 - kappa)) * Real.exp (kelvinA T / w ^ (1 / 3 : ℝ)) := by
  unfold koehler
  rw [cbrt_cube w hw]; rfl

/-- where the search interval of the critical size is valid (see C48): dry radii up to tens of micrometres -/
def Bracket (d kappa T : ℝ) : Prop := 3 * kappa * 1e8 * cbrt (1e8 * d) < kelvinA T * (1e8 - 1) * (1e8 + kappa - 1)

/-- physical ranges of dry volume, hygroscopicity and temperature -/
structure Ok (d kappa T : ℝ) : Prop where
  hd : 0 < d
  hk : 0 < kappa
  hk2 : kappa ≤ 30
  hT0 : 0 < T
  hT1 : T < 791
  hb : Bracket d kappa T

theorem critical_exists {d kappa T : ℝ} (h : Ok d kappa T) :
    ∃ v, IsCritical d kappa T v ∧ |Toms.rw3_cr d kappa T - v| ≤ max (2 ^ (-16 : ℤ) * v) ((1e8 * d - d) / 2 ^ 25) := by
  obtain ⟨v, h1, h2, h3⟩ := Toms.rw3_cr_accuracy d kappa T h.hd h.hk h.hk2 h.hT0 h.hT1 h.hb
  refine ⟨v, ⟨h1, fun w hw hne => ?_⟩, h3⟩
  have := h2 w hw hne
  rwa [koehler_cbrt _ _ _ _ (by linarith [h.hd]), koehler_cbrt _ _ _ _ (by linarith [h.hd])] at this

theorem critical_unique {d kappa T v w : ℝ} (hv : IsCritical d kappa T v) (hw : IsCritical d kappa T w) : w = v := by
  by_contra hne
  have h1 := hv.2 w hw.1 hne
  have h2 := hw.2 v hv.1 (Ne.symm hne)
  linarith

/-- **C83 (activated by size).** `diag_rw_ge_rc` selects a super-droplet entirely or not at all.  It is selected if its wet volume
exceeds the critical volume for its own dry size and hygroscopicity (at the temperature held for its cell) by more than the accuracy
of the search, and not selected if it falls short of it by more than that. -/
theorem rw_ge_rc (s t : Obj) (h : diagRwGeRc s = some t) (i : ℕ) (hw : 0 ≤ s.rw2 i)
    (hok : Ok (s.rd3 i) (s.kpa i) (s.T (s.d.ijk i))) (v : ℝ) (hv : IsCritical (s.rd3 i) (s.kpa i) (s.T (s.d.ijk i)) v) :
    ∃ nf, t.d.nf = some nf ∧ (nf i = s.d.n i ∨ nf i = 0) ∧
      (v + max (2 ^ (-16 : ℤ) * v) ((1e8 * s.rd3 i - s.rd3 i) / 2 ^ 25) ≤ √(s.rw2 i) ^ 3 → nf i = s.d.n i) ∧
      (√(s.rw2 i) ^ 3 < v - max (2 ^ (-16 : ℤ) * v) ((1e8 * s.rd3 i - s.rd3 i) / 2 ^ 25) → nf i = 0) := by
  obtain ⟨v', hv', hacc⟩ := critical_exists hok
  obtain rfl := critical_unique hv hv'
  have hge := rw3_cr_ge _ _ _ hok.hd hok.hk hok.hb
  have hiff := rc2_le_iff (s.rd3 i) (s.kpa i) (s.T (s.d.ijk i)) (s.rw2 i) hw (hok.hd.le.trans hge)
  simp only [diagRwGeRc, Diag.select, Option.map_some, Option.some.injEq] at h
  subst h
  rw [abs_le] at hacc
  refine ⟨_, rfl, ?_, ?_, ?_⟩
  · unfold Diag.compFilter
    split_ifs
    · exact Or.inl rfl
    · exact Or.inr rfl
  · intro hh
    unfold Diag.compFilter
    rw [if_pos (hiff.2 (by linarith [hacc.2]))]
  · intro hh
    unfold Diag.compFilter
    rw [if_neg]
    rw [hiff]
    linarith [hacc.1]

/-- **C83 (activated by humidity).** `diag_RH_ge_Sc` selects a super-droplet entirely or not at all.  It is selected whenever the
humidity held for its cell reaches the largest equilibrium humidity over a drop with its dry size and hygroscopicity; if it is
selected, the humidity reaches the equilibrium value at some volume within the accuracy of the search of the critical one. -/
theorem RH_ge_Sc (s t : Obj) (h : diagRHGeSc s = some t) (i : ℕ)
    (hok : Ok (s.rd3 i) (s.kpa i) (s.T (s.d.ijk i))) (v : ℝ) (hv : IsCritical (s.rd3 i) (s.kpa i) (s.T (s.d.ijk i)) v) :
    ∃ nf, t.d.nf = some nf ∧ (nf i = s.d.n i ∨ nf i = 0) ∧
      ((v - s.rd3 i) / (v - s.rd3 i * (1 - s.kpa i)) * Real.exp (kelvinA (s.T (s.d.ijk i)) / v ^ (1 / 3 : ℝ)) ≤ s.RH (s.d.ijk i) →
        nf i = s.d.n i) ∧
      (s.d.n i ≠ 0 → nf i = s.d.n i → ∃ w, |w - v| ≤ max (2 ^ (-16 : ℤ) * v) ((1e8 * s.rd3 i - s.rd3 i) / 2 ^ 25) ∧
        (w - s.rd3 i) / (w - s.rd3 i * (1 - s.kpa i)) * Real.exp (kelvinA (s.T (s.d.ijk i)) / w ^ (1 / 3 : ℝ)) ≤ s.RH (s.d.ijk i)) := by
  obtain ⟨v', hv', hacc⟩ := critical_exists hok
  obtain rfl := critical_unique hv hv'
  have hge := rw3_cr_ge _ _ _ hok.hd hok.hk hok.hb
  simp only [diagRHGeSc, Diag.select, Option.map_some, Option.some.injEq] at h
  subst h
  set d := s.rd3 i
  set κ := s.kpa i
  set T := s.T (s.d.ijk i)
  have hS : Toms.S_cr d κ T = (Toms.rw3_cr d κ T - d) / (Toms.rw3_cr d κ T - d * (1 - κ)) *
      Real.exp (kelvinA T / Toms.rw3_cr d κ T ^ (1 / 3 : ℝ)) := rfl
  have hle : Toms.S_cr d κ T ≤ (v' - d) / (v' - d * (1 - κ)) * Real.exp (kelvinA T / v' ^ (1 / 3 : ℝ)) := by
    rw [hS]
    rcases hge.eq_or_lt with he | hlt
    · rw [← he, sub_self, zero_div, zero_mul]
      have := hv.1
      have h1 : 0 < v' - d := by linarith
      have h2 : 0 < v' - d * (1 - κ) := by nlinarith [mul_pos hok.hd hok.hk]
      positivity
    · by_cases hne : Toms.rw3_cr d κ T = v'
      · rw [hne]
      · exact (hv.2 _ hlt hne).le
  refine ⟨_, rfl, ?_, ?_, ?_⟩
  · unfold Diag.b2r
    split_ifs
    · exact Or.inl (mul_one _)
    · exact Or.inr (mul_zero _)
  · intro hh
    unfold Diag.b2r
    rw [if_pos, mul_one]
    show 0 ≤ rhMinusSc _ _ _ _
    unfold rhMinusSc
    linarith
  · intro hn hsel
    refine ⟨_, hacc, ?_⟩
    rw [← hS]
    unfold Diag.b2r at hsel
    by_contra hlt
    rw [if_neg, mul_zero] at hsel
    · exact hn (by exact_mod_cast hsel.symm)
    · show ¬ 0 ≤ rhMinusSc _ _ _ _
      unfold rhMinusSc
      linarith

/-! ### In-cloud time -/

/-- Specification: history of the droplets represented by a super-droplet: created; spent a time step of length `dt` as activated or
not; collected droplets with another history -/
inductive Life where
  | born
  | stepped (active : Prop) (dt : ℝ) (past : Life)
  | collected (own other : Life)

/-- Specification: `Line l t`: some line of descent in the history `l` has been activated uninterruptedly, up to now, for exactly the
time `t`, counted since its creation or since the end of the last step in which it was not activated -/
inductive Line : Life → ℝ → Prop
  | born : Line .born 0
  | active {a dt l t} : a → Line l t → Line (.stepped a dt l) (t + dt)
  | inactive {a dt l} : ¬ a → Line (.stepped a dt l) 0
  | own {l m t} : Line l t → Line (.collected l m) t
  | other {l m t} : Line m t → Line (.collected l m) t

/-- histories of all super-droplets after an event -/
def live (L : ℕ → Life) : Ev → ℕ → Life
  | .cond dt act => fun i => .stepped (act i) dt (L i)
  | .coal rcv => fun i => match rcv i with | some j => .collected (L i) (L j) | none => L i
  | .renumber src => fun i => match src i with | some j => L j | none => .born

/-- histories after a sequence of events -/
def lives (evs : List Ev) : ℕ → Life := evs.foldl live (fun _ => .born)

theorem incloud_step (inc : ℕ → ℝ) (L : ℕ → Life) (e : Ev)
    (h : ∀ i, Line (L i) (inc i) ∧ ∀ t, Line (L i) t → t ≤ inc i) (i : ℕ) :
    Line (live L e i) (apply inc e i) ∧ ∀ t, Line (live L e i) t → t ≤ apply inc e i := by
  cases e with
  | cond dt act =>
    simp only [live, apply]
    by_cases ha : act i
    · simp only [ha, if_true]
      refine ⟨.active trivial (h i).1, ?_⟩
      intro t ht
      cases ht with
      | active _ h' => linarith [(h i).2 _ h']
      | inactive h' => exact absurd trivial h'
    · simp only [ha, if_false]
      refine ⟨.inactive not_false, ?_⟩
      intro t ht
      cases ht with
      | active h' _ => exact absurd h' not_false
      | inactive _ => exact le_refl _
  | coal rcv =>
    simp only [live, apply]
    cases rcv i with
    | none => exact h i
    | some j =>
      simp only []
      refine ⟨?_, ?_⟩
      · rcases max_choice (inc j) (inc i) with e | e <;> rw [e]
        · exact .other (h j).1
        · exact .own (h i).1
      · intro t ht
        cases ht with
        | own h' => exact ((h i).2 _ h').trans (le_max_right _ _)
        | other h' => exact ((h j).2 _ h').trans (le_max_left _ _)
  | renumber src =>
    simp only [live, apply]
    cases src i with
    | none =>
      refine ⟨.born, ?_⟩
      intro t ht
      cases ht
      exact le_refl _
    | some j => exact h j

/-- **C83 (in-cloud time).** After any sequence of time steps, collisions, removals and additions the in-cloud time of every
super-droplet is the longest time for which a line of descent of its droplets has been uninterruptedly activated. -/
theorem incloud_time (evs : List Ev) (i : ℕ) :
    Line (lives evs i) (run evs i) ∧ ∀ t, Line (lives evs i) t → t ≤ run evs i := by
  unfold lives run
  suffices H : ∀ (inc : ℕ → ℝ) (L : ℕ → Life), (∀ i, Line (L i) (inc i) ∧ ∀ t, Line (L i) t → t ≤ inc i) →
      Line (evs.foldl live L i) (evs.foldl apply inc i) ∧ ∀ t, Line (evs.foldl live L i) t → t ≤ evs.foldl apply inc i by
    refine H _ _ (fun i => ⟨.born, ?_⟩)
    intro t ht
    cases ht
    exact le_refl _
  induction evs with
  | nil => intro inc L h; exact h i
  | cons e es ih =>
    intro inc L h
    rw [List.foldl_cons, List.foldl_cons]
    exact ih _ _ (fun j => incloud_step inc L e h j)

/-- `update_incloud_time` is the event of a time step in which exactly those droplets are active which are larger than the critical
size searched for at the temperature held for their cells -/
theorem updateIncloud_ev (dt : ℝ) (s : Obj) : (updateIncloud dt s).inc = apply s.inc (condEv dt s) := by
  funext i
  simp only [updateIncloud, condEv, apply]

/-- a coalescence call (with in-cloud time diagnosed) is an event in which super-droplets collect others of their own cell: those, and
only those, whose dry volume gains a multiple of the other's -/
theorem coal_ev {o : Coal.Opts} {e : Coal.Env} (h : e.Sorted) {σ : Coal.Scheds} (hσ : σ.Valid e.N) {s s' : Coal.State}
    (hr : Coal.coal o e σ s = some s') (hI : o.incloud = true) :
    ∃ rcv : ℕ → Option ℕ,
      (∀ i < e.N, (s'.sd i).inc = apply (fun i => (s.sd i).inc) (.coal rcv) i) ∧
      (∀ i < e.N, ∀ j, rcv i = some j → j < e.N ∧ j ≠ i ∧ e.ijk j = e.ijk i ∧
        ∃ k : ℕ, 1 ≤ k ∧ (s'.sd i).rd3 = k * (s.sd j).rd3 + (s.sd i).rd3) ∧
      (∀ i < e.N, rcv i = none → (s'.sd i).rd3 = (s.sd i).rd3) := by
  classical
  have H : ∀ i, ∃ r : Option ℕ, i < e.N →
      ((s'.sd i).inc = (match r with | some j => max (s.sd j).inc (s.sd i).inc | none => (s.sd i).inc)) ∧
      (∀ j, r = some j → j < e.N ∧ j ≠ i ∧ e.ijk j = e.ijk i ∧ ∃ k : ℕ, 1 ≤ k ∧ (s'.sd i).rd3 = k * (s.sd j).rd3 + (s.sd i).rd3) ∧
      (r = none → (s'.sd i).rd3 = (s.sd i).rd3) := by
    intro i
    by_cases hi : i < e.N
    · rcases Coal.coal_each h hσ hr i hi with h1 | ⟨j, hj, hne, hc, k, hk, ⟨h1, h2, h3⟩ | ⟨h1, h2, h3⟩⟩
      · exact ⟨none, fun _ => ⟨by simp [h1], by simp, fun _ => by rw [h1]⟩⟩
      · exact ⟨none, fun _ => ⟨by simp [h2, Coal.donated], by simp, fun _ => by rw [h2]; rfl⟩⟩
      · refine ⟨some j, fun _ => ⟨by simp [h2, Coal.merged, hI], ?_, by simp⟩⟩
        intro j' hj'
        obtain rfl := Option.some.inj hj'
        exact ⟨hj, hne, hc, k, hk, by rw [h2]; rfl⟩
    · exact ⟨none, fun h => absurd h hi⟩
  choose r hr' using H
  refine ⟨r, ?_, fun i hi => (hr' i hi).2.1, fun i hi => (hr' i hi).2.2⟩
  intro i hi
  have := (hr' i hi).1
  rw [this]
  simp only [apply]
  cases r i <;> rfl

/-! ### The air used -/

/-- Specification: temperature, pressure and humidity held for the cells follow from the potential temperature, vapour content and
density last given -/
def Current (o : TprOpts) (s : Obj) : Prop :=
  ∀ c, s.T c = (if o.th_dry then (s.th c * (s.rhod c * R_d / p_1000) ^ (R_d / c_pd)) ^ (c_pd / (c_pd - R_d))
      else s.th c * (s.p c / p_1000) ^ (R_d / c_pd)) ∧
    (o.const_p = false → s.p c = s.rhod c * (R_d + s.rv c * R_v) * s.T c) ∧
    s.RH c = RHof o.RH_formula (s.p c) (s.rv c) (s.T c)

theorem hskpngTpr_current (o : TprOpts) (ho : o.th_dry = true ∨ o.const_p = true) (s : Obj) : Current o (hskpngTpr o s) := by
  intro c
  rcases ho with ho | ho
  · refine ⟨?_, ?_, rfl⟩
    · simp only [hskpngTpr, TofCell, ho, if_true]; rfl
    · intro hp; simp only [hskpngTpr, pOfCell, hp, Bool.false_eq_true, if_false]; rfl
  · refine ⟨?_, ?_, rfl⟩
    · simp only [hskpngTpr, TofCell, pOfCell, ho, if_true]; rfl
    · intro hp; rw [hp] at ho; exact absurd ho (by decide)

/-- calls which matter for the air held -/
inductive Call where
  /-- `sync_in` -/
  | syncIn (th rv rhod : Option (ℕ → ℝ))
  /-- `step_cond` -/
  | stepCond
  /-- `step_async` -/
  | stepAsync
  /-- `diag_temperature`, `diag_pressure`, `diag_RH` -/
  | diagAir
  /-- any other diagnostic -/
  | diagOther

/-- two objects with the same air -/
def SameAir (s t : Obj) : Prop := t.th = s.th ∧ t.rv = s.rv ∧ t.rhod = s.rhod ∧ t.p = s.p ∧ t.T = s.T ∧ t.RH = s.RH

/-- possible effects of the calls: `step_cond` may change anything; `step_async` calls `hskpng_Tpr` first (particles_step.ipp:375), then
changes super-droplets only -/
def Does (o : TprOpts) (s t : Obj) : Call → Prop
  | .syncIn th rv rhod => t = syncIn th rv rhod s
  | .stepCond => True
  | .stepAsync => SameAir (hskpngTpr o s) t
  | .diagAir => SameAir (hskpngTpr o s) t
  | .diagOther => SameAir s t

/-- possible results of a sequence of calls -/
def Calls (o : TprOpts) : List Call → Obj → Obj → Prop
  | [], s, t => t = s
  | c :: cs, s, t => ∃ m, Does o s m c ∧ Calls o cs m t

theorem Current.same {o : TprOpts} {s t : Obj} (h : Current o s) (e : SameAir s t) : Current o t := by
  obtain ⟨e1, e2, e3, e4, e5, e6⟩ := e
  intro c
  rw [e1, e2, e3, e4, e5, e6]
  exact h c

theorem Calls.append {o : TprOpts} {cs ds : List Call} {s t : Obj} :
    Calls o (cs ++ ds) s t ↔ ∃ m, Calls o cs s m ∧ Calls o ds m t := by
  induction cs generalizing s with
  | nil => simp [Calls]
  | cons c cs ih =>
    simp only [List.cons_append, Calls, ih]
    constructor
    · rintro ⟨m, h1, m', h2, h3⟩; exact ⟨m', ⟨m, h1, h2⟩, h3⟩
    · rintro ⟨m', ⟨m, h1, h2⟩, h3⟩; exact ⟨m, h1, m', h2, h3⟩

/-- **C83 (air, partial).** The activation diagnostics use the air last given by the caller if `step_async` or one of `diag_temperature`,
`diag_pressure`, `diag_RH` has been called since the last `sync_in` and `step_cond` (and unless standard potential temperature is used
without a pressure profile).  Missing: what holds for every history; false, see `activation_stale`. -/
theorem air_current_partial (o : TprOpts) (ho : o.th_dry = true ∨ o.const_p = true) (pre post : List Call) (c : Call)
    (hc : c = .stepAsync ∨ c = .diagAir) (hpost : ∀ e ∈ post, e = .stepAsync ∨ e = .diagAir ∨ e = .diagOther)
    (s t : Obj) (h : Calls o (pre ++ c :: post) s t) : Current o t := by
  obtain ⟨m, -, m', h1, h2⟩ := Calls.append.1 h
  clear h
  have hm : Current o m' := by
    rcases hc with rfl | rfl <;> exact (hskpngTpr_current o ho m).same h1
  clear h1 hc
  induction post generalizing m' with
  | nil => rw [show t = m' from h2]; exact hm
  | cons e es ih =>
    obtain ⟨m2, g1, g2⟩ := h2
    refine ih (fun e he => hpost e (List.mem_cons_of_mem _ he)) m2 g2 ?_
    rcases hpost e List.mem_cons_self with rfl | rfl | rfl
    · exact (hskpngTpr_current o ho _).same g1
    · exact (hskpngTpr_current o ho _).same g1
    · exact hm.same g1

/-- **C83 (finding).** With the standard potential temperature and no pressure profile, which the option checks accept, the
temperature is zero in all cells from the start, whatever is passed in later. -/
theorem th_std_without_pressure (o : TprOpts) (h1 : o.th_dry = false) (h2 : o.const_p = false) (profile : ℕ → ℝ) (s : Obj)
    (later : List (Option (ℕ → ℝ) × Option (ℕ → ℝ) × Option (ℕ → ℝ))) (c : ℕ) :
    (later.foldl (fun s a => hskpngTpr o (syncIn a.1 a.2.1 a.2.2 s)) (initAir o profile s)).T c = 0 := by
  have hk : R_d / c_pd ≠ 0 := by unfold R_d kaBoNA M_d c_pd; norm_num
  have key : ∀ s : Obj, (∀ c, s.p c = 0) → ∀ c, (hskpngTpr o s).T c = 0 ∧ (hskpngTpr o s).p c = 0 := by
    intro s hp c
    have e : TofCell o (s.th c) (s.rhod c) (s.p c) = 0 := by
      unfold TofCell exner
      rw [h1, hp c]
      simp [Real.zero_rpow hk]
    simp only [hskpngTpr, e, true_and]
    unfold pOfCell pDry
    rw [h2]; simp
  have h0 : ∀ c, (initAir o profile s).T c = 0 ∧ (initAir o profile s).p c = 0 := by
    intro c
    unfold initAir
    exact key _ (fun c => by simp [h2]) c
  generalize initAir o profile s = s0 at h0
  induction later generalizing s0 with
  | nil => exact (h0 c).1
  | cons a l ih =>
    rw [List.foldl_cons]
    exact ih _ (fun c => key (syncIn a.1 a.2.1 a.2.2 s0) (fun c => (h0 c).2) c)

end LCP.Activ
