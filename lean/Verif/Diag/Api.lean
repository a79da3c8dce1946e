import Verif.Diag.Props

/-!
# C128: diagnostics by name, for any sequence of calls

Source: src/particles_diag.ipp:196-490, 644-651; which attribute vectors exist: src/impl/particles_impl.ipp:440-480,
src/impl/housekeeping/particles_impl_hskpng_resize.ipp.  Compiled with NDEBUG (asserts do nothing), as releases are.
-/
namespace LCP.DiagApi
open LCP.Diag

/-! ### Model -/

/-- the options deciding which attributes super-droplets have (opts_init.hpp) -/
structure Cfg where
  ice : Bool
  turbAdve : Bool
  turbCond : Bool
  incloud : Bool
  chem : Bool
  nx : ℕ
  ny : ℕ
  nz : ℕ

/-- attributes as stored (particles_impl.ipp:60-110) -/
structure Stored where
  rd3 : ℕ → ℝ
  rw2 : ℕ → ℝ
  kpa : ℕ → ℝ
  iceA : ℕ → ℝ
  iceC : ℕ → ℝ
  up : ℕ → ℝ
  vp : ℕ → ℝ
  wp : ℕ → ℝ
  incloud : ℕ → ℝ
  chem : ℕ → ℕ → ℝ

/-- functions of the API selecting super-droplets; `cons`: the variant ending in `_cons` -/
inductive Pick where
  | all
  | dryRng (lo hi : ℝ) (cons : Bool)
  | wetRng (lo hi : ℝ) (cons : Bool)
  | iceARng (lo hi : ℝ) (cons : Bool)
  | iceCRng (lo hi : ℝ) (cons : Bool)
  | kappaRng (lo hi : ℝ) (cons : Bool)
  | ice (cons : Bool)
  | water (cons : Bool)

/-- functions of the API computing something for the selected ones -/
inductive Ask where
  | dryMom (n : ℕ)
  | wetMom (n : ℕ)
  | iceAMom (n : ℕ)
  | iceCMom (n : ℕ)
  | kappaMom (n : ℕ)
  | upMom (n : ℕ)
  | vpMom (n : ℕ)
  | wpMom (n : ℕ)
  | incloudMom (n : ℕ)
  | chem (c : ℕ)

/-- how a call ends -/
inductive Res where
  | ok (s : St)
  | throw
  | ub

/-- undefined behaviour is `none` in the functions called -/
def Res.of : Option St → Res
  | some s => .ok s
  | none => .ub

/-- sequencing -/
def Res.bind : Res → (St → Res) → Res
  | .ok s, f => f s
  | .throw, _ => .throw
  | .ub, _ => .ub

/-- selections by name (particles_diag.ipp:222-350) -/
noncomputable def pick (g : Cfg) (a : Stored) (s : St) : Pick → Res
  | .all => .of (select s .all)
  | .dryRng lo hi c => .of (select s (.rng (lo ^ 3) (hi ^ 3) a.rd3 c))
  | .wetRng lo hi c => .of (select s (.rng (lo ^ 2) (hi ^ 2) a.rw2 c))
  | .iceARng lo hi c => if g.ice = false then .throw else .of (select s (.rng lo hi a.iceA c))
  | .iceCRng lo hi c => if g.ice = false then .throw else .of (select s (.rng lo hi a.iceC c))
  | .kappaRng lo hi c => .of (select s (.rng lo hi a.kpa c))
  | .ice c => if g.ice = false then .throw else .of (select s (.gt0 a.iceA c))
  | .water c => .of (select s (.gt0 a.rw2 c))

/-- `moms_calc` on a vector that may not exist: an empty vector is read at the indices of all super-droplets
(particles_impl_moms.ipp:288-308) -/
noncomputable def momsOf (there : Bool) (s : St) (v : ℕ → ℝ) (pow : ℝ) : Res :=
  if there = false ∧ 0 < s.N then .ub else .of (momsCalc s v pow true)

/-- moments by name (particles_diag.ipp:409-490, 644-651); the vectors of turbulent velocities exist as in
particles_impl.ipp:461-475 -/
noncomputable def ask (g : Cfg) (a : Stored) (s : St) : Ask → Res
  | .dryMom n => momsOf true s a.rd3 ((n : ℝ) / 3)
  | .wetMom n => momsOf true s a.rw2 ((n : ℝ) / 2)
  | .iceAMom n => if g.ice = false then .throw else momsOf true s a.iceA n
  | .iceCMom n => if g.ice = false then .throw else momsOf true s a.iceC n
  | .kappaMom n => momsOf true s a.kpa n
  | .upMom n => momsOf (g.turbAdve && decide (g.nx ≠ 0)) s a.up n
  | .vpMom n => momsOf (g.turbAdve && decide (g.ny ≠ 0)) s a.vp n
  | .wpMom n => momsOf ((g.turbAdve && decide (g.nz ≠ 0)) || g.turbCond) s a.wp n
  | .incloudMom n => if g.incloud then momsOf true s a.incloud n else .ok s
  | .chem c => if g.chem = false then .throw else momsOf true s (a.chem c) 1

/-- a sequence of selections -/
noncomputable def picks (g : Cfg) (a : Stored) : List Pick → St → Res
  | [], s => .ok s
  | c :: l, s => (pick g a s c).bind (picks g a l)

/-! ### Specification -/

/-- attributes as the user knows them -/
structure Phys where
  rd : ℕ → ℝ
  rw : ℕ → ℝ
  kappa : ℕ → ℝ
  iceA : ℕ → ℝ
  iceC : ℕ → ℝ
  up : ℕ → ℝ
  vp : ℕ → ℝ
  wp : ℕ → ℝ
  incloud : ℕ → ℝ
  chem : ℕ → ℕ → ℝ

/-- how they are stored: cubes of dry and squares of wet radii -/
def Phys.stored (q : Phys) : Stored :=
  ⟨fun i => q.rd i ^ 3, fun i => q.rw i ^ 2, q.kappa, q.iceA, q.iceC, q.up, q.vp, q.wp, q.incloud, q.chem⟩

/-- which super-droplets a selection asks for -/
def Pick.wants (q : Phys) (i : ℕ) : Pick → Prop
  | .all => True
  | .dryRng lo hi _ => lo ≤ q.rd i ∧ q.rd i < hi
  | .wetRng lo hi _ => lo ≤ q.rw i ∧ q.rw i < hi
  | .iceARng lo hi _ => lo ≤ q.iceA i ∧ q.iceA i < hi
  | .iceCRng lo hi _ => lo ≤ q.iceC i ∧ q.iceC i < hi
  | .kappaRng lo hi _ => lo ≤ q.kappa i ∧ q.kappa i < hi
  | .ice _ => 0 < q.iceA i
  | .water _ => 0 < q.rw i

/-- is it one from those selected before? -/
def Pick.cons : Pick → Bool
  | .all => false
  | .dryRng _ _ c | .wetRng _ _ c | .iceARng _ _ c | .iceCRng _ _ c | .kappaRng _ _ c | .ice c | .water c => c

/-- ranges of wet radii are not negative -/
def Pick.Sane : Pick → Prop
  | .wetRng lo hi _ => 0 ≤ lo ∧ 0 ≤ hi
  | _ => True

/-- the attribute exists -/
def Pick.There (g : Cfg) : Pick → Prop
  | .iceARng .. | .iceCRng .. | .ice _ => g.ice = true
  | _ => True

/-- super-droplets selected by a sequence of calls: those wanted by the last call that starts afresh and by all calls
after it -/
def Chosen (q : Phys) (i : ℕ) (l : List Pick) : Prop :=
  ∃ l₁ c l₂, l = l₁ ++ c :: l₂ ∧ c.cons = false ∧ (∀ d ∈ l₂, d.cons = true) ∧ c.wants q i ∧ ∀ d ∈ l₂, d.wants q i

/-- what is summed -/
def Ask.value (q : Phys) (i : ℕ) : Ask → ℝ
  | .dryMom n => q.rd i ^ n
  | .wetMom n => q.rw i ^ n
  | .iceAMom n => q.iceA i ^ n
  | .iceCMom n => q.iceC i ^ n
  | .kappaMom n => q.kappa i ^ n
  | .upMom n => q.up i ^ n
  | .vpMom n => q.vp i ^ n
  | .wpMom n => q.wp i ^ n
  | .incloudMom n => q.incloud i ^ n
  | .chem c => q.chem c i

/-- the attribute exists -/
def Ask.There (g : Cfg) : Ask → Prop
  | .dryMom _ | .wetMom _ | .kappaMom _ => True
  | .iceAMom _ | .iceCMom _ => g.ice = true
  | .upMom _ => g.turbAdve = true ∧ g.nx ≠ 0
  | .vpMom _ => g.turbAdve = true ∧ g.ny ≠ 0
  | .wpMom _ => (g.turbAdve = true ∧ g.nz ≠ 0) ∨ g.turbCond = true
  | .incloudMom _ => g.incloud = true
  | .chem _ => g.chem = true

/-! ### Theorems -/

/-- the selection of the implementation for a name -/
noncomputable def Pick.sel (a : Stored) : Pick → Sel
  | .all => .all
  | .dryRng lo hi c => .rng (lo ^ 3) (hi ^ 3) a.rd3 c
  | .wetRng lo hi c => .rng (lo ^ 2) (hi ^ 2) a.rw2 c
  | .iceARng lo hi c => .rng lo hi a.iceA c
  | .iceCRng lo hi c => .rng lo hi a.iceC c
  | .kappaRng lo hi c => .rng lo hi a.kpa c
  | .ice c => .gt0 a.iceA c
  | .water c => .gt0 a.rw2 c

theorem pick_sel (g : Cfg) (a : Stored) (s : St) (c : Pick) (h : c.There g) : pick g a s c = .of (select s (c.sel a)) := by
  cases c <;> simp only [Pick.There] at h <;> simp [pick, Pick.sel, h]

theorem sel_cons (a : Stored) (c : Pick) : (c.sel a).cons = c.cons := by cases c <;> rfl

theorem sel_wants (q : Phys) (hw : ∀ i, 0 ≤ q.rw i) (c : Pick) (h : c.Sane) (i : ℕ) : (c.sel q.stored).wants i ↔ c.wants q i := by
  cases c with
  | all => exact Iff.rfl
  | dryRng lo hi k => exact dryRng_wants lo hi q.rd k i
  | wetRng lo hi k => exact wetRng_wants h.1 h.2 q.rw hw k i
  | water k =>
    simp only [Pick.sel, Sel.wants, Pick.wants, Phys.stored, gt_iff_lt]
    have := hw i
    constructor
    · intro h; rcases this.lt_or_eq with h' | h'
      · exact h'
      · rw [← h'] at h; norm_num at h
    · intro h; positivity
  | _ => exact Iff.rfl

theorem picks_selects (g : Cfg) (a : Stored) (l : List Pick) (s : St) (h : ∀ c ∈ l, c.There g) :
    picks g a l s = .of (selects s (l.map (Pick.sel a))) := by
  induction l generalizing s with
  | nil => rfl
  | cons c l ih =>
    have hl := fun t => ih t (fun d hd => h d (List.mem_cons_of_mem _ hd))
    simp only [picks, pick_sel g a s c (h c (List.mem_cons_self ..)), List.map_cons, selects]
    cases select s (c.sel a) with
    | none => rfl
    | some t => exact hl t

/-- appending a call to a sequence -/
theorem chosen_append (q : Phys) (i : ℕ) (l : List Pick) (c : Pick) :
    Chosen q i (l ++ [c]) ↔ if c.cons then Chosen q i l ∧ c.wants q i else c.wants q i := by
  constructor
  · rintro ⟨l₁, d, l₂, e, h1, h2, h3, h4⟩
    rcases List.eq_nil_or_concat l₂ with rfl | ⟨l₃, f, rfl⟩
    · obtain ⟨-, e2⟩ := List.append_inj' e rfl
      obtain rfl := (List.cons.inj e2).1
      simpa [h1] using h3
    · rw [List.concat_eq_append, ← List.cons_append, ← List.append_assoc] at e
      obtain ⟨e1, e2⟩ := List.append_inj' e rfl
      obtain rfl := (List.cons.inj e2).1
      have hf : c.cons = true := h2 c (by simp)
      rw [if_pos hf]
      refine ⟨⟨l₁, d, l₃, e1, h1, fun x hx => h2 x (by simp [hx]), h3, fun x hx => h4 x (by simp [hx])⟩, h4 c (by simp)⟩
  · intro h
    by_cases hc : c.cons = true
    · rw [if_pos hc] at h
      obtain ⟨⟨l₁, d, l₂, e, h1, h2, h3, h4⟩, h5⟩ := h
      refine ⟨l₁, d, l₂ ++ [c], by simp [e], h1, ?_, h3, ?_⟩
      · intro x hx; rcases List.mem_append.1 hx with hx | hx
        · exact h2 x hx
        · rw [List.mem_singleton.1 hx]; exact hc
      · intro x hx; rcases List.mem_append.1 hx with hx | hx
        · exact h4 x hx
        · rw [List.mem_singleton.1 hx]; exact h5
    · rw [if_neg hc] at h
      exact ⟨l, c, [], rfl, by simpa using hc, by simp, h, by simp⟩

theorem selected_chosen (q : Phys) (hw : ∀ i, 0 ≤ q.rw i) (l : List Pick) (h : ∀ c ∈ l, c.Sane) (i : ℕ) :
    selected (l.map (Pick.sel q.stored)) i ↔ Chosen q i l := by
  induction l using List.reverseRecOn with
  | nil =>
    simp only [selected, List.map_nil, List.foldl_nil, false_iff]
    rintro ⟨l₁, c, l₂, e, -⟩
    simp at e
  | append_singleton l c ih =>
    rw [chosen_append]
    unfold selected at ih ⊢
    rw [List.map_append, List.foldl_append, List.map_cons, List.map_nil, List.foldl_cons, List.foldl_nil, sel_cons]
    have ih := ih (fun d hd => h d (by simp [hd]))
    have w := sel_wants q hw c (h c (by simp)) i
    by_cases hc : c.cons = true
    · simp only [hc, if_true]; rw [ih, w]
    · simp only [hc, Bool.false_eq_true, if_false]; exact w

open Classical in
/-- **C128.** For every population and set of options, after any sequence of selections by name that begins with one that starts afresh
and mentions only attributes which exist, asking for a moment of an existing attribute succeeds, and the output buffer holds for
every cell the sum over its super-droplets chosen by the sequence of multiplicity times the value asked for, per mass of dry air. -/
theorem diagnostics_by_name (g : Cfg) (q : Phys) (hd : ∀ i, 0 ≤ q.rd i) (hw : ∀ i, 0 ≤ q.rw i) (s : St)
    (h : IsCellSort s.N s.ijk s.sid) (c : Pick) (l : List Pick) (hc : c.cons = false) (hs : ∀ d ∈ c :: l, d.Sane ∧ d.There g)
    (k : Ask) (hk : k.There g) :
    ∃ t u, picks g q.stored (c :: l) s = .ok t ∧ ask g q.stored t k = .ok u ∧ ∀ cell, (outbuf u).2 cell =
      (∑ i ∈ (Finset.range s.N).filter (fun i => s.ijk i = cell ∧ Chosen q i (c :: l)), (s.n i : ℝ) * k.value q i) * perMass s cell := by
  obtain ⟨t, ht, et⟩ := selections_ok s (c.sel q.stored) (l.map (Pick.sel q.stored)) (by rw [sel_cons]; exact hc)
  have hp := picks_selects g q.stored (c :: l) s (fun d m => (hs d m).2)
  rw [List.map_cons, ht] at hp
  refine ⟨t, ?_⟩
  have hnf : t.nf = some (fun i => if Chosen q i (c :: l) then (t.n i : ℝ) else 0) := by
    rw [et]
    refine congrArg some (funext fun i => ?_)
    have := selected_chosen q hw (c :: l) (fun d m => (hs d m).1) i
    rw [List.map_cons] at this
    by_cases hh : Chosen q i (c :: l)
    · rw [if_pos hh, if_pos (this.2 hh)]
    · rw [if_neg hh, if_neg (mt this.1 hh)]
  have f : t.N = s.N ∧ t.n = s.n ∧ t.ijk = s.ijk ∧ t.sid = s.sid ∧ ∀ x, perMass t x = perMass s x := by
    rw [et]; exact ⟨rfl, rfl, rfl, rfl, fun _ => rfl⟩
  obtain ⟨f1, f2, f3, f4, f5⟩ := f
  have h' : IsCellSort t.N t.ijk t.sid := by rw [f1, f3, f4]; exact h
  have main : ∀ (v : ℕ → ℝ) (pw : ℝ),
      (∃ u, momsCalc t v pw true = some u ∧ ∀ cell, (outbuf u).2 cell =
        (∑ i ∈ (Finset.range t.N).filter (fun i => t.ijk i = cell ∧ Chosen q i (c :: l)), (t.n i : ℝ) * k.value q i) * perMass t cell) →
      ask g q.stored t k = .of (momsCalc t v pw true) →
      ∃ u, picks g q.stored (c :: l) s = .ok t ∧ ask g q.stored t k = .ok u ∧ ∀ cell, (outbuf u).2 cell =
        (∑ i ∈ (Finset.range s.N).filter (fun i => s.ijk i = cell ∧ Chosen q i (c :: l)), (s.n i : ℝ) * k.value q i) * perMass s cell := by
    rintro v pw ⟨u, hu, hv⟩ e
    refine ⟨u, hp, by rw [e, hu]; rfl, fun cell => ?_⟩
    rw [hv, f1, f2, f3, f5]
  cases k with
  | dryMom n => exact main _ _ (radius_moment h' hnf (m := 3) (by norm_num) q.rd hd n) (by simp [ask, momsOf, Phys.stored])
  | wetMom n => exact main _ _ (radius_moment h' hnf (m := 2) (by norm_num) q.rw hw n) (by simp [ask, momsOf, Phys.stored])
  | iceAMom n => exact main _ _ (attribute_moment h' hnf q.iceA n) (by simp only [Ask.There] at hk; simp [ask, momsOf, Phys.stored, hk])
  | iceCMom n => exact main _ _ (attribute_moment h' hnf q.iceC n) (by simp only [Ask.There] at hk; simp [ask, momsOf, Phys.stored, hk])
  | kappaMom n => exact main _ _ (attribute_moment h' hnf q.kappa n) (by simp [ask, momsOf, Phys.stored])
  | upMom n => exact main _ _ (attribute_moment h' hnf q.up n) (by simp only [Ask.There] at hk; simp [ask, momsOf, Phys.stored, hk])
  | vpMom n => exact main _ _ (attribute_moment h' hnf q.vp n) (by simp only [Ask.There] at hk; simp [ask, momsOf, Phys.stored, hk])
  | wpMom n =>
    refine main _ _ (attribute_moment h' hnf q.wp n) ?_
    simp only [Ask.There] at hk
    rcases hk with ⟨h1, h2⟩ | h1 <;> simp [ask, momsOf, Phys.stored, *]
  | incloudMom n => exact main _ _ (attribute_moment h' hnf q.incloud n) (by simp only [Ask.There] at hk; simp [ask, momsOf, Phys.stored, hk])
  | chem x =>
    have := attribute_moment h' hnf (q.chem x) 1
    simp only [pow_one, Nat.cast_one] at this
    exact main _ _ this (by simp only [Ask.There] at hk; simp [ask, momsOf, Phys.stored, hk])

/-- Attributes of ice and chemistry that do not exist are refused, in selections and in moments. -/
theorem absent_refused (g : Cfg) (a : Stored) (s : St) :
    (∀ c : Pick, ¬ c.There g → pick g a s c = .throw) ∧
    (∀ n, g.ice = false → ask g a s (.iceAMom n) = .throw ∧ ask g a s (.iceCMom n) = .throw) ∧
    (∀ c, g.chem = false → ask g a s (.chem c) = .throw) := by
  refine ⟨fun c hc => ?_, fun n h => ⟨by simp [ask, h], by simp [ask, h]⟩, fun c h => by simp [ask, h]⟩
  cases c <;> simp only [Pick.There, not_true_eq_false, Bool.not_eq_true] at hc <;> simp [pick, hc]

/-- **C128, the rest is false.** Moments of turbulent velocities are read from an empty vector when they do not exist, and moments of
the time in cloud are not computed at all: the call returns normally and the output buffer holds the answer to the previous
question. -/
theorem absent_unnoticed (a : Stored) (s : St) (hN : 0 < s.N) (n : ℕ) :
    ask ⟨false, false, false, false, false, 1, 1, 1⟩ a s (.upMom n) = .ub ∧
    ask ⟨false, true, false, false, false, 1, 0, 1⟩ a s (.vpMom n) = .ub ∧
    ask ⟨false, false, false, false, false, 1, 1, 1⟩ a s (.wpMom n) = .ub ∧
    ask ⟨false, false, false, false, false, 1, 1, 1⟩ a s (.incloudMom n) = .ok s := by
  refine ⟨?_, ?_, ?_, ?_⟩ <;> simp [ask, momsOf, hN]

/-- **C128, the rest is false** in numbers: one super-droplet standing for five particles, the number of particles is asked for (5), then
the mean time in cloud in a run without this attribute: no exception, and the answer is 5 again. -/
theorem stale_answer : ∃ (q : Phys) (s : St) (g : Cfg), IsCellSort s.N s.ijk s.sid ∧ g.incloud = false ∧
    ∃ t u w, picks g q.stored [.all] s = .ok t ∧ ask g q.stored t (.wetMom 0) = .ok u ∧ ask g q.stored u (.incloudMom 1) = .ok w ∧
      (outbuf u).2 0 = 5 ∧ (outbuf w).2 0 = 5 := by
  let q : Phys := ⟨1, 1, 1, 1, 1, 1, 1, 1, 1, fun _ => 1⟩
  let s : St := { N := 1, n := fun _ => 5, ijk := fun _ => 0, sid := [0], nf := none, nCell := 1, nDims := 0, dv := 1, rhod := 1,
                  countN := 0, countIjk := fun _ => 0, countMom := fun _ => 0 }
  have hs : IsCellSort s.N s.ijk s.sid := ⟨by simp [s], by simp [s]⟩
  refine ⟨q, s, ⟨false, false, false, false, false, 1, 1, 1⟩, hs, rfl, ?_⟩
  obtain ⟨t, u, h1, h2, h3⟩ := diagnostics_by_name ⟨false, false, false, false, false, 1, 1, 1⟩ q (fun _ => zero_le_one) (fun _ => zero_le_one) s hs .all [] rfl
    (by simp [Pick.Sane, Pick.There]) (.wetMom 0) trivial
  have v : (outbuf u).2 0 = 5 := by
    rw [h3]
    have : ∀ i, Chosen q i [.all] := fun i => ⟨[], .all, [], rfl, rfl, by simp, trivial, by simp⟩
    simp [s, this, Ask.value, perMass]
  exact ⟨t, u, u, h1, h2, by simp [ask], v, v⟩

/-- non-vacuity of the specification: an earlier selection is forgotten, a consecutive one narrows the choice -/
example : let q : Phys := ⟨fun i => i, 1, fun i => if i = 1 then 1.28 else 0.3, 1, 1, 1, 1, 1, 1, fun _ => 1⟩
    let l : List Pick := [.ice false, .dryRng 0 3 false, .kappaRng 1 2 true]
    Chosen q 1 l ∧ ¬ Chosen q 2 l ∧ (∀ c ∈ l, c.Sane) := by
  intro q l
  have e : l = [.ice false, .dryRng 0 3 false] ++ [.kappaRng 1 2 true] := rfl
  have e' : ([.ice false, .dryRng 0 3 false] : List Pick) = [.ice false] ++ [.dryRng 0 3 false] := rfl
  refine ⟨?_, ?_, by simp [l, Pick.Sane]⟩
  · rw [e, chosen_append, e', chosen_append]
    norm_num [Pick.cons, Pick.wants, q]
  · rw [e, chosen_append, e', chosen_append]
    norm_num [Pick.cons, Pick.wants, q]

end LCP.DiagApi
