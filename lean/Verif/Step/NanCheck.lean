import Mathlib.Data.Real.Basic
import Mathlib.Data.List.Perm.Basic
import Mathlib.Tactic.Linarith
import Mathlib.Tactic.NormNum
import Mathlib.Tactic.SplitIfs

/-!
# Checks of the fields received by `sync_in` in debug builds

Sources: src/detail/checknan.hpp (`nancheck`, `nancheck_range`, `isnaninf`), src/particles_step.ipp:99-158 (`sync_in` from the copying of the fields on),
src/impl/coalescence/particles_impl_coal.ipp:478 (the range checked after collisions).

The order of the cells and the strides of the arrays passed are left out (they are the subject of other modules): an array passed is the list of its values.  One process and device: no halos.
-/
namespace LCP.NanCheck

/-- a floating-point number: finite (rounding is not modelled), infinite, or not a number -/
inductive Val
  | fin (x : ℝ)
  | inf (neg : Bool)
  | nan

/-- `isnan(a) || isinf(a)` (checknan.hpp:14) -/
def isnaninf : Val → Bool
  | .fin _ => false
  | _ => true

/-- `a < b`: false with NaN -/
noncomputable def lt : Val → Val → Bool
  | .fin x, .fin y => decide (x < y)
  | .fin _, .inf neg => !neg
  | .inf neg, .fin _ => neg
  | .inf a, .inf b => a && !b
  | _, _ => false

/-- `a >= 0` -/
noncomputable def ge0 : Val → Bool
  | .fin x => decide (0 ≤ x)
  | .inf neg => !neg
  | .nan => false

/-- the order in which `thrust::transform_reduce` puts things together: any, with the initial value anywhere -/
inductive Tree
  | init
  | leaf (b : Bool)
  | node (l r : Tree)

/-- the values put together -/
def Tree.leaves : Tree → List Bool
  | .init => []
  | .leaf b => [b]
  | .node l r => l.leaves ++ r.leaves

/-- `thrust::plus<bool>` on the `int`s of the reduction: the arguments are converted to `bool`, so is the sum (checknan.hpp:23) -/
def plusBool (a b : ℤ) : ℤ := if (if a ≠ 0 then (1 : ℤ) else 0) + (if b ≠ 0 then 1 else 0) ≠ 0 then 1 else 0

/-- the result of the reduction, initial value 0 -/
def Tree.eval : Tree → ℤ
  | .init => 0
  | .leaf b => if b then 1 else 0
  | .node l r => plusBool l.eval r.eval

/-- an implementation of the reduction: whatever it is given, it puts together in some order -/
def Reduces (red : List Bool → ℤ) : Prop := ∀ l, ∃ t : Tree, t.leaves.Perm l ∧ red l = t.eval

/-- `nan_count` (checknan.hpp:23, 34), the number printed -/
def nanCount (red : List Bool → ℤ) (l : List Val) : ℤ := red (l.map isnaninf)

/-- does the check let the program go on (checknan.hpp:20-38) -/
def nancheck (red : List Bool → ℤ) (dbg : Bool) (l : List Val) : Bool := !dbg || !decide (0 < nanCount red l)

/-- `*thrust::min_element(begin, end)`: the first of the smallest; `none`: there is nothing to look at -/
noncomputable def minElement : List Val → Option Val
  | [] => none
  | a :: l => some (l.foldl (fun m x => if lt x m then x else m) a)

/-- `assert(*min_element(...) >= 0)` -/
noncomputable def assertMin (dbg : Bool) (l : List Val) : Bool :=
  !dbg || (match minElement l with
    | some m => ge0 m
    | none => false)

/-- the fields kept by the library -/
structure Fields where
  th : List Val
  rv : List Val
  rhod : List Val
  diss : List Val
  cx : List Val
  cy : List Val
  cz : List Val
  /-- the six trace gases -/
  gas : Fin 6 → List Val

/-- the arguments of `sync_in`; `none`: not passed -/
structure Args where
  th : Option (List Val)
  rv : Option (List Val)
  rhod : Option (List Val)
  diss : Option (List Val)
  cx : Option (List Val)
  cy : Option (List Val)
  cz : Option (List Val)
  gas : Fin 6 → Option (List Val)

/-- `sync` of everything (particles_step.ipp:103-109, 147-151): arrays not passed keep their values -/
def received (chem : Bool) (F : Fields) (a : Args) : Fields where
  th := a.th.getD F.th
  rv := a.rv.getD F.rv
  rhod := a.rhod.getD F.rhod
  diss := a.diss.getD F.diss
  cx := a.cx.getD F.cx
  cy := a.cy.getD F.cy
  cz := a.cz.getD F.cz
  gas := fun i => if chem then (a.gas i).getD (F.gas i) else F.gas i

/-- sync_in from the copying on (particles_step.ipp:99-158), the checks in the order of the code; `turb`: one of the three switches of turbulence is on; `none`: an assertion fails.
The choice of the advection scheme in between (lines 130-144) has no influence on the outcome. -/
noncomputable def syncIn (red : List Bool → ℤ) (dbg turb chem : Bool) (F : Fields) (a : Args) : Option Fields :=
  let G := received chem F a
  if nancheck red dbg G.th && nancheck red dbg G.rv && nancheck red dbg G.cx && nancheck red dbg G.cy && nancheck red dbg G.cz && nancheck red dbg G.diss && nancheck red dbg G.rhod
      && (!turb || nancheck red dbg G.diss)
      && assertMin dbg G.rv && assertMin dbg G.th && assertMin dbg G.rhod && (!turb || assertMin dbg G.diss)
      && (!chem || (List.finRange 6).all fun i => nancheck red dbg (G.gas i) && assertMin dbg (G.gas i))
  then some G else none

/-! ## Specification -/

/-- all entries are finite -/
def Finite (l : List Val) : Prop := ∀ v ∈ l, ∃ x, v = .fin x

/-- all entries are finite and not negative -/
def FiniteNonneg (l : List Val) : Prop := ∀ v ∈ l, ∃ x, v = .fin x ∧ 0 ≤ x

/-- the field `new` is the array passed, or, if none was passed, as it was -/
def Taken (arg : Option (List Val)) (old new : List Val) : Prop := (∀ l, arg = some l → new = l) ∧ (arg = none → new = old)

/-- every field is the one passed, if any; gases are looked at only with chemistry -/
def AllTaken (chem : Bool) (F : Fields) (a : Args) (G : Fields) : Prop :=
  Taken a.th F.th G.th ∧ Taken a.rv F.rv G.rv ∧ Taken a.rhod F.rhod G.rhod ∧ Taken a.diss F.diss G.diss ∧ Taken a.cx F.cx G.cx ∧ Taken a.cy F.cy G.cy ∧ Taken a.cz F.cz G.cz
    ∧ (chem = true → ∀ i, Taken (a.gas i) (F.gas i) (G.gas i)) ∧ (chem = false → G.gas = F.gas)

/-! ## Proofs -/

theorem taken_iff (arg : Option (List Val)) (old new : List Val) : Taken arg old new ↔ new = arg.getD old := by
  cases arg <;> simp [Taken]

theorem allTaken_iff (chem : Bool) (F : Fields) (a : Args) (G : Fields) : AllTaken chem F a G ↔ G = received chem F a := by
  obtain ⟨g1, g2, g3, g4, g5, g6, g7, g8⟩ := G
  simp only [AllTaken, taken_iff, received, Fields.mk.injEq]
  cases chem <;> simp [funext_iff]

theorem plusBool_zero (a b : ℤ) : plusBool a b = 0 ↔ a = 0 ∧ b = 0 := by
  unfold plusBool; split_ifs <;> simp_all

theorem plusBool_01 (a b : ℤ) : plusBool a b = 0 ∨ plusBool a b = 1 := by
  unfold plusBool; split_ifs <;> simp

theorem eval_01 (t : Tree) : t.eval = 0 ∨ t.eval = 1 := by
  cases t with
  | init => exact Or.inl rfl
  | leaf b => cases b <;> simp [Tree.eval]
  | node l r => exact plusBool_01 _ _

theorem eval_zero (t : Tree) : t.eval = 0 ↔ ∀ b ∈ t.leaves, b = false := by
  induction t with
  | init => simp [Tree.eval, Tree.leaves]
  | leaf b => cases b <;> simp [Tree.eval, Tree.leaves]
  | node l r hl hr =>
    simp only [Tree.eval, Tree.leaves, plusBool_zero, hl, hr, List.mem_append]
    exact ⟨fun h b hb => hb.elim (h.1 b) (h.2 b), fun h => ⟨fun b hb => h b (Or.inl hb), fun b hb => h b (Or.inr hb)⟩⟩

theorem isnaninf_false (v : Val) : isnaninf v = false ↔ ∃ x, v = .fin x := by
  cases v <;> simp [isnaninf]

/-- **C143.** In a debug build a check goes through exactly if all entries are finite, in whatever order they are put together. -/
theorem nancheck_iff {red : List Bool → ℤ} (hr : Reduces red) (l : List Val) : nancheck red true l = true ↔ Finite l := by
  obtain ⟨t, ht, he⟩ := hr (l.map isnaninf)
  have h0 : nancheck red true l = true ↔ t.eval = 0 := by
    simp only [nancheck, nanCount, he, Bool.not_true, Bool.false_or, Bool.not_eq_true', decide_eq_false_iff_not, not_lt]
    rcases eval_01 t with h | h <;> simp [h]
  rw [h0, eval_zero]
  constructor
  · intro h v hv
    exact (isnaninf_false v).1 (h _ (ht.mem_iff.2 (List.mem_map_of_mem hv)))
  · intro h b hb
    obtain ⟨v, hv, rfl⟩ := List.mem_map.1 (ht.mem_iff.1 hb)
    exact (isnaninf_false v).2 (h v hv)

/-- **C143 (negation).** The number printed is not the number of invalid entries: it is 1 however many there are. -/
theorem count_is_one {red : List Bool → ℤ} (hr : Reduces red) (l : List Val) (h : ¬Finite l) : nanCount red l = 1 := by
  have := mt (nancheck_iff hr l).1 h
  obtain ⟨t, _, he⟩ := hr (l.map isnaninf)
  have hc : nanCount red l = t.eval := he
  rcases eval_01 t with h0 | h1
  · simp [nancheck, hc, h0] at this
  · rw [hc, h1]

theorem foldl_min (l : List Val) (a : ℝ) (hl : Finite l) :
    ∃ m, l.foldl (fun m x => if lt x m then x else m) (.fin a) = .fin m ∧ (0 ≤ m ↔ 0 ≤ a ∧ FiniteNonneg l) := by
  induction l generalizing a with
  | nil => exact ⟨a, rfl, by simp [FiniteNonneg]⟩
  | cons v l ih =>
    obtain ⟨x, rfl⟩ := hl v (List.mem_cons_self ..)
    have hl' : Finite l := fun w hw => hl w (List.mem_cons_of_mem _ hw)
    have hcons : FiniteNonneg (.fin x :: l) ↔ 0 ≤ x ∧ FiniteNonneg l := by
      simp [FiniteNonneg]
    simp only [List.foldl_cons, lt, decide_eq_true_eq]
    split_ifs with hx
    · obtain ⟨m, hm, h⟩ := ih x hl'
      refine ⟨m, hm, ?_⟩
      rw [h, hcons]
      exact ⟨fun ⟨h1, h2⟩ => ⟨by linarith, h1, h2⟩, fun ⟨_, h2⟩ => h2⟩
    · obtain ⟨m, hm, h⟩ := ih a hl'
      refine ⟨m, hm, ?_⟩
      rw [h, hcons]
      exact ⟨fun ⟨h1, h2⟩ => ⟨h1, by linarith, h2⟩, fun ⟨h1, _, h2⟩ => ⟨h1, h2⟩⟩

theorem assertMin_iff {l : List Val} (hl : Finite l) (hne : l ≠ []) : assertMin true l = true ↔ FiniteNonneg l := by
  cases l with
  | nil => exact absurd rfl hne
  | cons v l =>
    obtain ⟨x, rfl⟩ := hl v (List.mem_cons_self ..)
    obtain ⟨m, hm, h⟩ := foldl_min l x fun w hw => hl w (List.mem_cons_of_mem _ hw)
    simp only [assertMin, minElement, hm, Bool.not_true, Bool.false_or, ge0, decide_eq_true_eq, h]
    simp [FiniteNonneg]

theorem FiniteNonneg.finite {l : List Val} (h : FiniteNonneg l) : Finite l := fun v hv =>
  let ⟨x, hx, _⟩ := h v hv
  ⟨x, hx⟩

/-- **C143.** In a debug build `sync_in` returns exactly if, of the fields as they are after it, all temperatures, vapour contents and densities are finite and not negative, all Courant numbers and
dissipation rates are finite, dissipation rates are not negative when they are used, and trace gases are finite and not negative when there is chemistry; and then the fields are those passed. -/
theorem debug_returns_iff {red : List Bool → ℤ} (hr : Reduces red) (turb chem : Bool) (F : Fields) (a : Args) (hth : (a.th.getD F.th) ≠ []) (hrv : (a.rv.getD F.rv) ≠ [])
    (hrh : (a.rhod.getD F.rhod) ≠ []) (hd : turb = true → (a.diss.getD F.diss) ≠ []) (hg : chem = true → ∀ i, (a.gas i).getD (F.gas i) ≠ []) (G : Fields) :
    syncIn red true turb chem F a = some G ↔ AllTaken chem F a G ∧ FiniteNonneg G.th ∧ FiniteNonneg G.rv ∧ FiniteNonneg G.rhod ∧ Finite G.cx ∧ Finite G.cy ∧ Finite G.cz ∧ Finite G.diss
      ∧ (turb = true → FiniteNonneg G.diss) ∧ (chem = true → ∀ i, FiniteNonneg (G.gas i)) := by
  have key : ∀ l : List Val, l ≠ [] → ((Finite l ∧ assertMin true l = true) ↔ FiniteNonneg l) := fun l hne =>
    ⟨fun ⟨h1, h2⟩ => (assertMin_iff h1 hne).1 h2, fun h => ⟨h.finite, (assertMin_iff h.finite hne).2 h⟩⟩
  have kth := key (received chem F a).th hth
  have krv := key (received chem F a).rv hrv
  have krh := key (received chem F a).rhod hrh
  have kd : turb = true → _ := fun h => key (received chem F a).diss (hd h)
  have kg : chem = true → ∀ i, _ := fun h i => key ((received chem F a).gas i) (by simpa [received, h] using hg h i)
  rw [allTaken_iff]
  unfold syncIn
  simp only [Option.ite_none_right_eq_some, Option.some.injEq, Bool.and_eq_true, Bool.or_eq_true, Bool.not_eq_true', nancheck_iff hr, List.all_eq_true, List.mem_finRange, true_implies]
  constructor
  · rintro ⟨⟨⟨⟨⟨⟨⟨⟨⟨⟨⟨⟨⟨n1, n2⟩, n3⟩, n4⟩, n5⟩, n6⟩, n7⟩, _⟩, m1⟩, m2⟩, m3⟩, m4⟩, m5⟩, rfl⟩
    refine ⟨rfl, kth.1 ⟨n1, m2⟩, krv.1 ⟨n2, m1⟩, krh.1 ⟨n7, m3⟩, n3, n4, n5, n6, ?_, ?_⟩
    · rintro rfl
      exact (kd rfl).1 ⟨n6, m4.resolve_left (by simp)⟩
    · rintro rfl i
      exact (kg rfl i).1 (m5.resolve_left (by simp) i)
  · rintro ⟨rfl, h1, h2, h3, h4, h5, h6, h7, h8, h9⟩
    refine ⟨⟨⟨⟨⟨⟨⟨⟨⟨⟨⟨⟨⟨h1.finite, h2.finite⟩, h4⟩, h5⟩, h6⟩, h7⟩, h3.finite⟩, Or.inr h7⟩, (krv.2 h2).2⟩, (kth.2 h1).2⟩, (krh.2 h3).2⟩, ?_⟩, ?_⟩, rfl⟩
    · cases turb
      · exact Or.inl rfl
      · exact Or.inr ((kd rfl).2 (h8 rfl)).2
    · cases chem
      · exact Or.inl rfl
      · exact Or.inr fun i => (kg rfl i).2 (h9 rfl i)

/-- **C143.** Without assertions nothing is checked: every call returns with the fields passed. -/
theorem release_never_stops (red : List Bool → ℤ) (turb chem : Bool) (F : Fields) (a : Args) : ∃ G, syncIn red false turb chem F a = some G ∧ AllTaken chem F a G :=
  ⟨received chem F a, by simp [syncIn, nancheck, assertMin], (allTaken_iff ..).2 rfl⟩

/-- the check of dissolved chemicals after collisions leaves out the last super-droplet (coal.ipp:478: `chem_bgn[i], chem_bgn[i] + n_part - 1`) -/
def chemCheckAfterCoal (red : List Bool → ℤ) (dbg : Bool) (l : List Val) : Bool := nancheck red dbg (l.take (l.length - 1))

/-- **C143 (negation).** An invalid amount of a chemical in the last super-droplet is not noticed after collisions. -/
theorem last_droplet_unchecked {red : List Bool → ℤ} (hr : Reduces red) (l : List Val) (hl : Finite l) (v : Val) : chemCheckAfterCoal red true (l ++ [v]) = true := by
  have : (l ++ [v]).take ((l ++ [v]).length - 1) = l := by simp
  rw [chemCheckAfterCoal, this]
  exact (nancheck_iff hr l).2 hl

/-- ... all the others are. -/
theorem other_droplets_checked {red : List Bool → ℤ} (hr : Reduces red) (l : List Val) (v : Val) : chemCheckAfterCoal red true (l ++ [v]) = true ↔ Finite l := by
  have : (l ++ [v]).take ((l ++ [v]).length - 1) = l := by simp
  rw [chemCheckAfterCoal, this, nancheck_iff hr]

/-! ## Concrete cases -/

/-- sequential summation -/
def seq (l : List Bool) : ℤ := (l.foldl (fun t b => Tree.node t (.leaf b)) Tree.init).eval

theorem seq_reduces : Reduces seq := fun l => by
  refine ⟨_, ?_, rfl⟩
  have : ∀ (l : List Bool) (t : Tree), (l.foldl (fun t b => Tree.node t (.leaf b)) t).leaves = t.leaves ++ l := by
    intro l
    induction l with
    | nil => simp
    | cons b l ih => intro t; simp [ih, Tree.leaves]
  rw [this]; simp [Tree.leaves]

example : nanCount seq [.nan, .fin 1, .inf true, .nan] = 1 := count_is_one seq_reduces _ fun h => by simpa using h .nan (by simp)

noncomputable def kept : Fields := ⟨[.fin 300], [.fin 0.01], [.fin 1], [.fin 0], [], [], [], fun _ => [.fin 0]⟩

/-- a negative dissipation rate goes through when turbulence is off, and stops the run when it is on -/
example : syncIn seq true false false kept ⟨some [.fin 290], some [.fin 0.02], none, some [.fin (-1)], none, none, none, fun _ => none⟩ ≠ none ∧
    syncIn seq true true false kept ⟨some [.fin 290], some [.fin 0.02], none, some [.fin (-1)], none, none, none, fun _ => none⟩ = none := by
  constructor
  · rw [Option.ne_none_iff_exists']
    exact ⟨_, (debug_returns_iff seq_reduces false false kept _ (by simp) (by simp) (by simp [kept]) (by simp) (by simp) _).2
      ⟨(allTaken_iff ..).2 rfl, by simp [received, FiniteNonneg], by simp [received, FiniteNonneg]; norm_num, by simp [received, kept, FiniteNonneg], by simp [received, kept, Finite], by simp [received, kept, Finite],
        by simp [received, kept, Finite], by simp [received, Finite], by simp, by simp⟩⟩
  · rw [Option.eq_none_iff_forall_ne_some]
    intro G hG
    have := (debug_returns_iff seq_reduces true false kept _ (by simp) (by simp) (by simp [kept]) (by simp) (by simp) G).1 hG
    obtain ⟨h0, h⟩ := this
    obtain rfl := (allTaken_iff ..).1 h0
    have := h.2.2.2.2.2.2.2.1 rfl
    simp [received, FiniteNonneg] at this
    norm_num at this

end LCP.NanCheck
