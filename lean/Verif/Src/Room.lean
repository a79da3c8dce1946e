import Mathlib.Data.List.Basic
import Mathlib.Tactic.Linarith

/-!
# Room for super-droplets: `n_sd_max`

How the number of super-droplets, the sizes of the vectors that hold them and the limit `n_sd_max` evolve.
Sources: src/impl/housekeeping/particles_impl_hskpng_resize.ipp, particles_impl_hskpng_remove.ipp, sources, relaxation and
initialisation (places where `n_part` is assigned).
-/
namespace LCP.Room

/-- `n_part`, the size of vectors of attributes (all are resized together), `n_sd_max` -/
structure Obj where
  nPart : ℕ
  size : ℕ
  cap : ℕ
deriving DecidableEq

/-- outcome of an operation: done; exception, with the object it leaves behind; access past the end of a vector -/
inductive Out where
  | done (o : Obj)
  | threw (o : Obj)
  | outOfBounds
deriving DecidableEq

/-- `hskpng_resize_npart` (hskpng_resize.ipp:7-33) -/
def resize (o : Obj) : Out := if o.nPart > o.cap then .threw o else .done { o with size := o.nPart }

/-- adding `k` super-droplets: `n_part = n_part_old + n_part_to_init; hskpng_resize_npart();`
(src_dry_distros_simple.ipp:47, src_dry_sizes.ipp:42, rlx_dry_distros.ipp:220, init_SD_with_distros_sd_conc.ipp:34,
init_SD_with_distros_const_multi.ipp:28, init_SD_with_sizes.ipp:39, init_SD_with_distros_tail.ipp:30) -/
def add (o : Obj) (k : ℕ) : Out := resize { o with nPart := o.nPart + k }

/-- then -/
def andThen (x : Out) (f : Obj → Out) : Out := match x with
  | .done o => f o
  | y => y

/-- matching source: `k` candidates are added (src_dry_distros_matching.ipp:115-118), those that have a match are taken
away again (218-220); super-droplets that match (`again`, counted separately: see LCP.Src.Match) are appended as candidates for
their multiplicities to be computed (359-360) and finally dropped (414-415) -/
def matching (o : Obj) (k found again : ℕ) : Out :=
  andThen (add o k) fun o1 =>
  andThen (resize { o1 with nPart := o1.nPart - found }) fun o2 =>
  andThen (resize { o2 with nPart := o2.nPart + again }) fun o3 =>
  resize { o3 with nPart := o2.nPart }

/-- functions that take the first `n_part` entries of vectors: moments (moms.ipp:397), coalescence (coal.ipp:373, 442),
advection, turbulence, ... -/
def useAll (o : Obj) : Out := if o.nPart ≤ o.size then .done o else .outOfBounds

/-- `hskpng_remove_n0` with `dead` of the super-droplets having zero multiplicity (hskpng_remove.ipp:48-68) -/
def removeN0 (o : Obj) (dead : ℕ) : Out := andThen (useAll o) fun o => resize { o with nPart := o.nPart - dead }

/-- operations on an object during a run -/
inductive Act where
  | add (k : ℕ)
  | matching (k found again : ℕ)
  | use
  | remove (dead : ℕ)

def act (o : Obj) : Act → Out
  | .add k => add o k
  | .matching k found again => matching o k found again
  | .use => useAll o
  | .remove dead => removeN0 o dead

/-- outcomes of operations in a row; after an exception (caught by the user) one goes on with the object left behind;
nothing follows an access past the end -/
def run (o : Obj) : List Act → List Out
  | [] => []
  | a :: l => act o a :: (match act o a with
    | .done o' => run o' l
    | .threw o' => run o' l
    | .outOfBounds => [])

/-- `Act.matching` in which no more candidates have a match than there are candidates -/
def Sensible : Act → Prop
  | .matching k found _ => found ≤ k
  | _ => True

/-! ## Properties -/

/-- the object is consistent: exactly as many entries in vectors as super-droplets, at most `n_sd_max` of them -/
def Consistent (o : Obj) : Prop := o.size = o.nPart ∧ o.nPart ≤ o.cap

theorem resize_done {o : Obj} (h : o.nPart ≤ o.cap) : resize o = .done ⟨o.nPart, o.nPart, o.cap⟩ := by
  unfold resize; rw [if_neg (by omega)]

theorem add_eq (o : Obj) (k : ℕ) : add o k =
    if o.nPart + k ≤ o.cap then .done ⟨o.nPart + k, o.nPart + k, o.cap⟩ else .threw ⟨o.nPart + k, o.size, o.cap⟩ := by
  unfold add resize
  by_cases h : o.nPart + k ≤ o.cap
  · rw [if_neg (by simp; omega), if_pos h]
  · rw [if_pos (by simp; omega), if_neg h]

/-- C82: adding super-droplets throws exactly if they do not fit, before any vector is touched; otherwise it adds exactly
them -/
theorem add_throws_iff (o : Obj) (k : ℕ) :
    (o.nPart + k ≤ o.cap → ∃ o', add o k = .done o' ∧ Consistent o' ∧ o'.nPart = o.nPart + k ∧ o'.cap = o.cap) ∧
    (o.cap < o.nPart + k → ∃ o', add o k = .threw o' ∧ o'.size = o.size) := by
  rw [add_eq]
  constructor
  · intro hk
    exact ⟨_, if_pos hk, ⟨rfl, hk⟩, rfl, rfl⟩
  · intro hk
    exact ⟨_, if_neg (by omega), rfl⟩

theorem matching_eq (o : Obj) (k found again : ℕ) : matching o k found again =
    if o.nPart + k ≤ o.cap then
      if o.nPart + k - found + again ≤ o.cap then .done ⟨o.nPart + k - found, o.nPart + k - found, o.cap⟩
      else .threw ⟨o.nPart + k - found + again, o.nPart + k - found, o.cap⟩
    else .threw ⟨o.nPart + k, o.size, o.cap⟩ := by
  unfold matching
  rw [add_eq]
  by_cases h : o.nPart + k ≤ o.cap
  · simp only [h, if_true, andThen]
    rw [resize_done (show o.nPart + k - found ≤ o.cap by omega)]
    simp only
    by_cases h2 : o.nPart + k - found + again ≤ o.cap
    · rw [resize_done h2, if_pos h2]
      simp only
      rw [resize_done (show o.nPart + k - found ≤ o.cap by omega)]
    · rw [if_neg h2]
      unfold resize
      rw [if_pos (by simp only; omega)]
  · simp only [h, if_false, andThen]

theorem act_consistent {o o' : Obj} (h : Consistent o) (a : Act) (ha : Sensible a) (hd : act o a = .done o') :
    Consistent o' ∧ o'.cap = o.cap := by
  cases a with
  | add k =>
    simp only [act, add_eq] at hd
    split at hd
    · injection hd with hd; subst hd; next hk => exact ⟨⟨rfl, hk⟩, rfl⟩
    · simp at hd
  | matching k f g =>
    simp only [act, matching_eq] at hd
    split at hd
    · split at hd
      · injection hd with hd; subst hd
        next hk => exact ⟨⟨rfl, by simp only; omega⟩, rfl⟩
      · simp at hd
    · simp at hd
  | use =>
    simp only [act, useAll] at hd
    split at hd
    · injection hd with hd; subst hd; exact ⟨h, rfl⟩
    · simp at hd
  | remove d =>
    simp only [act, removeN0, useAll] at hd
    rw [if_pos (by rw [h.1])] at hd
    simp only [andThen] at hd
    rw [resize_done (by have := h.2; simp only; omega)] at hd
    injection hd with hd; subst hd
    exact ⟨⟨rfl, by have := h.2; simp only; omega⟩, rfl⟩

theorem act_inBounds {o : Obj} (h : Consistent o) (a : Act) (ha : Sensible a) : act o a ≠ .outOfBounds := by
  cases a with
  | add k => simp only [act, add_eq]; split <;> simp
  | matching k f g => simp only [act, matching_eq]; split <;> [split <;> simp; simp]
  | use => simp only [act, useAll]; rw [if_pos (by rw [h.1])]; simp
  | remove d =>
    simp only [act, removeN0, useAll]
    rw [if_pos (by rw [h.1])]
    simp only [andThen]
    rw [resize_done (by have := h.2; simp only; omega)]; simp

/-- C82, part that holds: up to the first exception, whatever is done, there is no access past the end of a vector and vectors
hold exactly the super-droplets there are.  Missing (false): the same after an exception that was caught -/
theorem no_overrun_partial (o : Obj) (h : Consistent o) (l : List Act) (hl : ∀ a ∈ l, Sensible a)
    (hn : ∀ o', Out.threw o' ∉ run o l) :
    Out.outOfBounds ∉ run o l ∧ ∀ o', Out.done o' ∈ run o l → Consistent o' ∧ o'.cap = o.cap := by
  induction l generalizing o with
  | nil => simp [run]
  | cons a l ih =>
    unfold run at hn ⊢
    have hb := act_inBounds h a (hl a (by simp))
    cases hc : act o a with
    | outOfBounds => exact absurd hc hb
    | threw o' => rw [hc] at hn; exact absurd (List.mem_cons_self) (hn o')
    | done o1 =>
      rw [hc] at hn
      simp only at hn ⊢
      obtain ⟨h1, hcap⟩ := act_consistent h a (hl a (by simp)) hc
      obtain ⟨i1, i2⟩ := ih o1 h1 (fun b hb => hl b (List.mem_cons_of_mem _ hb)) (fun o' ho => hn o' (List.mem_cons_of_mem _ ho))
      refine ⟨?_, ?_⟩
      · simp only [List.mem_cons, reduceCtorEq, false_or]; exact i1
      · intro o' ho
        simp only [List.mem_cons, Out.done.injEq] at ho
        rcases ho with rfl | ho
        · exact ⟨h1, hcap⟩
        · exact ⟨(i2 o' ho).1, (i2 o' ho).2.trans hcap⟩

/-- the object is broken: more super-droplets than allowed, and than there are entries in vectors -/
def Broken (o : Obj) : Prop := o.size ≤ o.cap ∧ o.cap < o.nPart

theorem act_broken {o : Obj} (h : Broken o) (a : Act) :
    act o a = .outOfBounds ∨ ∃ o', act o a = .threw o' ∧ Broken o' := by
  obtain ⟨h1, h2⟩ := h
  cases a with
  | add k =>
    simp only [act, add_eq]
    rw [if_neg (by omega)]
    exact .inr ⟨_, rfl, h1, by simp only; omega⟩
  | matching k f g =>
    simp only [act, matching_eq]
    rw [if_neg (by omega)]
    exact .inr ⟨_, rfl, h1, by simp only; omega⟩
  | use => simp only [act, useAll]; rw [if_neg (by omega)]; exact .inl rfl
  | remove d =>
    simp only [act, removeN0, useAll]; rw [if_neg (by omega)]; exact .inl rfl

/-- C82 is false after an exception: whoever catches it keeps a broken object, for which no operation ever succeeds again:
every one throws again or goes past the end of vectors, and any use of super-droplets does the latter -/
theorem broken_for_good (o : Obj) (h : Consistent o) (k : ℕ) (hk : o.cap < o.nPart + k) :
    ∃ o', add o k = .threw o' ∧ useAll o' = .outOfBounds ∧
      ∀ l : List Act, (∀ a ∈ l, Sensible a) → ∀ x ∈ run o' l, ∀ o'', x ≠ .done o'' := by
  have hb : Broken ⟨o.nPart + k, o.size, o.cap⟩ := ⟨by rw [h.1]; exact h.2, hk⟩
  refine ⟨_, by rw [add_eq, if_neg (by omega)], ?_, ?_⟩
  · simp only [useAll]; rw [if_neg (by have := h.1; have := h.2; omega)]
  · generalize (⟨o.nPart + k, o.size, o.cap⟩ : Obj) = o1 at hb
    intro l hl
    induction l generalizing o1 with
    | nil => simp [run]
    | cons a l ih =>
      unfold run
      rcases act_broken hb a with hc | ⟨o2, hc, hb2⟩
      · rw [hc]; simp
      · rw [hc]
        intro x hx
        simp only [List.mem_cons] at hx
        rcases hx with rfl | hx
        · simp
        · exact ih o2 hb2 (fun b hb => hl b (List.mem_cons_of_mem _ hb)) x hx

/-- the matching source counts candidates before matching: it throws if `n_sd_max` has no room for all candidates, even if
(here: all of them) have a match and nothing would be added -/
theorem matching_throws_early (o : Obj) (k : ℕ) (hk : o.cap < o.nPart + k) :
    ∃ o', matching o k k k = .threw o' := ⟨_, by rw [matching_eq, if_neg (by omega)]⟩

/-- ... although otherwise it adds exactly the candidates without a match -/
theorem matching_adds (o : Obj) (k found : ℕ) (hf : found ≤ k) (hk : o.nPart + k ≤ o.cap) :
    ∃ o', matching o k found found = .done o' ∧ Consistent o' ∧ o'.nPart = o.nPart + (k - found) :=
  ⟨_, by rw [matching_eq, if_pos hk, if_pos (by omega)], ⟨rfl, by simp only; omega⟩, by simp only; omega⟩

example : Consistent ⟨8, 8, 10⟩ ∧ run ⟨8, 8, 10⟩ [.add 1, .use, .remove 3, .matching 4 2 2] =
    [.done ⟨9, 9, 10⟩, .done ⟨9, 9, 10⟩, .done ⟨6, 6, 10⟩, .done ⟨8, 8, 10⟩] := ⟨⟨rfl, by decide⟩, by decide⟩
example : run ⟨8, 8, 10⟩ [.add 3, .use] = [.threw ⟨11, 8, 10⟩, .outOfBounds] := by decide

end LCP.Room
