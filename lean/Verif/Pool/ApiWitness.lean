import Verif.Pool.ApiSpec

/-!
# Building concrete histories

A run of a program is picked by a list of choices, one for every branch and every round of a loop (no more choices: first branch, no round).
-/
namespace LCP.PoolApi

def headTail : List Bool → Bool × List Bool
  | [] => (false, [])
  | b :: l => (b, l)

def pickStar (f : List Bool → Option (List Act × Bool × List Bool)) : ℕ → List Bool → Option (List Act × Bool × List Bool)
  | 0, _ => none
  | n + 1, cs =>
    if (headTail cs).1 then
      match f (headTail cs).2 with
      | none => none
      | some (l, true, cs') => some (l, true, cs')
      | some (l, false, cs') =>
        match pickStar f n cs' with
        | none => none
        | some (l', b, cs'') => some (l ++ l', b, cs'')
    else some ([], false, (headTail cs).2)

/-- the run picked, and the choices left -/
def pick : Prog → List Bool → Option (List Act × Bool × List Bool)
  | .skip, cs => some ([], false, cs)
  | .act a, cs => some ([a], false, cs)
  | .throw, cs => some ([], true, cs)
  | .seq p q, cs =>
    match pick p cs with
    | none => none
    | some (l, true, cs') => some (l, true, cs')
    | some (l, false, cs') =>
      match pick q cs' with
      | none => none
      | some (l', b, cs'') => some (l ++ l', b, cs'')
  | .alt p q, cs => if (headTail cs).1 then pick q (headTail cs).2 else pick p (headTail cs).2
  | .star p, cs => pickStar (pick p) 8 cs
  | .scope h p, cs =>
    match pick p cs with
    | none => none
    | some (l, b, cs') => some (.acquire h :: (l ++ [.release h]), b, cs')

theorem pickStar_runs {p : Prog} {f : List Bool → Option (List Act × Bool × List Bool)}
    (hf : ∀ cs l b cs', f cs = some (l, b, cs') → Runs p l b) (n : ℕ) :
    ∀ cs l b cs', pickStar f n cs = some (l, b, cs') → Runs (.star p) l b := by
  induction n with
  | zero => intro cs l b cs' h; simp [pickStar] at h
  | succ n ih =>
    intro cs l b cs' h
    unfold pickStar at h
    split_ifs at h with hc
    · split at h
      · simp at h
      · rename_i l1 cs1 h1
        simp only [Option.some.injEq, Prod.mk.injEq] at h
        obtain ⟨rfl, rfl, rfl⟩ := h
        exact .starT (hf _ _ _ _ h1)
      · rename_i l1 cs1 h1
        split at h
        · simp at h
        · rename_i l2 b2 cs2 h2
          simp only [Option.some.injEq, Prod.mk.injEq] at h
          obtain ⟨rfl, rfl, rfl⟩ := h
          exact .starS (hf _ _ _ _ h1) (ih _ _ _ _ h2)
    · simp only [Option.some.injEq, Prod.mk.injEq] at h
      obtain ⟨rfl, rfl, rfl⟩ := h
      exact .starZ

theorem pick_runs (p : Prog) : ∀ cs l b cs', pick p cs = some (l, b, cs') → Runs p l b := by
  induction p with
  | skip => intro cs l b cs' h; simp only [pick, Option.some.injEq, Prod.mk.injEq] at h; obtain ⟨rfl, rfl, rfl⟩ := h; exact .skip
  | throw => intro cs l b cs' h; simp only [pick, Option.some.injEq, Prod.mk.injEq] at h; obtain ⟨rfl, rfl, rfl⟩ := h; exact .throw
  | act a => intro cs l b cs' h; simp only [pick, Option.some.injEq, Prod.mk.injEq] at h; obtain ⟨rfl, rfl, rfl⟩ := h; exact .act a
  | seq p q ihp ihq =>
    intro cs l b cs' h
    simp only [pick] at h
    split at h
    · simp at h
    · rename_i l1 cs1 h1
      simp only [Option.some.injEq, Prod.mk.injEq] at h
      obtain ⟨rfl, rfl, rfl⟩ := h
      exact .seqT (ihp _ _ _ _ h1)
    · rename_i l1 cs1 h1
      split at h
      · simp at h
      · rename_i l2 b2 cs2 h2
        simp only [Option.some.injEq, Prod.mk.injEq] at h
        obtain ⟨rfl, rfl, rfl⟩ := h
        exact .seq (ihp _ _ _ _ h1) (ihq _ _ _ _ h2)
  | alt p q ihp ihq =>
    intro cs l b cs' h
    simp only [pick] at h
    split_ifs at h
    · exact .altR (ihq _ _ _ _ h)
    · exact .altL (ihp _ _ _ _ h)
  | star p ih =>
    intro cs l b cs' h
    exact pickStar_runs ih 8 cs l b cs' h
  | scope hh p ih =>
    intro cs l b cs' h
    simp only [pick] at h
    split at h
    · simp at h
    · rename_i l1 b1 cs1 h1
      simp only [Option.some.injEq, Prod.mk.injEq] at h
      obtain ⟨rfl, rfl, rfl⟩ := h
      exact .scope (ih _ _ _ _ h1)

/-- a history from calls and choices -/
def mk (f : Flags) : G → List (Call × List Bool) → Option (List Event)
  | _, [] => some []
  | g, (c, cs) :: l =>
    match pick (prog f g c) cs with
    | none => none
    | some (as, b, _) => (mk f (next f g c b) l).map (fun r => ⟨c, as, b⟩ :: r)

theorem mk_hist (f : Flags) (l : List (Call × List Bool)) : ∀ g r, mk f g l = some r → IsHist f g r := by
  induction l with
  | nil => intro g r h; simp only [mk, Option.some.injEq] at h; subst h; trivial
  | cons x l ih =>
    obtain ⟨c, cs⟩ := x
    intro g r h
    simp only [mk] at h
    split at h
    · simp at h
    · rename_i as b cs' h1
      cases h2 : mk f (next f g c b) l with
      | none => rw [h2] at h; simp at h
      | some r' =>
        rw [h2] at h
        simp only [Option.map_some, Option.some.injEq] at h
        subst h
        exact ⟨pick_runs _ _ _ _ _ h1, ih _ _ h2⟩

inductive Out where
  | ok | exhausted | null | dup | bad
deriving DecidableEq, Repr
def Res.out : Res → Out
  | .ok _ => .ok
  | .exhausted => .exhausted
  | .null => .null
  | .dup => .dup

/-- what the history picked ends with -/
def outcome (f : Flags) (l : List (Call × List Bool)) : Out :=
  match mk f g0 l with
  | none => .bad
  | some r => (exec (w0 f) (actions r)).out

theorem exhausts_of {f : Flags} {l : List (Call × List Bool)} {r : List Event} (hm : mk f g0 l = some r) (h : outcome f l = .exhausted) :
    Exhausts f r := by
  unfold outcome at h
  rw [hm] at h
  simp only at h
  unfold Exhausts
  cases he : exec (w0 f) (actions r) <;> rw [he] at h <;> simp [Res.out] at h

theorem derefs_of {f : Flags} {l : List (Call × List Bool)} {r : List Event} (hm : mk f g0 l = some r) (h : outcome f l = .null) :
    DerefsNull f r := by
  unfold outcome at h
  rw [hm] at h
  simp only at h
  unfold DerefsNull
  cases he : exec (w0 f) (actions r) <;> rw [he] at h <;> simp [Res.out] at h

theorem calls_of {f : Flags} {l : List (Call × List Bool)} : ∀ {g : G} {r : List Event}, mk f g l = some r → r.map Event.call = l.map Prod.fst := by
  induction l with
  | nil => intro g r h; simp only [mk, Option.some.injEq] at h; subst h; rfl
  | cons x l ih =>
    obtain ⟨c, cs⟩ := x
    intro g r h
    simp only [mk] at h
    split at h
    · simp at h
    · rename_i as b cs' h1
      cases h2 : mk f (next f g c b) l with
      | none => rw [h2] at h; simp at h
      | some r' =>
        rw [h2] at h
        simp only [Option.map_some, Option.some.injEq] at h
        subst h
        simp [ih h2]

/-- a history with these calls that ends by finding no free vector -/
theorem exhausts_witness (f : Flags) (l : List (Call × List Bool)) (h : outcome f l = .exhausted) :
    ∃ r, IsHist f g0 r ∧ r.map Event.call = l.map Prod.fst ∧ Exhausts f r := by
  cases hm : mk f g0 l with
  | none => unfold outcome at h; rw [hm] at h; simp at h
  | some r => exact ⟨r, mk_hist f l g0 r hm, calls_of hm, exhausts_of hm h⟩

theorem derefs_witness (f : Flags) (l : List (Call × List Bool)) (h : outcome f l = .null) :
    ∃ r, IsHist f g0 r ∧ r.map Event.call = l.map Prod.fst ∧ DerefsNull f r := by
  cases hm : mk f g0 l with
  | none => unfold outcome at h; rw [hm] at h; simp at h
  | some r => exact ⟨r, mk_hist f l g0 r hm, calls_of hm, derefs_of hm h⟩

end LCP.PoolApi
