import Verif.Mpi.Discipline
import Mathlib.Data.Finset.Insert
import Mathlib.Data.Fintype.Basic

/-!
# Building one complete schedule: all processes in step
-/
namespace LCP.Mpi

variable {R T Q P M : Type} [DecidableEq R] [DecidableEq T] [DecidableEq Q]

/-- reachable by due steps -/
def Reach (s t : State R T Q P M) : Prop := ∃ σ, DueRun s σ t

theorem Reach.refl (s : State R T Q P M) : Reach s s := ⟨[], .nil⟩

theorem Reach.of_eq {s t : State R T Q P M} (h1 : s.loc = t.loc) (h2 : s.net = t.net) : Reach s t :=
  State.ext' h1 h2 ▸ Reach.refl s

theorem Reach.trans {s t u : State R T Q P M} (h1 : Reach s t) (h2 : Reach t u) : Reach s u := by
  obtain ⟨σ, h1⟩ := h1
  obtain ⟨τ, h2⟩ := h2
  induction h1 with
  | nil => exact ⟨τ, h2⟩
  | cons hd h hk ih =>
    obtain ⟨ρ, hρ⟩ := ih h2
    exact ⟨_, .cons hd h hρ⟩

theorem Reach.one {s t : State R T Q P M} {α} (hd : Due s α) (h : Step s α t) : Reach s t := ⟨[α], .cons hd h .nil⟩

theorem sweep [Fintype R] (f : Finset R → State R T Q P M) (h : ∀ r S, r ∉ S → Reach (f S) (f (insert r S))) :
    Reach (f ∅) (f Finset.univ) := by
  have : ∀ S : Finset R, Reach (f ∅) (f S) := by
    intro S
    induction S using Finset.induction_on with
    | empty => exact Reach.refl _
    | insert r S hr ih => exact ih.trans (h r S hr)
  exact this _

/-- a process executes some of its statements -/
inductive LRun : Loc R T Q P M → Loc R T Q P M → Prop
  | refl {l} : LRun l l
  | cons {l l1 l2} (h : LStep l .x l1) (hk : LRun l1 l2) : LRun l l2

theorem LRun.trans {l l1 l2 : Loc R T Q P M} (h1 : LRun l l1) (h2 : LRun l1 l2) : LRun l l2 := by
  induction h1 with
  | refl => exact h2
  | cons h _ ih => exact .cons h (ih h2)

theorem LRun.reach {s : State R T Q P M} {r l'} (h : LRun (s.loc r) l') : Reach s { s with loc := Function.update s.loc r l' } := by
  generalize hl : s.loc r = l at h
  induction h generalizing s with
  | refl => subst hl; rw [Function.update_eq_self]; exact Reach.refl _
  | @cons l l1 l2 h hk ih =>
    subst hl
    have h1 : Reach s { s with loc := Function.update s.loc r l1 } := Reach.one (α := .exec r) trivial (.exec h)
    refine h1.trans ?_
    have := ih (s := { s with loc := Function.update s.loc r l1 }) (by simp)
    simpa using this

/-- all processes execute some of their statements -/
theorem phase [Fintype R] {s : State R T Q P M} (l' : R → Loc R T Q P M) (h : ∀ r, LRun (s.loc r) (l' r)) :
    Reach s { s with loc := l' } := by
  have := sweep (fun S => { s with loc := fun r => if r ∈ S then l' r else s.loc r }) (fun r S hr => by
    have h1 : LRun (({ s with loc := fun r => if r ∈ S then l' r else s.loc r } : State R T Q P M).loc r) (l' r) := by
      simpa [hr] using h r
    have h2 := h1.reach
    convert h2 using 2
    funext r'
    by_cases e : r' = r
    · subst e; simp
    · simp [e])
  simpa using this

/-- one message is taken from `snd r` to `d r` on all channels with tag `t` -/
theorem channel [Fintype R] {s : State R T Q P M} (d e : R → R) (hde : ∀ r, d (e r) = r) (hed : ∀ r, e (d r) = r) (t : T)
    (snd : R → Bool) (q : R → Q) (rd : R → M → P) (q' : R → Q) (wr : R → P → M → M)
    (ho : ∀ r, snd r = true → (s.loc r).out (d r, t) = [.user (q r) (rd r)])
    (hi : ∀ r, snd (e r) = true → (s.loc r).inn (e r, t) = [(q' r, wr r)])
    (hn : ∀ c, s.net c = []) :
    Reach s { s with loc := fun r =>
      { prog := (s.loc r).prog
        mem := if snd (e r) then wr r (rd (e r) (s.loc (e r)).mem) (s.loc r).mem else (s.loc r).mem
        out := if snd r then Function.update (s.loc r).out (d r, t) [] else (s.loc r).out
        inn := if snd (e r) then Function.update (s.loc r).inn (e r, t) [] else (s.loc r).inn } } := by
  -- the library copies all messages
  have h1 := sweep (R := R) (fun S => ({ s with loc := fun r => if r ∈ S ∧ snd r = true then
      { s.loc r with out := Function.update (s.loc r).out (d r, t) [.lib (rd r (s.loc r).mem)] } else s.loc r } : State R T Q P M))
    (fun r S hr => by
      by_cases hs : snd r = true
      · refine Reach.one (α := .cap r (d r) t (q r)) ?_ ?_
        · have ein : (if d r ∈ S ∧ snd (d r) = true then ({ s.loc (d r) with
              out := Function.update (s.loc (d r)).out (d (d r), t) [.lib (rd (d r) (s.loc (d r)).mem)] } : Loc R T Q P M) else s.loc (d r)).inn
              = (s.loc (d r)).inn := by
            split <;> rfl
          have := hi (d r) (by rw [hed]; exact hs)
          rw [hed] at this
          simp only [Due, ein, hr, false_and, if_false, ho r hs, hn, this, pos, if_true]
          simp
        · have := Step.cap (s := ({ s with loc := fun r => if r ∈ S ∧ snd r = true then
              { s.loc r with out := Function.update (s.loc r).out (d r, t) [.lib (rd r (s.loc r).mem)] } else s.loc r } : State R T Q P M))
            (a := r) (b := d r) (t := t) (q := q r) (l' := { s.loc r with out := Function.update (s.loc r).out (d r, t) [.lib (rd r (s.loc r).mem)] })
            (by simp only [hr, false_and, if_false]; exact .cap (by rw [ho r hs]; simp [capQ]))
          convert this using 2
          funext r'
          by_cases er : r' = r
          · subst er; simp [hs]
          · simp [er]
      · refine Reach.of_eq ?_ rfl
        funext r'
        by_cases er : r' = r
        · subst er; simp [hs]
        · simp [er])
  -- they are put on their way
  have h2 := sweep (R := R) (fun S => ({
      loc := fun r => if snd r = true then
        { s.loc r with out := Function.update (s.loc r).out (d r, t) (if r ∈ S then [] else [.lib (rd r (s.loc r).mem)]) } else s.loc r
      net := fun c => if c.2.1 = d c.1 ∧ c.2.2 = t ∧ snd c.1 = true ∧ c.1 ∈ S then [rd c.1 (s.loc c.1).mem] else [] } : State R T Q P M))
    (fun r S hr => by
      by_cases hs : snd r = true
      · refine Reach.one (α := .snd r (d r) t) trivial ?_
        have := Step.snd (s := ({
            loc := fun r => if snd r = true then
              { s.loc r with out := Function.update (s.loc r).out (d r, t) (if r ∈ S then [] else [.lib (rd r (s.loc r).mem)]) } else s.loc r
            net := fun c => if c.2.1 = d c.1 ∧ c.2.2 = t ∧ snd c.1 = true ∧ c.1 ∈ S then [rd c.1 (s.loc c.1).mem] else [] } : State R T Q P M))
            (a := r) (b := d r) (t := t) (p := rd r (s.loc r).mem) (l' := { s.loc r with out := Function.update (s.loc r).out (d r, t) [] })
            (by
              simp only [hs, if_true, hr, if_false]
              have := LStep.snd (l := { s.loc r with out := Function.update (s.loc r).out (d r, t) [.lib (rd r (s.loc r).mem)] })
                (b := d r) (t := t) (p := rd r (s.loc r).mem) (z := []) (by simp)
              simpa using this)
        convert this using 2
        · funext r'
          by_cases er : r' = r
          · subst er; simp [hs]
          · simp [er]
        · funext c
          by_cases ec : c = (r, d r, t)
          · subst ec; simp [hs, hr]
          · rw [Function.update_of_ne ec]
            have : ¬ (c.2.1 = d c.1 ∧ c.2.2 = t ∧ snd c.1 = true ∧ c.1 = r) := by
              rintro ⟨a1, a2, _, a3⟩
              apply ec
              obtain ⟨c1, c2, c3⟩ := c
              simp only at a1 a2 a3
              subst a3 a2 a1
              rfl
            by_cases hc : c.1 = r
            · have h1 : ¬ (c.2.1 = d c.1 ∧ c.2.2 = t ∧ snd c.1 = true) := fun ⟨x, y, z⟩ => this ⟨x, y, z, hc⟩
              dsimp only
              rw [if_neg (fun ⟨x, y, z, _⟩ => h1 ⟨x, y, z⟩), if_neg (fun ⟨x, y, z, _⟩ => h1 ⟨x, y, z⟩)]
            · simp [hc]
      · refine Reach.of_eq ?_ ?_
        · funext r'
          by_cases er : r' = r
          · subst er; simp [hs]
          · simp [er]
        · funext c
          by_cases hc : c.1 = r
          · simp [hc, hs]
          · simp [hc])
  -- they arrive
  have h3 := sweep (R := R) (fun S => ({
      loc := fun r =>
        { prog := (s.loc r).prog
          mem := if snd (e r) = true ∧ r ∈ S then wr r (rd (e r) (s.loc (e r)).mem) (s.loc r).mem else (s.loc r).mem
          out := if snd r then Function.update (s.loc r).out (d r, t) [] else (s.loc r).out
          inn := if snd (e r) = true ∧ r ∈ S then Function.update (s.loc r).inn (e r, t) [] else (s.loc r).inn }
      net := fun c => if c.2.1 = d c.1 ∧ c.2.2 = t ∧ snd c.1 = true ∧ c.2.1 ∉ S then [rd c.1 (s.loc c.1).mem] else [] } : State R T Q P M))
    (fun r S hr => by
      by_cases hs : snd (e r) = true
      · refine Reach.one (α := .dlv (e r) r t) trivial ?_
        have := Step.dlv (s := ({
            loc := fun r =>
              { prog := (s.loc r).prog
                mem := if snd (e r) = true ∧ r ∈ S then wr r (rd (e r) (s.loc (e r)).mem) (s.loc r).mem else (s.loc r).mem
                out := if snd r then Function.update (s.loc r).out (d r, t) [] else (s.loc r).out
                inn := if snd (e r) = true ∧ r ∈ S then Function.update (s.loc r).inn (e r, t) [] else (s.loc r).inn }
            net := fun c => if c.2.1 = d c.1 ∧ c.2.2 = t ∧ snd c.1 = true ∧ c.2.1 ∉ S then [rd c.1 (s.loc c.1).mem] else [] } : State R T Q P M))
            (a := e r) (b := r) (t := t) (p := rd (e r) (s.loc (e r)).mem) (z := []) (by simp [hde, hs, hr])
            (.dlv (q := q' r) (wr := wr r) (z := []) (by simp only [hr, and_false, if_false]; exact hi r hs))
        convert this using 2
        · funext r'
          by_cases er : r' = r
          · subst er; simp [hs, hr]
          · simp [er]
        · funext c
          by_cases ec : c = (e r, r, t)
          · subst ec; simp
          · rw [Function.update_of_ne ec]
            by_cases hc : c.2.1 = r
            · have h1 : ¬ (c.2.1 = d c.1 ∧ c.2.2 = t) := by
                rintro ⟨x, y⟩
                apply ec
                obtain ⟨c1, c2, c3⟩ := c
                simp only at x y hc
                subst y hc
                rw [x, hed]
              dsimp only
              rw [if_neg (fun ⟨x, y, z, _⟩ => h1 ⟨x, y⟩), if_neg (fun ⟨x, y, z, _⟩ => h1 ⟨x, y⟩)]
            · simp [hc]
      · refine Reach.of_eq ?_ ?_
        · funext r'
          by_cases er : r' = r
          · subst er; simp [hs]
          · simp [er]
        · funext c
          by_cases hc : c.2.1 = d c.1 ∧ snd c.1 = true
          · have : c.2.1 ≠ r := by
              intro h
              apply hs
              rw [← h, hc.1, hed]; exact hc.2
            simp [this]
          · dsimp only
            rw [if_neg (fun ⟨x, y, z, _⟩ => hc ⟨x, z⟩), if_neg (fun ⟨x, y, z, _⟩ => hc ⟨x, z⟩)])
  have e0 : s.net = fun _ => [] := funext hn
  refine (Reach.of_eq ?_ ?_).trans (h1.trans ((Reach.of_eq ?_ ?_).trans (h2.trans ((Reach.of_eq ?_ ?_).trans (h3.trans (Reach.of_eq ?_ ?_))))))
  · simp
  · simp
  · funext r
    by_cases hs : snd r = true <;> simp [hs]
  · simp [e0]
  · funext r
    by_cases hs : snd r = true <;> by_cases hs' : snd (e r) = true <;> simp [hs, hs']
  · funext c; simp
  · simp
  · simp [e0]

end LCP.Mpi
