import Verif.Mpi.Lockstep

/-!
# Complete schedules of program segments
-/
namespace LCP.Mpi

variable {R T Q P M : Type} [DecidableEq R] [DecidableEq T] [DecidableEq Q]

/-- queues given by a list of their elements -/
def qf {α : Type} (l : List ((R × T) × α)) : R × T → List α := fun c => (l.filter (fun x => decide (x.1 = c))).map Prod.snd

theorem qf_nil {α : Type} : (qf ([] : List ((R × T) × α))) = fun _ => [] := by funext c; rfl

theorem qf_push {α : Type} (l : List ((R × T) × α)) (c : R × T) (a : α) :
    Function.update (qf l) c (qf l c ++ [a]) = qf (l ++ [(c, a)]) := by
  funext c'
  by_cases h : c' = c
  · subst h; simp [qf, List.filter_append]
  · rw [Function.update_of_ne h]
    simp [qf, List.filter_append, Ne.symm h]

theorem qf_clear {α : Type} (l : List ((R × T) × α)) (c : R × T) :
    Function.update (qf l) c [] = qf (l.filter (fun x => decide (x.1 ≠ c))) := by
  funext c'
  by_cases h : c' = c
  · subst h; simp [qf, List.filter_filter]
  · rw [Function.update_of_ne h]
    simp only [qf, List.filter_filter]
    congr 1
    apply List.filter_congr
    intro x _
    by_cases hx : x.1 = c'
    · subst hx; simp [h]
    · simp [hx]

/-- a process with the given open requests -/
def mkLoc (p : List (Instr R T Q P M)) (m : M) (o : List ((R × T) × Msg Q P M)) (i : List ((R × T) × (Q × (P → M → M)))) : Loc R T Q P M :=
  { prog := p, mem := m, out := qf o, inn := qf i }

def mk (p : R → List (Instr R T Q P M)) (m : R → M) (o : R → List ((R × T) × Msg Q P M))
    (i : R → List ((R × T) × (Q × (P → M → M)))) : State R T Q P M :=
  { loc := fun r => mkLoc (p r) (m r) (o r) (i r), net := fun _ => [] }

omit [DecidableEq Q] in
theorem start_eq (p : R → List (Instr R T Q P M)) (m : R → M) : start p m = mk p m (fun _ => []) (fun _ => []) := by
  simp [start, mk, mkLoc, qf_nil]

theorem LRun.loc {f k m o i} {l' : Loc R T Q P M} (h : LRun (mkLoc k (f m) o i) l') : LRun (mkLoc (.loc f :: k) m o i) l' :=
  .cons (l1 := mkLoc k (f m) o i) (by exact LStep.loc (l := mkLoc (.loc f :: k) m o i) rfl) h

theorem LRun.isend {q b t rd k m o i} {l' : Loc R T Q P M} (h : LRun (mkLoc k m (o ++ [((b, t), .user q rd)]) i) l') :
    LRun (mkLoc (.isend q b t rd :: k) m o i) l' := by
  refine .cons ?_ h
  have := LStep.isend (l := mkLoc (.isend q b t rd :: k) m o i) rfl
  simpa only [mkLoc, qf_push] using this

theorem LRun.irecv {q a t wr k m o i} {l' : Loc R T Q P M} (h : LRun (mkLoc k m o (i ++ [((a, t), (q, wr))])) l') :
    LRun (mkLoc (.irecv q a t wr :: k) m o i) l' := by
  refine .cons ?_ h
  have := LStep.irecv (l := mkLoc (.irecv q a t wr :: k) m o i) rfl
  simpa only [mkLoc, qf_push] using this

theorem LRun.wait {q k m o i} {l' : Loc R T Q P M} (h : LRun (mkLoc k m o i) l') (ho : ∀ x ∈ o, ∀ rd, x.2 ≠ Msg.user q rd)
    (hi : ∀ x ∈ i, x.2.1 ≠ q) : LRun (mkLoc (.wait q :: k) m o i) l' := by
  refine .cons (l1 := mkLoc k m o i) ?_ h
  refine LStep.wait (l := mkLoc (.wait q :: k) m o i) rfl ?_ ?_
  · intro ch rd hm
    simp only [mkLoc, qf, List.mem_map, List.mem_filter] at hm
    obtain ⟨x, ⟨hx, _⟩, e⟩ := hm
    exact ho x hx rd e
  · intro ch wr hm
    simp only [mkLoc, qf, List.mem_map, List.mem_filter] at hm
    obtain ⟨x, ⟨hx, _⟩, e⟩ := hm
    exact hi x hx (by rw [e])

theorem phaseQ [Fintype R] {p p' : R → List (Instr R T Q P M)} {m m' o o' i i'}
    (h : ∀ r, LRun (mkLoc (p r) (m r) (o r) (i r)) (mkLoc (p' r) (m' r) (o' r) (i' r))) : Reach (mk p m o i) (mk p' m' o' i') :=
  phase (s := mk p m o i) (fun r => mkLoc (p' r) (m' r) (o' r) (i' r)) h

private theorem filter_id {α : Type} {l : List ((R × T) × α)} {c : R × T} (h : ∀ x ∈ l, x.1 ≠ c) :
    l.filter (fun x => decide (x.1 ≠ c)) = l := by
  rw [List.filter_eq_self]
  intro x hx
  simpa using h x hx

theorem channelQ [Fintype R] {p : R → List (Instr R T Q P M)} {m o i} (d e : R → R) (hde : ∀ r, d (e r) = r) (hed : ∀ r, e (d r) = r) (t : T)
    (snd : R → Bool) (q : R → Q) (rd : R → M → P) (q' : R → Q) (wr : R → P → M → M)
    (ho : ∀ r, if snd r then qf (o r) (d r, t) = [.user (q r) (rd r)] else ∀ x ∈ o r, x.1 ≠ (d r, t))
    (hi : ∀ r, if snd (e r) then qf (i r) (e r, t) = [(q' r, wr r)] else ∀ x ∈ i r, x.1 ≠ (e r, t)) :
    Reach (mk p m o i) (mk p (fun r => if snd (e r) then wr r (rd (e r) (m (e r))) (m r) else m r)
      (fun r => (o r).filter (fun x => decide (x.1 ≠ (d r, t)))) (fun r => (i r).filter (fun x => decide (x.1 ≠ (e r, t))))) := by
  have h := channel (s := mk p m o i) d e hde hed t snd q rd q' wr
    (fun r hs => by have := ho r; rw [if_pos hs] at this; exact this)
    (fun r hs => by have := hi r; rw [if_pos hs] at this; exact this) (fun _ => rfl)
  refine h.trans (Reach.of_eq ?_ rfl)
  funext r
  simp only [mk, mkLoc]
  have h1 := ho r
  have h2 := hi r
  congr 1
  · by_cases hs : snd r = true
    · rw [if_pos hs, qf_clear]
    · rw [if_neg hs] at h1 ⊢; rw [filter_id h1]
  · by_cases hs : snd (e r) = true
    · rw [if_pos hs, qf_clear]
    · rw [if_neg hs] at h2 ⊢; rw [filter_id h2]

/-- a statement of each process -/
theorem seg_loc [Fintype R] (f : R → M → M) (rest : R → List (Instr R T Q P M)) (m : R → M) :
    Reach (start (fun r => .loc (f r) :: rest r) m) (start rest (fun r => f r (m r))) := by
  rw [start_eq, start_eq]
  exact phaseQ (fun r => .loc .refl)

/-- send to `d r`, receive from `e r` -/
theorem seg_swap [Fintype R] (d e : R → R) (hde : ∀ r, d (e r) = r) (hed : ∀ r, e (d r) = r) (t : T)
    (snd rcv : R → Bool) (hl : ∀ r, snd (e r) = rcv r) (q : Q) (rd : R → M → P) (q' : Q) (wr : R → P → M → M)
    (rest : R → List (Instr R T Q P M)) (m : R → M) :
    Reach (start (fun r => (if snd r then [.isend q (d r) t (rd r)] else []) ++
        (if rcv r then [.irecv q' (e r) t (wr r), .wait q'] else []) ++ rest r) m)
      (start rest (fun r => if rcv r then wr r (rd (e r) (m (e r))) (m r) else m r)) := by
  rw [start_eq, start_eq]
  have h1 := phaseQ (p := fun r => (if snd r then [.isend q (d r) t (rd r)] else []) ++
        (if rcv r then [.irecv q' (e r) t (wr r), .wait q'] else []) ++ rest r)
    (p' := fun r => (if rcv r then [.wait q'] else []) ++ rest r) (m := m) (m' := m) (o := fun _ => []) (i := fun _ => [])
    (o' := fun r => if snd r then [((d r, t), .user q (rd r))] else []) (i' := fun r => if rcv r then [((e r, t), (q', wr r))] else [])
    (fun r => by
      cases snd r <;> cases rcv r
      · exact .refl
      · exact .irecv .refl
      · exact .isend .refl
      · exact .isend (.irecv .refl))
  have h2 := channelQ (p := fun r => (if rcv r then [.wait q'] else []) ++ rest r) (m := m)
    (o := fun r => if snd r then [((d r, t), .user q (rd r))] else []) (i := fun r => if rcv r then [((e r, t), (q', wr r))] else [])
    d e hde hed t snd (fun _ => q) rd (fun _ => q') wr
    (fun r => by cases hs : snd r <;> simp [qf]) (fun r => by rw [hl]; cases hs : rcv r <;> simp [qf])
  refine h1.trans (h2.trans ?_)
  simp only [hl]
  refine phaseQ (fun r => ?_)
  have e1 : (if snd r then [((d r, t), Msg.user q (rd r))] else []).filter (fun x => decide (x.1 ≠ (d r, t))) = [] := by
    cases snd r <;> simp
  have e2 : (if rcv r then [((e r, t), (q', wr r))] else []).filter (fun x => decide (x.1 ≠ (e r, t))) = [] := by
    cases rcv r <;> simp
  rw [e1, e2]
  cases rcv r
  · exact .refl
  · exact .wait .refl (by simp) (by simp)

end LCP.Mpi
