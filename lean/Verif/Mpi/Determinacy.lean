import Verif.Mpi.Confluence

/-!
# One complete schedule decides all schedules
-/
namespace LCP.Mpi

variable {R T Q P M : Type} [DecidableEq R] [DecidableEq T] [DecidableEq Q]

/-- no process is about to touch a buffer in use -/
def Safe (s : State R T Q P M) : Prop := ∀ r, LSafe (s.loc r)

theorem pair_loc {g : R → Loc R T Q P M} {r r' α β l1 l2} (h1 : LStep (g r) α l1) (h2 : LStep (g r') β l2)
    (hd : ∀ l, LStep l α l1 → LStep l β l2 → l = g r → r = r' → ∃ l', LStep l1 β l' ∧ LStep l2 α l') :
    ∃ l1' l2', LStep (Function.update g r l1 r') β l2' ∧ LStep (Function.update g r' l2 r) α l1' ∧
      Function.update (Function.update g r l1) r' l2' = Function.update (Function.update g r' l2) r l1' := by
  by_cases hr : r = r'
  · subst hr
    obtain ⟨l', e1, e2⟩ := hd _ h1 h2 rfl rfl
    exact ⟨l', l', by simpa using e1, by simpa using e2, by simp⟩
  · exact ⟨l1, l2, by rw [Function.update_of_ne (Ne.symm hr)]; exact h2, by rw [Function.update_of_ne hr]; exact h1,
      Function.update_comm hr _ _ _⟩

omit [DecidableEq R] [DecidableEq T] [DecidableEq Q] in
theorem State.ext' {s s' : State R T Q P M} (h1 : s.loc = s'.loc) (h2 : s.net = s'.net) : s = s' := by
  cases s; cases s'; simp_all

private theorem dia_exec {s s1 s2 : State R T Q P M} (hs : Safe s) {r β} (hne : Lab.exec r ≠ β) (h1 : Step s (.exec r) s1)
    (h2 : Step s β s2) : ∃ s', Step s1 β s' ∧ Step s2 (.exec r) s' := by
  cases h1 with
  | exec h1 =>
    cases h2 with
    | @exec r' l2 h2 =>
      obtain ⟨l1', l2', e1, e2, e3⟩ := pair_loc h1 h2 (fun l _ _ _ e => by subst e; exact absurd rfl hne)
      exact ⟨_, .exec (s := { s with loc := _ }) e1, by
        rw [e3]; exact Step.exec (s := { s with loc := _ }) e2⟩
    | cap h2 =>
      obtain ⟨l1', l2', e1, e2, e3⟩ := pair_loc h1 h2 (fun l a b e e' => exec_cap (e ▸ hs _) a b)
      exact ⟨_, .cap (s := { s with loc := _ }) e1, by
        rw [e3]; exact Step.exec (s := { s with loc := _ }) e2⟩
    | snd h2 =>
      obtain ⟨l1', l2', e1, e2, e3⟩ := pair_loc h1 h2 (fun l a b e e' => exec_snd a b)
      exact ⟨_, .snd (s := { s with loc := _ }) e1, by
        rw [e3]; exact Step.exec (s := { loc := _, net := _ }) e2⟩
    | dlv hn h2 =>
      obtain ⟨l1', l2', e1, e2, e3⟩ := pair_loc h1 h2 (fun l a b e e' => exec_dlv (e ▸ hs _) a b)
      exact ⟨_, .dlv (s := { s with loc := _ }) hn e1, by
        rw [e3]; exact Step.exec (s := { loc := _, net := _ }) e2⟩

private theorem dia_cap {s s1 s2 : State R T Q P M} (hs : Safe s) {a b t q β} (hne : Lab.cap a b t q ≠ β) (h1 : Step s (.cap a b t q) s1)
    (h2 : Step s β s2) : ∃ s', Step s1 β s' ∧ Step s2 (.cap a b t q) s' := by
  cases h2 with
  | exec h2 =>
    obtain ⟨s', e1, e2⟩ := dia_exec hs (by simp) (.exec h2) h1
    exact ⟨s', e2, e1⟩
  | cap h2 =>
    cases h1 with
    | cap h1 =>
      obtain ⟨l1', l2', e1, e2, e3⟩ := pair_loc h1 h2 (fun l x y e e' => cap_cap (by
        rintro ⟨⟩; subst e'; exact hne rfl) x y)
      exact ⟨_, .cap (s := { s with loc := _ }) e1, by
        rw [e3]; exact Step.cap (s := { s with loc := _ }) e2⟩
  | snd h2 =>
    cases h1 with
    | cap h1 =>
      obtain ⟨l1', l2', e1, e2, e3⟩ := pair_loc h1 h2 (fun l x y e e' => cap_snd x y)
      exact ⟨_, .snd (s := { s with loc := _ }) e1, by
        rw [e3]; exact Step.cap (s := { loc := _, net := _ }) e2⟩
  | dlv hn h2 =>
    cases h1 with
    | cap h1 =>
      obtain ⟨l1', l2', e1, e2, e3⟩ := pair_loc h1 h2 (fun l x y e e' => cap_dlv (e ▸ hs _) x y)
      exact ⟨_, .dlv (s := { s with loc := _ }) hn e1, by
        rw [e3]; exact Step.cap (s := { loc := _, net := _ }) e2⟩

private theorem dia_snd {s s1 s2 : State R T Q P M} (hs : Safe s) {a b t β} (hne : Lab.snd a b t ≠ β) (h1 : Step s (.snd a b t) s1)
    (h2 : Step s β s2) : ∃ s', Step s1 β s' ∧ Step s2 (.snd a b t) s' := by
  cases h2 with
  | exec h2 =>
    obtain ⟨s', e1, e2⟩ := dia_exec hs (by simp) (.exec h2) h1
    exact ⟨s', e2, e1⟩
  | cap h2 =>
    obtain ⟨s', e1, e2⟩ := dia_cap hs (by simp) (.cap h2) h1
    exact ⟨s', e2, e1⟩
  | @snd a' b' t' p' l2 h2 =>
    cases h1 with
    | snd h1 =>
      have hk : (a, b, t) ≠ (a', b', t') := by rintro ⟨⟩; exact hne rfl
      obtain ⟨l1', l2', e1, e2, e3⟩ := pair_loc h1 h2 (fun l x y e e' => snd_snd (by rintro ⟨⟩; subst e'; exact hne rfl) x y)
      refine ⟨_, .snd (s := { loc := _, net := _ }) e1, ?_⟩
      have := Step.snd (s := { loc := Function.update s.loc a' l2, net := Function.update s.net (a', b', t') (s.net (a', b', t') ++ [p']) }) e2
      dsimp only at this ⊢
      rw [e3, Function.update_of_ne (Ne.symm hk), Function.update_comm hk]
      rw [Function.update_of_ne hk] at this
      exact this
  | @dlv a' b' t' p' z l2 hn h2 =>
    cases h1 with
    | @snd _ _ _ p l1 h1 =>
      obtain ⟨l1', l2', e1, e2, e3⟩ := pair_loc h1 h2 (fun l x y e e' => snd_dlv x y)
      by_cases hk : (a, b, t) = (a', b', t')
      · cases hk
        refine ⟨_, .dlv (s := { loc := _, net := _ }) (p := p') (z := z ++ [p]) (by simp [hn]) e1, ?_⟩
        have := Step.snd (s := { loc := Function.update s.loc b l2, net := Function.update s.net (a, b, t) z }) e2
        dsimp only at this ⊢
        rw [e3]
        simpa only [Function.update_self, Function.update_idem] using this
      · refine ⟨_, .dlv (s := { loc := _, net := _ }) (p := p') (z := z) (by
          simp only [Function.update_of_ne (Ne.symm hk)]; exact hn) e1, ?_⟩
        have := Step.snd (s := { loc := Function.update s.loc b' l2, net := Function.update s.net (a', b', t') z }) e2
        dsimp only at this ⊢
        rw [e3, Function.update_comm hk]
        rw [Function.update_of_ne hk] at this
        exact this

private theorem dia_dlv {s s1 s2 : State R T Q P M} (hs : Safe s) {a b t β} (hne : Lab.dlv a b t ≠ β) (h1 : Step s (.dlv a b t) s1)
    (h2 : Step s β s2) : ∃ s', Step s1 β s' ∧ Step s2 (.dlv a b t) s' := by
  cases h2 with
  | exec h2 =>
    obtain ⟨s', e1, e2⟩ := dia_exec hs (by simp) (.exec h2) h1
    exact ⟨s', e2, e1⟩
  | cap h2 =>
    obtain ⟨s', e1, e2⟩ := dia_cap hs (by simp) (.cap h2) h1
    exact ⟨s', e2, e1⟩
  | snd h2 =>
    obtain ⟨s', e1, e2⟩ := dia_snd hs (by simp) (.snd h2) h1
    exact ⟨s', e2, e1⟩
  | @dlv a' b' t' p' z' l2 hn2 h2 =>
    cases h1 with
    | @dlv _ _ _ p z l1 hn1 h1 =>
      have hk : (a, b, t) ≠ (a', b', t') := by rintro ⟨⟩; exact hne rfl
      obtain ⟨l1', l2', e1, e2, e3⟩ := pair_loc h1 h2 (fun l x y e e' => dlv_dlv (e ▸ hs _) (by rintro ⟨⟩; subst e'; exact hne rfl) x y)
      refine ⟨_, .dlv (s := { loc := _, net := _ }) (p := p') (z := z') (by
          simp only [Function.update_of_ne (Ne.symm hk)]; exact hn2) e1, ?_⟩
      have := Step.dlv (s := { loc := Function.update s.loc b' l2, net := Function.update s.net (a', b', t') z' }) (p := p) (z := z) (by
          simp only [Function.update_of_ne hk]; exact hn1) e2
      dsimp only at this ⊢
      rw [e3, Function.update_comm hk]
      exact this

/-- different steps commute -/
theorem diamond {s s1 s2 : State R T Q P M} (hs : Safe s) {α β} (hne : α ≠ β) (h1 : Step s α s1) (h2 : Step s β s2) :
    ∃ s', Step s1 β s' ∧ Step s2 α s' := by
  cases h1 with
  | exec h1 => exact dia_exec hs hne (.exec h1) h2
  | cap h1 => exact dia_cap hs hne (.cap h1) h2
  | snd h1 => exact dia_snd hs hne (.snd h1) h2
  | dlv hn h1 => exact dia_dlv hs hne (.dlv hn h1) h2

/-- a step has one outcome -/
theorem Step.det {s s1 s2 : State R T Q P M} {α} (h1 : Step s α s1) (h2 : Step s α s2) : s1 = s2 := by
  cases h1 with
  | exec h1 => cases h2 with | exec h2 => rw [h1.det h2]
  | cap h1 => cases h2 with | cap h2 => rw [h1.det h2]
  | snd h1 =>
    cases h2 with
    | snd h2 =>
      cases h1 with
      | snd e1 => cases h2 with | snd e2 => simp_all
  | dlv hn h1 =>
    cases h2 with
    | dlv hn2 h2 =>
      rw [hn] at hn2
      obtain ⟨rfl, rfl⟩ := List.cons.inj hn2
      rw [h1.det h2]

/-- what is due stays due until it is done -/
theorem Due.persist {s s1 s2 : State R T Q P M} {α β} (hne : α ≠ β) (h1 : Step s α s1) (h2 : Step s β s2) (hd : Due s β) :
    Due s1 β := by
  cases h2 with
  | exec => trivial
  | snd => trivial
  | dlv => trivial
  | @cap a b t q l2 h2 =>
    cases h2 with
    | cap hc =>
      simp only [Due] at hd ⊢
      cases h1 with
      | @exec r l1 h1 =>
        have hin : ((s.loc b).inn (a, t)).length ≤ ((Function.update s.loc r l1 b).inn (a, t)).length := by
          by_cases hb : b = r
          · subst hb
            rw [Function.update_self]
            cases h1 with
            | loc | isend | wait => exact Nat.le_refl _
            | @irecv q a' t' wr k h =>
              by_cases hk : (a, t) = (a', t')
              · rw [hk]; simp
              · simp only [Function.update_of_ne hk]; exact Nat.le_refl _
          · rw [Function.update_of_ne hb]; exact Nat.le_refl _
        have hout : pos q ((Function.update s.loc r l1 a).out (b, t)) = pos q ((s.loc a).out (b, t)) := by
          by_cases hb : a = r
          · subst hb
            rw [Function.update_self]
            cases h1 with
            | loc | irecv | wait => rfl
            | @isend q' b' t' rd k h =>
              by_cases hk : (b, t) = (b', t')
              · cases hk; simp only [Function.update_self]; exact (capQ_append hc).2
              · simp only [Function.update_of_ne hk]
          · rw [Function.update_of_ne hb]
        rw [hout]; exact Nat.lt_of_lt_of_le hd hin
      | @cap a' b' t' q' l1 h1 =>
        cases h1 with
        | @cap _ _ _ z1 hc' =>
          have hin : (Function.update s.loc a' { s.loc a' with out := Function.update (s.loc a').out (b', t') z1 } b).inn = (s.loc b).inn := by
            by_cases hb : b = a'
            · subst hb; rw [Function.update_self]
            · rw [Function.update_of_ne hb]
          rw [hin]; dsimp only
          by_cases ha : a = a'
          · subst ha
            rw [Function.update_self]
            by_cases hk : (b, t) = (b', t')
            · cases hk
              simp only [Function.update_self]
              obtain ⟨_, _, _, e⟩ := capQ_comm (q := q) (q' := q') (by rintro rfl; exact hne rfl) hc hc'
              rw [e]; exact hd
            · simp only [Function.update_of_ne hk]; exact hd
          · rw [Function.update_of_ne ha]; exact hd
      | @snd a' b' t' p l1 h1 =>
        cases h1 with
        | @snd _ _ _ z1 hc' =>
          have hin : (Function.update s.loc a' { s.loc a' with out := Function.update (s.loc a').out (b', t') z1 } b).inn = (s.loc b).inn := by
            by_cases hb : b = a'
            · subst hb; rw [Function.update_self]
            · rw [Function.update_of_ne hb]
          rw [hin]; dsimp only
          by_cases hk : (a, b, t) = (a', b', t')
          · cases hk
            rw [Function.update_self]
            simp only [Function.update_self]
            rw [hc'] at hd
            simp only [pos, List.length_append, List.length_singleton] at hd ⊢
            omega
          · rw [Function.update_of_ne hk]
            by_cases ha : a = a'
            · subst ha
              rw [Function.update_self]
              have hk' : (b, t) ≠ (b', t') := by rintro ⟨⟩; exact hk rfl
              simp only [Function.update_of_ne hk']; exact hd
            · rw [Function.update_of_ne ha]; exact hd
      | @dlv a' b' t' p z l1 hn h1 =>
        cases h1 with
        | @dlv _ _ _ q1 w1 z1 hc' =>
          have hout : (Function.update s.loc b' { s.loc b' with mem := w1 p (s.loc b').mem, inn := Function.update (s.loc b').inn (a', t') z1 } a).out
              = (s.loc a).out := by
            by_cases hb : a = b'
            · subst hb; rw [Function.update_self]
            · rw [Function.update_of_ne hb]
          rw [hout]; dsimp only
          by_cases hk : (a, b, t) = (a', b', t')
          · cases hk
            rw [Function.update_self]
            simp only [Function.update_self]
            rw [hn, hc'] at hd
            simp only [List.length_cons] at hd
            omega
          · rw [Function.update_of_ne hk]
            by_cases ha : b = b'
            · subst ha
              rw [Function.update_self]
              have hk' : (a, t) ≠ (a', t') := by rintro ⟨⟩; exact hk rfl
              simp only [Function.update_of_ne hk']; exact hd
            · rw [Function.update_of_ne ha]; exact hd

/-- nothing happens any more in a final state -/
theorem Final.stuck {s s' : State R T Q P M} (h : Final s) {α} (hs : Step s α s') : False := by
  cases hs with
  | @exec r _ h1 =>
    have := (h.1 r).1
    cases h1 <;> simp_all
  | @cap a b t q _ h1 =>
    cases h1 with
    | cap hc => rw [(h.1 a).2.1] at hc; simp [capQ] at hc
  | @snd a b t p _ h1 =>
    cases h1 with
    | snd hc => rw [(h.1 a).2.1] at hc; simp at hc
  | dlv hn _ => rw [h.2] at hn; simp at hn

omit [DecidableEq R] [DecidableEq T] [DecidableEq Q] in
private theorem strip_aux [DecidableEq R] [DecidableEq T] [DecidableEq Q] (I : State R T Q P M → Prop)
    (hI : ∀ s α s', I s → Step s α s' → I s') (hsafe : ∀ s, I s → Safe s)
    {s t : State R T Q P M} {σ} (hr : DueRun s σ t) (ht : Final t) :
    I s → ∀ {α s1}, Step s α s1 → ∃ σ', DueRun s1 σ' t ∧ σ'.length + 1 = σ.length := by
  induction hr with
  | nil => intro _ α s1 h; exact (ht.stuck h).elim
  | @cons s b s2 k u hd h hk ih =>
    intro hi α s1 ha
    by_cases hab : α = b
    · subst hab
      rw [ha.det h]
      exact ⟨k, hk, rfl⟩
    · obtain ⟨s', e1, e2⟩ := diamond (hsafe _ hi) hab ha h
      obtain ⟨σ', h1, h2⟩ := ih ht (hI _ _ _ hi h) e2
      exact ⟨b :: σ', .cons (hd.persist hab ha h) e1 h1, by simp [h2]⟩

/-- Let all reachable states be safe and let one schedule of due steps lead to a final state `t`.  Then every schedule is at most as long,
and whatever has happened so far, due steps lead on to `t`. -/
theorem all_schedules (I : State R T Q P M → Prop)
    (hI : ∀ s α s', I s → Step s α s' → I s') (hsafe : ∀ s, I s → Safe s)
    {s t : State R T Q P M} {σ} (hi : I s) (hr : DueRun s σ t) (ht : Final t) {ρ u} (hρ : Run s ρ u) :
    ∃ σ', DueRun u σ' t ∧ ρ.length + σ'.length = σ.length := by
  induction hρ generalizing σ with
  | nil => exact ⟨σ, hr, by simp⟩
  | cons h hk ih =>
    obtain ⟨σ', h1, h2⟩ := strip_aux I hI hsafe hr ht hi h
    obtain ⟨σ'', h3, h4⟩ := ih (hI _ _ _ hi h) h1
    exact ⟨σ'', h3, by simp only [List.length_cons]; omega⟩

/-- an implementation that always does some due step when there is one cannot stop short of `t` -/
theorem stops_at (I : State R T Q P M → Prop)
    (hI : ∀ s α s', I s → Step s α s' → I s') (hsafe : ∀ s, I s → Safe s)
    {s t : State R T Q P M} {σ} (hi : I s) (hr : DueRun s σ t) (ht : Final t) {ρ u} (hρ : Run s ρ u)
    (hstop : ∀ α u', Due u α → ¬ Step u α u') : u = t := by
  obtain ⟨σ', h, _⟩ := all_schedules I hI hsafe hi hr ht hρ
  cases h with
  | nil => rfl
  | cons hd hs _ => exact absurd hs (hstop _ _ hd)

end LCP.Mpi
