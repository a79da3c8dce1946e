import Verif.MultiGpu.Exchange
import Mathlib.Tactic.IntervalCases

/-!
# Invariant of the exchange between GPUs
-/
namespace LCP.MultiGpu

variable {D V : Type}

/-! ### Where the operations are in the program -/

/-- position of `copy k` -/
def cpos : Msg → ℕ
  | .nL => 2 | .rL => 8 | .nR => 14 | .rR => 20
/-- position of `pack k` -/
def ppos : Msg → ℕ
  | .nL => 1 | .rL => 4 | .nR => 10 | .rR => 16
/-- position of `unpack k` -/
def upos : Msg → ℕ
  | .nL => 7 | .rL => 13 | .nR => 19 | .rR => 24

theorem prog_lt {i : ℕ} {o : Op} (h : prog[i]? = some o) : i < 27 := by
  have := (List.getElem?_eq_some_iff.1 h).1
  simpa [prog] using this

theorem prog_copy {i : ℕ} {k : Msg} (h : prog[i]? = some (.copy k)) : i = cpos k := by
  have := prog_lt h
  cases k <;> interval_cases i <;> simp_all [prog, cpos]

theorem prog_pack {i : ℕ} {k : Msg} (h : prog[i]? = some (.pack k)) : i = ppos k := by
  have := prog_lt h
  cases k <;> interval_cases i <;> simp_all [prog, ppos]

theorem prog_unpack {i : ℕ} {k : Msg} (h : prog[i]? = some (.unpack k)) : i = upos k := by
  have := prog_lt h
  cases k <;> interval_cases i <;> simp_all [prog, upos]

theorem prog_step {i : ℕ} (h : prog[i]? = some .stepAsync) : i = 0 := by
  have := prog_lt h
  interval_cases i <;> simp_all [prog]

theorem prog_at {i : ℕ} (h : i < 27) : ∃ o, prog[i]? = some o :=
  ⟨prog[i]'(by simpa [prog] using h), List.getElem?_eq_getElem _⟩

theorem at_cpos (k : Msg) : prog[cpos k]? = some (.copy k) := by cases k <;> rfl
theorem at_ppos (k : Msg) : prog[ppos k]? = some (.pack k) := by cases k <;> rfl
theorem at_upos (k : Msg) : prog[upos k]? = some (.unpack k) := by cases k <;> rfl
theorem at_call (k : Msg) : prog[upos k - 2]? = some (.call k.from) := by cases k <;> rfl
theorem at_ret (k : Msg) : prog[upos k - 1]? = some (.ret k.from) := by cases k <;> rfl

/-- between the barriers -/
theorem at_bar {B : ℕ} (h : B = 3 ∨ B = 9 ∨ B = 15 ∨ B = 21 ∨ B = 25) : prog[B]? = some .barrier := by
  rcases h with h | h | h | h | h <;> subst h <;> rfl

/-- the invariant -/
structure Inv (S : Sys D V) (s : St D V) : Prop where
  le : ∀ d, s.pc d ≤ 27
  bar : ∀ B, prog[B]? = some .barrier → ∀ d e, B < s.pc d → B ≤ s.pc e
  iss : ∀ d k, s.issued d k = true ↔ S.shared d k.to = true ∧ cpos k < s.pc d
  din : ∀ d k, s.done d k = true → s.issued d k = true
  cap : ∀ d k, s.pc d = upos k - 1 → S.shared d k.from = true → s.cap d k = true
  capi : ∀ d k j, s.pc d = upos k - 1 → S.shared d k.from = true → s.cap d j = true → s.issued (S.nb d k.from) j = true
  fin : ∀ d k, upos k ≤ s.pc d → S.shared d k.from = true → s.done (S.nb d k.from) k = true
  outL : ∀ d k, k.to = .lft → S.shared d k.to = true → ppos k < s.pc d → s.pc d ≤ ppos k + (if k = .nL then 9 else 12) →
    s.mem d (outB k) = S.pay d k
  outR : ∀ d k, k.to = .rgt → S.shared d k.to = true → ppos k < s.pc d → s.mem d (outB k) = S.pay d k
  inN : ∀ d, S.second d = true → s.done (S.rgt d) .nL = true → s.done (S.lft d) .nR = false → s.mem d .inN = S.pay (S.rgt d) .nL
  inN' : ∀ d, s.done (S.lft d) .nR = true → s.mem d .inN = S.pay (S.lft d) .nR
  inR : ∀ d, S.second d = true → s.done (S.rgt d) .rL = true → s.done (S.lft d) .rR = false → s.mem d .inR = S.pay (S.rgt d) .rL
  inR' : ∀ d, s.done (S.lft d) .rR = true → s.mem d .inR = S.pay (S.lft d) .rR
  got : ∀ d k, s.got d k = if S.shared d k.from = true ∧ upos k < s.pc d then some (S.pay (S.nb d k.from) k) else none

theorem inv_init (S : Sys D V) (mem : D → Buf → V) : Inv S (init mem : St D V) := by
  constructor <;> simp [init]
  · intro d k; cases k <;> simp [upos]
  · intro d k; cases k <;> simp [upos]

variable {S : Sys D V} {s : St D V}

theorem Inv.b3 (h : Inv S s) (d e : D) : 3 < s.pc d → 3 ≤ s.pc e := h.bar 3 rfl d e
theorem Inv.b9 (h : Inv S s) (d e : D) : 9 < s.pc d → 9 ≤ s.pc e := h.bar 9 rfl d e
theorem Inv.b15 (h : Inv S s) (d e : D) : 15 < s.pc d → 15 ≤ s.pc e := h.bar 15 rfl d e
theorem Inv.b21 (h : Inv S s) (d e : D) : 21 < s.pc d → 21 ≤ s.pc e := h.bar 21 rfl d e

theorem Sys.Ok.nb_from (hS : S.Ok) (d : D) (k : Msg) : S.nb (S.nb d k.to) k.from = d := by
  cases k <;> simp [Sys.nb, Msg.to, Msg.from, hS.lr, hS.rl]
theorem Sys.Ok.nb_to (hS : S.Ok) (d : D) (k : Msg) : S.nb (S.nb d k.from) k.to = d := by
  cases k <;> simp [Sys.nb, Msg.to, Msg.from, hS.lr, hS.rl]
theorem Sys.Ok.shared_to (hS : S.Ok) (d : D) (k : Msg) : S.shared (S.nb d k.to) k.from = S.shared d k.to := by
  cases k <;> simp [Sys.nb, Sys.shared, Msg.to, Msg.from, hS.cons, hS.rl]
theorem Sys.Ok.shared_from (hS : S.Ok) (d : D) (k : Msg) : S.shared (S.nb d k.from) k.to = S.shared d k.from := by
  cases k <;> simp [Sys.nb, Sys.shared, Msg.to, Msg.from, hS.cons, hS.rl]

/-- what is known when a copy is under way -/
theorem Inv.pend (h : Inv S s) (hS : S.Ok) {d : D} {k : Msg} (hp : s.pending d k) :
    S.shared d k.to = true ∧ cpos k < s.pc d ∧ s.pc (S.nb d k.to) < upos k := by
  obtain ⟨h1, h2⟩ := hp
  have h3 := (h.iss d k).1 h1
  refine ⟨h3.1, h3.2, ?_⟩
  by_contra hc
  have := h.fin (S.nb d k.to) k (by omega) (by rw [hS.shared_to]; exact h3.1)
  rw [hS.nb_from] at this
  simp [this] at h2

theorem Inv.fin' (h : Inv S s) (hS : S.Ok) {d : D} {k : Msg} (h1 : S.shared d k.to = true) (h2 : upos k ≤ s.pc (S.nb d k.to)) :
    s.done d k = true := by
  have := h.fin (S.nb d k.to) k h2 (by rw [hS.shared_to]; exact h1)
  rwa [hS.nb_from] at this

variable [DecidableEq D]

theorem exec_pc (d e : D) (o : Op) : (exec S s d o).pc e = if e = d then s.pc e + 1 else s.pc e := rfl
theorem exec_pc_ge (d e : D) (o : Op) : s.pc e ≤ (exec S s d o).pc e := by
  rw [exec_pc]; split <;> omega

theorem exec_issued (h : Inv S s) {d : D} {o : Op} (ho : prog[s.pc d]? = some o) (e : D) (k : Msg) :
    (exec S s d o).issued e k = true ↔ S.shared e k.to = true ∧ cpos k < (exec S s d o).pc e := by
  have hi := h.iss e k
  rw [exec_pc]
  simp only [exec]
  by_cases hed : e = d
  · subst hed
    by_cases hk : s.pc e = cpos k
    · have : o = .copy k := by
        have := at_cpos k; rw [← hk, ho] at this; exact Option.some.inj this
      subst this
      simp only [true_and, Sys.guard, if_true]
      by_cases hg : S.shared e k.to = true
      · simp [hg, hk]
      · simp [hg, hk, hi]
    · have : o ≠ .copy k := fun hc => hk (prog_copy (hc ▸ ho))
      simp only [this, false_and, and_false, if_false, hi, if_true]
      have : cpos k < s.pc e ↔ cpos k < s.pc e + 1 := by omega
      rw [this]
  · simp [hed, hi]

theorem exec_got (h : Inv S s) {d : D} {o : Op} (ho : prog[s.pc d]? = some o) (e : D) (k : Msg) :
    (exec S s d o).got e k = if S.shared e k.from = true ∧ upos k < (exec S s d o).pc e then some (S.pay (S.nb e k.from) k) else none := by
  have hi := h.got e k
  rw [exec_pc]
  simp only [exec]
  by_cases hed : e = d
  · subst hed
    by_cases hk : s.pc e = upos k
    · have : o = .unpack k := by
        have := at_upos k; rw [← hk, ho] at this; exact Option.some.inj this
      subst this
      simp only [true_and, Sys.guard, if_true]
      by_cases hg : S.shared e k.from = true
      · have hd := h.fin e k (by omega) hg
        have hmem : s.mem e (inB k) = S.pay (S.nb e k.from) k := by
          cases k
          · refine h.inN e hg hd ?_
            by_contra hc
            simp only [Bool.not_eq_false] at hc
            have h1 := ((h.iss _ _).1 (h.din _ _ hc)).2
            have h2 := h.b9 (S.lft e) e (by simp only [cpos] at h1; omega)
            simp only [upos] at hk; omega
          · refine h.inR e hg hd ?_
            by_contra hc
            simp only [Bool.not_eq_false] at hc
            have h1 := ((h.iss _ _).1 (h.din _ _ hc)).2
            have h2 := h.b15 (S.lft e) e (by simp only [cpos] at h1; omega)
            simp only [upos] at hk; omega
          · exact h.inN' e hd
          · exact h.inR' e hd
        simp [hg, hk, hmem]
      · simp [hg, hi]
    · have : o ≠ .unpack k := fun hc => hk (prog_unpack (hc ▸ ho))
      simp only [this, false_and, and_false, if_false, hi, if_true]
      have : upos k < s.pc e ↔ upos k < s.pc e + 1 := by omega
      simp only [this]
  · simp [hed, hi]

theorem exec_mem (h : prog[s.pc d]? = some o) (e : D) (b : Buf) (hb : ∀ k, e = d → s.pc d = ppos k → S.shared d k.to = true → b ≠ outB k) :
    (exec S s d o).mem e b = s.mem e b := by
  simp only [exec]
  cases o <;> try rfl
  rename_i k
  have := prog_pack h
  simp only
  rw [if_neg]
  rintro ⟨h1, h2, h3⟩
  exact hb k h1 this h2 h3

theorem exec_mem_self {d : D} {k : Msg} (h : prog[s.pc d]? = some o) (hk : s.pc d = ppos k) (hg : S.shared d k.to = true) :
    (exec S s d o).mem d (outB k) = S.pay d k := by
  have : o = .pack k := by
    have := at_ppos k; rw [← hk, h] at this; exact Option.some.inj this
  subst this
  simp [exec, hg]

theorem inv_exec (h : Inv S s) (hS : S.Ok) {d : D} {o : Op} (ho : prog[s.pc d]? = some o) (hr : s.ready S d o) : Inv S (exec S s d o) where
  le e := by
    have := prog_lt ho
    have := h.le e
    rw [exec_pc]; split
    · subst_vars; omega
    · omega
  bar B hB e f hlt := by
    have h1 := h.bar B hB e f
    have h2 := exec_pc_ge (S := S) (s := s) d f o
    rw [exec_pc] at hlt
    split at hlt
    · subst_vars
      by_cases hc : B < s.pc e
      · exact (h1 hc).trans h2
      · have : s.pc e = B := by omega
        rw [this, hB] at ho
        have ho := Option.some.inj ho
        subst ho
        have := hr f
        omega
    · exact (h1 hlt).trans h2
  iss := exec_issued h ho
  din e k hd := by
    have := h.din e k hd
    simp only [exec]
    split <;> simp_all
  cap e k hp hs := by
    have hcap := h.cap e k
    rw [exec_pc] at hp
    by_cases hed : e = d
    · subst hed
      simp only [if_true] at hp
      have hpc : s.pc e = upos k - 2 := by cases k <;> simp only [upos] at hp ⊢ <;> omega
      have : o = .call k.from := by
        have := at_call k; rw [← hpc, ho] at this; exact Option.some.inj this
      subst this
      simp only [exec, hs, and_self, if_true]
      rw [h.iss]
      refine ⟨?_, ?_⟩
      · rw [hS.shared_from]; exact hs
      · cases k <;> simp only [upos, cpos] at hpc ⊢
        · have := h.b3 e (S.nb e .rgt); simp only [Msg.from]; omega
        · have := h.b9 e (S.nb e .rgt); simp only [Msg.from]; omega
        · have := h.b15 e (S.nb e .lft); simp only [Msg.from]; omega
        · have := h.b21 e (S.nb e .lft); simp only [Msg.from]; omega
    · rw [if_neg hed] at hp
      have := hcap hp hs
      simp only [exec]
      cases o <;> simp_all
  capi e k j hp hs hj := by
    have hcap := h.capi e k j
    rw [exec_pc] at hp
    have hmono : ∀ f, s.issued f j = true → (exec S s d o).issued f j = true := by
      intro f hf; simp only [exec]; split <;> simp_all
    apply hmono
    by_cases hed : e = d
    · subst hed
      simp only [if_true] at hp
      have hpc : s.pc e = upos k - 2 := by cases k <;> simp only [upos] at hp ⊢ <;> omega
      have : o = .call k.from := by
        have := at_call k; rw [← hpc, ho] at this; exact Option.some.inj this
      subst this
      simpa only [exec, hs, and_self, if_true] using hj
    · rw [if_neg hed] at hp
      refine hcap hp hs ?_
      simp only [exec] at hj
      cases o <;> simp_all
  fin e k hp hs := by
    rw [exec_pc] at hp
    show s.done _ k = true
    by_cases hed : e = d
    · subst hed
      simp only [if_true] at hp
      by_cases hc : upos k ≤ s.pc e
      · exact h.fin e k hc hs
      · have hpc : s.pc e = upos k - 1 := by cases k <;> simp only [upos] at hp hc ⊢ <;> omega
        have : o = .ret k.from := by
          have := at_ret k; rw [← hpc, ho] at this; exact Option.some.inj this
        subst this
        exact hr hs k (h.cap e k hpc hs)
    · rw [if_neg hed] at hp
      exact h.fin e k hp hs
  outL e k hl hs h1 h2 := by
    have hi := h.outL e k hl hs
    rw [exec_pc] at h1 h2
    by_cases hed : e = d
    · subst hed
      simp only [if_true] at h1 h2
      by_cases hk : s.pc e = ppos k
      · exact exec_mem_self ho hk hs
      · rw [exec_mem ho]
        · exact hi (by omega) (by omega)
        · intro j _ hj _ hb
          cases k <;> cases j <;> simp_all [outB, ppos, Msg.to]
    · rw [if_neg hed] at h1 h2
      rw [exec_mem ho]
      · exact hi h1 h2
      · intro j hj; exact absurd hj hed
  outR e k hl hs h1 := by
    have hi := h.outR e k hl hs
    rw [exec_pc] at h1
    by_cases hed : e = d
    · subst hed
      simp only [if_true] at h1
      by_cases hk : s.pc e = ppos k
      · exact exec_mem_self ho hk hs
      · rw [exec_mem ho]
        · exact hi (by omega)
        · intro j _ hj _ hb
          cases k <;> cases j <;> simp_all [outB, ppos, Msg.to]
    · rw [if_neg hed] at h1
      rw [exec_mem ho]
      · exact hi h1
      · intro j hj; exact absurd hj hed
  inN e hs h1 h2 := by
    rw [exec_mem ho]
    · exact h.inN e hs h1 h2
    · intro k _ _ _; cases k <;> simp [outB]
  inN' e h1 := by
    rw [exec_mem ho]
    · exact h.inN' e h1
    · intro k _ _ _; cases k <;> simp [outB]
  inR e hs h1 h2 := by
    rw [exec_mem ho]
    · exact h.inR e hs h1 h2
    · intro k _ _ _; cases k <;> simp [outB]
  inR' e h1 := by
    rw [exec_mem ho]
    · exact h.inR' e h1
    · intro k _ _ _; cases k <;> simp [outB]
  got := exec_got h ho

theorem inv_finish (h : Inv S s) (hS : S.Ok) {d : D} {k : Msg} (hp : s.pending d k) : Inv S (finish S s d k) := by
  obtain ⟨hs, hc, hu⟩ := h.pend hS hp
  have hout : s.mem d (outB k) = S.pay d k := by
    cases k
    · refine h.outL d .nL rfl hs (by simp only [cpos, ppos] at *; omega) ?_
      have := h.b9 d (S.nb d .lft)
      simp only [ppos, Msg.to, upos, if_true] at *; omega
    · refine h.outL d .rL rfl hs (by simp only [cpos, ppos] at *; omega) ?_
      have := h.b15 d (S.nb d .lft)
      simp only [ppos, Msg.to, upos] at *
      simp; omega
    · exact h.outR d .nR rfl hs (by simp only [cpos, ppos] at *; omega)
    · exact h.outR d .rR rfl hs (by simp only [cpos, ppos] at *; omega)
  have hmo : ∀ e j, (finish S s d k).mem e (outB j) = s.mem e (outB j) := by
    intro e j
    simp only [finish]
    rw [if_neg]
    rintro ⟨_, hb⟩
    cases j <;> cases k <;> simp [outB, inB] at hb
  have hmi : (finish S s d k).mem (S.dst d k) (inB k) = S.pay d k := by simp [finish, hout]
  have hmn : ∀ e b, ¬ (e = S.dst d k ∧ b = inB k) → (finish S s d k).mem e b = s.mem e b := by
    intro e b hn; simp only [finish]; rw [if_neg hn]
  have hdn : ∀ e j, (finish S s d k).done e j = if e = d ∧ j = k then true else s.done e j := fun _ _ => rfl
  have hl : ∀ e, S.rgt e = d → e = S.lft d := fun e he => by rw [← he, hS.lr]
  have hr : ∀ e, S.lft e = d → e = S.rgt d := fun e he => by rw [← he, hS.rl]
  refine ⟨h.le, h.bar, h.iss, ?_, h.cap, h.capi, ?_, ?_, ?_, ?_, ?_, ?_, ?_, h.got⟩
  · intro e j hd
    rw [hdn] at hd
    split at hd
    · rename_i hx; rw [hx.1, hx.2]; exact hp.1
    · exact h.din e j hd
  · intro e j h1 h2
    rw [hdn]; split
    · rfl
    · exact h.fin e j h1 h2
  · intro e j h1 h2 h3 h4; rw [hmo]; exact h.outL e j h1 h2 h3 h4
  · intro e j h1 h2 h3; rw [hmo]; exact h.outR e j h1 h2 h3
  · intro e h1 h2 h3
    rw [hdn] at h2 h3
    by_cases hk : S.rgt e = d ∧ Msg.nL = k
    · obtain ⟨he, rfl⟩ := hk
      have := hl e he; subst this
      rw [he]; exact hmi
    · rw [if_neg hk] at h2
      split at h3
      · simp at h3
      · rename_i h4
        rw [hmn]
        · exact h.inN e h1 h2 h3
        · rintro ⟨h5, h6⟩
          cases k <;> simp [inB] at h6 <;> simp [Sys.dst, Sys.nb, Msg.to] at h5 <;> subst h5 <;> simp_all [hS.lr, hS.rl]
  · intro e h1
    rw [hdn] at h1
    by_cases hk : S.lft e = d ∧ Msg.nR = k
    · obtain ⟨he, rfl⟩ := hk
      have := hr e he; subst this
      rw [he]; exact hmi
    · rw [if_neg hk] at h1
      rw [hmn]
      · exact h.inN' e h1
      · rintro ⟨h5, h6⟩
        have h7 := ((h.iss _ _).1 (h.din _ _ h1)).2
        have h8 := h.b9 (S.lft e) e
        cases k <;> simp [inB] at h6 <;> simp [Sys.dst, Sys.nb, Msg.to] at h5 <;> subst h5
        · simp only [cpos, upos, Sys.nb, Msg.to] at h7 hu; omega
        · simp [hS.lr] at hk
  · intro e h1 h2 h3
    rw [hdn] at h2 h3
    by_cases hk : S.rgt e = d ∧ Msg.rL = k
    · obtain ⟨he, rfl⟩ := hk
      have := hl e he; subst this
      rw [he]; exact hmi
    · rw [if_neg hk] at h2
      split at h3
      · simp at h3
      · rename_i h4
        rw [hmn]
        · exact h.inR e h1 h2 h3
        · rintro ⟨h5, h6⟩
          cases k <;> simp [inB] at h6 <;> simp [Sys.dst, Sys.nb, Msg.to] at h5 <;> subst h5 <;> simp_all [hS.lr, hS.rl]
  · intro e h1
    rw [hdn] at h1
    by_cases hk : S.lft e = d ∧ Msg.rR = k
    · obtain ⟨he, rfl⟩ := hk
      have := hr e he; subst this
      rw [he]; exact hmi
    · rw [if_neg hk] at h1
      rw [hmn]
      · exact h.inR' e h1
      · rintro ⟨h5, h6⟩
        have h7 := ((h.iss _ _).1 (h.din _ _ h1)).2
        have h8 := h.b15 (S.lft e) e
        cases k <;> simp [inB] at h6 <;> simp [Sys.dst, Sys.nb, Msg.to] at h5 <;> subst h5
        · simp only [cpos, upos, Sys.nb, Msg.to] at h7 hu; omega
        · simp [hS.lr] at hk

theorem inv_step (h : Inv S s) (hS : S.Ok) {s' : St D V} (hst : Step S s s') : Inv S s' := by
  cases hst with
  | thread d o ho hr => exact inv_exec h hS ho hr
  | copy d k hp _ => exact inv_finish h hS hp

theorem inv_reach (hS : S.Ok) (h : Reach S s) : Inv S s := by
  obtain ⟨mem, h⟩ := h
  induction h with
  | refl => exact inv_init S mem
  | tail _ h2 ih => exact inv_step ih hS h2

end LCP.MultiGpu
