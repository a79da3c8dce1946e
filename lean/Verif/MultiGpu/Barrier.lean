import Mathlib.Data.Nat.Notation
import Mathlib.Logic.Relation
import Mathlib.Data.Fintype.Card
import Mathlib.Data.Finset.Card
import Mathlib.Tactic.NormNum
import Mathlib.Data.Fintype.Fin

/-!
# C93: the thread barrier

Source: src/detail/gpu_assert.hpp:100-135 (`barrier_t`), used in src/particles_multi_gpu_step.ipp:74 with as many threads as devices.

Every thread may call `wait` any number of times; the scheduler is arbitrary and spurious wake-ups of the condition variable are allowed.
The mutex makes the body of `wait` atomic up to `m_cond.wait`, which releases the mutex and puts the thread to sleep in one step.
-/
namespace LCP.Barrier

/-- where a thread is with respect to the barrier: outside `wait`; asleep in `m_cond.wait`, or awake and about to check the condition of the
loop, with the local `unsigned int gen` -/
inductive Phase
  | out
  | sleep (gen : ℕ)
  | awake (gen : ℕ)
deriving DecidableEq

/-- the members of `barrier_t` (gpu_assert.hpp:102-105), the phase of each thread and, as history, how many times each thread has called
`wait` and how many times `wait` has returned to it.
Simplification: `m_generation` (a `size_t`) does not wrap -/
structure St (T : Type) where
  gen : ℕ
  count : ℕ
  phase : T → Phase
  entered : T → ℕ
  left : T → ℕ

/-- the constructor (gpu_assert.hpp:109-113) -/
def init (T : Type) (n : ℕ) : St T := ⟨0, n, fun _ => .out, fun _ => 0, fun _ => 0⟩

/-- `unsigned int gen = m_generation` (gpu_assert.hpp:118) -/
def trunc (g : ℕ) : ℕ := g % 2 ^ 32

/-- `m_cond.notify_all()` (gpu_assert.hpp:124) -/
def Phase.notify : Phase → Phase
  | .sleep g => .awake g
  | p => p

/-- a call of `wait` up to its return or to `m_cond.wait` (gpu_assert.hpp:117-130); `n` is `m_threshold` -/
def enter {T : Type} [DecidableEq T] (n : ℕ) (s : St T) (t : T) : St T :=
  if s.count - 1 = 0 then
    { gen := s.gen + 1
      count := n
      phase := fun e => if e = t then .out else (s.phase e).notify
      entered := fun e => if e = t then s.entered e + 1 else s.entered e
      left := fun e => if e = t then s.left e + 1 else s.left e }
  else if trunc s.gen = s.gen then
    { gen := s.gen
      count := s.count - 1
      phase := fun e => if e = t then .sleep (trunc s.gen) else s.phase e
      entered := fun e => if e = t then s.entered e + 1 else s.entered e
      left := s.left }
  else
    { gen := s.gen
      count := s.count - 1
      phase := s.phase
      entered := fun e => if e = t then s.entered e + 1 else s.entered e
      left := fun e => if e = t then s.left e + 1 else s.left e }

/-- the condition of the loop after a wake-up (gpu_assert.hpp:129-131) -/
def check {T : Type} [DecidableEq T] (s : St T) (t : T) (g : ℕ) : St T :=
  if g = s.gen then { s with phase := fun e => if e = t then .sleep g else s.phase e }
  else { s with phase := fun e => if e = t then .out else s.phase e, left := fun e => if e = t then s.left e + 1 else s.left e }

/-- one step of some thread -/
inductive Step {T : Type} [DecidableEq T] (n : ℕ) : St T → St T → Prop
  /-- a thread calls `wait` -/
  | enter (s : St T) (t : T) (h : s.phase t = .out) : Step n s (enter n s t)
  /-- spurious wake-up -/
  | spurious (s : St T) (t : T) (g : ℕ) (h : s.phase t = .sleep g) :
      Step n s { s with phase := fun e => if e = t then .awake g else s.phase e }
  /-- a thread that was woken up goes on -/
  | check (s : St T) (t : T) (g : ℕ) (h : s.phase t = .awake g) : Step n s (check s t g)

/-- reachable states -/
def Reach {T : Type} [DecidableEq T] (n : ℕ) (s : St T) : Prop := Relation.ReflTransGen (Step n) (init T n) s

/-! ### Invariant -/

variable {T : Type} [DecidableEq T] [Fintype T]

/-- what is known about one thread -/
def ThreadOk (s : St T) (t : T) : Prop :=
  (s.phase t = .out ∧ s.entered t = s.gen ∧ s.left t = s.gen) ∨
  ((s.phase t = .sleep s.gen ∨ s.phase t = .awake s.gen) ∧ s.entered t = s.gen + 1 ∧ s.left t = s.gen) ∨
  (∃ g, s.phase t = .awake g ∧ g + 1 = s.gen ∧ s.entered t = s.gen ∧ s.left t + 1 = s.gen)

structure Inv (n : ℕ) (s : St T) : Prop where
  thr : ∀ t, ThreadOk s t
  cnt : s.count + (Finset.univ.filter fun t => s.entered t = s.gen + 1).card = n
  pos : 1 ≤ s.count

omit [Fintype T] in
theorem gen_mono {n : ℕ} {s s' : St T} (h : Step n s s') : s.gen ≤ s'.gen := by
  cases h with
  | enter t _ => unfold enter; split_ifs <;> simp
  | spurious t g _ => simp
  | check t g _ => unfold check; split_ifs <;> simp

theorem inv_step {n : ℕ} (hn : n = Fintype.card T) {s s' : St T} (hi : Inv n s) (h : Step n s s') (hg : s'.gen < 2 ^ 32) : Inv n s' := by
  have hg0 := lt_of_le_of_lt (gen_mono h) hg
  cases h with
  | enter t ht =>
    have htr : trunc s.gen = s.gen := Nat.mod_eq_of_lt hg0
    have htt : s.entered t = s.gen ∧ s.left t = s.gen := by
      rcases hi.thr t with h | h | ⟨g, h, _⟩
      · exact h.2
      · rcases h.1 with h | h <;> rw [ht] at h <;> cases h
      · rw [ht] at h; cases h
    have hc := hi.cnt; have hp := hi.pos
    have hsub : (Finset.univ.filter fun e => s.entered e = s.gen + 1) ⊆ Finset.univ.erase t := by
      intro e he
      rw [Finset.mem_erase]
      refine ⟨?_, Finset.mem_univ _⟩
      rintro rfl
      have := (Finset.mem_filter.1 he).2
      omega
    unfold enter at hg ⊢
    by_cases h1 : s.count - 1 = 0
    · rw [if_pos h1]
      have hall : ∀ e, e ≠ t → s.entered e = s.gen + 1 := by
        have hcard : (Finset.univ.erase t).card ≤ (Finset.univ.filter fun e => s.entered e = s.gen + 1).card := by
          rw [Finset.card_erase_of_mem (Finset.mem_univ _), Finset.card_univ]; omega
        have := Finset.eq_of_subset_of_card_le hsub hcard
        intro e he
        have : e ∈ Finset.univ.filter fun e => s.entered e = s.gen + 1 := by
          rw [this]; exact Finset.mem_erase.2 ⟨he, Finset.mem_univ _⟩
        exact (Finset.mem_filter.1 this).2
      refine ⟨?_, ?_, ?_⟩
      · intro e
        unfold ThreadOk
        by_cases he : e = t
        · subst he; simp [htt]
        · have h2 := hall e he
          right; right
          rcases hi.thr e with h | h | ⟨g, h, h3, h4, h5⟩
          · omega
          · refine ⟨s.gen, ?_, rfl, ?_, ?_⟩ <;> simp only [he, if_false]
            · rcases h.1 with h | h <;> rw [h] <;> rfl
            · exact h2
            · omega
          · omega
      · have : (Finset.univ.filter fun e => (if e = t then s.entered e + 1 else s.entered e) = s.gen + 1 + 1) = ∅ := by
          rw [Finset.filter_eq_empty_iff]
          intro e _
          by_cases he : e = t
          · subst he; simp [htt]
          · have := hall e he; simp [he, this]
        simp [this]
      · have : 0 < Fintype.card T := Fintype.card_pos_iff.2 ⟨t⟩
        simp only []; omega
    · rw [if_neg h1, if_pos htr]
      refine ⟨?_, ?_, ?_⟩
      · intro e
        unfold ThreadOk
        by_cases he : e = t
        · subst he; right; left; simp [htt, htr]
        · have := hi.thr e
          unfold ThreadOk at this
          simpa [he] using this
      · have : (Finset.univ.filter fun e => (if e = t then s.entered e + 1 else s.entered e) = s.gen + 1)
            = insert t (Finset.univ.filter fun e => s.entered e = s.gen + 1) := by
          ext e
          by_cases he : e = t
          · subst he; simp [htt]
          · simp [he]
        simp only [this]
        rw [Finset.card_insert_of_notMem (by simp [htt])]
        omega
      · simp only []; omega
  | spurious t g ht =>
    refine ⟨?_, hi.cnt, hi.pos⟩
    intro e
    unfold ThreadOk
    have := hi.thr e
    unfold ThreadOk at this
    by_cases he : e = t
    · subst he
      rcases this with h | h | ⟨g', h, _⟩
      · rw [ht] at h; cases h.1
      · right; left
        rw [ht] at h
        simpa using h
      · rw [ht] at h; cases h
    · simpa [he] using this
  | check t g ht =>
    have hthr : ∀ e, ThreadOk s e := hi.thr
    have h' := hthr t
    unfold check
    by_cases hgg : g = s.gen
    · rw [if_pos hgg]
      refine ⟨?_, hi.cnt, hi.pos⟩
      intro e
      have := hthr e
      unfold ThreadOk at this ⊢
      by_cases he : e = t
      · subst he
        rcases this with h | h | ⟨g', h, h3, _⟩
        · rw [ht] at h; cases h.1
        · right; left; simpa [hgg] using h.2
        · rw [ht] at h; cases h; omega
      · simpa [he] using this
    · rw [if_neg hgg]
      refine ⟨?_, hi.cnt, hi.pos⟩
      intro e
      have := hthr e
      unfold ThreadOk at this ⊢
      by_cases he : e = t
      · subst he
        rcases this with h | h | ⟨g', h, h3, h4, h5⟩
        · rw [ht] at h; cases h.1
        · rw [ht] at h; rcases h.1 with h | h <;> cases h; exact absurd rfl hgg
        · left; simp [h4, h5]
      · simpa [he] using this

theorem inv_reach {n : ℕ} (hn : n = Fintype.card T) (hn0 : 0 < n) {s : St T} (h : Reach n s) (hg : s.gen < 2 ^ 32) : Inv n s := by
  induction h with
  | refl =>
    refine ⟨fun t => Or.inl ⟨rfl, rfl, rfl⟩, ?_, hn0⟩
    simp [init]
  | tail h1 h2 ih => exact inv_step hn (ih (lt_of_le_of_lt (gen_mono h2) hg)) h2 hg

/-! ### Properties -/

/-- A barrier made for as many threads as there are, during its first 2^32 generations: when `wait` has returned to some thread for the
`r`-th time, every thread has called `wait` at least `r` times.  For every number of threads and every schedule. -/
theorem barrier_safe {n : ℕ} (hn : n = Fintype.card T) (hn0 : 0 < n) {s : St T} (h : Reach n s) (hg : s.gen < 2 ^ 32) (r : ℕ) (t e : T)
    (ht : r ≤ s.left t) : r ≤ s.entered e := by
  have hi := inv_reach hn hn0 h hg
  have h1 : s.left t ≤ s.gen := by rcases hi.thr t with h | h | ⟨g, h, _⟩ <;> omega
  have h2 : s.gen ≤ s.entered e := by rcases hi.thr e with h | h | ⟨g, h, _⟩ <;> omega
  omega

/-- No wake-up is lost: when every thread has called `wait` at least `r` times, each thread to which `wait` has not yet returned for the
`r`-th time is awake, and its next step is to return from that call. -/
theorem barrier_live {n : ℕ} (hn : n = Fintype.card T) (hn0 : 0 < n) {s : St T} (h : Reach n s) (hg : s.gen < 2 ^ 32) (r : ℕ)
    (hr : ∀ e, r ≤ s.entered e) (t : T) : r ≤ s.left t ∨ ∃ g, s.phase t = .awake g ∧ r ≤ (check s t g).left t ∧ (check s t g).phase t = .out := by
  have hi := inv_reach hn hn0 h hg
  have hrg : r ≤ s.gen := by
    by_contra hc
    have hall : (Finset.univ.filter fun e => s.entered e = s.gen + 1) = Finset.univ := by
      rw [Finset.filter_true_of_mem]
      intro e _
      have h1 := hr e
      rcases hi.thr e with h | h | ⟨g, h, _⟩ <;> omega
    have := hi.cnt
    rw [hall, Finset.card_univ] at this
    have := hi.pos
    omega
  rcases hi.thr t with h | h | ⟨g, h1, h2, h3, h4⟩
  · left; omega
  · left; omega
  · right
    refine ⟨g, h1, ?_⟩
    have : g ≠ s.gen := by omega
    unfold check
    rw [if_neg this]
    simp; omega

/-- a thread is inside `wait` for at most one call, and it is never more than one call ahead of what was returned to it -/
theorem barrier_one_call {n : ℕ} (hn : n = Fintype.card T) (hn0 : 0 < n) {s : St T} (h : Reach n s) (hg : s.gen < 2 ^ 32) (t : T) :
    s.entered t = s.left t + (if s.phase t = .out then 0 else 1) := by
  rcases (inv_reach hn hn0 h hg).thr t with h | h | ⟨g, h, _⟩
  · simp [h]
  · rcases h with ⟨h | h, h2, h3⟩ <;> simp [h, h2, h3]
  · simp [h]; omega

/-! ### After 2^32 generations -/

/-- both threads of two outside, `G` generations over -/
def idle (G : ℕ) : St Bool := ⟨G, 2, fun _ => .out, fun _ => G, fun _ => G⟩

theorem idle_reach (G : ℕ) (hG : G ≤ 2 ^ 32) : Reach 2 (idle G) := by
  induction G with
  | zero => exact .refl
  | succ G ih =>
    have htr : trunc G = G := Nat.mod_eq_of_lt (by omega)
    have h0 := ih (by omega)
    have h1 : Step 2 (idle G) (enter 2 (idle G) false) := .enter _ _ rfl
    have h2 : Step 2 (enter 2 (idle G) false) (enter 2 (enter 2 (idle G) false) true) := .enter _ _ (by simp [enter, idle, htr])
    have e2 : enter 2 (enter 2 (idle G) false) true
        = ⟨G + 1, 2, fun e => if e = true then .out else .awake G, fun _ => G + 1, fun e => if e = true then G + 1 else G⟩ := by
      simp only [enter, idle, htr]
      norm_num
      refine ⟨?_, ?_⟩ <;> funext e <;> cases e <;> simp [Phase.notify]
    rw [e2] at h2
    have h3 : Step 2 (⟨G + 1, 2, fun e => if e = true then .out else .awake G, fun _ => G + 1, fun e => if e = true then G + 1 else G⟩ : St Bool)
        (idle (G + 1)) := by
      have := Step.check (n := 2) (⟨G + 1, 2, fun e => if e = true then .out else .awake G, fun _ => G + 1,
        fun e => if e = true then G + 1 else G⟩ : St Bool) false G rfl
      have e3 : check (⟨G + 1, 2, fun e => if e = true then .out else .awake G, fun _ => G + 1,
          fun e => if e = true then G + 1 else G⟩ : St Bool) false G = idle (G + 1) := by
        simp only [check, idle]
        norm_num
        refine ⟨?_, ?_⟩ <;> funext e <;> cases e <;> simp
      rwa [e3] at this
    exact ((h0.tail h1).tail h2).tail h3

/-- The bound on the generations is needed: the local copy of the generation is an `unsigned int`, so in generation 2^32 `wait` returns to
a thread although the other one has not called it. -/
theorem barrier_broken_after_2_32 : ∃ s : St Bool, Reach 2 s ∧ 2 ^ 32 + 1 ≤ s.left false ∧ s.entered true < 2 ^ 32 + 1 := by
  refine ⟨enter 2 (idle (2 ^ 32)) false, (idle_reach _ le_rfl).tail (.enter _ _ rfl), ?_, ?_⟩ <;> simp [enter, idle, trunc]

/-- non-vacuity: two threads, five rounds (as in one exchange): the state after them is reachable -/
example : Reach 2 (idle 5) ∧ (idle 5).gen < 2 ^ 32 ∧ 2 = Fintype.card Bool := ⟨idle_reach 5 (by norm_num), by norm_num [idle], by simp⟩

end LCP.Barrier
