import Verif.MultiGpu.Invariant
import Mathlib.Algebra.BigOperators.Group.Finset.Basic
import Mathlib.Algebra.Order.BigOperators.Group.Finset
import Mathlib.Data.Fintype.Pi
import Mathlib.Data.Fin.Basic
import Mathlib.Data.Finset.Max

/-!
# C92: exchange between GPUs under every interleaving of the threads and of the copies
-/
namespace LCP.MultiGpu
open Relation

variable {D V : Type} [DecidableEq D]

/-! ### The devices of one node -/

/-- `lft_dev`, `rgt_dev` (step_async_and_copy.ipp:61-62), `bcond` (particles_ctor.ipp:53-57, particles_multi_gpu_impl.ipp:158-176);
`outer`: no MPI and no open side walls, so that the first and the last device are neighbours -/
def ring (n : ℕ) (outer : Bool) (pay : Fin n → Msg → V) (grow : Fin n → Bool) : Sys (Fin n) V where
  lft d := if h : 0 < d.1 then ⟨d.1 - 1, by omega⟩ else ⟨n - 1, by have := d.2; omega⟩
  rgt d := if h : d.1 < n - 1 then ⟨d.1 + 1, by omega⟩ else ⟨0, by have := d.2; omega⟩
  first d := if d.1 = 0 then outer else true
  second d := if d.1 = 0 then true else if d.1 = n - 1 then outer else true
  pay := pay
  grow := grow

/-- with at least two devices the neighbour relation is a ring and every boundary is treated in the same way by both devices -/
theorem ring_ok (n : ℕ) (hn : 2 ≤ n) (outer : Bool) (pay : Fin n → Msg → V) (grow : Fin n → Bool) : (ring n outer pay grow).Ok where
  lr d := by
    have := d.2
    apply Fin.ext
    simp only [ring]
    split_ifs with h1 h2 h2 <;> simp only [Nat.lt_irrefl] at h2 ⊢ <;> simp_all <;> omega
  rl d := by
    have := d.2
    apply Fin.ext
    simp only [ring]
    split_ifs with h1 h2 h2 <;> simp only [Nat.lt_irrefl] at h2 ⊢ <;> simp_all <;> omega
  cons d := by
    have := d.2
    simp only [ring]
    split_ifs <;> simp_all <;> omega

theorem prog_ret {i : ℕ} {t : Side} (h : prog[i]? = some (.ret t)) : ∃ k : Msg, i = upos k - 1 ∧ k.from = t := by
  have := prog_lt h
  interval_cases i <;> simp [prog] at h
  · exact ⟨.nL, rfl, h⟩
  · exact ⟨.rL, rfl, h⟩
  · exact ⟨.nR, rfl, h⟩
  · exact ⟨.rR, rfl, h⟩

/-! ### No data race -/

/-- If no device has to enlarge its buffers in this step, then in every reachable state no thread is about to touch a
buffer that a copy under way uses. -/
theorem exchange_no_race_partial (S : Sys D V) (hS : S.Ok) (hg : ∀ d, S.grow d = false) (s : St D V) (h : Reach S s) : ¬ Race S s := by
  have hi := inv_reach hS h
  rintro ⟨d, o, ho, hr, c, k, hp, e, b, hx⟩
  obtain ⟨hs, hc, hu⟩ := hi.pend hS hp
  have i3 := hi.b3 c d
  have b9 := hi.b9 d (S.nb c k.to)
  have b9' := hi.b9 c (S.nb c k.to)
  have b15 := hi.b15 d (S.nb c k.to)
  have b15' := hi.b15 c (S.nb c k.to)
  have i9 := hi.b9 c d
  have i15 := hi.b15 c d
  have i21 := hi.b21 c d
  have bl := hS.lr; have br := hS.rl
  have inj : ∀ x y, S.lft x = S.lft y → x = y := fun x y h => by rw [← br x, h, br]
  have inj' : ∀ x y, S.rgt x = S.rgt y → x = y := fun x y h => by rw [← bl x, h, bl]
  cases o with
  | stepAsync => simp [Sys.writes, Sys.reads, Sys.guard, hg] at hx
  | barrier => simp [Sys.writes, Sys.reads] at hx
  | call t => simp [Sys.writes, Sys.reads] at hx
  | ret t => simp [Sys.writes, Sys.reads] at hx
  | destroy => simp [Sys.writes, Sys.reads] at hx
  | pack j =>
    have hj := prog_pack ho
    simp only [Sys.writes, Sys.reads, and_false, false_and, or_false] at hx
    obtain ⟨⟨_, rfl, rfl⟩, hx⟩ := hx
    rcases hx with ⟨rfl, hb⟩ | ⟨_, hb⟩
    · cases j <;> cases k <;> simp [outB, cpos, upos, ppos, Msg.to] at * <;> omega
    · cases j <;> cases k <;> simp [outB, inB] at hb
  | unpack j =>
    have hj := prog_unpack ho
    simp only [Sys.writes, Sys.reads, and_false, false_and, false_or] at hx
    obtain ⟨⟨_, rfl, rfl⟩, he, hb⟩ := hx
    cases j <;> cases k <;> simp [inB, cpos, upos, Msg.to, Sys.dst] at * <;> subst he <;> omega
  | copy j =>
    have hj := prog_copy ho
    simp only [Sys.writes, Sys.reads] at hx
    rcases hx with ⟨⟨_, rfl, rfl⟩, ⟨_, hb⟩ | ⟨he, hb⟩⟩ | ⟨⟨_, rfl, rfl⟩, he, hb⟩
    · cases j <;> cases k <;> simp [outB, inB] at hb
    · cases j <;> cases k <;> simp [inB] at hb <;> simp [cpos, upos, Msg.to, Sys.dst, Sys.nb] at *
      all_goals first
        | (have := inj _ _ he; subst this; omega)
        | (have := inj' _ _ he; subst this; omega)
        | omega
    · cases j <;> cases k <;> simp [outB, inB] at hb

/-! ### Delivery -/

/-- Whatever the interleaving, when the exchange is over each device has unpacked exactly what its neighbours packed for it (and nothing
over a boundary that is not shared with a device), and no copy is under way.  As for the absence of races, for steps in which no device
enlarges its buffers; the full statement, with enlarging, is false (`exchange_race_on_growth`). -/
theorem exchange_delivers_partial (S : Sys D V) (hS : S.Ok) (_hg : ∀ d, S.grow d = false) (s : St D V) (h : Reach S s) (hfin : ∀ d, prog.length ≤ s.pc d) (d : D) :
    s.got d .nL = (if S.second d = true then some (S.pay (S.rgt d) .nL) else none) ∧
    s.got d .rL = (if S.second d = true then some (S.pay (S.rgt d) .rL) else none) ∧
    s.got d .nR = (if S.first d = true then some (S.pay (S.lft d) .nR) else none) ∧
    s.got d .rR = (if S.first d = true then some (S.pay (S.lft d) .rR) else none) ∧
    ∀ k, ¬ s.pending d k := by
  have hi := inv_reach hS h
  have hl : prog.length = 27 := rfl
  rw [hl] at hfin
  refine ⟨?_, ?_, ?_, ?_, ?_⟩
  · rw [hi.got]; have := hfin d; simp [upos, Sys.shared, Sys.nb, Msg.from, show 7 < s.pc d by omega]
  · rw [hi.got]; have := hfin d; simp [upos, Sys.shared, Sys.nb, Msg.from, show 13 < s.pc d by omega]
  · rw [hi.got]; have := hfin d; simp [upos, Sys.shared, Sys.nb, Msg.from, show 19 < s.pc d by omega]
  · rw [hi.got]; have := hfin d; simp [upos, Sys.shared, Sys.nb, Msg.from, show 24 < s.pc d by omega]
  · intro k hp
    have h1 := (hi.pend hS hp).2.2
    have h2 := hfin (S.nb d k.to)
    cases k <;> simp only [upos] at h1 <;> omega

/-! ### Progress -/

omit [DecidableEq D] in
/-- among the copies of a device under way there is a first one -/
theorem first_pending {s : St D V} {d : D} {k : Msg} (h : s.pending d k) :
    ∃ m, s.pending d m ∧ ∀ j, j.rank < m.rank → ¬ s.pending d j := by
  by_cases h0 : s.pending d .nL
  · exact ⟨.nL, h0, fun j hj => by cases j <;> simp [Msg.rank] at hj⟩
  by_cases h1 : s.pending d .rL
  · exact ⟨.rL, h1, fun j hj => by cases j <;> simp [Msg.rank] at hj; exact h0⟩
  by_cases h2 : s.pending d .nR
  · exact ⟨.nR, h2, fun j hj => by cases j <;> simp [Msg.rank] at hj <;> assumption⟩
  · cases k
    · exact absurd h h0
    · exact absurd h h1
    · exact absurd h h2
    · exact ⟨.rR, h, fun j hj => by cases j <;> simp [Msg.rank] at hj <;> assumption⟩

/-- The exchange cannot get stuck: unless all threads are through, one of them, or one of the copies under way, can go on. -/
theorem exchange_no_deadlock [Fintype D] (S : Sys D V) (hS : S.Ok) (s : St D V) (h : Reach S s)
    (hfin : ¬ ∀ d, prog.length ≤ s.pc d) : ∃ s', Step S s s' := by
  have hi := inv_reach hS h
  push Not at hfin
  obtain ⟨d0, hd0⟩ := hfin
  obtain ⟨d, -, hd⟩ := Finset.exists_min_image Finset.univ s.pc ⟨d0, Finset.mem_univ _⟩
  have hlt : s.pc d < 27 := lt_of_le_of_lt (hd d0 (Finset.mem_univ _)) hd0
  obtain ⟨o, ho⟩ := prog_at hlt
  by_cases hr : s.ready S d o
  · exact ⟨_, .thread s d o ho hr⟩
  · cases o <;> simp only [St.ready, not_true] at hr
    · exact absurd (fun e => hd e (Finset.mem_univ _)) hr
    · rename_i t
      -- a captured copy of the neighbour is under way: the first of those under way can finish
      push Not at hr
      obtain ⟨hs, k, hk, hd⟩ := hr
      have hiss : s.issued (S.nb d t) k = true := by
        obtain ⟨j, hj, hjt⟩ := prog_ret ho
        subst hjt
        exact hi.capi d j k hj hs hk
      have hp : s.pending (S.nb d t) k := ⟨hiss, by simpa using hd⟩
      obtain ⟨m, hm, hmin⟩ := first_pending hp
      exact ⟨_, .copy s (S.nb d t) m hm hmin⟩

/-- steps left: operations left to the threads and copies not finished -/
def left [Fintype D] (s : St D V) : ℕ :=
  ∑ d, (27 - s.pc d) + ∑ d, ((if s.done d .nL then 0 else 1) + (if s.done d .rL then 0 else 1) +
    (if s.done d .nR then 0 else 1) + (if s.done d .rR then 0 else 1))

theorem step_left [Fintype D] (S : Sys D V) {s s' : St D V} (h : Step S s s') : left s' < left s := by
  cases h with
  | thread d o ho hr =>
    have hlt := prog_lt ho
    unfold left
    apply Nat.add_lt_add_of_lt_of_le
    · apply Finset.sum_lt_sum
      · intro e _; have := exec_pc_ge (S := S) (s := s) d e o; omega
      · exact ⟨d, Finset.mem_univ _, by rw [exec_pc]; simp only [if_true]; omega⟩
    · exact le_refl _
  | copy d k hp _ =>
    unfold left
    apply Nat.add_lt_add_of_le_of_lt
    · exact le_refl _
    · apply Finset.sum_lt_sum
      · intro e _
        simp only [finish]
        refine Nat.add_le_add (Nat.add_le_add (Nat.add_le_add ?_ ?_) ?_) ?_ <;> split <;> simp_all <;> split <;> simp_all
      · refine ⟨d, Finset.mem_univ _, ?_⟩
        have h2 := hp.2
        cases k <;> simp [finish, h2] <;> omega

/-- The exchange takes at most 31 steps per device, whatever the interleaving: no execution goes on forever. -/
theorem exchange_terminates [Fintype D] (S : Sys D V) (mem : D → Buf → V) (s : ℕ → St D V) (h0 : s 0 = init mem) (n : ℕ)
    (hs : ∀ i < n, Step S (s i) (s (i + 1))) : n ≤ 31 * Fintype.card D := by
  have key : ∀ i ≤ n, left (s i) + i ≤ left (s 0) := by
    intro i
    induction i with
    | zero => intro _; simp
    | succ i ih =>
      intro hi
      have h1 := ih (by omega)
      have h2 := step_left S (hs i (by omega))
      omega
  have h1 := key n le_rfl
  have h2 : left (s 0) = 31 * Fintype.card D := by
    rw [h0]
    simp [left, init, Finset.card_univ]
    omega
  omega

/-- the exchange can be completed from every state it can reach -/
theorem exchange_completes [Fintype D] (S : Sys D V) (hS : S.Ok) (s : St D V) (h : Reach S s) :
    ∃ s', ReflTransGen (Step S) s s' ∧ ∀ d, prog.length ≤ s'.pc d := by
  induction hn : left s using Nat.strong_induction_on generalizing s with
  | _ n ih =>
    by_cases hf : ∀ d, prog.length ≤ s.pc d
    · exact ⟨s, .refl, hf⟩
    · obtain ⟨t, ht⟩ := exchange_no_deadlock S hS s h hf
      obtain ⟨mem, hm⟩ := h
      obtain ⟨u, hu, hfu⟩ := ih (left t) (hn ▸ step_left S ht) t ⟨mem, hm.tail ht⟩ rfl
      exact ⟨u, .head ht hu, hfu⟩

/-- non-vacuity: three devices in a periodic domain; a complete exchange exists, and after it device 0 has got what device 1 sent left and
device 2 sent right -/
example : ∃ s : St (Fin 3) ℕ, Reach (ring 3 true (fun d k => 10 * d.1 + k.rank) (fun _ => false)) s ∧
    (∀ d, prog.length ≤ s.pc d) ∧ s.got 0 .nL = some 10 ∧ s.got 0 .rR = some 23 := by
  obtain ⟨s, h1, h2⟩ := exchange_completes (ring 3 true (fun d k => 10 * d.1 + k.rank) (fun _ => false)) (ring_ok 3 (by omega) _ _ _)
    (init fun _ _ => 0) ⟨_, .refl⟩
  refine ⟨s, ⟨_, h1⟩, h2, ?_⟩
  have h3 := exchange_delivers_partial _ (ring_ok 3 (by omega) _ _ _) (fun _ => rfl) s ⟨_, h1⟩ h2 0
  exact ⟨h3.1.trans (by decide), h3.2.2.2.1.trans (by decide)⟩

/-! ### The race when a buffer has to be enlarged -/

/-- Nothing orders the resizing of the buffers by one device (inside its `step_async`) after the first copy into them by its neighbour:
with two devices, of which device 0 has to enlarge its buffers, there is an interleaving in which device 1 has already started copying into
`in_n_bfr` of device 0 when device 0 is about to reallocate it. -/
theorem exchange_race_on_growth : ∃ s : St (Fin 2) ℕ,
    Reach (ring 2 true (fun _ _ => 0) (fun d => decide (d = 0))) s ∧ Race (ring 2 true (fun _ _ => 0) (fun d => decide (d = 0))) s := by
  let S : Sys (Fin 2) ℕ := ring 2 true (fun _ _ => 0) (fun d => decide (d = 0))
  let s0 : St (Fin 2) ℕ := init fun _ _ => 0
  let s1 := exec S s0 1 .stepAsync
  let s2 := exec S s1 1 (.pack .nL)
  let s3 := exec S s2 1 (.copy .nL)
  refine ⟨s3, ⟨fun _ _ => 0, ?_⟩, ?_⟩
  · refine ((ReflTransGen.refl.tail (b := s0) (c := s1) ?_).tail (c := s2) ?_).tail (c := s3) ?_
    · exact Step.thread s0 1 _ rfl trivial
    · exact Step.thread s1 1 _ rfl trivial
    · exact Step.thread s2 1 _ rfl trivial
  · refine ⟨0, .stepAsync, rfl, trivial, 1, .nL, ⟨by decide, rfl⟩, 0, .inN, Or.inl ⟨⟨by decide, rfl⟩, Or.inr ⟨by decide, rfl⟩⟩⟩

end LCP.MultiGpu
