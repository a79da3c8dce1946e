import Verif.Distmem.Exchange
import Verif.Hskpng.RcycProps
import Mathlib.Data.List.Sort
import Mathlib.Data.Finset.Sort

/-!
# C134: recycling together with the exchange between processes

Sources: src/impl/distributed_memory/particles_impl_post_copy.ipp:17-38, particles_impl_unpack.ipp (flagging and appending),
src/impl/housekeeping/particles_impl_rcyc.ipp, src/particles_step.ipp (order of the calls); particles_multi_gpu_step.ipp:64-65 shows that only
the multi-GPU backend rejects `opts.rcyc`.
-/
namespace LCP.Distmem
open Finset

variable {m : ℕ}

/-! ### Model -/

/-- what process `r` holds when `post_copy` begins: those that stayed, those sent away (multiplicity zero), those received
(particles_impl_unpack.ipp: `flag_lft`, `flag_rgt`, `unpack_n`/`unpack_real` append) -/
noncomputable def held (st : Fin (m + 1) → Rank) (r : Fin (m + 1)) : List Sd := (st r).flagged ++ fromRgt st r ++ fromLft st r

/-- the vectors used by `rcyc`: multiplicities and, for every attribute vector, its values; `none` is the vector `x`, `some j` the others -/
noncomputable def toState (l : List Sd) : Rcyc.State (Option ℕ) :=
  { N := l.length
    n := fun i => (l.getD i ⟨0, 0, fun _ => 0⟩).n
    attr := fun i a => match a with
      | none => (l.getD i ⟨0, 0, fun _ => 0⟩).x
      | some j => (l.getD i ⟨0, 0, fun _ => 0⟩).attr j }

/-- back to a list of super-droplets -/
def ofState (s : Rcyc.State (Option ℕ)) : List Sd := (List.range s.N).map (fun i => ⟨s.n i, s.attr i none, fun j => s.attr i (some j)⟩)

/-- no message is larger than the receiver's buffer and `hskpng_resize_npart` does not throw: the conditions of `exchange` -/
def Fits (st : Fin (m + 1) → Rank) : Prop := ∀ r, (fromRgt st r).length ≤ (st r).cap' ∧ (fromLft st r).length ≤ (st r).cap' ∧
  (st r).sds.length + (fromRgt st r).length + (fromLft st r).length ≤ (st r).nSdMax

/-- the exchange followed by `post_copy` with `opts.rcyc` (particles_impl_post_copy.ipp:24-25): the sort outcomes `sid` and the execution orders
`σ` of the parallel loops are whatever they are on each process -/
def ExchangeRcyc (pcm : Bool) (st st' : Fin (m + 1) → Rank) : Prop :=
  Fits st ∧ ∃ (sid : Fin (m + 1) → List ℕ) (σ : Fin (m + 1) → Rcyc.Scheds (Option ℕ)), ∀ r,
    IsCellSort (held st r).length (toState (held st r)).n (sid r) ∧ (σ r).Valid (Rcyc.nRcyc (toState (held st r)) (sid r)) ∧
    st' r = { st r with sds := ofState (Rcyc.rcyc pcm (toState (held st r)) (sid r) (σ r)).1, cap := (st r).cap' }

/-! ### Helpers -/

theorem map_range_getD {α β : Type} (l : List α) (d : α) (f : α → β) : (List.range l.length).map (fun i => f (l.getD i d)) = l.map f := by
  apply List.ext_getElem
  · simp
  · intro i h1 h2
    simp only [List.length_map] at h2
    simp [h2]

theorem sum_ofState {M : Type} [AddCommMonoid M] (s : Rcyc.State (Option ℕ)) (g : Sd → M) :
    ((ofState s).map g).sum = ∑ i ∈ range s.N, g ⟨s.n i, s.attr i none, fun j => s.attr i (some j)⟩ := by
  unfold ofState
  rw [List.map_map]
  rfl

theorem sum_toState {M : Type} [AddCommMonoid M] (l : List Sd) (g : Sd → M) :
    ∑ i ∈ range (toState l).N, g ⟨(toState l).n i, (toState l).attr i none, fun j => (toState l).attr i (some j)⟩ = (l.map g).sum := by
  rw [← map_range_getD l ⟨0, 0, fun _ => 0⟩ g]
  rfl

theorem card_toState (l : List Sd) (p : ℕ → Prop) [DecidablePred p] :
    ((range (toState l).N).filter (fun i => p ((toState l).n i))).card = (l.filter (fun s => decide (p s.n))).length := by
  have := sum_toState l (fun s => if p s.n then 1 else 0)
  rw [card_filter, this]
  clear this
  induction l with
  | nil => rfl
  | cons a l ih =>
    rw [List.map_cons, List.sum_cons, ih]
    by_cases h : p a.n
    · rw [if_pos h, List.filter_cons_of_pos (by simpa using h), List.length_cons]; omega
    · rw [if_neg h, List.filter_cons_of_neg (by simpa using h)]; omega

/-- the number of splittable ones is at least the number of those with multiplicity two or more -/
theorem le_nSplittable {ι : Type} {s : Rcyc.State ι} {sid : List ℕ} (h : IsCellSort s.N s.n sid) :
    ((range s.N).filter (fun i => 2 ≤ s.n i)).card ≤ Rcyc.nSplittable s sid := by
  rcases Rcyc.nSplittable_spec s sid with ⟨a1, a2, a3⟩ | ⟨a1, a2⟩
  · have := h.lt_iff_lt_card 2 (s.N - 1 - Rcyc.nSplittable s sid) (by omega)
    rw [a2] at this
    have h1 : s.N - 1 - Rcyc.nSplittable s sid < ((range s.N).filter (fun i => s.n i < 2)).card := by
      apply this.1; omega
    have h2 : ((range s.N).filter (fun i => s.n i < 2)).card + ((range s.N).filter (fun i => ¬ s.n i < 2)).card = s.N := by
      rw [card_filter_add_card_filter_not]; simp
    have h3 : ((range s.N).filter (fun i => 2 ≤ s.n i)) = ((range s.N).filter (fun i => ¬ s.n i < 2)) := by
      apply filter_congr; intro i _; omega
    rw [h3]
    omega
  · rw [a1]
    exact (card_filter_le _ _).trans (by simp)

theorem ofState_length (s : Rcyc.State (Option ℕ)) : (ofState s).length = s.N := by simp [ofState]

theorem rcyc_all {ι : Type} {s : Rcyc.State ι} {sid : List ℕ} {σ : Rcyc.Scheds ι} (h : Rcyc.nFlagged s ≤ Rcyc.nSplittable s sid) :
    (Rcyc.rcyc false s sid σ).1.N = s.N := by
  unfold Rcyc.rcyc
  split_ifs with h1 h2 h3 h4
  · rfl
  · exact absurd h2 (by simp)
  · omega
  · have : Rcyc.nRcyc s sid = Rcyc.nFlagged s := by unfold Rcyc.nRcyc; rw [if_neg (by omega)]
    omega
  · rfl

/-! ### Specification -/

/-- super-droplets arriving at process `r` (as they are on the sender): the ones left of the right neighbour's extent and the ones
right of the left neighbour's extent, unless the boundary in between is open -/
noncomputable def received (st : Fin (m + 1) → Rank) (r : Fin (m + 1)) : List Sd :=
  (if (st r).openR then [] else (st (rgtRank r)).sds.filter (fun s => decide (s.x < (st (rgtRank r)).x0))) ++
  (if (st r).openL then [] else (st (lftRank r)).sds.filter (fun s => decide ((st (lftRank r)).x1 ≤ s.x)))

/-- out of the extent of the process -/
def Out (r : Rank) (s : Sd) : Prop := s.x < r.x0 ∨ r.x1 ≤ s.x

open Classical in
/-- there are enough super-droplets of multiplicity two or more on process `r` (staying or received) to be split for all slots that are free
(those sent away or of multiplicity zero) -/
def Enough (st : Fin (m + 1) → Rank) (r : Fin (m + 1)) : Prop :=
  (st r).sds.countP (fun s => decide (s.n = 0 ∨ Out (st r) s)) + (received st r).countP (fun s => decide (s.n = 0)) ≤
    (st r).sds.countP (fun s => decide (2 ≤ s.n ∧ ¬ Out (st r) s)) + (received st r).countP (fun s => decide (2 ≤ s.n))

/-! ### Theorems -/

theorem countP_from (st : Fin (m + 1) → Rank) (r : Fin (m + 1)) (p : ℕ → Prop) [DecidablePred p] :
    (fromRgt st r ++ fromLft st r).countP (fun s => decide (p s.n)) = (received st r).countP (fun s => decide (p s.n)) := by
  unfold fromRgt fromLft received Rank.lft Rank.rgt
  rw [List.countP_append, List.countP_append]
  congr 1
  · split_ifs
    · rfl
    · rw [List.countP_map]; rfl
  · split_ifs
    · rfl
    · rw [List.countP_map]; rfl

theorem length_from (st : Fin (m + 1) → Rank) (r : Fin (m + 1)) : (fromRgt st r).length + (fromLft st r).length = (received st r).length := by
  unfold fromRgt fromLft received Rank.lft Rank.rgt
  rw [List.length_append]
  congr 1
  · split_ifs <;> simp
  · split_ifs <;> simp

theorem held_length (st : Fin (m + 1) → Rank) (r : Fin (m + 1)) : (held st r).length = (st r).sds.length + (received st r).length := by
  unfold held
  rw [List.length_append, List.length_append, ← length_from]
  simp [Rank.flagged]; omega

open Classical in
theorem countP_flagged0 (r : Rank) : r.flagged.countP (fun s => decide (s.n = 0)) = r.sds.countP (fun s => decide (s.n = 0 ∨ Out r s)) := by
  unfold Rank.flagged
  rw [List.countP_map]
  apply List.countP_congr
  intro s _
  unfold Out
  by_cases h : s.x < r.x0 ∨ s.x ≥ r.x1
  · simp [h]
  · simp [h]

open Classical in
theorem countP_flagged2 (r : Rank) : r.flagged.countP (fun s => decide (2 ≤ s.n)) = r.sds.countP (fun s => decide (2 ≤ s.n ∧ ¬ Out r s)) := by
  unfold Rank.flagged
  rw [List.countP_map]
  apply List.countP_congr
  intro s _
  unfold Out
  by_cases h : s.x < r.x0 ∨ s.x ≥ r.x1
  · simp [h]
  · simp [h]

theorem enough_held {st : Fin (m + 1) → Rank} {r : Fin (m + 1)} (h : Enough st r) :
    (held st r).countP (fun s => decide (s.n = 0)) ≤ (held st r).countP (fun s => decide (2 ≤ s.n)) := by
  unfold held
  rw [List.append_assoc, List.countP_append (p := fun s : Sd => decide (s.n = 0)), countP_from st r (fun n => n = 0), List.countP_append, countP_from st r (fun n => 2 ≤ n), countP_flagged0, countP_flagged2]
  exact h

theorem enough_splittable {st : Fin (m + 1) → Rank} {r : Fin (m + 1)} (h : Enough st r) {sid : List ℕ}
    (hs : IsCellSort (held st r).length (toState (held st r)).n sid) :
    Rcyc.nFlagged (toState (held st r)) ≤ Rcyc.nSplittable (toState (held st r)) sid := by
  refine le_trans ?_ (le_nSplittable (s := toState (held st r)) hs)
  have e := enough_held h
  rw [List.countP_eq_length_filter, List.countP_eq_length_filter] at e
  rw [card_toState (held st r) (fun n => 2 ≤ n)]
  unfold Rcyc.nFlagged
  rw [card_toState (held st r) (fun n => n < 1)]
  simpa using e

/-- **C134** With recycling switched on, a process that has enough splittable super-droplets ends every exchange with as many super-droplets as
it had before *plus* all it received: the slots of the ones it sent away are not given up but refilled. -/
theorem recycled_exchange_grows {st st' : Fin (m + 1) → Rank} (h : ExchangeRcyc false st st') (r : Fin (m + 1)) (he : Enough st r) :
    (st' r).sds.length = (st r).sds.length + (received st r).length := by
  obtain ⟨_, sid, σ, hr⟩ := h
  obtain ⟨h1, h2, h3⟩ := hr r
  rw [h3]
  simp only [ofState_length]
  rw [rcyc_all (enough_splittable he h1)]
  exact held_length st r

open Classical in
/-- **C134** Without recycling the same exchange leaves on every process what it had, less what it sent away, plus what it received. -/
theorem removed_exchange_count {st st' : Fin (m + 1) → Rank} (h : exchange st = some st') (ha : ∀ r, ∀ s ∈ (st r).sds, s.n ≠ 0) (r : Fin (m + 1)) :
    (st' r).sds.length + (st r).sds.countP (fun s => decide (Out (st r) s)) = (st r).sds.length + (received st r).length := by
  unfold exchange at h
  split at h
  swap
  · exact absurd h (by simp)
  simp only [Option.some.injEq] at h
  subst h
  rw [← held_length]
  change (List.filter _ (held st r)).length + _ = _
  rw [List.length_eq_countP_add_countP (fun s : Sd => decide (s.n ≠ 0)) (l := held st r), ← List.countP_eq_length_filter]
  congr 1
  have hz : (received st r).countP (fun s => decide (s.n = 0)) = 0 := by
    rw [List.countP_eq_zero]
    intro s hs
    have : ∃ q, s ∈ (st q).sds := by
      unfold received at hs
      rcases List.mem_append.1 hs with hs | hs
      · split_ifs at hs
        · simp at hs
        · exact ⟨_, (List.mem_filter.1 hs).1⟩
      · split_ifs at hs
        · simp at hs
        · exact ⟨_, (List.mem_filter.1 hs).1⟩
    obtain ⟨q, hq⟩ := this
    simpa using ha q s hq
  have : ∀ l : List Sd, l.countP (fun s => decide ¬ (decide (s.n ≠ 0)) = true) = l.countP (fun s => decide (s.n = 0)) := by
    intro l; apply List.countP_congr; intro s _; simp
  rw [this]
  unfold held
  rw [List.append_assoc, List.countP_append, countP_from st r (fun n => n = 0), hz, countP_flagged0, add_zero]
  apply List.countP_congr
  intro s hs
  have := ha r s hs
  simp [this]

/-- **C134** What recycling may not change it does not: the multiplicity-weighted total of every function of the attributes over all processes,
plus what left through open ends, is what it was, whatever the sorts and the execution orders, also when only some or none of the free slots are refilled. -/
theorem recycled_exchange_budget {st st' : Fin (m + 1) → Rank} {pcm : Bool} (h : ExchangeRcyc pcm st st') (f : (ℕ → ℝ) → ℝ) (hx : ∀ r, (st r).x0 ≤ (st r).x1)
    (hopen : ∀ r, (st r).openR = (st (rgtRank r)).openL) :
    ∑ r, ((st' r).sds.map (fun s => s.n * f s.attr)).sum
      + (∑ r, (if (st r).openL then (((st r).sds.filter (fun s => decide (s.x < (st r).x0))).map (fun s => s.n * f s.attr)).sum else 0)
        + ∑ r, (if (st r).openR then (((st r).sds.filter (fun s => decide (s.x ≥ (st r).x1))).map (fun s => s.n * f s.attr)).sum else 0))
    = ∑ r, ((st r).sds.map (fun s => s.n * f s.attr)).sum := by
  obtain ⟨hfit, sid, σ, hr⟩ := h
  have key := exchange_budget_partial st _ f (if_pos hfit) hx hopen
  rw [← key]
  congr 1
  apply sum_congr rfl
  intro r _
  obtain ⟨h1, h2, h3⟩ := hr r
  have e1 : ((st' r).sds.map (fun s => (s.n : ℝ) * f s.attr)).sum = ((held st r).map (fun s => (s.n : ℝ) * f s.attr)).sum := by
    rw [h3]
    simp only []
    rw [sum_ofState, ← sum_toState (held st r)]
    exact Rcyc.rcyc_conserves pcm (s := toState (held st r)) h1 h2 (fun v => f (fun j => v (some j)))
  rw [e1]
  exact (sum_filter_n0 (fun s => (s.n : ℝ) * f s.attr) (fun s hs => by simp [hs]) (held st r)).symm

/-- anything that happens between two exchanges and does not change the number of super-droplets of a process (motion, condensation,
collisions, which may also set multiplicities to zero) -/
def SameCounts (st mid : Fin (m + 1) → Rank) : Prop := ∀ r, (mid r).sds.length = (st r).sds.length ∧ (mid r).nSdMax = (st r).nSdMax

/-- a run of `T` steps, each being anything that keeps the numbers of super-droplets, then the exchange with recycling -/
def RunRcyc (st mid : ℕ → Fin (m + 1) → Rank) (T : ℕ) : Prop := ∀ t < T, SameCounts (st t) (mid t) ∧ ExchangeRcyc false (mid t) (st (t + 1))

/-- **C134** Over a run the number of super-droplets of a process is the initial one plus everything it has received since. -/
theorem recycled_run_count {st mid : ℕ → Fin (m + 1) → Rank} {T : ℕ} (h : RunRcyc st mid T) (r : Fin (m + 1)) (he : ∀ t < T, Enough (mid t) r) :
    (st T r).sds.length = (st 0 r).sds.length + ∑ t ∈ range T, (received (mid t) r).length := by
  induction T with
  | zero => simp
  | succ T ih =>
    rw [sum_range_succ, recycled_exchange_grows (h T (by omega)).2 r (he T (by omega)), ((h T (by omega)).1 r).1,
      ih (fun t ht => h t (by omega)) (fun t ht => he t (by omega))]
    omega

/-- **C134** So if at least one super-droplet arrives in every step, the run cannot be longer than the room there was at its start. -/
theorem recycled_run_ends {st mid : ℕ → Fin (m + 1) → Rank} {T : ℕ} (h : RunRcyc st mid T) (r : Fin (m + 1)) (he : ∀ t < T, Enough (mid t) r)
    (harr : ∀ t < T, 1 ≤ (received (mid t) r).length) : (st 0 r).sds.length + T ≤ max (st 0 r).sds.length (st 0 r).nSdMax := by
  have hmax : ∀ t ≤ T, (st t r).nSdMax = (st 0 r).nSdMax := by
    intro t
    induction t with
    | zero => intro _; rfl
    | succ t ih =>
      intro ht
      obtain ⟨h1, _, _, _, h2⟩ := h t (by omega)
      rw [(h2 r).2.2]
      simp only []
      rw [(h1 r).2, ih (by omega)]
  rcases T with _ | T
  · simp
  · have hc := recycled_run_count h r he
    have hs : T + 1 ≤ ∑ t ∈ range (T + 1), (received (mid t) r).length := by
      calc T + 1 = ∑ t ∈ range (T + 1), 1 := by simp
        _ ≤ _ := sum_le_sum (fun t ht => harr t (by simpa using ht))
    have hf := ((h T (by omega)).2.1 r).2.2
    have := recycled_exchange_grows (h T (by omega)).2 r (he T (by omega))
    have hl := length_from (mid T) r
    rw [((h T (by omega)).1 r).2, hmax T (by omega)] at hf
    apply le_max_of_le_right
    omega

/-! ### A run that ends: nothing but motion, and the numbers of super-droplets grow until the limit is hit -/

theorem exists_sort_by (N : ℕ) (key : ℕ → ℕ) : ∃ sid, IsCellSort N key sid := by
  refine ⟨(List.range N).mergeSort (fun i j => decide (key i ≤ key j)), List.mergeSort_perm _ _, ?_⟩
  rw [List.pairwise_map]
  have := List.pairwise_mergeSort (le := fun i j => decide (key i ≤ key j)) (by intro a b c; simp only [decide_eq_true_eq]; omega)
    (by intro a b; simp only [Bool.or_eq_true, decide_eq_true_eq]; omega) (List.range N)
  simpa using this

/-- after recycling every multiplicity is at least half of the smallest nonzero one -/
theorem rcyc_ge {ι : Type} {s : Rcyc.State ι} {sid : List ℕ} (h : IsCellSort s.N s.n sid) {σ : Rcyc.Scheds ι}
    (hσ : σ.Valid (Rcyc.nRcyc s sid)) (hall : Rcyc.nFlagged s ≤ Rcyc.nSplittable s sid) (h2 : 2 * ((range s.N).filter (fun i => s.n i = 0)).card ≤ s.N)
    {K : ℕ} (hK : ∀ i < s.N, s.n i ≠ 0 → 2 * K ≤ s.n i) (i : ℕ) (hi : i < s.N) : K ≤ (Rcyc.rcyc false s sid σ).1.n i := by
  have hnz := Rcyc.rcyc_no_zeros_partial false h hσ (Or.inr (Or.inr h2)) i (by rw [rcyc_all hall]; exact hi)
  have hN := Rcyc.nFlagged_le s
  unfold Rcyc.rcyc at hnz ⊢
  split_ifs at hnz ⊢ with c1 c2 c3 c4
  · have := hK i hi hnz; simp only []; omega
  · exact absurd c2 (by simp)
  · omega
  · exfalso
    have : Rcyc.nRcyc s sid = Rcyc.nFlagged s := by unfold Rcyc.nRcyc; rw [if_neg (by omega)]
    omega
  · obtain ⟨p, hp, rfl⟩ := h.exists_pos hi
    simp only [] at hnz ⊢
    rcases Rcyc.split_pos h hσ p hp with ⟨a1, a2, a3, a4⟩ | ⟨a1, a2, a3, a4⟩ | ⟨a1, a2, a3, a4⟩ | ⟨a1, a2, a3⟩
    · have := hK (idAt sid (s.N - 1 - p)) (h.id_lt (by omega)) (by rw [Ne, Rcyc.zero_iff h (by omega)]; omega)
      omega
    · have := hK (idAt sid p) (h.id_lt hp) (by rw [Ne, Rcyc.zero_iff h hp]; omega)
      omega
    · have := hK (idAt sid p) (h.id_lt hp) (by rw [Ne, Rcyc.zero_iff h hp]; omega)
      omega
    · exact absurd a3 hnz

/-- two processes sharing a periodic domain of length two, each with `N` super-droplets inside its extent [0, 1), multiplicities at least `K` -/
structure Good (M N K : ℕ) (st : Fin 2 → Rank) : Prop where
  ext : ∀ r, (st r).x0 = 0 ∧ (st r).x1 = 1 ∧ (st r).openL = false ∧ (st r).openR = false ∧ (st r).cap = 1 ∧ (st r).nSdMax = M
  len : ∀ r, (st r).sds.length = N
  ins : ∀ r, ∀ s ∈ (st r).sds, 0 ≤ s.x ∧ s.x < 1 ∧ K ≤ s.n

/-- the first super-droplet of a list is carried over the right edge -/
noncomputable def push (l : List Sd) : List Sd := match l with
  | [] => []
  | s :: l => { s with x := 1 } :: l

/-- the first super-droplet of every process is carried over its right edge -/
noncomputable def moved (st : Fin 2 → Rank) : Fin 2 → Rank := fun r => { st r with sds := push (st r).sds }

theorem moved_cons {M N K : ℕ} {st : Fin 2 → Rank} (h : Good M (N + 1) K st) (r : Fin 2) :
    ∃ s l, (st r).sds = s :: l ∧ l.length = N ∧ (moved st r).sds = { s with x := 1 } :: l ∧ (0 ≤ s.x ∧ s.x < 1 ∧ K ≤ s.n) ∧
      ∀ t ∈ l, 0 ≤ t.x ∧ t.x < 1 ∧ K ≤ t.n := by
  have hl := h.len r
  rcases hs : (st r).sds with _ | ⟨s, l⟩
  · rw [hs] at hl; simp at hl
  · rw [hs] at hl
    refine ⟨s, l, rfl, by simpa using hl, by simp [moved, hs, push], h.ins r s (by rw [hs]; simp), fun t ht => h.ins r t (by rw [hs]; simp [ht])⟩

theorem moved_lr {M N K : ℕ} {st : Fin 2 → Rank} (h : Good M (N + 1) K st) (r : Fin 2) :
    (moved st r).lft = [] ∧ ∃ s : Sd, K ≤ s.n ∧ (moved st r).rgt = [s] ∧ s.x = 1 := by
  obtain ⟨s, l, h1, h2, h3, h4, h5⟩ := moved_cons h r
  have e0 : (moved st r).x0 = 0 := (h.ext r).1
  have e1 : (moved st r).x1 = 1 := (h.ext r).2.1
  unfold Rank.lft Rank.rgt
  rw [h3, e0, e1]
  constructor
  · rw [List.filter_eq_nil_iff]
    intro t ht
    rcases List.mem_cons.1 ht with rfl | ht
    · norm_num
    · simpa using (h5 t ht).1
  · refine ⟨{ s with x := 1 }, h4.2.2, ?_, rfl⟩
    rw [List.filter_cons_of_pos (by norm_num), List.filter_eq_nil_iff.2]
    intro t ht
    simpa using (h5 t ht).2.1

theorem moved_received {M N K : ℕ} {st : Fin 2 → Rank} (h : Good M (N + 1) K st) (r : Fin 2) :
    fromRgt (moved st) r = [] ∧ ∃ s : Sd, K ≤ s.n ∧ 0 ≤ s.x ∧ s.x < 1 ∧ fromLft (moved st) r = [s] ∧ ∃ t : Sd, received (moved st) r = [t] ∧ t.n = s.n := by
  have o1 : (moved st r).openL = false := (h.ext r).2.2.1
  have o2 : (moved st r).openR = false := (h.ext r).2.2.2.1
  obtain ⟨s, a1, a2, a3⟩ := (moved_lr h (lftRank r)).2
  have a0 := (moved_lr h (rgtRank r)).1
  have e0 : ∀ r, (moved st r).x0 = 0 := fun r => (h.ext r).1
  have e1 : ∀ r, (moved st r).x1 = 1 := fun r => (h.ext r).2.1
  refine ⟨?_, away (moved st r).x0 (moved st r).x1 (remote (moved st (lftRank r)).x1 (moved st r).x0 s), ?_, ?_, ?_, ?_, s, ?_, rfl⟩
  · unfold fromRgt; rw [if_neg (by simp [o2]), a0]; rfl
  · exact a1
  · rw [e0, e1, e1]; norm_num [away, remote, a3]
  · rw [e0, e1, e1]; norm_num [away, remote, a3]
  · unfold fromLft; rw [if_neg (by simp [o1]), a2]; rfl
  · unfold received
    unfold Rank.lft at a0
    unfold Rank.rgt at a2
    rw [if_neg (by simp [o2]), if_neg (by simp [o1]), a0, ← a2]; rfl

theorem moved_enough {M N K : ℕ} {st : Fin 2 → Rank} (h : Good M (N + 2) K st) (hK : 2 ≤ K) (r : Fin 2) : Enough (moved st) r := by
  obtain ⟨s, l, h1, h2, h3, h4, h5⟩ := moved_cons h r
  obtain ⟨_, s', b1, _, _, _, t, b2, b3⟩ := moved_received h r
  have e0 : (moved st r).x0 = 0 := (h.ext r).1
  have e1 : (moved st r).x1 = 1 := (h.ext r).2.1
  unfold Enough Out
  rw [h3, b2, e0, e1]
  have c1 : ∀ p : Sd → Bool, (∀ t ∈ l, p t = false) → l.countP p = 0 := by
    intro p hp; rw [List.countP_eq_zero]; intro t ht; simp [hp t ht]
  have c2 : ∀ p : Sd → Bool, (∀ t ∈ l, p t = true) → l.countP p = l.length := by
    intro p hp; rw [List.countP_eq_length]; exact hp
  simp only [List.countP_cons, List.countP_nil]
  rw [c1, c2, h2]
  · have : s.n ≠ 0 := by omega
    have : t.n ≠ 0 := by omega
    simp [this]
    split_ifs <;> omega
  · intro t ht
    have := h5 t ht
    simp only [decide_eq_true_eq]
    refine ⟨by omega, ?_⟩
    push Not
    exact ⟨this.1, this.2.1⟩
  · intro t ht
    have := h5 t ht
    simp only [decide_eq_false_iff_not]
    push Not
    exact ⟨by omega, this.1, this.2.1⟩

theorem moved_fits {M N K : ℕ} {st : Fin 2 → Rank} (h : Good M (N + 1) K st) : Fits (moved st) ↔ N + 2 ≤ M := by
  have hc : ∀ r, (moved st r).cap' = 1 := by
    intro r
    obtain ⟨a, s, b, c, _⟩ := moved_lr h r
    unfold Rank.cap'
    rw [a, c]
    have : (moved st r).cap = 1 := (h.ext r).2.2.2.2.1
    simp [this]
  have hl : ∀ r, (moved st r).sds.length = N + 1 := by
    intro r
    obtain ⟨s, l, h1, h2, h3, h4, h5⟩ := moved_cons h r
    rw [h3]; simp [h2]
  have hM : ∀ r, (moved st r).nSdMax = M := fun r => (h.ext r).2.2.2.2.2
  have hr : ∀ r, (fromRgt (moved st) r).length = 0 ∧ (fromLft (moved st) r).length = 1 := by
    intro r
    obtain ⟨a, s, _, _, _, b, _⟩ := moved_received h r
    rw [a, b]; simp
  unfold Fits
  constructor
  · intro hf
    have := (hf 0).2.2
    rw [hl, hM, (hr 0).1, (hr 0).2] at this
    omega
  · intro hM' r
    rw [hc, hl, hM, (hr r).1, (hr r).2]
    omega

theorem held_live {M N K : ℕ} {st : Fin 2 → Rank} (h : Good M (N + 1) K st) (r : Fin 2) :
    ∀ t ∈ held (moved st) r, t.n ≠ 0 → 0 ≤ t.x ∧ t.x < 1 ∧ K ≤ t.n := by
  obtain ⟨s, l, h1, h2, h3, h4, h5⟩ := moved_cons h r
  obtain ⟨a, s', b1, b2, b3, b4, _⟩ := moved_received h r
  have e1 : (moved st r).x1 = 1 := (h.ext r).2.1
  have e0 : (moved st r).x0 = 0 := (h.ext r).1
  intro t ht hn
  unfold held at ht
  rw [a, b4] at ht
  simp only [List.append_nil, List.mem_append, List.mem_singleton] at ht
  rcases ht with ht | rfl
  · unfold Rank.flagged at ht
    rw [h3, e0, e1, List.map_cons, if_pos (by norm_num)] at ht
    rcases List.mem_cons.1 ht with rfl | ht
    · exact absurd rfl hn
    · obtain ⟨u, hu, rfl⟩ := List.mem_map.1 ht
      have := h5 u hu
      rw [if_neg (by push Not; exact ⟨this.1, this.2.1⟩)]
      exact this
  · exact ⟨b2, b3, b1⟩

theorem good_step {M N K : ℕ} {st : Fin 2 → Rank} (h : Good M (N + 2) (2 * K) st) (hK : 1 ≤ K) (hM : N + 3 ≤ M) :
    ∃ st', ExchangeRcyc false (moved st) st' ∧ Good M (N + 3) K st' := by
  have hs : ∀ r, ∃ sid, IsCellSort (held (moved st) r).length (toState (held (moved st) r)).n sid := fun r => exists_sort_by _ _
  choose sid hsid using hs
  refine ⟨fun r => { moved st r with
      sds := ofState (Rcyc.rcyc false (toState (held (moved st) r)) (sid r)
        ⟨fun _ => List.range (Rcyc.nRcyc (toState (held (moved st) r)) (sid r)), List.range (Rcyc.nRcyc (toState (held (moved st) r)) (sid r)),
          List.range (Rcyc.nRcyc (toState (held (moved st) r)) (sid r))⟩).1
      cap := (moved st r).cap' }, ⟨(moved_fits h).2 hM, sid, _, fun r => ⟨hsid r, ⟨fun _ => .refl _, .refl _, .refl _⟩, rfl⟩⟩, ?_, ?_, ?_⟩
  · intro r
    obtain ⟨a, s, b, c, _⟩ := moved_lr h r
    obtain ⟨e0, e1, e2, e3, e4, e5⟩ := h.ext r
    refine ⟨e0, e1, e2, e3, ?_, e5⟩
    have : (moved st r).cap = 1 := e4
    simp only [Rank.cap', a, c]
    simp [this]
  · intro r
    have he := moved_enough h (by omega) r
    simp only [ofState_length]
    rw [rcyc_all (enough_splittable he (hsid r))]
    change (held (moved st) r).length = _
    rw [held_length]
    obtain ⟨_, _, _, _, _, _, t, b, _⟩ := moved_received h r
    obtain ⟨s, l, h1, h2, h3, h4, h5⟩ := moved_cons h r
    rw [b, h3]; simp [h2]
  · intro r t ht
    have he := moved_enough h (by omega) r
    have hN := rcyc_all (σ := ⟨fun _ => List.range (Rcyc.nRcyc (toState (held (moved st) r)) (sid r)), List.range (Rcyc.nRcyc (toState (held (moved st) r)) (sid r)),
          List.range (Rcyc.nRcyc (toState (held (moved st) r)) (sid r))⟩) (enough_splittable he (hsid r))
    unfold ofState at ht
    obtain ⟨i, hi, rfl⟩ := List.mem_map.1 ht
    rw [List.mem_range, hN] at hi
    have hmem : ∀ j < (held (moved st) r).length, (held (moved st) r).getD j ⟨0, 0, fun _ => 0⟩ ∈ held (moved st) r := by
      intro j hj; rw [List.getD_eq_getElem _ _ hj]; exact List.getElem_mem _
    have hge := rcyc_ge (s := toState (held (moved st) r)) (hsid r) (σ := ⟨fun _ => List.range (Rcyc.nRcyc (toState (held (moved st) r)) (sid r)), List.range (Rcyc.nRcyc (toState (held (moved st) r)) (sid r)),
          List.range (Rcyc.nRcyc (toState (held (moved st) r)) (sid r))⟩) ⟨fun _ => .refl _, .refl _, .refl _⟩ (enough_splittable he (hsid r))
      (by
        rw [card_toState (held (moved st) r) (fun n => n = 0)]
        have e := enough_held he
        rw [List.countP_eq_length_filter, List.countP_eq_length_filter] at e
        have e2 := List.length_eq_countP_add_countP (fun s : Sd => decide (s.n = 0)) (l := held (moved st) r)
        have e3 : (held (moved st) r).countP (fun s => decide (2 ≤ s.n)) ≤ (held (moved st) r).countP (fun s => decide ¬ (decide (s.n = 0)) = true) := by
          apply List.countP_mono_left
          intro s _ h; simp only [decide_eq_true_eq] at h ⊢; omega
        rw [List.countP_eq_length_filter, List.countP_eq_length_filter] at e3
        rw [List.countP_eq_length_filter, List.countP_eq_length_filter] at e2
        change _ ≤ (held (moved st) r).length
        omega)
      (K := K) (fun j hj hn => (held_live h r _ (hmem j hj) hn).2.2) i hi
    obtain ⟨j, hj, c1, c2, c3⟩ := Rcyc.rcyc_clones false (s := toState (held (moved st) r)) (hsid r) (σ := ⟨fun _ => List.range (Rcyc.nRcyc (toState (held (moved st) r)) (sid r)), List.range (Rcyc.nRcyc (toState (held (moved st) r)) (sid r)),
          List.range (Rcyc.nRcyc (toState (held (moved st) r)) (sid r))⟩) ⟨fun _ => .refl _, .refl _, .refl _⟩ i (by rw [hN]; exact hi) (by omega)
    have hl := held_live h r _ (hmem j hj) c3
    refine ⟨?_, ?_, hge⟩
    · simp only [c1]; exact hl.1
    · simp only [c1]; exact hl.2.1

/-- **C134, negation** of "a run in which no super-droplet is added keeps running": two processes with two super-droplets each; in every step
nothing happens but that one super-droplet of each process crosses to the other.  No super-droplet is ever created by a source, yet the run fails as soon as there is no more room — whatever `n_sd_max`. -/
theorem recycled_run_fails (M : ℕ) (hM : 2 ≤ M) : ∃ st : ℕ → Fin 2 → Rank,
    (∀ r, (st 0 r).sds.length = 2 ∧ (st 0 r).nSdMax = M ∧ (st 0 r).openL = false ∧ (st 0 r).openR = false) ∧
    (∀ t, ∀ r, (received (moved (st t)) r).length = 1) ∧
    RunRcyc st (fun t => moved (st t)) (M - 2) ∧ (∀ r, (st (M - 2) r).sds.length = M) ∧
    ¬ ∃ st', ExchangeRcyc false (moved (st (M - 2))) st' := by
  have key : ∀ T, T + 2 ≤ M → ∀ N K st0, Good M (N + 2) (2 ^ T * (K + 1)) st0 → N + 2 + T = M → ∃ st : ℕ → Fin 2 → Rank, st 0 = st0 ∧
      RunRcyc st (fun t => moved (st t)) T ∧ (∀ t ≤ T, ∃ K', Good M (N + 2 + t) K' (st t)) ∧ ∀ t, T ≤ t → st t = st T := by
    intro T
    induction T with
    | zero =>
      intro _ N K st0 h0 _
      refine ⟨fun _ => st0, rfl, fun t ht => absurd ht (by omega), fun t ht => ?_, fun _ _ => rfl⟩
      obtain rfl : t = 0 := by omega
      exact ⟨_, h0⟩
    | succ T ih =>
      intro hT N K st0 h0 hN
      have h0' : Good M (N + 2) (2 * (2 ^ T * (K + 1))) st0 := by
        rw [show 2 * (2 ^ T * (K + 1)) = 2 ^ (T + 1) * (K + 1) by ring]; exact h0
      obtain ⟨st1, hs, h1⟩ := good_step h0' (Nat.succ_le_of_lt (by positivity)) (by omega)
      obtain ⟨st, e0, e1, e2, e3⟩ := ih (by omega) (N + 1) K st1 (by rw [show N + 1 + 2 = N + 3 by omega]; exact h1) (by omega)
      refine ⟨fun t => match t with
        | 0 => st0
        | t + 1 => st t, rfl, ?_, ?_, ?_⟩
      · intro t ht
        have hsame : ∀ s : Fin 2 → Rank, SameCounts s (moved s) := by
          intro s r
          refine ⟨?_, rfl⟩
          unfold moved
          simp only []
          rcases (s r).sds with _ | ⟨a, l⟩ <;> rfl
        rcases t with _ | t
        · refine ⟨hsame _, ?_⟩
          simp only []
          rw [e0]; exact hs
        · exact ⟨hsame _, (e1 t (by omega)).2⟩
      · intro t ht
        rcases t with _ | t
        · exact ⟨_, h0⟩
        · obtain ⟨K', hK'⟩ := e2 t (by omega)
          exact ⟨K', by rw [show N + 2 + (t + 1) = N + 1 + 2 + t by omega]; exact hK'⟩
      · intro t ht
        rcases t with _ | t
        · omega
        · exact e3 t (by omega)
  let R : Rank := ⟨0, 1, [⟨2 ^ (M - 2), 0, fun _ => 1⟩, ⟨2 ^ (M - 2), 0, fun _ => 1⟩], 1, M, false, false⟩
  have hR : Good M (0 + 2) (2 ^ (M - 2) * (0 + 1)) (fun _ => R) := by
    refine ⟨fun _ => ⟨rfl, rfl, rfl, rfl, rfl, rfl⟩, fun _ => rfl, ?_⟩
    intro _ s hs
    simp only [R, List.mem_cons, List.not_mem_nil, or_false, or_self] at hs
    subst hs
    norm_num
  obtain ⟨st, e0, e1, e2, e3⟩ := key (M - 2) (by omega) 0 0 _ hR (by omega)
  have hlast : ∃ K', Good M (M - 1 + 1) K' (st (M - 2)) := by
    obtain ⟨K', hK'⟩ := e2 (M - 2) le_rfl
    exact ⟨K', by rw [show M - 1 + 1 = 0 + 2 + (M - 2) by omega]; exact hK'⟩
  refine ⟨st, ?_, ?_, e1, ?_, ?_⟩
  · intro r; rw [e0]; exact ⟨rfl, rfl, rfl, rfl⟩
  · intro t r
    have : ∃ N K', Good M (N + 1) K' (st t) := by
      rcases le_total t (M - 2) with ht | ht
      · obtain ⟨K', hK'⟩ := e2 t ht
        exact ⟨t + 1, K', by rw [show t + 1 + 1 = 0 + 2 + t by omega]; exact hK'⟩
      · rw [e3 t ht]
        obtain ⟨K', hK'⟩ := hlast
        exact ⟨_, K', hK'⟩
    obtain ⟨N, K', hg⟩ := this
    obtain ⟨_, _, _, _, _, _, u, b, _⟩ := moved_received hg r
    rw [b]; simp
  · intro r
    obtain ⟨K', hK'⟩ := hlast
    rw [hK'.len r]; omega
  · rintro ⟨st', hf, -⟩
    obtain ⟨K', hK'⟩ := hlast
    have := (moved_fits hK').1 hf
    omega

/-- the hypotheses of the theorems about runs are met: a run of three steps on processes with room for five, enough to split and one arrival in each -/
example : ∃ st : ℕ → Fin 2 → Rank, RunRcyc st (fun t => moved (st t)) 3 ∧ ∀ r, (st 0 r).sds.length = 2 ∧ (st 3 r).sds.length = 5 := by
  obtain ⟨st, h1, _, h2, h3, _⟩ := recycled_run_fails 5 (by norm_num)
  exact ⟨st, h2, fun r => ⟨(h1 r).1, h3 r⟩⟩

/-- enough to split: two super-droplets of multiplicity two on each process, one of them crossing -/
example : Enough (moved (fun _ => ⟨0, 1, [⟨2, 0, fun _ => 1⟩, ⟨2, 0, fun _ => 1⟩], 1, 5, false, false⟩)) 0 :=
  moved_enough (M := 5) (N := 0) (K := 2) ⟨fun _ => ⟨rfl, rfl, rfl, rfl, rfl, rfl⟩, fun _ => rfl, by
    intro _ s hs
    simp only [List.mem_cons, List.not_mem_nil, or_false, or_self] at hs
    subst hs
    norm_num⟩ le_rfl 0

end LCP.Distmem
