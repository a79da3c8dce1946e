import Verif.Mpi.RunSpec
import Mathlib.Tactic.FinCases
import Mathlib.Tactic.NormNum
import Mathlib.Data.Fin.VecNotation

/-!
# C112, C113: runs on several processes connected by MPI

A run is `init` followed by `K` time steps, on `m + 1 ≥ 2` processes, `prog c K`.  A schedule is any interleaving of the processes and of the work
of the MPI library (`Run`, see `Sem.lean`).  The specification (`RunSpec.lean`) has neither messages nor schedules.
-/
set_option linter.unusedSimpArgs false

namespace LCP.Mpi
open LCP.E2L LCP.Grid
open LCP.Distmem hiding lft_rgt rgt_lft

variable {m : ℕ}

/-- what the memories are like at the end of a run: either the super-droplets of the specification, or an error reported -/
def Outcome (c : Cfg m) (V : World m) : Option (Fin (m + 1) → Rank) → Prop
  | none => ∃ r, (V r).err = true
  | some st => ∀ r, Holds c (V r) (st r).sds ∧ (V r).err = false

/-- **C112** (partial) Every schedule of a distributed run is finite, with a common bound on its length; at every point of it either something
can happen without any buffering by the MPI library (no deadlock), or all processes have finished; whatever the schedule, when all have finished
the processes hold exactly the super-droplets of the specification: in each step every process advances its own ones with the Courant numbers of
that step, and those that crossed the end of a subdomain are handed to the neighbour, none lost, none twice; if a buffer or `n_sd_max`
is exceeded, an error is reported.  Missing: with a halo (predictor-corrector advection), subdomains narrower than the halo, and steps
without advection -- see `late_send` and `narrow`. -/
theorem mpi_run_partial (hm : 0 < m) {c : Cfg m} (hd : c.SameDims) (hs : c.SameCols) (hw : Wide c) (ha : c.h ≠ 0 → ∀ k, c.adve k = true)
    (hj : c.jx < c.nv) (hx : ∀ r, c.x0 r ≤ c.x1 r) {D : Law m} (hD : Follows c D) {W : World m} {st : Fin (m + 1) → Rank} (hW : Begins c W st) (K : ℕ) :
    ∃ N, ∀ ρ u, Run (start (prog c K) W) ρ u →
      ρ.length ≤ N ∧
      ((∃ α u', Due u α ∧ Step u α u') ∨ ∀ r, (u.loc r).prog = []) ∧
      ((∀ r, (u.loc r).prog = []) → (∀ α u', Due u α → ¬ Step u α u') →
        Outcome c (fun r => (u.loc r).mem) (specRun c.adve D (inUse c (fun r => (W r).cour)) K st)) ∧
      ∃ σ t, DueRun u σ t ∧ Final t ∧ Outcome c (fun r => (t.loc r).mem) (specRun c.adve D (inUse c (fun r => (W r).cour)) K st) := by
  have ho : Outcome c (bulkRun c K W) (specRun c.adve D (inUse c (fun r => (W r).cour)) K st) := by
    have := bulkRun_spec hm hj hx hs hd hw hD hW K
    cases h : specRun c.adve D (inUse c (fun r => (W r).cour)) K st with
    | none => rw [h] at this; exact this
    | some st' => rw [h] at this; exact fun r => ⟨this.1.holds r, this.1.err r⟩
  obtain ⟨N, hN⟩ := run_ends hm hd hw ha K W
  refine ⟨N, fun ρ u hρ => ?_⟩
  obtain ⟨h1, h2, σ, t, h3, h4, h5⟩ := hN ρ u hρ
  refine ⟨h1, ?_, fun hp hn => ?_, σ, t, h3, h4, ?_⟩
  · rcases h2 with h2 | h2
    · exact Or.inl h2
    · exact Or.inr fun r => (h2 r).1
  · rcases h2 with ⟨α, u', hd', hst⟩ | h2
    · exact absurd hst (hn α u' hd')
    · rw [show (fun r => (u.loc r).mem) = bulkRun c K W from funext fun r => (h2 r).2]; exact ho
  · rw [show (fun r => (t.loc r).mem) = bulkRun c K W from funext h5]; exact ho

/-! ### Courant numbers -/

/-- the part of a field seen by a process that stores `h` columns more than its own on each side: entry `q` is number `q % colLen` of column
`q / colLen` -/
noncomputable def window (c : Cfg m) (off : Fin (m + 1) → ℤ) (F : Comp → ℤ → ℕ → ℝ) : Cours m :=
  fun r co q => F co (off r + (q / colLen (c.dims r) co : ℕ) - c.h) (q % colLen (c.dims r) co)

/-- a law that reads the stored Courant numbers only -/
def ReadsStored (c : Cfg m) (D : Law m) : Prop := ∀ r k C C' l,
  (∀ co ∈ comps (c.dims r), ∀ q < nCols (c.dims r) c.h co * colLen (c.dims r) co, C co q = C' co q) → D r k C l = D r k C' l

/-- numbers stored by a process after the exchange, in a periodic domain -/
theorem inUse_window (hm : 0 < m) {c : Cfg m} (hs : c.SameCols) (hd : c.SameDims) (hw : Wide c) (hp : c.open_ = false) {F : ℕ → Comp → ℤ → ℕ → ℝ}
    {off : Fin (m + 1) → ℤ} {U : ℕ → Cours m} (hU : ∀ k r, c.user r k = some (U k r)) (hF : ∀ k, PartsOf c (F k) off (U k)) (A : Cours m) (k : ℕ)
    (r : Fin (m + 1)) {co : Comp} (hco : co ∈ comps (c.dims r)) {q : ℕ} (hq : q < nCols (c.dims r) c.h co * colLen (c.dims r) co) :
    inUse c A k r co q = window c off (F k) r co q := by
  have e : inUse c A k = haloed c (U k) := by
    cases k with
    | zero => show haloed c (passed (fun r => c.user r 0) A) = _; congr 1; funext r; simp [passed, hU]
    | succ k => show haloed c (passed (fun r => c.user r (k + 1)) (inUse c A k)) = _; congr 1; funext r; simp [passed, hU]
  have hl : 0 < colLen (c.dims r) co := by
    rcases Nat.eq_zero_or_pos (colLen (c.dims r) co) with h | h
    · rw [h] at hq; omega
    · exact h
  rw [e]
  have := haloed_field hm hs hd hw (hF k) r hco (col := q / colLen (c.dims r) co) (Nat.mod_lt q hl)
    (fun _ => by simp [Cfg.linkL, hp]) (fun _ => by simp [Cfg.linkR, hp]) ((Nat.div_lt_iff_lt_mul hl).2 hq)
  rw [Nat.div_add_mod'] at this
  exact this

/-- **C113** (partial) In a periodic domain, if at each step the processes are given their parts of one Courant number field `F k`, then in
every schedule the run is as if every process had been given, at each step, its part of the field *of that step* extended by the halo on both sides.
Missing: as for C112; at an open end the halo is what the user's array contains. -/
theorem mpi_courants_partial (hm : 0 < m) {c : Cfg m} (hd : c.SameDims) (hs : c.SameCols) (hw : Wide c) (ha : c.h ≠ 0 → ∀ k, c.adve k = true)
    (hj : c.jx < c.nv) (hx : ∀ r, c.x0 r ≤ c.x1 r) {D : Law m} (hD : Follows c D) (hR : ReadsStored c D) {W : World m} {st : Fin (m + 1) → Rank}
    (hW : Begins c W st) (hp : c.open_ = false) {F : ℕ → Comp → ℤ → ℕ → ℝ} {off : Fin (m + 1) → ℤ} {U : ℕ → Cours m}
    (hU : ∀ k r, c.user r k = some (U k r)) (hF : ∀ k, PartsOf c (F k) off (U k)) (K : ℕ) {ρ u} (hρ : Run (start (prog c K) W) ρ u) :
    ∃ σ t, DueRun u σ t ∧ Final t ∧ Outcome c (fun r => (t.loc r).mem) (specRun c.adve D (fun k => window c off (F k)) K st) := by
  obtain ⟨N, hN⟩ := mpi_run_partial hm hd hs hw ha hj hx hD hW K
  obtain ⟨-, -, -, σ, t, h1, h2, h3⟩ := hN ρ u hρ
  refine ⟨σ, t, h1, h2, ?_⟩
  have e : ∀ K, specRun c.adve D (inUse c (fun r => (W r).cour)) K st = specRun c.adve D (fun k => window c off (F k)) K st := by
    intro K
    induction K with
    | zero => rfl
    | succ K ih =>
      show (specRun c.adve D (inUse c (fun r => (W r).cour)) K st).bind _ = (specRun c.adve D (fun k => window c off (F k)) K st).bind _
      rw [ih]
      congr 1
      funext st'
      have : advance D K (inUse c (fun r => (W r).cour) (K + 1)) st' = advance D K (window c off (F (K + 1))) st' := by
        funext r
        unfold advance
        rw [hR r K _ (window c off (F (K + 1)) r) _ (fun co hco q hq => inUse_window hm hs hd hw hp hU hF _ _ r hco hq)]
      unfold specStep
      rw [this]
  rwa [e] at h3

/-! ### Budget -/

open Finset in
/-- **C112** (partial, same provisos) In a periodic domain, if what each process does by itself changes the number of real droplets (weighted by any
function of the attributes) by given amounts, then the total over all processes changes by their sum: nothing is lost or doubled on the way
between processes, whatever the schedule. -/
theorem mpi_budget_partial (hm : 0 < m) {c : Cfg m} (hd : c.SameDims) (hs : c.SameCols) (hw : Wide c) (ha : ∀ k, c.adve k = true)
    (hj : c.jx < c.nv) (hx : ∀ r, c.x0 r ≤ c.x1 r) {D : Law m} (hD : Follows c D) {W : World m} {st : Fin (m + 1) → Rank} (hW : Begins c W st)
    (hp : c.open_ = false) (f : (ℕ → ℝ) → ℝ) (dq : Fin (m + 1) → ℕ → ℝ)
    (hq : ∀ r k C l, ((D r k C l).map (fun s => s.n * f s.attr)).sum = (l.map (fun s => s.n * f s.attr)).sum + dq r k) (K : ℕ)
    {ρ t} (hρ : Run (start (prog c K) W) ρ t) (ht : Final t) (he : ∀ r, (t.loc r).mem.err = false) :
    ∃ l : Fin (m + 1) → List Sd, (∀ r, Holds c (t.loc r).mem (l r)) ∧
      ∑ r, ((l r).map (fun s => s.n * f s.attr)).sum = ∑ r, (((st r).sds).map (fun s => s.n * f s.attr)).sum + ∑ k ∈ range K, ∑ r, dq r k := by
  obtain ⟨N, hN⟩ := mpi_run_partial hm hd hs hw (fun _ => ha) hj hx hD hW K
  obtain ⟨-, -, h3, -⟩ := hN ρ t hρ
  have h3 := h3 (fun r => (ht.1 r).1) (fun α u' _ hst => ht.stuck hst)
  have key : ∀ K st', specRun c.adve D (inUse c (fun r => (W r).cour)) K st = some st' →
      (∀ r, (st' r).x0 = c.x0 r ∧ (st' r).x1 = c.x1 r ∧ (st' r).openL = false ∧ (st' r).openR = false) ∧
      ∑ r, (((st' r).sds).map (fun s => s.n * f s.attr)).sum = ∑ r, (((st r).sds).map (fun s => s.n * f s.attr)).sum + ∑ k ∈ range K, ∑ r, dq r k := by
    intro K
    induction K with
    | zero =>
      intro st' h
      have h := Option.some.inj h
      subst h
      refine ⟨fun r => ⟨hW.x0 r, hW.x1 r, ?_, ?_⟩, by simp⟩
      · rw [hW.openL]; simp [Cfg.linkL, hp]
      · rw [hW.openR]; simp [Cfg.linkR, hp]
    | succ K ih =>
      intro st' h
      have h : (specRun c.adve D (inUse c (fun r => (W r).cour)) K st).bind (specStep c.adve D (inUse c (fun r => (W r).cour)) K) = some st' := h
      obtain ⟨s1, e1, e2⟩ := Option.bind_eq_some_iff.1 h
      obtain ⟨i1, i2⟩ := ih s1 e1
      unfold specStep at e2
      rw [if_pos (ha K)] at e2
      obtain ⟨B, hB⟩ : ∃ B, B = advance D K (inUse c (fun r => (W r).cour) (K + 1)) s1 := ⟨_, rfl⟩
      rw [← hB] at e2
      have j : ∀ r, (B r).x0 = c.x0 r ∧ (B r).x1 = c.x1 r ∧ (B r).openL = false ∧ (B r).openR = false := by
        intro r; rw [hB]; exact i1 r
      have bud := exchange_budget_partial B st' f e2 (fun r => by rw [(j r).1, (j r).2.1]; exact hx r) (fun r => by rw [(j r).2.2.2, (j _).2.2.1])
      have z1 : ∀ r, (B r).openL = false := fun r => (j r).2.2.1
      have z2 : ∀ r, (B r).openR = false := fun r => (j r).2.2.2
      simp only [z1, z2, Bool.false_eq_true, if_false, sum_const_zero, add_zero] at bud
      refine ⟨fun r => ?_, ?_⟩
      · unfold exchange at e2
        split at e2
        · have e2 := Option.some.inj e2
          rw [← e2]; exact j r
        · exact absurd e2 (by simp)
      · rw [bud, sum_range_succ, ← add_assoc, ← i2, ← sum_add_distrib]
        apply sum_congr rfl
        intro r _
        rw [hB]
        exact hq r K _ _
  cases h : specRun c.adve D (inUse c (fun r => (W r).cour)) K st with
  | none =>
    rw [h] at h3
    obtain ⟨r, hr⟩ := h3
    exact absurd hr (by rw [he r]; simp)
  | some st' =>
    rw [h] at h3
    exact ⟨fun r => (st' r).sds, fun r => (h3 r).1, (key K st' h).2⟩

end LCP.Mpi
