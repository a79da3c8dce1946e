import Verif.Mpi.Counting
import Verif.E2L.Halo

/-!
# The programs keep off the buffers of open requests

The sends of `xchng_domains` and `xchng_courants` are never waited for: their requests may be open for ever.  What protects the Courant numbers on
their way from being overwritten by the next `sync_in` is that by then the process has received a message which its neighbour sends only
after having taken them.
-/
set_option linter.unusedSimpArgs false

namespace LCP.Mpi
open LCP.E2L LCP.Grid LCP.Distmem

section general
variable {R T Q P M : Type} [DecidableEq R] [DecidableEq T] [DecidableEq Q]

/-- something holds at all places of a segment -/
def Places (φ : List (Ent R T Q P M) → List (Instr R T Q P M) → Prop) : List (Ent R T Q P M) → List (Instr R T Q P M) →
    List (Instr R T Q P M) → Prop
  | _, [], _ => True
  | L, i :: p, rest => φ L (i :: p ++ rest) ∧ Places φ (next L i) p rest

/-- all statements of a segment are checked -/
def Oks (ψ : Place R T Q P M) (self : R) : List (Ent R T Q P M) → List (Instr R T Q P M) → List (Instr R T Q P M) → Prop
  | _, [], _ => True
  | L, i :: p, rest => Ok ψ self L (p ++ rest) i ∧ Oks ψ self (next L i) p rest

theorem chk_append {ψ : Place R T Q P M} {self : R} {L p rest} (h1 : Places (ψ self) L p rest) (h2 : Oks ψ self L p rest)
    (h3 : Chk ψ self (p.foldl next L) rest) : Chk ψ self L (p ++ rest) := by
  induction p generalizing L with
  | nil => exact h3
  | cons i p ih => exact ⟨h1.1, h2.1, ih h1.2 h2.2 h3⟩

theorem Oks.append {ψ : Place R T Q P M} {self : R} {L p q rest} (h1 : Oks ψ self L p (q ++ rest)) (h2 : Oks ψ self (p.foldl next L) q rest) :
    Oks ψ self L (p ++ q) rest := by
  induction p generalizing L with
  | nil => exact h2
  | cons i p ih => exact ⟨by show Ok ψ self L ((p ++ q) ++ rest) i; rw [List.append_assoc]; exact h1.1, ih h1.2 h2⟩

/-- receives that may be pending -/
def pend (a : R) (t : T) (L : List (Ent R T Q P M)) (k : List (Instr R T Q P M)) : ℕ := (rcvs a t L).length + nR a t k

theorem pend_next (a : R) (t : T) (L : List (Ent R T Q P M)) (i : Instr R T Q P M) (k : List (Instr R T Q P M)) :
    pend a t (next L i) k ≤ pend a t L (i :: k) := by
  unfold pend
  cases i with
  | loc f => exact Nat.le_refl _
  | isend q b t' rd => simp [next, rcvs_append, nR]; simp [rcvs]
  | irecv q b t' wr =>
    by_cases hc : b = a ∧ t' = t
    · simp [next, rcvs_append, nR, hc]; simp [rcvs]; omega
    · simp [next, rcvs_append, nR, hc]; simp [rcvs, hc]
  | wait q =>
    simp only [next, nR, rcvs_filter]
    have := List.length_filter_le (fun e : Q × (P → M → M) => decide (e.1 ≠ q)) (rcvs a t L)
    omega

end general

variable {m : ℕ}

/-- where a process can be: Courant numbers it still has to receive from the left are not more than the messages with tag 1 it still has to
send to the left; similarly on the right, with tag 3, or with tag 0 during `init` -/
def place (c : Cfg m) : Place (Fin (m + 1)) ℕ Req Pay Mem := fun b L k => c.h ≠ 0 →
  (c.linkL b = true → ∀ co, pend (lftRank b) (1 * ctag co) L k ≤ nS (lftRank b) 1 k) ∧
  (c.linkR b = true → ∀ co, pend (rgtRank b) (2 * ctag co) L k ≤ nS (rgtRank b) 3 k ∨
    (pend (rgtRank b) (2 * ctag co) L k ≤ nS (rgtRank b) 3 k + 1 ∧
      1 + nS (rgtRank b) 3 k * ind (c.linkL b = true ∧ lftRank b = rgtRank b) ≤ nS (rgtRank b) 0 k))

private theorem nS_le_cons (b : Fin (m + 1)) (t : ℕ) (i : I m) (k : List (I m)) : nS b t k ≤ nS b t (i :: k) := by
  cases i <;> simp [nS]

private theorem nS_cons (b : Fin (m + 1)) (t : ℕ) (i : I m) (k : List (I m)) : nS b t (i :: k) = nS b t [i] + nS b t k := by
  rw [← nS_append]; rfl

/-- enough to look at the beginning of a segment -/
theorem places_of {c : Cfg m} {b : Fin (m + 1)} {L p rest}
    (h : c.h ≠ 0 → (c.linkL b = true → ∀ co, pend (lftRank b) (1 * ctag co) L (p ++ rest) ≤ nS (lftRank b) 1 rest) ∧
      (c.linkR b = true → ∀ co, pend (rgtRank b) (2 * ctag co) L (p ++ rest) ≤ nS (rgtRank b) 3 rest ∨
        (pend (rgtRank b) (2 * ctag co) L (p ++ rest) ≤ nS (rgtRank b) 3 rest + 1 ∧ nS (rgtRank b) 3 p = 0 ∧
          1 + nS (rgtRank b) 3 rest * ind (c.linkL b = true ∧ lftRank b = rgtRank b) ≤ nS (rgtRank b) 0 rest))) :
    Places (place c b) L p rest := by
  induction p generalizing L with
  | nil => trivial
  | cons i p ih =>
    refine ⟨fun h0 => ?_, ih fun h0 => ?_⟩
    · obtain ⟨h1, h2⟩ := h h0
      refine ⟨fun hl co => ?_, fun hr co => ?_⟩
      · have := h1 hl co
        rw [nS_append]; omega
      · rcases h2 hr co with g | ⟨g1, g2, g3⟩
        · left; rw [nS_append]; omega
        · right
          rw [nS_append, nS_append, g2]
          simp only [Nat.zero_add]
          exact ⟨g1, by omega⟩
    · obtain ⟨h1, h2⟩ := h h0
      refine ⟨fun hl co => Nat.le_trans (pend_next ..) (h1 hl co), fun hr co => ?_⟩
      rcases h2 hr co with g | ⟨g1, g2, g3⟩
      · exact Or.inl (Nat.le_trans (pend_next ..) g)
      · refine Or.inr ⟨Nat.le_trans (pend_next ..) g1, ?_, g3⟩
        rw [nS_cons] at g2; omega

/-- a send whose request is never waited for -/
structure Stale (c : Cfg m) (r : Fin (m + 1)) (e : Ent (Fin (m + 1)) ℕ Req Pay Mem) : Prop where
  ex : ∃ q b t rd, e = .snd q b t rd ∧
    (∀ M M' : Mem, M.cour = M'.cour → rd M = rd M') ∧
    (∀ co ∈ comps (c.dims r), ∀ p M, rd (wrCour co 0 (haloLen (c.dims r) c.h co) p M) = rd M ∧
      rd (wrCour co (rgtHalo (c.dims r) c.h co) (haloLen (c.dims r) c.h co) p M) = rd M) ∧
    ((∀ M M' : Mem, rd M = rd M') ∨ c.h ≠ 0 ∧ ∃ co ∈ comps (c.dims r),
      (c.linkR r = true ∧ b = rgtRank r ∧ t = 1 * ctag co) ∨ (c.linkL r = true ∧ b = lftRank r ∧ t = 2 * ctag co))

/-- by the time of `sync_in` the Courant numbers sent earlier have been taken -/
theorem covered (hm : 0 < m) {c : Cfg m} {r : Fin (m + 1)} {L k} {j : ℕ} (h0 : c.h ≠ 0) (hc : Counts c r k j) (hL : ∀ a t, rcvs a t L = [])
    {co : Comp} (hco : co ∈ comps (c.dims r)) :
    (c.linkR r = true → Covered (place c) r (rgtRank r) (1 * ctag co) L k) ∧
    (c.linkL r = true → Covered (place c) r (lftRank r) (2 * ctag co) L k) := by
  have ne1 : rgtRank r ≠ r := by
    intro h; have := congrArg Fin.val h; rw [rgt_val] at this; have := r.isLt; split at * <;> omega
  have ne2 : lftRank r ≠ r := by
    intro h; have := congrArg Fin.val h; rw [lft_val] at this; have := r.isLt; split at * <;> omega
  constructor
  · intro hr
    refine ⟨ne1, fun L' k' hp hn => ?_⟩
    have h1 := (hp h0).1 (by rw [linkL_rgt hm]; exact hr) co
    rw [lft_rgt] at h1
    have h2 := hn 1
    rw [hL, hc.r1 hr] at h2
    rw [hc.cR co hco hr]
    simp only [List.length_nil] at h2
    unfold pend at h1; omega
  · intro hl
    refine ⟨ne2, fun L' k' hp hn => ?_⟩
    have h1 := (hp h0).2 (by rw [linkR_lft hm]; exact hl) co
    rw [rgt_lft] at h1
    have h2 := hn 3
    rw [hL, hc.r3 hl] at h2
    rw [hc.cL co hco hl]
    simp only [List.length_nil] at h2
    rcases h1 with h1 | ⟨h1, h3⟩
    · unfold pend at h1; omega
    · have h4 := hn 0
      rw [hL, hc.r0 hl] at h4
      simp only [List.length_nil] at h4
      have ei : ind (c.linkL (lftRank r) = true ∧ lftRank (lftRank r) = r) = ind (c.linkR r = true ∧ rgtRank r = lftRank r) := by
        refine ind_congr ⟨?_, ?_⟩
        · rintro ⟨a1, a2⟩
          have e : rgtRank r = lftRank r := by
            have := congrArg rgtRank a2; rw [rgt_lft] at this; exact this.symm
          exact ⟨by rw [← linkL_rgt hm, e]; exact a1, e⟩
        · rintro ⟨a1, a2⟩
          refine ⟨by rw [← a2, linkL_rgt hm]; exact a1, ?_⟩
          rw [← a2, lft_rgt]
      rw [ei] at h3
      unfold pend at h1
      obtain ⟨z, hz⟩ : ∃ z, z = ind (c.linkR r = true ∧ rgtRank r = lftRank r) := ⟨_, rfl⟩
      rw [← hz] at h3 h4
      have : z = 0 ∨ z = 1 := by have := ind_le (c.linkR r = true ∧ rgtRank r = lftRank r); omega
      rcases this with rfl | rfl <;> omega

/-- only sends that are never waited for are open -/
def AllStale (c : Cfg m) (r : Fin (m + 1)) (L : List (Ent (Fin (m + 1)) ℕ Req Pay Mem)) : Prop := ∀ e ∈ L, Stale c r e

theorem AllStale.rcvs {c : Cfg m} {r : Fin (m + 1)} {L} (h : AllStale c r L) (a : Fin (m + 1)) (t : ℕ) : rcvs a t L = [] := by
  rw [List.eq_nil_iff_forall_not_mem]
  rintro ⟨q, wr⟩ hm
  obtain ⟨q', b, t', rd, e, _⟩ := (h _ (mem_rcvs.1 hm)).ex
  cases e

theorem ok_sync (hm : 0 < m) {c : Cfg m} {r : Fin (m + 1)} {L k} {j : ℕ} (hc : c.h ≠ 0 → Counts c r k j) (hL : AllStale c r L) (i : ℕ) :
    Ok (place c) r L k (.loc (syncCour c i r)) := by
  intro e he
  obtain ⟨q, b, t, rd, rfl, _, _, h | ⟨h0, co, hco, h | h⟩⟩ := (hL e he).ex
  · exact Or.inl (fun M => h _ _)
  · obtain ⟨h1, rfl, rfl⟩ := h
    exact Or.inr ((covered hm h0 (hc h0) hL.rcvs hco).1 h1)
  · obtain ⟨h1, rfl, rfl⟩ := h
    exact Or.inr ((covered hm h0 (hc h0) hL.rcvs hco).2 h1)

/-- computations that do not change the Courant numbers -/
theorem ok_loc {c : Cfg m} {r : Fin (m + 1)} {L X k} (hL : AllStale c r L) {f : Mem → Mem} (hf : ∀ M, (f M).cour = M.cour)
    (hX : ∀ e ∈ X, match e with
      | Ent.snd _ _ _ rd => ∀ M, rd (f M) = rd M
      | .rcv _ _ _ wr => ∀ p M, f (wr p M) = wr p (f M)) : Ok (place c) r (L ++ X) k (.loc f) := by
  intro e he
  rcases List.mem_append.1 he with he | he
  · obtain ⟨q, b, t, rd, rfl, h, _⟩ := (hL e he).ex
    exact Or.inl (fun M => h _ _ (hf M))
  · have := hX e he
    cases e with
    | snd => exact Or.inl this
    | rcv => exact this

theorem ok_isend {c : Cfg m} {r : Fin (m + 1)} {L X k} (hL : AllStale c r L) {q b t rd} (hq : ∀ e ∈ L, e.q ≠ q)
    (hX : ∀ e ∈ X, e.q ≠ q ∧ match e with
      | Ent.snd _ _ _ _ => True
      | .rcv _ _ _ wr => ∀ p M, rd (wr p M) = rd M) : Ok (place c) r (L ++ X) k (.isend q b t rd) := by
  intro e he
  rcases List.mem_append.1 he with he | he
  · refine ⟨hq e he, ?_⟩
    obtain ⟨q, b, t, rd, rfl, h, _⟩ := (hL e he).ex
    trivial
  · have := hX e he
    cases e <;> exact this

theorem ok_irecv {c : Cfg m} {r : Fin (m + 1)} {L X k} (hL : AllStale c r L) {q a t wr} (hq : ∀ e ∈ L, e.q ≠ q)
    (hw : ∀ p M, (wr p M).cour = M.cour)
    (hX : ∀ e ∈ X, e.q ≠ q ∧ match e with
      | Ent.snd _ _ _ rd => ∀ p M, rd (wr p M) = rd M
      | .rcv _ a' t' wr' => (a', t') ≠ (a, t) → ∀ p p' M, wr p (wr' p' M) = wr' p' (wr p M)) :
    Ok (place c) r (L ++ X) k (.irecv q a t wr) := by
  intro e he
  rcases List.mem_append.1 he with he | he
  · refine ⟨hq e he, ?_⟩
    obtain ⟨q, b, t, rd, rfl, h, _⟩ := (hL e he).ex
    exact fun p M => h _ _ (hw p M)
  · have := hX e he
    cases e <;> exact this

/-- send and receive, the send is not waited for -/
theorem swap_oks {c : Cfg m} {r : Fin (m + 1)} {L rest} {s v : Bool} {q b t rd q' a wr} (hL : AllStale c r L)
    (hq : ∀ e ∈ L, e.q ≠ q ∧ e.q ≠ q') (hqq : q ≠ q')
    (hw : ∀ e ∈ L, ∀ q0 b0 t0 rd0, e = Ent.snd q0 b0 t0 rd0 → ∀ p M, rd0 (wr p M) = rd0 M) (hr : ∀ p M, rd (wr p M) = rd M) :
    Oks (place c) r L ((if s then [Instr.isend q b t rd] else []) ++ (if v then [.irecv q' a t wr, .wait q'] else [])) rest ∧
    List.foldl next L ((if s then [Instr.isend q b t rd] else []) ++ (if v then [.irecv q' a t wr, .wait q'] else []))
      = L ++ if s then [.snd q b t rd] else [] := by
  have fl : L.filter (fun e => decide (e.q ≠ q')) = L := by
    rw [List.filter_eq_self]; intro e he; simpa using (hq e he).2
  have o1 : ∀ k, Ok (place c) r L k (.isend q b t rd) := by
    intro k
    have := ok_isend (X := []) (k := k) (b := b) (t := t) (rd := rd) hL (fun e he => (hq e he).1) (by simp)
    simpa using this
  have o2 : ∀ k X, (X = [] ∨ X = [Ent.snd q b t rd]) → Ok (place c) r (L ++ X) k (.irecv q' a t wr) := by
    intro k X hX e he
    rcases List.mem_append.1 he with he | he
    · refine ⟨(hq e he).2, ?_⟩
      obtain ⟨q0, b0, t0, rd0, rfl, _⟩ := (hL e he).ex
      exact hw _ he _ _ _ _ rfl
    · rcases hX with rfl | rfl
      · simp at he
      · rw [List.mem_singleton] at he
        subst he
        exact ⟨hqq, hr⟩
  cases s <;> cases v
  · simp [Oks]
  · refine ⟨⟨by simpa using o2 _ [] (Or.inl rfl), trivial, trivial⟩, ?_⟩
    simp only [Bool.false_eq_true, if_false, if_true, List.nil_append, List.foldl_cons, List.foldl_nil, next, List.filter_append, fl, List.append_nil]
    simp [List.filter, Ent.q]
  · exact ⟨⟨o1 _, trivial⟩, rfl⟩
  · refine ⟨⟨o1 _, o2 _ _ (Or.inr rfl), trivial, trivial⟩, ?_⟩
    simp only [if_true, List.nil_append, List.cons_append, List.foldl_cons, List.foldl_nil, next, List.filter_append, fl, List.append_nil]
    simp [List.filter, Ent.q, hqq]

/-! ### Courant numbers -/

/-- the halo and the columns sent do not overlap, if the domain is at least as wide as the halo -/
structure Wide (c : Cfg m) : Prop where
  layout : ∀ r, (c.dims r).Layout
  wide : ∀ r, c.h ≤ (c.dims r).nx

theorem mem_comps {d : Dims} (hL : d.Layout) {co : Comp} (h : co ∈ comps d) : E2L.Exists d co := by
  have h3 : d.nDims ≤ 3 := by
    rcases hL with h | h | h | h
    · rw [nDims0 h]; omega
    · rw [nDims1 h]; omega
    · rw [nDims2 h]; omega
    · rw [nDims3 h]
  simp only [comps, List.mem_append, List.mem_ite_nil_right, List.mem_singleton] at h
  rcases h with (⟨h1, rfl⟩ | ⟨h1, rfl⟩) | ⟨h1, rfl⟩ <;> simp only [E2L.Exists] <;> omega

private theorem compId_inj {a b : Comp} (h : compId a = compId b) : a = b := by
  cases a <;> cases b <;> first | rfl | simp [compId] at h

private theorem rd_wr {co co' : Comp} {idx len idx' len' : ℕ} (h : co = co' → idx + len ≤ idx' ∨ idx' + len' ≤ idx) (p : Pay) (M : Mem) :
    rdCour co idx len (wrCour co' idx' len' p M) = rdCour co idx len M := by
  unfold rdCour
  congr 1
  apply List.map_congr_left
  intro j hj
  rw [List.mem_range] at hj
  unfold wrCour
  dsimp only
  by_cases hc : compId co = compId co'
  · have := h (compId_inj hc)
    rw [if_pos hc, if_neg (by omega)]
  · rw [if_neg hc]

theorem halo_sep {c : Cfg m} (hw : Wide c) (r : Fin (m + 1)) {co : Comp} (hco : co ∈ comps (c.dims r)) :
    haloLen (c.dims r) c.h co ≤ rgtInternal (c.dims r) co ∧
    rgtInternal (c.dims r) co + haloLen (c.dims r) c.h co ≤ rgtHalo (c.dims r) c.h co ∧
    haloLen (c.dims r) c.h co ≤ lftInternal (c.dims r) c.h co ∧
    lftInternal (c.dims r) c.h co + haloLen (c.dims r) c.h co ≤ rgtHalo (c.dims r) c.h co := by
  obtain ⟨e1, e2, e3⟩ := idx_eqs (hw.layout r) (mem_comps (hw.layout r) hco) c.h
  have hx := hw.wide r
  unfold rgtHalo
  rw [e1, e2, e3]
  generalize colLen (c.dims r) co = l
  have k1 : c.h * l ≤ (c.dims r).nx * l := Nat.mul_le_mul_right _ hx
  cases co
  · simp only [nCols]
    have : ((c.dims r).nx + 2 * c.h + 1) * l = (c.dims r).nx * l + (c.h * l + c.h * l) + l := by ring
    have : (c.h + 1) * l = c.h * l + l := by ring
    omega
  · simp only [nCols]
    have : ((c.dims r).nx + 2 * c.h) * l = (c.dims r).nx * l + (c.h * l + c.h * l) := by ring
    omega
  · simp only [nCols]
    have : ((c.dims r).nx + 2 * c.h) * l = (c.dims r).nx * l + (c.h * l + c.h * l) := by ring
    omega

/-- the two sends of a component -/
noncomputable def entR (c : Cfg m) (k : ℕ) (r : Fin (m + 1)) (co : Comp) : Ent (Fin (m + 1)) ℕ Req Pay Mem :=
  .snd (.cour k false (compId co) true) (rgtRank r) ((0 + 1) * ctag co) (rdCour co (rgtInternal (c.dims r) co) (haloLen (c.dims r) c.h co))
noncomputable def entL (c : Cfg m) (k : ℕ) (r : Fin (m + 1)) (co : Comp) : Ent (Fin (m + 1)) ℕ Req Pay Mem :=
  .snd (.cour k true (compId co) true) (lftRank r) ((1 + 1) * ctag co) (rdCour co (lftInternal (c.dims r) c.h co) (haloLen (c.dims r) c.h co))

theorem stale_R {c : Cfg m} (hw : Wide c) (h0 : c.h ≠ 0) (k : ℕ) {r : Fin (m + 1)} (hr : c.linkR r = true) {co : Comp}
    (hco : co ∈ comps (c.dims r)) : Stale c r (entR c k r co) := by
  obtain ⟨h1, h2, h3, h4⟩ := halo_sep hw r hco
  refine ⟨_, _, _, _, rfl, fun M M' h => by unfold rdCour; rw [h], fun co' hco' p M => ⟨rd_wr ?_ p M, rd_wr ?_ p M⟩,
    Or.inr ⟨h0, co, hco, Or.inl ⟨hr, rfl, by omega⟩⟩⟩
  · rintro rfl; omega
  · rintro rfl; omega

theorem stale_L {c : Cfg m} (hw : Wide c) (h0 : c.h ≠ 0) (k : ℕ) {r : Fin (m + 1)} (hr : c.linkL r = true) {co : Comp}
    (hco : co ∈ comps (c.dims r)) : Stale c r (entL c k r co) := by
  obtain ⟨h1, h2, h3, h4⟩ := halo_sep hw r hco
  refine ⟨_, _, _, _, rfl, fun M M' h => by unfold rdCour; rw [h], fun co' hco' p M => ⟨rd_wr ?_ p M, rd_wr ?_ p M⟩,
    Or.inr ⟨h0, co, hco, Or.inr ⟨hr, rfl, by omega⟩⟩⟩
  · rintro rfl; omega
  · rintro rfl; omega

/-- `H` holds for the handles in use -/
def Uses (H : Req → Prop) (L : List (Ent (Fin (m + 1)) ℕ Req Pay Mem)) : Prop := ∀ e ∈ L, H e.q

theorem rights_oks {c : Cfg m} (hw : Wide c) (h0 : c.h ≠ 0) (k : ℕ) (r : Fin (m + 1)) (l : List Comp) (hl : l.Nodup)
    (hs : ∀ co ∈ l, co ∈ comps (c.dims r)) {L rest} (hL : AllStale c r L)
    (hq : ∀ e ∈ L, ∀ co ∈ l, e.q ≠ .cour k false (compId co) true) (hq' : ∀ e ∈ L, ∀ i co, e.q ≠ .cour k i (compId co) false) :
    Oks (place c) r L (l.flatMap (courRight c k r)) rest ∧
    (l.flatMap (courRight c k r)).foldl next L = L ++ if c.linkR r then l.map (entR c k r) else [] := by
  induction l generalizing L with
  | nil => simp [Oks]
  | cons co l ih =>
    rw [List.nodup_cons] at hl
    have hco := hs co (List.mem_cons_self ..)
    have st := fun hr => stale_R hw h0 k (r := r) hr hco
    obtain ⟨o1, o2⟩ := swap_oks (c := c) (r := r) (L := L) (rest := l.flatMap (courRight c k r) ++ rest) (s := c.linkR r) (v := c.linkL r)
      (q := .cour k false (compId co) true) (b := rgtRank r) (t := (0 + 1) * ctag co)
      (rd := rdCour co (rgtInternal (c.dims r) co) (haloLen (c.dims r) c.h co)) (q' := .cour k false (compId co) false) (a := lftRank r)
      (wr := wrCour co 0 (haloLen (c.dims r) c.h co)) hL
      (fun e he => ⟨hq e he co (List.mem_cons_self ..), hq' e he _ _⟩) (by simp)
      (fun e he q0 b0 t0 rd0 h p M => by
        obtain ⟨q1, b1, t1, rd1, rfl, _, h2, _⟩ := (hL e he).ex
        cases h
        exact (h2 co hco p M).1)
      (fun p M => rd_wr (fun _ => by have := halo_sep hw r hco; omega) p M)
    obtain ⟨i1, i2⟩ := ih hl.2 (fun co' h => hs co' (List.mem_cons_of_mem _ h)) (L := L ++ if c.linkR r then [entR c k r co] else [])
      (by
        intro e he
        rcases List.mem_append.1 he with he | he
        · exact hL e he
        · split at he
          · rw [List.mem_singleton] at he; subst he; exact st (by assumption)
          · simp at he)
      (by
        intro e he co' hco'
        rcases List.mem_append.1 he with he | he
        · exact hq e he co' (List.mem_cons_of_mem _ hco')
        · split at he
          · rw [List.mem_singleton] at he; subst he
            simp only [entR, Ent.q, ne_eq, Req.cour.injEq, true_and, and_true]
            intro h
            exact hl.1 (compId_inj h ▸ hco')
          · simp at he)
      (by
        intro e he i co'
        rcases List.mem_append.1 he with he | he
        · exact hq' e he i co'
        · split at he
          · rw [List.mem_singleton] at he; subst he
            simp [entR, Ent.q]
          · simp at he)
    have e2 : List.foldl next L (courRight c k r co) = L ++ if c.linkR r then [entR c k r co] else [] := o2
    rw [List.flatMap_cons]
    refine ⟨Oks.append o1 (by rw [e2]; exact i1), ?_⟩
    rw [List.foldl_append, e2, i2]
    cases c.linkR r <;> simp

theorem lefts_oks {c : Cfg m} (hw : Wide c) (h0 : c.h ≠ 0) (k : ℕ) (r : Fin (m + 1)) (l : List Comp) (hl : l.Nodup)
    (hs : ∀ co ∈ l, co ∈ comps (c.dims r)) {L rest} (hL : AllStale c r L)
    (hq : ∀ e ∈ L, ∀ co ∈ l, e.q ≠ .cour k true (compId co) true) (hq' : ∀ e ∈ L, ∀ i co, e.q ≠ .cour k i (compId co) false) :
    Oks (place c) r L (l.flatMap (courLeft c k r)) rest ∧
    (l.flatMap (courLeft c k r)).foldl next L = L ++ if c.linkL r then l.map (entL c k r) else [] := by
  induction l generalizing L with
  | nil => simp [Oks]
  | cons co l ih =>
    rw [List.nodup_cons] at hl
    have hco := hs co (List.mem_cons_self ..)
    have st := fun hr => stale_L hw h0 k (r := r) hr hco
    obtain ⟨o1, o2⟩ := swap_oks (c := c) (r := r) (L := L) (rest := l.flatMap (courLeft c k r) ++ rest) (s := c.linkL r) (v := c.linkR r)
      (q := .cour k true (compId co) true) (b := lftRank r) (t := (1 + 1) * ctag co)
      (rd := rdCour co (lftInternal (c.dims r) c.h co) (haloLen (c.dims r) c.h co)) (q' := .cour k true (compId co) false) (a := rgtRank r)
      (wr := wrCour co (rgtHalo (c.dims r) c.h co) (haloLen (c.dims r) c.h co)) hL
      (fun e he => ⟨hq e he co (List.mem_cons_self ..), hq' e he _ _⟩) (by simp)
      (fun e he q0 b0 t0 rd0 h p M => by
        obtain ⟨q1, b1, t1, rd1, rfl, _, h2, _⟩ := (hL e he).ex
        cases h
        exact (h2 co hco p M).2)
      (fun p M => rd_wr (fun _ => by have := halo_sep hw r hco; omega) p M)
    obtain ⟨i1, i2⟩ := ih hl.2 (fun co' h => hs co' (List.mem_cons_of_mem _ h)) (L := L ++ if c.linkL r then [entL c k r co] else [])
      (by
        intro e he
        rcases List.mem_append.1 he with he | he
        · exact hL e he
        · split at he
          · rw [List.mem_singleton] at he; subst he; exact st (by assumption)
          · simp at he)
      (by
        intro e he co' hco'
        rcases List.mem_append.1 he with he | he
        · exact hq e he co' (List.mem_cons_of_mem _ hco')
        · split at he
          · rw [List.mem_singleton] at he; subst he
            simp only [entL, Ent.q, ne_eq, Req.cour.injEq, true_and, and_true]
            intro h
            exact hl.1 (compId_inj h ▸ hco')
          · simp at he)
      (by
        intro e he i co'
        rcases List.mem_append.1 he with he | he
        · exact hq' e he i co'
        · split at he
          · rw [List.mem_singleton] at he; subst he
            simp [entL, Ent.q]
          · simp at he)
    have e2 : List.foldl next L (courLeft c k r co) = L ++ if c.linkL r then [entL c k r co] else [] := o2
    rw [List.flatMap_cons]
    refine ⟨Oks.append o1 (by rw [e2]; exact i1), ?_⟩
    rw [List.foldl_append, e2, i2]
    cases c.linkL r <;> simp

theorem comps_nodup (d : Dims) : (comps d).Nodup := by
  rcases comps_cases d with e | e | e | e <;> rw [e] <;> simp

/-- handles of rounds before `k`, and, if `d`, those of `xchng_domains` -/
def Before (d : Prop) (k : ℕ) (q : Req) : Prop := (d ∧ ∃ i, q = .dom i true) ∨ ∃ k' i n, k' < k ∧ q = .cour k' i n true

theorem cour_oks {c : Cfg m} (hw : Wide c) {d : Prop} (k : ℕ) (r : Fin (m + 1)) {L rest} (hL : AllStale c r L) (hu : Uses (Before d k) L) :
    Oks (place c) r L (courProg c k r) rest ∧ AllStale c r ((courProg c k r).foldl next L) ∧ Uses (Before d (k + 1)) ((courProg c k r).foldl next L) := by
  have mono : ∀ {q}, Before d k q → Before d (k + 1) q := by
    rintro q (h | ⟨k', i, n, h, e⟩)
    · exact Or.inl h
    · exact Or.inr ⟨k', i, n, by omega, e⟩
  unfold courProg
  by_cases h0 : c.h = 0
  · simp only [h0, if_true]
    exact ⟨trivial, hL, fun e he => mono (hu e he)⟩
  simp only [h0, if_false]
  have ne : ∀ {q}, Before d k q → ∀ i n b, q ≠ .cour k i n b := by
    rintro q (⟨_, i', h⟩ | ⟨k', i', n', h, e⟩) i n b <;> subst q
    · simp
    · simp only [ne_eq, Req.cour.injEq]; omega
  obtain ⟨a1, a2⟩ := rights_oks hw h0 k r (comps (c.dims r)) (comps_nodup _) (fun _ h => h)
    (rest := (comps (c.dims r)).flatMap (courLeft c k r) ++ rest) hL (fun e he co _ => ne (hu e he) _ _ _) (fun e he i co => ne (hu e he) _ _ _)
  obtain ⟨L1, hL1⟩ : ∃ L1, L1 = L ++ (if c.linkR r then (comps (c.dims r)).map (entR c k r) else []) := ⟨_, rfl⟩
  rw [← hL1] at a2
  have m1 : ∀ e ∈ L1, e ∈ L ∨ (c.linkR r = true ∧ ∃ co ∈ comps (c.dims r), e = entR c k r co) := by
    intro e he
    rw [hL1] at he
    rcases List.mem_append.1 he with he | he
    · exact Or.inl he
    · split at he
      · obtain ⟨co, h1, h2⟩ := List.mem_map.1 he
        exact Or.inr ⟨by assumption, co, h1, h2.symm⟩
      · simp at he
  have s1 : AllStale c r L1 := by
    intro e he
    rcases m1 e he with he | ⟨hr, co, hco, rfl⟩
    · exact hL e he
    · exact stale_R hw h0 k hr hco
  obtain ⟨b1, b2⟩ := lefts_oks hw h0 k r (comps (c.dims r)) (comps_nodup _) (fun _ h => h)
    (rest := rest) s1
    (by
      intro e he co _
      rcases m1 e he with he | ⟨hr, co', hco, rfl⟩
      · exact ne (hu e he) _ _ _
      · simp [entR, Ent.q])
    (by
      intro e he i co
      rcases m1 e he with he | ⟨hr, co', hco, rfl⟩
      · exact ne (hu e he) _ _ _
      · simp [entR, Ent.q])
  refine ⟨Oks.append a1 (by rw [a2]; exact b1), ?_, ?_⟩
  · rw [List.foldl_append, a2, b2]
    intro e he
    rcases List.mem_append.1 he with he | he
    · exact s1 e he
    · split at he
      · obtain ⟨co, h1, rfl⟩ := List.mem_map.1 he
        exact stale_L hw h0 k (by assumption) h1
      · simp at he
  · rw [List.foldl_append, a2, b2]
    intro e he
    rcases List.mem_append.1 he with he | he
    · rcases m1 e he with he | ⟨hr, co', hco, rfl⟩
      · exact mono (hu e he)
      · exact Or.inr ⟨k, _, _, by omega, rfl⟩
    · split at he
      · obtain ⟨co, h1, rfl⟩ := List.mem_map.1 he
        exact Or.inr ⟨k, _, _, by omega, rfl⟩
      · simp at he

/-! ### Domain extents -/

theorem dom_oks {c : Cfg m} {k : ℕ} (r : Fin (m + 1)) {L rest} (hL : AllStale c r L) (hu : Uses (Before False k) L) :
    Oks (place c) r L (domProg c r) rest ∧ AllStale c r ((domProg c r).foldl next L) ∧ Uses (Before True k) ((domProg c r).foldl next L) := by
  have ne : ∀ {q}, Before False k q → ∀ i b, q ≠ .dom i b := by
    rintro q (⟨h, _⟩ | ⟨k', i', n', h, e⟩) i b
    · exact h.elim
    · subst q; simp
  have keep : ∀ (wr : Pay → Mem → Mem), (∀ p M, (wr p M).cour = M.cour) → ∀ L', AllStale c r L' → ∀ e ∈ L', ∀ q0 b0 t0 rd0,
      e = Ent.snd q0 b0 t0 rd0 → ∀ p M, rd0 (wr p M) = rd0 M := by
    intro wr hwr L' hL' e he q0 b0 t0 rd0 h p M
    obtain ⟨q1, b1, t1, rd1, rfl, h1, _⟩ := (hL' e he).ex
    cases h
    exact h1 _ _ (hwr p M)
  obtain ⟨a1, a2⟩ := swap_oks (c := c) (r := r) (L := L)
    (rest := ((if c.linkL r then [Instr.isend (.dom true true) (lftRank r) 1 (fun _ => .r [c.x0 r])] else []) ++
      (if c.linkR r then [Instr.irecv (.dom true false) (rgtRank r) 1 wrRgtX0, .wait (.dom true false)] else [])) ++ rest) (s := c.linkR r)
    (v := c.linkL r) (q := .dom false true) (b := rgtRank r) (t := 0) (rd := fun _ => .r [c.x1 r]) (q' := .dom false false) (a := lftRank r)
    (wr := wrLftX1) hL (fun e he => ⟨ne (hu e he) _ _, ne (hu e he) _ _⟩) (by simp) (keep wrLftX1 (fun _ _ => rfl) L hL) (fun _ _ => rfl)
  obtain ⟨L1, hL1⟩ : ∃ L1, L1 = L ++ (if c.linkR r then [Ent.snd (.dom false true) (rgtRank r) 0 (fun _ : Mem => Pay.r [c.x1 r])] else []) := ⟨_, rfl⟩
  rw [← hL1] at a2
  have m1 : ∀ e ∈ L1, e ∈ L ∨ e = Ent.snd (.dom false true) (rgtRank r) 0 (fun _ : Mem => Pay.r [c.x1 r]) := by
    intro e he
    rw [hL1] at he
    rcases List.mem_append.1 he with he | he
    · exact Or.inl he
    · split at he
      · exact Or.inr (List.mem_singleton.1 he)
      · simp at he
  have sc : ∀ q b t (p : Pay), Stale c r (.snd q b t (fun _ => p)) := fun q b t p =>
    ⟨_, _, _, _, rfl, fun _ _ _ => rfl, fun _ _ _ _ => ⟨rfl, rfl⟩, Or.inl (fun _ _ => rfl)⟩
  have s1 : AllStale c r L1 := by
    intro e he
    rcases m1 e he with he | rfl
    · exact hL e he
    · exact sc _ _ _ _
  obtain ⟨b1, b2⟩ := swap_oks (c := c) (r := r) (L := L1) (rest := rest) (s := c.linkL r)
    (v := c.linkR r) (q := .dom true true) (b := lftRank r) (t := 1) (rd := fun _ => .r [c.x0 r]) (q' := .dom true false) (a := rgtRank r)
    (wr := wrRgtX0) s1
    (by
      intro e he
      rcases m1 e he with he | rfl
      · exact ⟨ne (hu e he) _ _, ne (hu e he) _ _⟩
      · simp [Ent.q])
    (by simp) (keep wrRgtX0 (fun _ _ => rfl) L1 s1) (fun _ _ => rfl)
  have e : domProg c r = ((if c.linkR r then [Instr.isend (.dom false true) (rgtRank r) 0 (fun _ => .r [c.x1 r])] else []) ++
      (if c.linkL r then [Instr.irecv (.dom false false) (lftRank r) 0 wrLftX1, .wait (.dom false false)] else [])) ++
      ((if c.linkL r then [Instr.isend (.dom true true) (lftRank r) 1 (fun _ => .r [c.x0 r])] else []) ++
      (if c.linkR r then [Instr.irecv (.dom true false) (rgtRank r) 1 wrRgtX0, .wait (.dom true false)] else [])) := by
    simp [domProg, List.append_assoc]
  have ef : (domProg c r).foldl next L = L1 ++ (if c.linkL r then [Ent.snd (.dom true true) (lftRank r) 1 (fun _ : Mem => Pay.r [c.x0 r])] else []) := by
    rw [e, List.foldl_append, a2, b2]
  have m2 : ∀ e ∈ (domProg c r).foldl next L, e ∈ L1 ∨ e = Ent.snd (.dom true true) (lftRank r) 1 (fun _ : Mem => Pay.r [c.x0 r]) := by
    intro e he
    rw [ef] at he
    rcases List.mem_append.1 he with he | he
    · exact Or.inl he
    · split at he
      · exact Or.inr (List.mem_singleton.1 he)
      · simp at he
  refine ⟨by rw [e]; exact Oks.append a1 (by rw [a2]; exact b1), ?_, ?_⟩
  · intro e he
    rcases m2 e he with he | rfl
    · exact s1 e he
    · exact sc _ _ _ _
  · intro e he
    rcases m2 e he with he | rfl
    · rcases m1 e he with he | rfl
      · rcases hu e he with ⟨h, _⟩ | h
        · exact h.elim
        · exact Or.inr h
      · exact Or.inl ⟨trivial, _, rfl⟩
    · exact Or.inl ⟨trivial, _, rfl⟩

/-! ### Super-droplets -/

private theorem unpackN_cour (M : Mem) : (unpackN M).cour = M.cour := by unfold unpackN; dsimp only; split <;> rfl
private theorem unpackN_outN (M : Mem) : rdN (unpackN M) = rdN M := by unfold unpackN; dsimp only; split <;> rfl
private theorem unpackN_outR (M : Mem) : rdR (unpackN M) = rdR M := by unfold unpackN; dsimp only; split <;> rfl
private theorem unpackN_wrR (p : Pay) (M : Mem) : unpackN (wrR p M) = wrR p (unpackN M) := by
  unfold unpackN wrR; dsimp only; split <;> rfl
private theorem unpackR_cour (c : Cfg m) (r : Fin (m + 1)) (M : Mem) : (unpackR c r M).cour = M.cour := by
  unfold unpackR; dsimp only; split <;> rfl
private theorem unpackR_outN (c : Cfg m) (r : Fin (m + 1)) (M : Mem) : rdN (unpackR c r M) = rdN M := by
  unfold unpackR; dsimp only; split <;> rfl
private theorem unpackR_outR (c : Cfg m) (r : Fin (m + 1)) (M : Mem) : rdR (unpackR c r M) = rdR M := by
  unfold unpackR; dsimp only; split <;> rfl

/-- a computation keeps off the buffers of the requests in a list -/
def LocX (f : Mem → Mem) : List (Ent (Fin (m + 1)) ℕ Req Pay Mem) → Prop
  | [] => True
  | .snd _ _ _ rd :: X => (∀ M, rd (f M) = rd M) ∧ LocX f X
  | .rcv _ _ _ wr :: X => (∀ p M, f (wr p M) = wr p (f M)) ∧ LocX f X

def SendX (q : Req) (rd : Mem → Pay) : List (Ent (Fin (m + 1)) ℕ Req Pay Mem) → Prop
  | [] => True
  | .snd q' _ _ _ :: X => q' ≠ q ∧ SendX q rd X
  | .rcv q' _ _ wr :: X => (q' ≠ q ∧ ∀ p M, rd (wr p M) = rd M) ∧ SendX q rd X

def RecvX (q : Req) (wr : Pay → Mem → Mem) : List (Ent (Fin (m + 1)) ℕ Req Pay Mem) → Prop
  | [] => True
  | .snd q' _ _ rd :: X => (q' ≠ q ∧ ∀ p M, rd (wr p M) = rd M) ∧ RecvX q wr X
  | .rcv q' _ _ wr' :: X => (q' ≠ q ∧ ∀ p p' M, wr p (wr' p' M) = wr' p' (wr p M)) ∧ RecvX q wr X

/-- the rest of `mpi_exchange` is checked, with requests `X` open besides the old ones, and none is left at the end -/
def ExS (c : Cfg m) (r : Fin (m + 1)) (L : List (Ent (Fin (m + 1)) ℕ Req Pay Mem)) (rest : List (I m))
    (X : List (Ent (Fin (m + 1)) ℕ Req Pay Mem)) (p : List (I m)) : Prop :=
  Oks (place c) r (L ++ X) p rest ∧ p.foldl next (L ++ X) = L

section ex
variable {c : Cfg m} {r : Fin (m + 1)} {L : List (Ent (Fin (m + 1)) ℕ Req Pay Mem)} {rest : List (I m)}
  {X X' : List (Ent (Fin (m + 1)) ℕ Req Pay Mem)} {p : List (I m)}

private theorem locX_mem {f : Mem → Mem} (h : LocX f X) : ∀ e ∈ X, match e with
      | Ent.snd _ _ _ rd => ∀ M, rd (f M) = rd M
      | .rcv _ _ _ wr => ∀ p M, f (wr p M) = wr p (f M) := by
  induction X with
  | nil => simp
  | cons e X ih =>
    intro e' he
    rcases List.mem_cons.1 he with rfl | h2
    · cases e' <;> exact h.1
    · cases e <;> exact ih h.2 e' h2

private theorem sendX_mem {q : Req} {rd : Mem → Pay} (h : SendX q rd X) : ∀ e ∈ X, e.q ≠ q ∧ match e with
      | Ent.snd _ _ _ _ => True
      | .rcv _ _ _ wr => ∀ p M, rd (wr p M) = rd M := by
  induction X with
  | nil => simp
  | cons e X ih =>
    intro e' he
    rcases List.mem_cons.1 he with rfl | h2
    · cases e'
      · exact ⟨h.1, trivial⟩
      · exact h.1
    · cases e <;> exact ih h.2 e' h2

private theorem recvX_mem {q : Req} {a : Fin (m + 1)} {t : ℕ} {wr : Pay → Mem → Mem} (h : RecvX q wr X) : ∀ e ∈ X, e.q ≠ q ∧ match e with
      | Ent.snd _ _ _ rd => ∀ p M, rd (wr p M) = rd M
      | .rcv _ a' t' wr' => (a', t') ≠ (a, t) → ∀ p p' M, wr p (wr' p' M) = wr' p' (wr p M) := by
  induction X with
  | nil => simp
  | cons e X ih =>
    intro e' he
    rcases List.mem_cons.1 he with rfl | h2
    · cases e'
      · exact h.1
      · exact ⟨h.1.1, fun _ => h.1.2⟩
    · cases e <;> exact ih h.2 e' h2

theorem ExS.nil : ExS c r L rest [] [] := ⟨trivial, by simp⟩

theorem ExS.loc (hL : AllStale c r L) {f : Mem → Mem} (hf : ∀ M, (f M).cour = M.cour) (hX : LocX f X) (h : ExS c r L rest X p) :
    ExS c r L rest X (.loc f :: p) := ⟨⟨ok_loc hL hf (locX_mem hX), h.1⟩, h.2⟩

theorem ExS.isend (hL : AllStale c r L) {q b t rd} (hq : ∀ e ∈ L, e.q ≠ q) (hX : SendX q rd X) (h : ExS c r L rest (X ++ [.snd q b t rd]) p) :
    ExS c r L rest X (.isend q b t rd :: p) :=
  ⟨⟨ok_isend hL hq (sendX_mem hX), by rw [next, List.append_assoc]; exact h.1⟩, by rw [List.foldl_cons, next, List.append_assoc]; exact h.2⟩

theorem ExS.irecv (hL : AllStale c r L) {q a t wr} (hq : ∀ e ∈ L, e.q ≠ q) (hw : ∀ p M, (wr p M).cour = M.cour) (hX : RecvX q wr X)
    (h : ExS c r L rest (X ++ [.rcv q a t wr]) p) : ExS c r L rest X (.irecv q a t wr :: p) :=
  ⟨⟨ok_irecv hL hq hw (recvX_mem hX), by rw [next, List.append_assoc]; exact h.1⟩, by rw [List.foldl_cons, next, List.append_assoc]; exact h.2⟩

theorem ExS.wait {q} (hq : ∀ e ∈ L, e.q ≠ q) (hX : X.filter (fun e => decide (e.q ≠ q)) = X') (h : ExS c r L rest X' p) :
    ExS c r L rest X (.wait q :: p) := by
  have f : L.filter (fun e => decide (e.q ≠ q)) = L := by
    rw [List.filter_eq_self]; intro e he; simpa using hq e he
  have e : next (L ++ X) (.wait q : I m) = L ++ X' := by rw [next, List.filter_append, f, hX]
  exact ⟨⟨trivial, by rw [e]; exact h.1⟩, by rw [List.foldl_cons, e]; exact h.2⟩

end ex

macro "sx" : tactic => `(tactic| (repeat' first
  | exact trivial | exact fun _ => rfl | exact fun _ _ => rfl | exact fun _ _ _ => rfl | (intro h; cases h; done)
  | exact unpackN_outN | exact unpackN_outR | exact unpackN_wrR | exact unpackR_outN _ _ | exact unpackR_outR _ _
  | refine And.intro ?_ ?_))

private theorem exch_R {c : Cfg m} (r : Fin (m + 1)) {L rest} (hL : AllStale c r L) (n1 : ∀ e ∈ L, e.q ≠ Req.recvN)
    (n2 : ∀ e ∈ L, e.q ≠ Req.recvR) (n3 : ∀ e ∈ L, e.q ≠ Req.sendN) (n4 : ∀ e ∈ L, e.q ≠ Req.sendR) (hl : c.linkL r = false) (hr : c.linkR r = true) :
    ExS c r L rest [] (exchProg c r) := by
  simp only [exchProg, hl, hr, Bool.not_true, Bool.not_false, Bool.and_true, Bool.and_false, Bool.false_eq_true,
    if_true, if_false, List.nil_append, List.append_nil, List.cons_append, List.append_assoc]
  refine .irecv hL n1 (by sx) (by sx) ?_
  show ExS c r L rest [Ent.rcv .recvN (rgtRank r) 0 wrN] _
  refine .irecv hL n2 (by sx) (by sx) ?_
  show ExS c r L rest [Ent.rcv .recvN (rgtRank r) 0 wrN, Ent.rcv .recvR (rgtRank r) 1 wrR] _
  refine .wait (X' := [Ent.rcv .recvR (rgtRank r) 1 wrR]) n1 (by simp [List.filter, Ent.q]) ?_
  refine .loc hL (by sx) (by sx) ?_
  refine .loc hL unpackN_cour (by sx) ?_
  refine .loc hL (by sx) (by sx) ?_
  refine .loc hL (by sx) (by sx) ?_
  refine .wait (X' := []) n2 (by simp [List.filter, Ent.q]) ?_
  refine .loc hL (unpackR_cour c r) (by sx) ?_
  refine .isend hL n3 (by sx) ?_
  show ExS c r L rest [Ent.snd .sendN (rgtRank r) 2 rdN] _
  refine .loc hL (by sx) (by sx) ?_
  refine .isend hL n4 (by sx) ?_
  show ExS c r L rest [Ent.snd .sendN (rgtRank r) 2 rdN, Ent.snd .sendR (rgtRank r) 3 rdR] _
  refine .loc hL (by sx) (by sx) ?_
  refine .loc hL (by sx) (by sx) ?_
  refine .wait (X' := [Ent.snd .sendR (rgtRank r) 3 rdR]) n3 (by simp [List.filter, Ent.q]) ?_
  refine .wait (X' := []) n4 (by simp [List.filter, Ent.q]) ?_
  exact .nil

private theorem exch_L {c : Cfg m} (r : Fin (m + 1)) {L rest} (hL : AllStale c r L) (n1 : ∀ e ∈ L, e.q ≠ Req.recvN)
    (n2 : ∀ e ∈ L, e.q ≠ Req.recvR) (n3 : ∀ e ∈ L, e.q ≠ Req.sendN) (n4 : ∀ e ∈ L, e.q ≠ Req.sendR) (hl : c.linkL r = true) (hr : c.linkR r = false) :
    ExS c r L rest [] (exchProg c r) := by
  simp only [exchProg, hl, hr, Bool.not_true, Bool.not_false, Bool.and_true, Bool.and_false, Bool.false_eq_true,
    if_true, if_false, List.nil_append, List.append_nil, List.cons_append, List.append_assoc]
  refine .loc hL (by sx) (by sx) ?_
  refine .isend hL n3 (by sx) ?_
  show ExS c r L rest [Ent.snd .sendN (lftRank r) 0 rdN] _
  refine .loc hL (by sx) (by sx) ?_
  refine .loc hL (by sx) (by sx) ?_
  refine .isend hL n4 (by sx) ?_
  show ExS c r L rest [Ent.snd .sendN (lftRank r) 0 rdN, Ent.snd .sendR (lftRank r) 1 rdR] _
  refine .irecv hL n1 (by sx) (by sx) ?_
  show ExS c r L rest [Ent.snd .sendN (lftRank r) 0 rdN, Ent.snd .sendR (lftRank r) 1 rdR, Ent.rcv .recvN (lftRank r) 2 wrN] _
  refine .wait (X' := [Ent.snd .sendN (lftRank r) 0 rdN, Ent.snd .sendR (lftRank r) 1 rdR]) n1 (by simp [List.filter, Ent.q]) ?_
  refine .loc hL (by sx) (by sx) ?_
  refine .loc hL unpackN_cour (by sx) ?_
  refine .irecv hL n2 (by sx) (by sx) ?_
  show ExS c r L rest [Ent.snd .sendN (lftRank r) 0 rdN, Ent.snd .sendR (lftRank r) 1 rdR, Ent.rcv .recvR (lftRank r) 3 wrR] _
  refine .loc hL (by sx) (by sx) ?_
  refine .wait (X' := [Ent.snd .sendN (lftRank r) 0 rdN, Ent.snd .sendR (lftRank r) 1 rdR]) n2 (by simp [List.filter, Ent.q]) ?_
  refine .loc hL (unpackR_cour c r) (by sx) ?_
  refine .loc hL (by sx) (by sx) ?_
  refine .wait (X' := [Ent.snd .sendR (lftRank r) 1 rdR]) n3 (by simp [List.filter, Ent.q]) ?_
  refine .wait (X' := []) n4 (by simp [List.filter, Ent.q]) ?_
  exact .nil

private theorem exch_LR {c : Cfg m} (r : Fin (m + 1)) {L rest} (hL : AllStale c r L) (n1 : ∀ e ∈ L, e.q ≠ Req.recvN)
    (n2 : ∀ e ∈ L, e.q ≠ Req.recvR) (n3 : ∀ e ∈ L, e.q ≠ Req.sendN) (n4 : ∀ e ∈ L, e.q ≠ Req.sendR) (hl : c.linkL r = true) (hr : c.linkR r = true) :
    ExS c r L rest [] (exchProg c r) := by
  simp only [exchProg, hl, hr, Bool.not_true, Bool.not_false, Bool.and_true, Bool.and_false, Bool.false_eq_true,
    if_true, if_false, List.nil_append, List.append_nil, List.cons_append, List.append_assoc]
  refine .loc hL (by sx) (by sx) ?_
  refine .isend hL n3 (by sx) ?_
  show ExS c r L rest [Ent.snd .sendN (lftRank r) 0 rdN] _
  refine .irecv hL n1 (by sx) (by sx) ?_
  show ExS c r L rest [Ent.snd .sendN (lftRank r) 0 rdN, Ent.rcv .recvN (rgtRank r) 0 wrN] _
  refine .loc hL (by sx) (by sx) ?_
  refine .loc hL (by sx) (by sx) ?_
  refine .isend hL n4 (by sx) ?_
  show ExS c r L rest [Ent.snd .sendN (lftRank r) 0 rdN, Ent.rcv .recvN (rgtRank r) 0 wrN, Ent.snd .sendR (lftRank r) 1 rdR] _
  refine .irecv hL n2 (by sx) (by sx) ?_
  show ExS c r L rest [Ent.snd .sendN (lftRank r) 0 rdN, Ent.rcv .recvN (rgtRank r) 0 wrN, Ent.snd .sendR (lftRank r) 1 rdR, Ent.rcv .recvR (rgtRank r) 1 wrR] _
  refine .wait (X' := [Ent.snd .sendN (lftRank r) 0 rdN, Ent.snd .sendR (lftRank r) 1 rdR, Ent.rcv .recvR (rgtRank r) 1 wrR]) n1 (by simp [List.filter, Ent.q]) ?_
  refine .loc hL (by sx) (by sx) ?_
  refine .loc hL unpackN_cour (by sx) ?_
  refine .wait (X' := [Ent.snd .sendR (lftRank r) 1 rdR, Ent.rcv .recvR (rgtRank r) 1 wrR]) n3 (by simp [List.filter, Ent.q]) ?_
  refine .loc hL (by sx) (by sx) ?_
  refine .loc hL (by sx) (by sx) ?_
  refine .wait (X' := [Ent.snd .sendR (lftRank r) 1 rdR]) n2 (by simp [List.filter, Ent.q]) ?_
  refine .loc hL (unpackR_cour c r) (by sx) ?_
  refine .isend hL n3 (by sx) ?_
  show ExS c r L rest [Ent.snd .sendR (lftRank r) 1 rdR, Ent.snd .sendN (rgtRank r) 2 rdN] _
  refine .irecv hL n1 (by sx) (by sx) ?_
  show ExS c r L rest [Ent.snd .sendR (lftRank r) 1 rdR, Ent.snd .sendN (rgtRank r) 2 rdN, Ent.rcv .recvN (lftRank r) 2 wrN] _
  refine .wait (X' := [Ent.snd .sendN (rgtRank r) 2 rdN, Ent.rcv .recvN (lftRank r) 2 wrN]) n4 (by simp [List.filter, Ent.q]) ?_
  refine .loc hL (by sx) (by sx) ?_
  refine .wait (X' := [Ent.snd .sendN (rgtRank r) 2 rdN]) n1 (by simp [List.filter, Ent.q]) ?_
  refine .loc hL (by sx) (by sx) ?_
  refine .loc hL unpackN_cour (by sx) ?_
  refine .isend hL n4 (by sx) ?_
  show ExS c r L rest [Ent.snd .sendN (rgtRank r) 2 rdN, Ent.snd .sendR (rgtRank r) 3 rdR] _
  refine .irecv hL n2 (by sx) (by sx) ?_
  show ExS c r L rest [Ent.snd .sendN (rgtRank r) 2 rdN, Ent.snd .sendR (rgtRank r) 3 rdR, Ent.rcv .recvR (lftRank r) 3 wrR] _
  refine .loc hL (by sx) (by sx) ?_
  refine .loc hL (by sx) (by sx) ?_
  refine .wait (X' := [Ent.snd .sendN (rgtRank r) 2 rdN, Ent.snd .sendR (rgtRank r) 3 rdR]) n2 (by simp [List.filter, Ent.q]) ?_
  refine .loc hL (unpackR_cour c r) (by sx) ?_
  refine .loc hL (by sx) (by sx) ?_
  refine .wait (X' := [Ent.snd .sendR (rgtRank r) 3 rdR]) n3 (by simp [List.filter, Ent.q]) ?_
  refine .wait (X' := []) n4 (by simp [List.filter, Ent.q]) ?_
  exact .nil

theorem exch_oks {c : Cfg m} {k : ℕ} (r : Fin (m + 1)) {L rest} (hL : AllStale c r L) (hu : Uses (Before True k) L) :
    Oks (place c) r L (exchProg c r) rest ∧ (exchProg c r).foldl next L = L := by
  have ne : ∀ q, (q = Req.recvN ∨ q = .recvR ∨ q = .sendN ∨ q = .sendR) → ∀ e ∈ L, e.q ≠ q := by
    intro q hq e he
    rcases hu e he with ⟨_, i, h⟩ | ⟨k', i, n, _, h⟩ <;> rw [h] <;> rcases hq with rfl | rfl | rfl | rfl <;> simp
  have n1 := ne .recvN (by simp)
  have n2 := ne .recvR (by simp)
  have n3 := ne .sendN (by simp)
  have n4 := ne .sendR (by simp)
  have hs := link_some c r
  have key : ExS c r L rest [] (exchProg c r) := by
    cases hl : c.linkL r <;> cases hr : c.linkR r
    · simp [hl, hr] at hs
    · exact exch_R r hL n1 n2 n3 n4 hl hr
    · exact exch_L r hL n1 n2 n3 n4 hl hr
    · exact exch_LR r hL n1 n2 n3 n4 hl hr
  unfold ExS at key
  rwa [List.append_nil] at key

end LCP.Mpi
