import Verif.Mpi.Check
import Verif.Mpi.Bulk
import Mathlib.Tactic.Ring

/-!
# Courant numbers after the exchange of halos
-/
set_option linter.unusedSimpArgs false

namespace LCP.Mpi
open LCP.E2L LCP.Grid LCP.Distmem

variable {m : ℕ}

/-- Courant numbers of all processes -/
abbrev Cours (m : ℕ) := Fin (m + 1) → Comp → ℕ → ℝ

open Classical in
/-- specification: halo entries next to a process are those of the neighbour; `q` counts stored numbers -/
noncomputable def haloed (c : Cfg m) (A : Cours m) : Cours m := fun r co q =>
  if co ∈ comps (c.dims 0) ∧ c.linkR r = true ∧ rgtHalo (c.dims r) c.h co ≤ q ∧ q < rgtHalo (c.dims r) c.h co + haloLen (c.dims r) c.h co then
    A (rgtRank r) co (lftInternal (c.dims (rgtRank r)) c.h co + (q - rgtHalo (c.dims r) c.h co))
  else if co ∈ comps (c.dims 0) ∧ c.linkL r = true ∧ q < haloLen (c.dims r) c.h co then
    A (lftRank r) co (rgtInternal (c.dims (lftRank r)) co + q)
  else A r co q

/-- the subdomains differ in the x direction only -/
def Cfg.SameCols (c : Cfg m) : Prop := ∀ r, (c.dims r).ny = (c.dims 0).ny ∧ (c.dims r).nz = (c.dims 0).nz

private theorem compId_inj {a b : Comp} (h : compId a = compId b) : a = b := by
  cases a <;> cases b <;> first | rfl | simp [compId] at h

theorem haloLen_same {c : Cfg m} (hs : c.SameCols) (hd : c.SameDims) (r r' : Fin (m + 1)) (co : Comp) :
    haloLen (c.dims r) c.h co = haloLen (c.dims r') c.h co := by
  have h1 := hs r; have h2 := hs r'; have h3 := hd r; have h4 := hd r'
  cases co <;> simp only [haloLen, haloX, haloY, haloZ, h1.1, h1.2, h2.1, h2.2, h3, h4]

theorem colLen_same {c : Cfg m} (hs : c.SameCols) (hd : c.SameDims) (r r' : Fin (m + 1)) (co : Comp) :
    colLen (c.dims r) co = colLen (c.dims r') co := by
  have h1 := hs r; have h2 := hs r'; have h3 := hd r; have h4 := hd r'
  cases co <;> simp only [colLen, h1.1, h1.2, h2.1, h2.2, h3, h4]

private theorem getD_range (f : ℕ → ℝ) {n i : ℕ} (h : i < n) : ((List.range n).map f).getD i 0 = f i := by
  rw [List.getD_eq_getElem?_getD, List.getElem?_map, List.getElem?_range h]; rfl

private theorem right_one {c : Cfg m} (hs : c.SameCols) (hd : c.SameDims) (co : Comp) (W : World m) (r : Fin (m + 1)) :
    ∃ C, bulkRight c co W r = { W r with cour := C } ∧
      ∀ co' q, (co' = co ∧ c.linkL r = true ∧ q < haloLen (c.dims r) c.h co → C co' q = (W (lftRank r)).cour co (rgtInternal (c.dims (lftRank r)) co + q)) ∧
        (¬ (co' = co ∧ c.linkL r = true ∧ q < haloLen (c.dims r) c.h co) → C co' q = (W r).cour co' q) := by
  unfold bulkRight
  by_cases hl : c.linkL r = true
  · rw [if_pos hl]
    refine ⟨_, rfl, fun co' q => ⟨?_, ?_⟩⟩
    · rintro ⟨rfl, -, hq⟩
      rw [if_pos rfl, if_pos ⟨Nat.zero_le _, by omega⟩]
      show List.getD _ _ _ = _
      rw [getD_range _ (by rw [haloLen_same hs hd (lftRank r) r]; omega)]
      rfl
    · intro hn
      by_cases hc : compId co' = compId co
      · have hc := compId_inj hc
        rw [if_pos (by rw [hc]), if_neg]
        rintro ⟨-, h2⟩
        exact hn ⟨hc, hl, by omega⟩
      · rw [if_neg hc]
  · rw [if_neg hl]
    exact ⟨(W r).cour, rfl, fun co' q => ⟨fun h => absurd h.2.1 hl, fun _ => rfl⟩⟩

private theorem left_one {c : Cfg m} (hs : c.SameCols) (hd : c.SameDims) (co : Comp) (W : World m) (r : Fin (m + 1)) :
    ∃ C, bulkLeft c co W r = { W r with cour := C } ∧
      ∀ co' q, (co' = co ∧ c.linkR r = true ∧ rgtHalo (c.dims r) c.h co ≤ q ∧ q < rgtHalo (c.dims r) c.h co + haloLen (c.dims r) c.h co →
          C co' q = (W (rgtRank r)).cour co (lftInternal (c.dims (rgtRank r)) c.h co + (q - rgtHalo (c.dims r) c.h co))) ∧
        (¬ (co' = co ∧ c.linkR r = true ∧ rgtHalo (c.dims r) c.h co ≤ q ∧ q < rgtHalo (c.dims r) c.h co + haloLen (c.dims r) c.h co) →
          C co' q = (W r).cour co' q) := by
  unfold bulkLeft
  by_cases hl : c.linkR r = true
  · rw [if_pos hl]
    refine ⟨_, rfl, fun co' q => ⟨?_, ?_⟩⟩
    · rintro ⟨rfl, -, hq⟩
      rw [if_pos rfl, if_pos hq]
      show List.getD _ _ _ = _
      rw [getD_range _ (by rw [haloLen_same hs hd (rgtRank r) r]; omega)]
    · intro hn
      by_cases hc : compId co' = compId co
      · have hc := compId_inj hc
        rw [if_pos (by rw [hc]), if_neg]
        intro h2
        exact hn ⟨hc, hl, h2⟩
      · rw [if_neg hc]
  · rw [if_neg hl]
    exact ⟨(W r).cour, rfl, fun co' q => ⟨fun h => absurd h.2.1 hl, fun _ => rfl⟩⟩

private theorem rights {c : Cfg m} (hs : c.SameCols) (hd : c.SameDims) (l : List Comp) (hn : l.Nodup) (W : World m) (r : Fin (m + 1)) :
    ∃ C, l.foldl (fun W co => bulkRight c co W) W r = { W r with cour := C } ∧
      ∀ co q, (co ∈ l ∧ c.linkL r = true ∧ q < haloLen (c.dims r) c.h co → C co q = (W (lftRank r)).cour co (rgtInternal (c.dims (lftRank r)) co + q)) ∧
        (¬ (co ∈ l ∧ c.linkL r = true ∧ q < haloLen (c.dims r) c.h co) → C co q = (W r).cour co q) := by
  induction l generalizing W with
  | nil => exact ⟨(W r).cour, rfl, fun co q => ⟨fun h => by simp at h, fun _ => rfl⟩⟩
  | cons a l ih =>
    obtain ⟨hna, hn⟩ := List.nodup_cons.1 hn
    obtain ⟨C, h1, h2⟩ := ih hn (bulkRight c a W)
    obtain ⟨C1, h3, h4⟩ := right_one hs hd a W r
    obtain ⟨C2, h5, h6⟩ := right_one hs hd a W (lftRank r)
    refine ⟨C, by rw [List.foldl_cons, h1, h3], fun co q => ⟨?_, ?_⟩⟩
    · rintro ⟨hm, hl, hq⟩
      rcases List.mem_cons.1 hm with rfl | hm
      · rw [(h2 co q).2 (fun h => hna h.1), h3]
        exact (h4 co q).1 ⟨rfl, hl, hq⟩
      · rw [(h2 co q).1 ⟨hm, hl, hq⟩, h5]
        exact (h6 co _).2 (fun h => hna (h.1 ▸ hm))
    · intro hne
      rw [(h2 co q).2 (fun h => hne ⟨List.mem_cons_of_mem _ h.1, h.2⟩), h3]
      exact (h4 co q).2 (fun h => hne ⟨by rw [h.1]; exact List.mem_cons_self, h.2.1, by rw [h.1]; exact h.2.2⟩)

private theorem lefts {c : Cfg m} (hs : c.SameCols) (hd : c.SameDims) (l : List Comp) (hn : l.Nodup) (W : World m) (r : Fin (m + 1)) :
    ∃ C, l.foldl (fun W co => bulkLeft c co W) W r = { W r with cour := C } ∧
      ∀ co q, (co ∈ l ∧ c.linkR r = true ∧ rgtHalo (c.dims r) c.h co ≤ q ∧ q < rgtHalo (c.dims r) c.h co + haloLen (c.dims r) c.h co →
          C co q = (W (rgtRank r)).cour co (lftInternal (c.dims (rgtRank r)) c.h co + (q - rgtHalo (c.dims r) c.h co))) ∧
        (¬ (co ∈ l ∧ c.linkR r = true ∧ rgtHalo (c.dims r) c.h co ≤ q ∧ q < rgtHalo (c.dims r) c.h co + haloLen (c.dims r) c.h co) →
          C co q = (W r).cour co q) := by
  induction l generalizing W with
  | nil => exact ⟨(W r).cour, rfl, fun co q => ⟨fun h => by simp at h, fun _ => rfl⟩⟩
  | cons a l ih =>
    obtain ⟨hna, hn⟩ := List.nodup_cons.1 hn
    obtain ⟨C, h1, h2⟩ := ih hn (bulkLeft c a W)
    obtain ⟨C1, h3, h4⟩ := left_one hs hd a W r
    obtain ⟨C2, h5, h6⟩ := left_one hs hd a W (rgtRank r)
    refine ⟨C, by rw [List.foldl_cons, h1, h3], fun co q => ⟨?_, ?_⟩⟩
    · rintro ⟨hm, hl, hq⟩
      rcases List.mem_cons.1 hm with rfl | hm
      · rw [(h2 co q).2 (fun h => hna h.1), h3]
        exact (h4 co q).1 ⟨rfl, hl, hq⟩
      · rw [(h2 co q).1 ⟨hm, hl, hq⟩, h5]
        exact (h6 co _).2 (fun h => hna (h.1 ▸ hm))
    · intro hne
      rw [(h2 co q).2 (fun h => hne ⟨List.mem_cons_of_mem _ h.1, h.2⟩), h3]
      exact (h4 co q).2 (fun h => hne ⟨by rw [h.1]; exact List.mem_cons_self, h.2.1, by rw [h.1]; exact h.2.2⟩)

/-- `xchng_courants` as seen by all processes together: halos are filled with the neighbours' numbers, nothing else changes -/
theorem bulkCour_eq {c : Cfg m} (hs : c.SameCols) (hd : c.SameDims) (hw : Wide c) (W : World m) (r : Fin (m + 1)) :
    bulkCour c W r = { W r with cour := haloed c (fun r => (W r).cour) r } := by
  unfold bulkCour
  by_cases h0 : c.h = 0
  · rw [if_pos h0]
    have hz : ∀ r co, haloLen (c.dims r) c.h co = 0 := by
      intro r co; cases co <;> simp [haloLen, haloX, haloY, haloZ, h0]
    have : haloed c (fun r => (W r).cour) r = (W r).cour := by
      funext co q
      unfold haloed
      rw [hz, if_neg (by rintro ⟨-, -, h1, h2⟩; omega), if_neg (by rintro ⟨-, -, h⟩; omega)]
    rw [this]
  · rw [if_neg h0]
    obtain ⟨W1, hW1⟩ : ∃ W1 : World m, W1 = (comps (c.dims 0)).foldl (fun W co => bulkRight c co W) W := ⟨_, rfl⟩
    rw [← hW1]
    obtain ⟨C, h1, h2⟩ := lefts hs hd (comps (c.dims 0)) (comps_nodup _) W1 r
    obtain ⟨C1, h3, h4⟩ := rights hs hd (comps (c.dims 0)) (comps_nodup _) W r
    obtain ⟨C2, h5, h6⟩ := rights hs hd (comps (c.dims 0)) (comps_nodup _) W (rgtRank r)
    rw [← hW1] at h3 h5
    rw [h1, h3]
    have : C = haloed c (fun r => (W r).cour) r := by
      funext co q
      unfold haloed
      split
      · rename_i hc
        rw [(h2 co q).1 hc, h5]
        refine (h6 co _).2 (fun h => ?_)
        have := (halo_sep hw (rgtRank r) (co := co) (by rw [comps_eq hd]; exact hc.1)).2.2.1
        omega
      · rename_i hc
        rw [(h2 co q).2 hc, h3]
        split
        · rename_i hl
          exact (h4 co q).1 hl
        · rename_i hl
          exact (h4 co q).2 hl
    rw [this]

/-! ### Halos and the field -/

/-- the Courant number arrays of all processes are parts of one field: `F co col t` is number `t` of column `col` of component `co`, the columns
of process `r` start at `off r` -/
structure PartsOf (c : Cfg m) (F : Comp → ℤ → ℕ → ℝ) (off : Fin (m + 1) → ℤ) (A : Cours m) : Prop where
  own : ∀ r, ∀ co ∈ comps (c.dims r), ∀ i < ownCols (c.dims r) co, ∀ t < colLen (c.dims r) co,
    A r co ((c.h + i) * colLen (c.dims r) co + t) = F co (off r + i) t
  /-- the right neighbour continues where the process ends (in a periodic domain, the field is periodic) -/
  next : ∀ r, c.linkR r = true → ∀ co (i : ℤ) t, F co (off (rgtRank r) + i) t = F co (off r + (c.dims r).nx + i) t

/-- after the exchange every process has the field on its own columns and on the halo of `h` columns on every side where it has a neighbour -/
theorem haloed_field (hm : 0 < m) {c : Cfg m} (hs : c.SameCols) (hd : c.SameDims) (hw : Wide c) {F : Comp → ℤ → ℕ → ℝ} {off : Fin (m + 1) → ℤ} {A : Cours m}
    (hA : PartsOf c F off A) (r : Fin (m + 1)) {co : Comp} (hco : co ∈ comps (c.dims r)) {col t : ℕ} (ht : t < colLen (c.dims r) co)
    (hl : col < c.h → c.linkL r = true) (hr : c.h + ownCols (c.dims r) co ≤ col → c.linkR r = true) (hcol : col < nCols (c.dims r) c.h co) :
    haloed c A r co (col * colLen (c.dims r) co + t) = F co (off r + col - c.h) t := by
  have hc0 : co ∈ comps (c.dims 0) := by rw [← comps_eq hd r]; exact hco
  obtain ⟨e1, e2, e3⟩ := idx_eqs (hw.layout r) (mem_comps (hw.layout r) hco) c.h
  have hnc : nCols (c.dims r) c.h co = ownCols (c.dims r) co + 2 * c.h := by cases co <;> simp [nCols, ownCols]; omega
  have hdst : rgtHalo (c.dims r) c.h co = (c.h + ownCols (c.dims r) co) * colLen (c.dims r) co := by
    unfold rgtHalo; rw [e1, hnc, ← Nat.sub_mul]; congr 1; omega
  obtain ⟨l, hl0⟩ : ∃ l, l = colLen (c.dims r) co := ⟨_, rfl⟩
  have cmp : ∀ A : ℕ, A ≤ col → A * l ≤ col * l + t := fun A hA => Nat.le_trans (Nat.mul_le_mul_right l hA) (Nat.le_add_right _ _)
  have cmp' : ∀ A : ℕ, col < A → col * l + t < A * l := fun A hA => by
    have := Nat.mul_le_mul_right l hA
    have e : col.succ * l = col * l + l := Nat.succ_mul _ _
    omega
  unfold haloed
  by_cases hR : c.h + ownCols (c.dims r) co ≤ col
  · have hlr := hr hR
    obtain ⟨b, hb⟩ : ∃ b, col = c.h + ownCols (c.dims r) co + b := ⟨col - (c.h + ownCols (c.dims r) co), by omega⟩
    have hbh : b < c.h := by omega
    have i1 : rgtHalo (c.dims r) c.h co ≤ col * colLen (c.dims r) co + t := by rw [hdst, ← hl0]; exact cmp _ hR
    have i2 : col * colLen (c.dims r) co + t < rgtHalo (c.dims r) c.h co + haloLen (c.dims r) c.h co := by
      rw [hdst, e1, ← Nat.add_mul, ← hl0]; exact cmp' _ (by omega)
    rw [if_pos ⟨hc0, hlr, i1, i2⟩]
    have hcn : co ∈ comps (c.dims (rgtRank r)) := by rw [comps_eq hd]; exact hc0
    obtain ⟨_, _, f3⟩ := idx_eqs (hw.layout (rgtRank r)) (mem_comps (hw.layout (rgtRank r)) hcn) c.h
    have hcl := colLen_same hs hd (rgtRank r) r co
    have hwd := hw.wide (rgtRank r)
    have hsub : col * colLen (c.dims r) co + t - rgtHalo (c.dims r) c.h co = b * l + t := by
      rw [hdst, ← hl0, hb, Nat.add_mul (c.h + ownCols (c.dims r) co)]; omega
    rw [f3, hcl, hsub, ← hl0]
    have own := hA.own (rgtRank r) co hcn
    rw [hcl, ← hl0] at own
    cases co with
    | x =>
      have := own (1 + b) (by simp only [ownCols]; omega) t (by omega)
      rw [show (c.h + 1) * l + (b * l + t) = (c.h + (1 + b)) * l + t by ring, this, hA.next r hlr, hb]
      simp only [ownCols]
      congr 1; push_cast; ring
    | y =>
      have := own b (by simp only [ownCols]; omega) t (by omega)
      rw [show c.h * l + (b * l + t) = (c.h + b) * l + t by ring, this, hA.next r hlr, hb]
      simp only [ownCols]
      congr 1; push_cast; ring
    | z =>
      have := own b (by simp only [ownCols]; omega) t (by omega)
      rw [show c.h * l + (b * l + t) = (c.h + b) * l + t by ring, this, hA.next r hlr, hb]
      simp only [ownCols]
      congr 1; push_cast; ring
  · have i1 : ¬ rgtHalo (c.dims r) c.h co ≤ col * colLen (c.dims r) co + t := by
      rw [hdst, ← hl0]; exact Nat.not_le.2 (cmp' _ (by omega))
    rw [if_neg (fun h => i1 h.2.2.1)]
    by_cases hL : col < c.h
    · have hll := hl hL
      have i2 : col * colLen (c.dims r) co + t < haloLen (c.dims r) c.h co := by rw [e1, ← hl0]; exact cmp' _ hL
      rw [if_pos ⟨hc0, hll, i2⟩]
      have hcn : co ∈ comps (c.dims (lftRank r)) := by rw [comps_eq hd]; exact hc0
      obtain ⟨_, f2, _⟩ := idx_eqs (hw.layout (lftRank r)) (mem_comps (hw.layout (lftRank r)) hcn) c.h
      have hcl := colLen_same hs hd (lftRank r) r co
      have hwd := hw.wide (lftRank r)
      have own := hA.own (lftRank r) co hcn
      rw [hcl, ← hl0] at own
      obtain ⟨b, hb⟩ : ∃ b, (c.dims (lftRank r)).nx = c.h + b := ⟨(c.dims (lftRank r)).nx - c.h, by omega⟩
      have hown : b + col < ownCols (c.dims (lftRank r)) co := by cases co <;> simp [ownCols] <;> omega
      have := own (b + col) hown t (by omega)
      have nx := hA.next (lftRank r) (by rw [linkR_lft hm]; exact hll) co ((col : ℤ) - c.h) t
      rw [rgt_lft] at nx
      rw [f2, hcl, ← hl0, hb, show (c.h + b) * l + (col * l + t) = (c.h + (b + col)) * l + t by ring, this]
      rw [show off r + (col : ℤ) - c.h = off r + ((col : ℤ) - c.h) by ring, nx, hb]
      congr 1; push_cast; ring
    · have i2 : ¬ col * colLen (c.dims r) co + t < haloLen (c.dims r) c.h co := by rw [e1, ← hl0]; exact Nat.not_lt.2 (cmp _ (by omega))
      rw [if_neg (fun h => i2 h.2.2)]
      obtain ⟨b, hb⟩ : ∃ b, col = c.h + b := ⟨col - c.h, by omega⟩
      have := hA.own r co hco b (by omega) t ht
      rw [hb, this]
      congr 1; push_cast; ring

end LCP.Mpi
