import Verif.Mpi.Bulk
import Verif.Mpi.Segments

/-!
# One complete schedule of a run, and its result
-/
namespace LCP.Mpi
open LCP.E2L LCP.Grid LCP.Distmem

variable {m : ℕ}

theorem lft_val (r : Fin (m + 1)) : (lftRank r).val = if 0 < r.val then r.val - 1 else m := by
  unfold lftRank; split <;> rfl

theorem rgt_val (r : Fin (m + 1)) : (rgtRank r).val = if r.val < m then r.val + 1 else 0 := by
  unfold rgtRank; split <;> rfl

theorem lft_rgt (r : Fin (m + 1)) : lftRank (rgtRank r) = r := by
  apply Fin.ext; rw [lft_val, rgt_val]; split <;> split <;> omega

theorem rgt_lft (r : Fin (m + 1)) : rgtRank (lftRank r) = r := by
  apply Fin.ext; rw [rgt_val, lft_val]; split <;> split <;> omega

/-- both ends of a boundary agree on what it is -/
theorem linkR_lft (hm : 0 < m) (c : Cfg m) (r : Fin (m + 1)) : c.linkR (lftRank r) = c.linkL r := by
  unfold Cfg.linkR Cfg.linkL
  rw [lft_val]
  cases c.open_
  · simp
  · simp only [Bool.not_true, Bool.false_eq_true, if_false]
    split_ifs <;> first | rfl | omega

theorem linkL_rgt (hm : 0 < m) (c : Cfg m) (r : Fin (m + 1)) : c.linkL (rgtRank r) = c.linkR r := by
  rw [← linkR_lft hm, lft_rgt]

/-- with several processes each has a neighbour -/
theorem link_some (c : Cfg m) (r : Fin (m + 1)) : c.linkL r = true ∨ c.linkR r = true := by
  unfold Cfg.linkR Cfg.linkL
  cases c.open_
  · simp
  · by_cases h : r.val = 0 <;> simp [h]

theorem seg_dom (hm : 0 < m) (c : Cfg m) (rest : Fin (m + 1) → List (I m)) (W : World m) :
    Reach (start (fun r => domProg c r ++ rest r) W) (start rest (bulkDom c W)) := by
  have h1 := seg_swap (M := Mem) rgtRank lftRank rgt_lft lft_rgt 0 c.linkR c.linkL (linkR_lft hm c) (Req.dom false true)
    (fun r _ => Pay.r [c.x1 r]) (Req.dom false false) (fun _ => wrLftX1)
    (fun r => (if c.linkL r then [Instr.isend (.dom true true) (lftRank r) 1 (fun _ => .r [c.x0 r])] else []) ++
      (if c.linkR r then [Instr.irecv (.dom true false) (rgtRank r) 1 wrRgtX0, .wait (.dom true false)] else []) ++ rest r) W
  have h2 := seg_swap (M := Mem) lftRank rgtRank lft_rgt rgt_lft 1 c.linkL c.linkR (linkL_rgt hm c) (Req.dom true true)
    (fun r _ => Pay.r [c.x0 r]) (Req.dom true false) (fun _ => wrRgtX0) rest
    (fun r => if c.linkL r then wrLftX1 (Pay.r [c.x1 (lftRank r)]) (W r) else W r)
  have h := h1.trans h2
  have e : (fun r => domProg c r ++ rest r) = fun r => (if c.linkR r then [Instr.isend (.dom false true) (rgtRank r) 0 (fun _ => .r [c.x1 r])] else []) ++
      (if c.linkL r then [Instr.irecv (.dom false false) (lftRank r) 0 wrLftX1, .wait (.dom false false)] else []) ++
      ((if c.linkL r then [Instr.isend (.dom true true) (lftRank r) 1 (fun _ => .r [c.x0 r])] else []) ++
      (if c.linkR r then [Instr.irecv (.dom true false) (rgtRank r) 1 wrRgtX0, .wait (.dom true false)] else []) ++ rest r) := by
    funext r; simp [domProg, List.append_assoc]
  rw [e]
  convert h using 2
  funext r
  cases hl : c.linkL r <;> cases hr : c.linkR r <;> simp [bulkDom, wrLftX1, wrRgtX0, hl, hr]

theorem seg_right (hm : 0 < m) (c : Cfg m) (k : ℕ) (co : Comp) (rest : Fin (m + 1) → List (I m)) (W : World m) :
    Reach (start (fun r => courRight c k r co ++ rest r) W) (start rest (bulkRight c co W)) :=
  seg_swap (M := Mem) rgtRank lftRank rgt_lft lft_rgt ((0 + 1) * ctag co) c.linkR c.linkL (linkR_lft hm c) (Req.cour k false (compId co) true)
    (fun r => rdCour co (rgtInternal (c.dims r) co) (haloLen (c.dims r) c.h co)) (Req.cour k false (compId co) false)
    (fun r => wrCour co 0 (haloLen (c.dims r) c.h co)) rest W

theorem seg_left (hm : 0 < m) (c : Cfg m) (k : ℕ) (co : Comp) (rest : Fin (m + 1) → List (I m)) (W : World m) :
    Reach (start (fun r => courLeft c k r co ++ rest r) W) (start rest (bulkLeft c co W)) :=
  seg_swap (M := Mem) lftRank rgtRank lft_rgt rgt_lft ((1 + 1) * ctag co) c.linkL c.linkR (linkL_rgt hm c) (Req.cour k true (compId co) true)
    (fun r => rdCour co (lftInternal (c.dims r) c.h co) (haloLen (c.dims r) c.h co)) (Req.cour k true (compId co) false)
    (fun r => wrCour co (rgtHalo (c.dims r) c.h co) (haloLen (c.dims r) c.h co)) rest W

private theorem seg_rights (hm : 0 < m) (c : Cfg m) (k : ℕ) (l : List Comp) (rest : Fin (m + 1) → List (I m)) (W : World m) :
    Reach (start (fun r => l.flatMap (courRight c k r) ++ rest r) W) (start rest (l.foldl (fun W co => bulkRight c co W) W)) := by
  induction l generalizing W with
  | nil => exact Reach.refl _
  | cons co l ih =>
    have := seg_right hm c k co (fun r => l.flatMap (courRight c k r) ++ rest r) W
    simp only [List.flatMap_cons, List.append_assoc, List.foldl_cons]
    exact this.trans (ih _)

private theorem seg_lefts (hm : 0 < m) (c : Cfg m) (k : ℕ) (l : List Comp) (rest : Fin (m + 1) → List (I m)) (W : World m) :
    Reach (start (fun r => l.flatMap (courLeft c k r) ++ rest r) W) (start rest (l.foldl (fun W co => bulkLeft c co W) W)) := by
  induction l generalizing W with
  | nil => exact Reach.refl _
  | cons co l ih =>
    have := seg_left hm c k co (fun r => l.flatMap (courLeft c k r) ++ rest r) W
    simp only [List.flatMap_cons, List.append_assoc, List.foldl_cons]
    exact this.trans (ih _)

/-- all processes have the same number of dimensions -/
def Cfg.SameDims (c : Cfg m) : Prop := ∀ r, (c.dims r).nDims = (c.dims 0).nDims

theorem comps_eq {c : Cfg m} (h : c.SameDims) (r : Fin (m + 1)) : comps (c.dims r) = comps (c.dims 0) := by
  simp [comps, h r]

theorem seg_cour (hm : 0 < m) {c : Cfg m} (hd : c.SameDims) (k : ℕ) (rest : Fin (m + 1) → List (I m)) (W : World m) :
    Reach (start (fun r => courProg c k r ++ rest r) W) (start rest (bulkCour c W)) := by
  by_cases h0 : c.h = 0
  · simp only [courProg, bulkCour, h0, if_true, List.nil_append]; exact Reach.refl _
  · simp only [courProg, bulkCour, h0, if_false, comps_eq hd, List.append_assoc]
    exact (seg_rights hm c k _ _ W).trans (seg_lefts hm c k _ _ _)

end LCP.Mpi
