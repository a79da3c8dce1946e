import Verif.Thrust
import Mathlib.Algebra.BigOperators.Group.Finset.Basic
import Mathlib.Data.List.NodupEquivFin
import Mathlib.Data.List.GetD
import Mathlib.Algebra.BigOperators.Ring.Finset
import Mathlib.Algebra.Order.BigOperators.Group.Finset

/-! # Lemmas about outcomes of key sorts (helpers) -/
namespace LCP

/-- id stored at sorted position `p`; positions past the end (never accessed) map to themselves -/
def idAt (sid : List ℕ) (p : ℕ) : ℕ := sid.getD p p

namespace IsCellSort
variable {N : ℕ} {key : ℕ → ℕ} {sid : List ℕ} (h : IsCellSort N key sid)
include h

theorem length : sid.length = N := by simpa using h.perm.length_eq
theorem nodup : sid.Nodup := h.perm.nodup_iff.2 List.nodup_range

theorem id_lt {p : ℕ} (hp : p < N) : idAt sid p < N := by
  have hl := h.length
  have : idAt sid p ∈ sid := by
    unfold idAt
    rw [List.getD_eq_getElem _ _ (by omega)]
    exact List.getElem_mem _
  simpa using h.perm.mem_iff.1 this

theorem id_ge {p : ℕ} (hp : N ≤ p) : idAt sid p = p := by
  unfold idAt
  rw [List.getD_eq_default _ _ (by rw [h.length]; exact hp)]

theorem id_injective : Function.Injective (idAt sid) := by
  intro p q hpq
  have hl := h.length
  by_cases hp : p < N <;> by_cases hq : q < N
  · unfold idAt at hpq
    rw [List.getD_eq_getElem _ _ (by omega), List.getD_eq_getElem _ _ (by omega)] at hpq
    exact (List.Nodup.getElem_inj_iff h.nodup).1 hpq
  · have h1 := h.id_lt hp
    rw [h.id_ge (by omega : N ≤ q)] at hpq; omega
  · have h1 := h.id_lt hq
    rw [h.id_ge (by omega : N ≤ p)] at hpq; omega
  · rw [h.id_ge (by omega : N ≤ q), h.id_ge (by omega : N ≤ p)] at hpq; exact hpq

theorem exists_pos {i : ℕ} (hi : i < N) : ∃ p < N, idAt sid p = i := by
  have : i ∈ sid := h.perm.mem_iff.2 (by simpa using hi)
  obtain ⟨p, hp, rfl⟩ := List.getElem_of_mem this
  rw [h.length] at hp
  exact ⟨p, hp, by unfold idAt; rw [List.getD_eq_getElem]⟩

theorem sum_id {M : Type*} [AddCommMonoid M] (w : ℕ → M) :
    ∑ i ∈ Finset.range N, w i = ∑ p ∈ Finset.range N, w (idAt sid p) := by
  symm
  apply Finset.sum_bij (fun p _ => idAt sid p)
  · intro p hp; simpa using h.id_lt (by simpa using hp)
  · intro p _ q _ hpq; exact h.id_injective hpq
  · intro i hi
    obtain ⟨p, hp, rfl⟩ := h.exists_pos (by simpa using hi)
    exact ⟨p, by simpa using hp, rfl⟩
  · intros; rfl

theorem key_mono {p q : ℕ} (hpq : p ≤ q) (hq : q < N) : key (idAt sid p) ≤ key (idAt sid q) := by
  rcases Nat.lt_or_eq_of_le hpq with hlt | rfl
  · have hl := h.length
    have := List.pairwise_iff_getElem.1 h.sorted p q (by simpa [hl] using by omega) (by simpa [hl] using hq) hlt
    unfold idAt
    rw [List.getD_eq_getElem _ _ (by omega), List.getD_eq_getElem _ _ (by omega)]
    simpa using this
  · exact le_rfl

/-- counting by id = counting by position; sets of small keys are initial segments -/
theorem lt_iff_lt_card (d q : ℕ) (hq : q < N) :
    key (idAt sid q) < d ↔ q < ((Finset.range N).filter (fun i => key i < d)).card := by
  have hcard : ((Finset.range N).filter (fun i => key i < d)).card =
      ((Finset.range N).filter (fun p => key (idAt sid p) < d)).card := by
    rw [Finset.card_filter, Finset.card_filter, h.sum_id]
  rw [hcard]
  constructor
  · intro hlt
    have : Finset.range (q + 1) ⊆ (Finset.range N).filter (fun p => key (idAt sid p) < d) := by
      intro r hr
      simp only [Finset.mem_range, Finset.mem_filter] at hr ⊢
      have := h.key_mono (p := r) (q := q) (by omega) hq
      omega
    have := Finset.card_le_card this
    simp at this; omega
  · intro hlt
    by_contra hge
    have : (Finset.range N).filter (fun p => key (idAt sid p) < d) ⊆ Finset.range q := by
      intro r hr
      simp only [Finset.mem_range, Finset.mem_filter] at hr ⊢
      by_contra hrq
      have := h.key_mono (p := q) (q := r) (by omega) hr.1
      omega
    have := Finset.card_le_card this
    simp at this; omega

end IsCellSort
end LCP
