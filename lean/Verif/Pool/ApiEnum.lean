import Verif.Pool.ApiChecks
/-!
# The calls accepted by the analysis, for every configuration

Each call depends on few options; those are enumerated and the analysis is evaluated by the kernel.  The size of the pool of
per-particle vectors enters through a lower bound (`an_mono`), the states through a description (`gam_le`).
-/
namespace LCP.PoolApi

def allB (p : Bool → Bool) : Bool := p true && p false
def allD (p : Fin 4 → Bool) : Bool := p 0 && (p 1 && (p 2 && p 3))
theorem allB_spec {p : Bool → Bool} (h : allB p = true) (b : Bool) : p b = true := by
  unfold allB at h; rw [Bool.and_eq_true] at h; cases b; exacts [h.2, h.1]
theorem allD_spec {p : Fin 4 → Bool} (h : allD p = true) (b : Fin 4) : p b = true := by
  unfold allD at h; rw [Bool.and_eq_true, Bool.and_eq_true, Bool.and_eq_true] at h
  obtain ⟨h0, h1, h2, h3⟩ := h
  match b with
  | 0 => exact h0
  | 1 => exact h1
  | 2 => exact h2
  | 3 => exact h3
theorem or_spec {a b : Bool} (h : (!a || b) = true) (ha : a = true) : b = true := by
  rw [ha] at h; exact h

/-- the size of the per-particle pool replaced -/
def withN (n : ℕ) (f : Flags) : PoolId → ℕ
  | .realPart => n
  | p => poolSize f p

end LCP.PoolApi
