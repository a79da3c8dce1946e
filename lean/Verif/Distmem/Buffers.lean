import Verif.Distmem.Exchange

/-!
# Buffers for the exchange of super-droplets between subdomains

Sources: src/impl/initialization/particles_impl_reserve_hskpng_npart.ipp:69-79 (sizes after initialisation), src/impl/boundary_conditions/particles_impl_bcnd.ipp:174-190
(enlarging), src/impl/distributed_memory/particles_impl_pack.ipp:28-105 (what is written, guarded by assertions that release builds leave out:
CMakeLists.txt:124), src/detail/config.hpp:25.  Numbers are natural numbers (64-bit products do not wrap for numbers of super-droplets that fit memory); the growth
factor `1.1 *` computed in double precision is any function `g` with `k ≤ g k`.
-/
namespace LCP.Distmem

/-- sizes of `in_n_bfr`, `out_n_bfr` (always equal) and of `in_real_bfr`, `out_real_bfr` (always equal) -/
structure Bufs where
  n : ℕ
  real : ℕ
  deriving DecidableEq

/-- reserve_hskpng_npart.ipp:71-78 for `nv` real attributes and one integer attribute; `bfr_fraction` is 2 -/
def reserve (nv nSdMax nx : ℕ) : Bufs := ⟨1 * nSdMax / nx / 2, nv * nSdMax / nx / 2⟩

/-- `bcnd` of a distributed run (particles_impl_bcnd.ipp:177-190) when `l` leave to the left and `r` to the right -/
def grow (g : ℕ → ℕ) (nv : ℕ) (b : Bufs) (l r : ℕ) : Bufs :=
  if b.n < l * 1 ∨ b.n < r * 1 then
    let s := if l > r then g l else g r
    ⟨1 * s, nv * s⟩
  else b

/-- buffers after a run; `run`: numbers of super-droplets sent in each step -/
def bufsAfter (g : ℕ → ℕ) (nv nSdMax nx : ℕ) (run : List (ℕ × ℕ)) : Bufs :=
  run.foldl (fun b t => grow g nv b t.1 t.2) (reserve nv nSdMax nx)

/-- both kinds of buffers are for the same number of super-droplets, but for a remainder of the division -/
def Matched (nv : ℕ) (b : Bufs) : Prop := nv * b.n ≤ b.real ∧ b.real ≤ nv * (b.n + 1)

theorem matched_reserve (nv nSdMax nx : ℕ) : Matched nv (reserve nv nSdMax nx) := by
  unfold Matched reserve
  simp only [one_mul, Nat.div_div_eq_div_mul]
  rcases Nat.eq_zero_or_pos (nx * 2) with h | h
  · simp [h]
  · constructor
    · rw [Nat.le_div_iff_mul_le h, mul_assoc]
      exact Nat.mul_le_mul_left _ (Nat.div_mul_le_self _ _)
    · refine Nat.div_le_of_le_mul ?_
      have h2 : nSdMax ≤ nx * 2 * (nSdMax / (nx * 2) + 1) := (Nat.lt_mul_div_succ nSdMax h).le
      calc nv * nSdMax ≤ nv * (nx * 2 * (nSdMax / (nx * 2) + 1)) := Nat.mul_le_mul_left _ h2
        _ = nx * 2 * (nv * (nSdMax / (nx * 2) + 1)) := by ring

theorem matched_grow (g : ℕ → ℕ) (nv : ℕ) (b : Bufs) (l r : ℕ) (h : Matched nv b) : Matched nv (grow g nv b l r) := by
  unfold grow
  split
  · simp only [Matched, one_mul]
    exact ⟨le_refl _, Nat.mul_le_mul_left _ (Nat.le_succ _)⟩
  · exact h

theorem bufsAfter_append (g : ℕ → ℕ) (nv nSdMax nx : ℕ) (run : List (ℕ × ℕ)) (l r : ℕ) :
    bufsAfter g nv nSdMax nx (run ++ [(l, r)]) = grow g nv (bufsAfter g nv nSdMax nx run) l r := by
  simp [bufsAfter, List.foldl_append]

theorem matched_after (g : ℕ → ℕ) (nv nSdMax nx : ℕ) (run : List (ℕ × ℕ)) : Matched nv (bufsAfter g nv nSdMax nx run) := by
  induction run using List.reverseRecOn with
  | nil => exact matched_reserve nv nSdMax nx
  | append_singleton run t ih => rw [show t = (t.1, t.2) from rfl, bufsAfter_append]; exact matched_grow g nv _ _ _ ih

theorem grow_fits (g : ℕ → ℕ) (hg : ∀ k, k ≤ g k) (nv : ℕ) (b : Bufs) (l r : ℕ) : l ≤ (grow g nv b l r).n ∧ r ≤ (grow g nv b l r).n := by
  unfold grow
  split
  · simp only [one_mul]
    have := hg l; have := hg r
    split <;> omega
  · omega

theorem grow_ge (g : ℕ → ℕ) (hg : ∀ k, k ≤ g k) (nv : ℕ) (b : Bufs) (l r : ℕ) (hb : Matched nv b) : b.n ≤ (grow g nv b l r).n ∧ b.real ≤ (grow g nv b l r).real := by
  have hf := grow_fits g hg nv b l r
  unfold grow at *
  split
  · rename_i h
    rw [if_pos h] at hf
    simp only [one_mul] at hf ⊢
    have hs : b.n + 1 ≤ (if l > r then g l else g r) := by omega
    exact ⟨by omega, hb.2.trans (Nat.mul_le_mul_left _ hs)⟩
  · exact ⟨le_rfl, le_rfl⟩

/-- **C139.** Whatever a subdomain sent in the past, what it sends now fits its buffers: nothing is packed beyond the end of the buffers of whole and of real numbers, in any
step of any run, with any number of attributes, any `n_sd_max` and any width. -/
theorem sends_fit (g : ℕ → ℕ) (hg : ∀ k, k ≤ g k) (nv nSdMax nx : ℕ) (run : List (ℕ × ℕ)) (l r : ℕ) :
    let b := bufsAfter g nv nSdMax nx (run ++ [(l, r)])
    l ≤ b.n ∧ r ≤ b.n ∧ nv * l ≤ b.real ∧ nv * r ≤ b.real := by
  intro b
  have hm : Matched nv b := matched_after g nv nSdMax nx (run ++ [(l, r)])
  have hf : l ≤ b.n ∧ r ≤ b.n := by
    have := grow_fits g hg nv (bufsAfter g nv nSdMax nx run) l r
    rwa [← bufsAfter_append] at this
  exact ⟨hf.1, hf.2, (Nat.mul_le_mul_left _ hf.1).trans hm.1, (Nat.mul_le_mul_left _ hf.2).trans hm.1⟩

/-- **C139.** Buffers never get smaller. -/
theorem buffers_never_shrink (g : ℕ → ℕ) (hg : ∀ k, k ≤ g k) (nv nSdMax nx : ℕ) (run more : List (ℕ × ℕ)) :
    (bufsAfter g nv nSdMax nx run).n ≤ (bufsAfter g nv nSdMax nx (run ++ more)).n ∧
    (bufsAfter g nv nSdMax nx run).real ≤ (bufsAfter g nv nSdMax nx (run ++ more)).real := by
  induction more using List.reverseRecOn with
  | nil => simp
  | append_singleton more t ih =>
    rw [← List.append_assoc, show t = (t.1, t.2) from rfl, bufsAfter_append]
    have := grow_ge g hg nv _ t.1 t.2 (matched_after g nv nSdMax nx (run ++ more))
    exact ⟨ih.1.trans this.1, ih.2.trans this.2⟩

/-- **C139.** A receiver with room for the whole numbers of an incoming message has room for the real numbers too. -/
theorem reals_fit (g : ℕ → ℕ) (nv nSdMax nx : ℕ) (run : List (ℕ × ℕ)) (k : ℕ) (h : k ≤ (bufsAfter g nv nSdMax nx run).n) :
    nv * k ≤ (bufsAfter g nv nSdMax nx run).real :=
  (Nat.mul_le_mul_left _ h).trans (matched_after g nv nSdMax nx run).1

/-- **C139** (partial: not for all populations, see `buffer_too_small`).  A message of as many super-droplets as half of a column of a subdomain filled evenly up to `n_sd_max`
always fits, whatever was sent before. -/
theorem half_column_fits_partial (g : ℕ → ℕ) (hg : ∀ k, k ≤ g k) (nv nSdMax nx : ℕ) (run : List (ℕ × ℕ)) (k : ℕ) (h : 2 * k * nx ≤ nSdMax) (hx : 0 < nx) :
    k ≤ (bufsAfter g nv nSdMax nx run).n ∧ nv * k ≤ (bufsAfter g nv nSdMax nx run).real := by
  have h0 : k ≤ (reserve nv nSdMax nx).n := by
    simp only [reserve, one_mul, Nat.div_div_eq_div_mul]
    rw [Nat.le_div_iff_mul_le (by omega)]
    calc k * (nx * 2) = 2 * k * nx := by ring
      _ ≤ _ := h
  have h1 := (buffers_never_shrink g hg nv nSdMax nx [] run).1
  simp only [List.nil_append] at h1
  have h2 : k ≤ (bufsAfter g nv nSdMax nx run).n := h0.trans h1
  exact ⟨h2, reals_fit g nv nSdMax nx run k h2⟩

/-- **C139** (partial, same proviso).  An exchange succeeds if no subdomain sends more to one side than the buffers of its neighbours hold and every subdomain has room for
what it holds, including what it sends, and what it gets. -/
theorem exchange_succeeds_partial {m : ℕ} (st : Fin (m + 1) → Rank) (hl : ∀ r, (st (rgtRank r)).lft.length ≤ (st r).cap) (hr : ∀ r, (st (lftRank r)).rgt.length ≤ (st r).cap)
    (room : ∀ r, (st r).sds.length + (st (rgtRank r)).lft.length + (st (lftRank r)).rgt.length ≤ (st r).nSdMax) : ∃ st', exchange st = some st' := by
  unfold exchange
  rw [if_pos]
  · exact ⟨_, rfl⟩
  intro r
  have hcap : (st r).cap ≤ (st r).cap' := by
    unfold Rank.cap'
    split
    · split <;> omega
    · exact le_rfl
  have h1 : (fromRgt st r).length ≤ (st (rgtRank r)).lft.length := by unfold fromRgt; split <;> simp
  have h2 : (fromLft st r).length ≤ (st (lftRank r)).rgt.length := by unfold fromLft; split <;> simp
  have := hl r; have := hr r; have := room r
  exact ⟨by omega, by omega, by omega⟩

/-- the buffers of the model of the exchange are these -/
theorem cap'_eq_grow (r : Rank) (nv real : ℕ) : r.cap' = (grow (fun k => 11 * k / 10) nv ⟨r.cap, real⟩ r.lft.length r.rgt.length).n := by
  unfold Rank.cap' grow
  simp only [gt_iff_lt, mul_one, one_mul]
  split <;> rfl

/-- **C139, negation**: the whole of an evenly filled column does not fit a receiver that sent nothing itself. -/
theorem whole_column_does_not_fit (nv k nx : ℕ) (hk : 0 < k) (hx : 0 < nx) : ¬ k ≤ (bufsAfter (fun k => 11 * k / 10) nv (k * nx) nx []).n := by
  simp only [bufsAfter, List.foldl_nil, reserve, one_mul]
  rw [Nat.mul_div_cancel _ hx]
  omega

/-! ### Instances -/

/-- 8 attributes, `n_sd_max` 1000, 10 columns: 50 and 400; one step with 60 leaving to the right enlarges them to 66 and 528 -/
example : reserve 8 1000 10 = ⟨50, 400⟩ ∧ bufsAfter (fun k => 11 * k / 10) 8 1000 10 [(10, 60)] = ⟨66, 528⟩ ∧ bufsAfter (fun k => 11 * k / 10) 8 1000 10 [(10, 60), (64, 2)] = ⟨66, 528⟩ := by
  decide
example : ∀ k : ℕ, k ≤ 11 * k / 10 := fun k => by omega
example : 50 ≤ (bufsAfter (fun k => 11 * k / 10) 8 1000 10 [(3, 1)]).n := (half_column_fits_partial _ (fun k => by omega) 8 1000 10 [(3, 1)] 50 (by norm_num) (by norm_num)).1
/-- the exchange of Verif.Distmem.Exchange -/
example : ∃ st', exchange exSt = some st' :=
  exchange_succeeds_partial exSt
    (fun r => by fin_cases r
                 · have a : rgtRank (0 : Fin 2) = 1 := by decide
                   change (exSt (rgtRank 0)).lft.length ≤ _; rw [a, exSt_lft1]; simp
                 · have a : rgtRank (1 : Fin 2) = 0 := by decide
                   change (exSt (rgtRank 1)).lft.length ≤ _; rw [a, exSt_lft0]; simp [exSt])
    (fun r => by fin_cases r
                 · have a : lftRank (0 : Fin 2) = 1 := by decide
                   change (exSt (lftRank 0)).rgt.length ≤ _; rw [a, exSt_rgt1]; simp
                 · have a : lftRank (1 : Fin 2) = 0 := by decide
                   change (exSt (lftRank 1)).rgt.length ≤ _; rw [a, exSt_rgt0]; simp [exSt])
    (fun r => by fin_cases r
                 · have a : rgtRank (0 : Fin 2) = 1 := by decide
                   have b : lftRank (0 : Fin 2) = 1 := by decide
                   change _ + (exSt (rgtRank 0)).lft.length + (exSt (lftRank 0)).rgt.length ≤ _; rw [a, b, exSt_rgt1, exSt_lft1]; simp [exSt]
                 · have a : rgtRank (1 : Fin 2) = 0 := by decide
                   have b : lftRank (1 : Fin 2) = 0 := by decide
                   change _ + (exSt (rgtRank 1)).lft.length + (exSt (lftRank 1)).rgt.length ≤ _; rw [a, b, exSt_rgt0, exSt_lft0]; simp [exSt])

end LCP.Distmem
