import Mathlib.Data.List.Basic
import Mathlib.Data.List.Perm.Basic
import Mathlib.Logic.Function.Basic
import Mathlib.Data.List.Nodup

/-! # Generic theory of parallel loops over neighbouring pairs (helper lemmas) -/
namespace LCP.PairLoop

/-- what iteration `p` does: nothing, rewrite position `p`, or rewrite positions `p` and `p+1` -/
inductive Kind | skip | single | pair
  deriving DecidableEq

variable {α : Type*}

/-- one iteration of an abstract pair loop on position-indexed storage -/
def step (kind : ℕ → Kind) (g : ℕ → α → α) (f : ℕ → α → α → α × α) (c : ℕ → α) (p : ℕ) : ℕ → α :=
  match kind p with
  | .skip => c
  | .single => Function.update c p (g p (c p))
  | .pair => Function.update (Function.update c p (f p (c p) (c (p + 1))).1) (p + 1) (f p (c p) (c (p + 1))).2

/-- Closed form of the result of a pair loop. -/
def closed (kind : ℕ → Kind) (g : ℕ → α → α) (f : ℕ → α → α → α × α) (L : List ℕ) (c : ℕ → α) (q : ℕ) : α :=
  if q ∈ L ∧ kind q = .pair then (f q (c q) (c (q + 1))).1
  else if q ∈ L ∧ kind q = .single then g q (c q)
  else if 1 ≤ q ∧ q - 1 ∈ L ∧ kind (q - 1) = .pair then (f (q - 1) (c (q - 1)) (c q)).2
  else c q

theorem foldl_eq_closed (kind : ℕ → Kind) (g : ℕ → α → α) (f : ℕ → α → α → α × α)
    (hdis : ∀ p, kind p = .pair → kind (p + 1) = .skip)
    (L : List ℕ) (hn : L.Nodup) (c : ℕ → α) (q : ℕ) :
    L.foldl (step kind g f) c q = closed kind g f L c q := by
  induction L generalizing c with
  | nil => simp [closed]
  | cons p t ih =>
    rw [List.nodup_cons] at hn
    rw [List.foldl_cons, ih hn.2]
    have hpt := hn.1
    unfold closed step
    cases hk : kind p with
    | skip =>
      have e1 : ∀ r K, K ≠ Kind.skip → ((r ∈ p :: t ∧ kind r = K) ↔ (r ∈ t ∧ kind r = K)) := by
        intro r K hK
        constructor
        · rintro ⟨h1, h2⟩
          rcases List.mem_cons.1 h1 with rfl | h
          · rw [hk] at h2; exact absurd h2.symm hK
          · exact ⟨h, h2⟩
        · rintro ⟨h1, h2⟩; exact ⟨List.mem_cons_of_mem _ h1, h2⟩
      simp only [e1 _ Kind.pair (by decide), e1 _ Kind.single (by decide)]
    | single =>
      by_cases hqp : q = p
      · subst hqp
        have hm : ¬ (kind (q - 1) = Kind.pair ∧ 1 ≤ q) := by
          rintro ⟨h1, h2⟩
          have := hdis _ h1
          rw [Nat.sub_add_cancel h2] at this
          rw [this] at hk; exact absurd hk (by decide)
        have hm' : ¬ (1 ≤ q ∧ q - 1 ∈ t ∧ kind (q - 1) = Kind.pair) := fun h => hm ⟨h.2.2, h.1⟩
        simp [hpt, hk, hm']
      · have e1 : ∀ r, r ≠ p → (r ∈ p :: t ↔ r ∈ t) := fun r hr => by simp [hr]
        have hq1 : ∀ r, kind r = Kind.pair → r ≠ p := by
          rintro r hr rfl; rw [hk] at hr; exact absurd hr (by decide)
        have hq2 : ∀ r, kind r = Kind.pair → r + 1 ≠ p := by
          intro r hr h; have := hdis r hr; rw [h, hk] at this; exact absurd this (by decide)
        have e2 : ∀ r, (r ∈ p :: t ∧ kind r = Kind.pair) ↔ (r ∈ t ∧ kind r = Kind.pair) := by
          intro r
          constructor
          · rintro ⟨h1, h2⟩; exact ⟨(e1 r (hq1 r h2)).1 h1, h2⟩
          · rintro ⟨h1, h2⟩; exact ⟨List.mem_cons_of_mem _ h1, h2⟩
        simp only [e2, e1 q hqp, Function.update_of_ne hqp]
        by_cases hA : q ∈ t ∧ kind q = Kind.pair
        · simp only [hA, and_self, if_true]
          rw [Function.update_of_ne (hq2 q hA.2)]
        · simp only [hA, if_false]
          by_cases hB : q ∈ t ∧ kind q = Kind.single
          · simp [hB]
          · simp only [hB, if_false]
            by_cases hC : 1 ≤ q ∧ q - 1 ∈ t ∧ kind (q - 1) = Kind.pair
            · simp only [hC, and_self, if_true]
              rw [Function.update_of_ne (hq1 _ hC.2.2)]
            · simp only [hC, if_false]
    | pair =>
      have hp1 : kind (p + 1) = Kind.skip := hdis p hk
      by_cases hqp : q = p
      · subst hqp
        have hm' : ¬ (1 ≤ q ∧ q - 1 ∈ t ∧ kind (q - 1) = Kind.pair) := by
          rintro ⟨h2, -, h1⟩
          have := hdis _ h1
          rw [Nat.sub_add_cancel h2] at this
          rw [this] at hk; exact absurd hk (by decide)
        simp [hpt, hk, hm']
      · by_cases hqp1 : q = p + 1
        · subst hqp1
          have hmp : ¬ (p ∈ t ∧ kind p = Kind.pair) := fun h => hpt h.1
          simp [hpt, hk, hp1]
        · have e1 : ∀ r, r ≠ p → (r ∈ p :: t ↔ r ∈ t) := fun r hr => by simp [hr]
          have hne : ∀ r, kind r = Kind.pair → r ≠ p + 1 := by
            rintro r hr rfl; rw [hp1] at hr; exact absurd hr (by decide)
          have hne2 : ∀ r, kind r = Kind.pair → r + 1 ≠ p := by
            intro r hr h; have := hdis r hr; rw [h, hk] at this; exact absurd this (by decide)
          have hq1 : q - 1 = p → ¬ (1 ≤ q) := by omega
          simp only [e1 q hqp, Function.update_of_ne hqp, Function.update_of_ne hqp1]
          by_cases hA : q ∈ t ∧ kind q = Kind.pair
          · simp only [hA, and_self, if_true]
            have : q + 1 ≠ p + 1 := by omega
            rw [Function.update_of_ne this, Function.update_of_ne (hne2 q hA.2)]
          · simp only [hA, if_false]
            by_cases hB : q ∈ t ∧ kind q = Kind.single
            · simp [hB]
            · simp only [hB, if_false]
              by_cases h1 : 1 ≤ q
              · have h2 : q - 1 ≠ p := by omega
                simp only [e1 (q - 1) h2]
                by_cases hC : 1 ≤ q ∧ q - 1 ∈ t ∧ kind (q - 1) = Kind.pair
                · simp only [hC, and_self, if_true]
                  rw [Function.update_of_ne (hne _ hC.2.2), Function.update_of_ne h2]
                · simp only [hC, if_false]
              · simp [h1]

theorem closed_perm (kind : ℕ → Kind) (g : ℕ → α → α) (f : ℕ → α → α → α × α)
    {L L' : List ℕ} (h : L.Perm L') (c : ℕ → α) (q : ℕ) :
    closed kind g f L c q = closed kind g f L' c q := by
  unfold closed
  simp only [h.mem_iff]

/-- Result of a complete pair loop (all iterations executed). -/
def apply (kind : ℕ → Kind) (g : ℕ → α → α) (f : ℕ → α → α → α × α) (c : ℕ → α) (q : ℕ) : α :=
  match kind q with
  | .pair => (f q (c q) (c (q + 1))).1
  | .single => g q (c q)
  | .skip => if 1 ≤ q ∧ kind (q - 1) = .pair then (f (q - 1) (c (q - 1)) (c q)).2 else c q

theorem foldl_eq_apply (kind : ℕ → Kind) (g : ℕ → α → α) (f : ℕ → α → α → α × α)
    (hdis : ∀ p, kind p = .pair → kind (p + 1) = .skip)
    (L : List ℕ) (hn : L.Nodup) (hL : ∀ p, kind p ≠ .skip → p ∈ L) (c : ℕ → α) :
    L.foldl (step kind g f) c = apply kind g f c := by
  funext q
  rw [foldl_eq_closed kind g f hdis L hn]
  unfold closed apply
  cases hk : kind q with
  | pair => simp [hL q (by simp [hk])]
  | single => simp [hL q (by simp [hk])]
  | skip =>
    simp only [reduceCtorEq, and_false, if_false]
    by_cases h : 1 ≤ q ∧ kind (q - 1) = .pair
    · have := hL (q - 1) (by simp [h.2])
      simp [h, this]
    · have : ¬ (1 ≤ q ∧ q - 1 ∈ L ∧ kind (q - 1) = .pair) := fun h' => h ⟨h'.1, h'.2.2⟩
      simp only [h, this, if_false]

theorem apply_apply (kind : ℕ → Kind) (g₁ g₂ : ℕ → α → α) (f₁ f₂ : ℕ → α → α → α × α)
    (hdis : ∀ p, kind p = .pair → kind (p + 1) = .skip) (c : ℕ → α) :
    apply kind g₂ f₂ (apply kind g₁ f₁ c) =
      apply kind (fun p x => g₂ p (g₁ p x)) (fun p x y => f₂ p (f₁ p x y).1 (f₁ p x y).2) c := by
  have hfst : ∀ q, kind q = .pair → apply kind g₁ f₁ c q = (f₁ q (c q) (c (q + 1))).1 := by
    intro q h; simp [apply, h]
  have hsnd : ∀ q, kind q = .pair → apply kind g₁ f₁ c (q + 1) = (f₁ q (c q) (c (q + 1))).2 := by
    intro q h; simp [apply, hdis q h, h]
  funext q
  cases hk : kind q with
  | pair => rw [apply, hk]; simp only; rw [hfst q hk, hsnd q hk]; simp [apply, hk]
  | single => simp [apply, hk]
  | skip =>
    by_cases h : 1 ≤ q ∧ kind (q - 1) = .pair
    · have h1 := hfst (q - 1) h.2
      have h2 := hsnd (q - 1) h.2
      rw [Nat.sub_add_cancel h.1] at h1 h2
      rw [apply, hk]; simp only [h, and_self, if_true]
      rw [h1, h2]
      simp [apply, hk, h]
    · simp [apply, hk, h]

end LCP.PairLoop
