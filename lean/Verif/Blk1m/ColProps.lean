import Verif.Blk1m.Model
import Mathlib.Tactic.Ring
import Mathlib.Tactic.Linarith
import Mathlib.Tactic.FieldSimp
import Mathlib.Tactic.Positivity
import Mathlib.Tactic.NormNum

/-!
# Sedimentation in the single-moment scheme: column budget (C39)
-/
namespace LCP.Blk1m
open LCP.Common

theorem colLoop_length (v : ℝ → ℝ → ℝ) (dz : ℝ) : ∀ (rest : List Lev) (fin : ℝ) (c : Lev),
    (colLoop v dz fin c rest).1.length = rest.length + 1 := by
  intro rest
  induction rest with
  | nil => intro fin c; simp [colLoop]
  | cons b rest ih => intro fin c; simp [colLoop, ih]

theorem colLoop_budget (v : ℝ → ℝ → ℝ) (dz : ℝ) : ∀ (rest : List Lev) (fin : ℝ) (c : Lev),
    (∀ l ∈ c :: rest, l.rhod ≠ 0) →
    (List.zipWith (fun l d => l.rhod * (d - l.dot)) (c :: rest) (colLoop v dz fin c rest).1).sum =
      (colLoop v dz fin c rest).2 - fin := by
  intro rest
  induction rest with
  | nil =>
    intro fin c h
    have := h c (by simp)
    simp only [colLoop, List.zipWith_cons_cons, List.zipWith_nil_left, List.sum_cons, List.sum_nil]
    field_simp
    ring
  | cons b rest ih =>
    intro fin c h
    have h1 := h c (by simp)
    simp only [colLoop, List.zipWith_cons_cons, List.sum_cons]
    have := ih (-0.5 * (b.rhod * v b.r b.rhod + c.rhod * v c.r c.rhod) * c.r / dz) b (fun l hl => h l (by simp at hl ⊢; tauto))
    rw [this]
    generalize -0.5 * (b.rhod * v b.r b.rhod + c.rhod * v c.r c.rhod) * c.r / dz = fo
    field_simp
    ring

/-- **C39.** The density-weighted sum over the column of the tendencies added by sedimentation equals the returned flux
through the surface (negative downwards): nothing is created inside the column and nothing enters through its top. -/
theorem column_budget (v : ℝ → ℝ → ℝ) (dz : ℝ) (col : List Lev) (dots : List ℝ) (flux : ℝ)
    (hr : ∀ l ∈ col, l.rhod ≠ 0) (h : column true v dz col = some (dots, flux)) :
    dots.length = col.length ∧ (List.zipWith (fun l d => l.rhod * (d - l.dot)) col dots).sum = flux := by
  unfold column at h
  simp only [Bool.not_true, Bool.false_eq_true, if_false] at h
  rcases hc : col.reverse with _ | ⟨c, rest⟩
  · rw [hc] at h; simp at h
  · rw [hc] at h
    simp only [Option.some.injEq, Prod.mk.injEq] at h
    obtain ⟨h1, h2⟩ := h
    have hl : dots.length = col.length := by
      rw [← h1, List.length_reverse, colLoop_length, ← List.length_reverse (as := col), hc, List.length_cons]
    refine ⟨hl, ?_⟩
    have hb := colLoop_budget v dz rest 0 c (fun l hl => hr l (by rw [← List.mem_reverse, hc]; exact hl))
    rw [h2, sub_zero, ← hc] at hb
    rw [← hb, ← List.sum_reverse]
    congr 1
    rw [List.reverse_zipWith hl.symm, ← h1, List.reverse_reverse]

theorem colLoop_flux (v : ℝ → ℝ → ℝ) (dz : ℝ) (hz : 0 < dz) : ∀ (rest : List Lev) (fin : ℝ) (c : Lev),
    (∀ l ∈ c :: rest, 0 ≤ l.rhod ∧ 0 ≤ l.r ∧ 0 ≤ v l.r l.rhod) → (colLoop v dz fin c rest).2 ≤ 0 := by
  intro rest
  induction rest with
  | nil =>
    intro fin c h
    obtain ⟨a, b, d⟩ := h c (by simp)
    simp only [colLoop]
    rw [neg_mul, neg_div]
    have : 0 ≤ c.rhod * v c.r c.rhod * c.r / dz := by positivity
    linarith
  | cons b rest ih =>
    intro fin c h
    simp only [colLoop]
    exact ih _ b (fun l hl => h l (List.mem_cons_of_mem _ hl))

/-- **C39.** With non-negative contents and fall speeds the surface flux never points upwards. -/
theorem column_flux_down (v : ℝ → ℝ → ℝ) (dz : ℝ) (hz : 0 < dz) (col : List Lev) (dots : List ℝ) (flux : ℝ) (sedi : Bool)
    (hr : ∀ l ∈ col, 0 ≤ l.rhod ∧ 0 ≤ l.r ∧ 0 ≤ v l.r l.rhod) (h : column sedi v dz col = some (dots, flux)) : flux ≤ 0 := by
  unfold column at h
  cases sedi with
  | false => simp at h; exact h.2.symm.le
  | true =>
    simp only [Bool.not_true, Bool.false_eq_true, if_false] at h
    rcases hc : col.reverse with _ | ⟨c, rest⟩
    · rw [hc] at h; simp at h
    · rw [hc] at h
      simp only [Option.some.injEq, Prod.mk.injEq] at h
      rw [← h.2]
      exact colLoop_flux v dz hz rest 0 c (fun l hl => hr l (by rw [← List.mem_reverse, hc]; exact hl))

/-- **C39.** `sedi = false` changes nothing and returns zero. -/
theorem column_off (v : ℝ → ℝ → ℝ) (dz : ℝ) (col : List Lev) : column false v dz col = some (col.map (·.dot), 0) := by
  simp [column]

/-- a call succeeds on every non-empty column -/
theorem column_total (sedi : Bool) (v : ℝ → ℝ → ℝ) (dz : ℝ) (col : List Lev) (h : col ≠ []) : (column sedi v dz col).isSome := by
  unfold column
  cases sedi with
  | false => simp
  | true =>
    simp only [Bool.not_true, Bool.false_eq_true, if_false]
    rcases hc : col.reverse with _ | ⟨c, rest⟩
    · simp at hc; exact absurd hc h
    · simp

theorem colLoop_pos (v : ℝ → ℝ → ℝ) (dz dt : ℝ) (hz : 0 < dz) (hdt : 0 ≤ dt) (all : List Lev)
    (hr : ∀ l ∈ all, 0 < l.rhod ∧ 0 ≤ l.r ∧ 0 ≤ v l.r l.rhod)
    (hcfl : ∀ l ∈ all, ∀ b ∈ all, dt * ((b.rhod * v b.r b.rhod + l.rhod * v l.r l.rhod) / 2) ≤ l.rhod * dz) :
    ∀ (rest : List Lev) (fin : ℝ) (c : Lev), fin ≤ 0 → (∀ l ∈ c :: rest, l ∈ all) →
    List.Forall₂ (fun l d => 0 ≤ l.r + dt * (d - l.dot)) (c :: rest) (colLoop v dz fin c rest).1 := by
  have key : ∀ (c b : Lev) (fin : ℝ), fin ≤ 0 → c ∈ all → b ∈ all →
      0 ≤ c.r + dt * (c.dot - (fin - -0.5 * (b.rhod * v b.r b.rhod + c.rhod * v c.r c.rhod) * c.r / dz) / c.rhod - c.dot) := by
    intro c b fin hf hc hb
    obtain ⟨a1, a2, a3⟩ := hr c hc
    have h := hcfl c hc b hb
    have e : c.r + dt * (c.dot - (fin - -0.5 * (b.rhod * v b.r b.rhod + c.rhod * v c.r c.rhod) * c.r / dz) / c.rhod - c.dot)
        = (c.r * (c.rhod * dz - dt * ((b.rhod * v b.r b.rhod + c.rhod * v c.r c.rhod) / 2)) + dt * (-fin) * dz) / (c.rhod * dz) := by
      field_simp
      ring
    rw [e]
    apply div_nonneg _ (by positivity)
    have : 0 ≤ dt * (-fin) * dz := by have : 0 ≤ -fin := by linarith
                                      positivity
    have : 0 ≤ c.r * (c.rhod * dz - dt * ((b.rhod * v b.r b.rhod + c.rhod * v c.r c.rhod) / 2)) :=
      mul_nonneg a2 (by linarith)
    linarith
  intro rest
  induction rest with
  | nil =>
    intro fin c hf hm
    have hc := hm c (by simp)
    simp only [colLoop]
    refine List.Forall₂.cons ?_ List.Forall₂.nil
    have := key c c fin hf hc hc
    have e : -0.5 * (c.rhod * v c.r c.rhod + c.rhod * v c.r c.rhod) * c.r / dz = -(c.rhod * v c.r c.rhod) * c.r / dz := by ring
    rw [e] at this
    exact this
  | cons b rest ih =>
    intro fin c hf hm
    have hc := hm c (by simp)
    have hb := hm b (by simp)
    simp only [colLoop]
    refine List.Forall₂.cons (key c b fin hf hc hb) (ih _ b ?_ (fun l hl => hm l (List.mem_cons_of_mem _ hl)))
    obtain ⟨a1, a2, a3⟩ := hr c hc
    obtain ⟨b1, b2, b3⟩ := hr b hb
    have : 0 ≤ 0.5 * (b.rhod * v b.r b.rhod + c.rhod * v c.r c.rhod) * c.r / dz := by positivity
    have e : -0.5 * (b.rhod * v b.r b.rhod + c.rhod * v c.r c.rhod) * c.r / dz = -(0.5 * (b.rhod * v b.r b.rhod + c.rhod * v c.r c.rhod) * c.r / dz) := by ring
    rw [e]; linarith

/-- **C39.** Under the Courant condition sedimentation never empties a level below zero. -/
theorem column_nonneg (v : ℝ → ℝ → ℝ) (dz dt : ℝ) (hz : 0 < dz) (hdt : 0 ≤ dt) (col : List Lev) (dots : List ℝ) (flux : ℝ)
    (hr : ∀ l ∈ col, 0 < l.rhod ∧ 0 ≤ l.r ∧ 0 ≤ v l.r l.rhod)
    (hcfl : ∀ l ∈ col, ∀ b ∈ col, dt * ((b.rhod * v b.r b.rhod + l.rhod * v l.r l.rhod) / 2) ≤ l.rhod * dz)
    (h : column true v dz col = some (dots, flux)) :
    List.Forall₂ (fun l d => 0 ≤ l.r + dt * (d - l.dot)) col dots := by
  unfold column at h
  simp only [Bool.not_true, Bool.false_eq_true, if_false] at h
  rcases hc : col.reverse with _ | ⟨c, rest⟩
  · rw [hc] at h; simp at h
  · rw [hc] at h
    simp only [Option.some.injEq, Prod.mk.injEq] at h
    have := colLoop_pos v dz dt hz hdt col hr hcfl rest 0 c (le_refl _) (fun l hl => by rw [← List.mem_reverse, hc]; exact hl)
    rw [← hc] at this
    rw [← h.1]
    have h2 := List.rel_reverse this
    rw [List.reverse_reverse] at h2
    exact h2

/-- the flux through the surface is that of the lowest level alone -/
theorem colLoop_last (v : ℝ → ℝ → ℝ) (dz : ℝ) : ∀ (rest : List Lev) (fin : ℝ) (c : Lev),
    (colLoop v dz fin c rest).2 = (fun l : Lev => -(l.rhod * v l.r l.rhod) * l.r / dz) ((c :: rest).getLast (by simp)) := by
  intro rest
  induction rest with
  | nil => intro fin c; simp [colLoop]
  | cons b rest ih => intro fin c; simp only [colLoop]; rw [ih]; simp

/-- **C39.** Surface flux of rain: density times fall speed times mixing ratio of the lowest level, per layer depth. -/
theorem columnRain_flux (o : Opts) (hs : o.sedi = true) (dz : ℝ) (l : Lev) (rest : List Lev) (dots : List ℝ) (flux : ℝ)
    (h : columnRain o dz (l :: rest) = some (dots, flux)) :
    flux = -(l.rhod * vTerm l.r l.rhod l.rhod * l.r) / dz := by
  unfold columnRain column at h
  simp only [hs, Bool.not_true, Bool.false_eq_true, if_false] at h
  rcases hc : (l :: rest).reverse with _ | ⟨c, below⟩
  · simp at hc
  · rw [hc] at h
    simp only [Option.some.injEq, Prod.mk.injEq] at h
    rw [← h.2, colLoop_last]
    have : (c :: below).getLast (by simp) = l := by
      have h1 : (c :: below).getLast? = (l :: rest).head? := by rw [← hc, List.getLast?_reverse]
      rw [List.getLast?_eq_some_getLast (by simp)] at h1
      simpa using h1
    simp only [this]
    simp

/-- **C39 for the three species** -/
theorem column_budget_species (epsm dz : ℝ) (o : Opts) (col : List Lev) (hs : o.sedi = true) (hr : ∀ l ∈ col, l.rhod ≠ 0)
    (dots : List ℝ) (flux : ℝ) (h : columnRain o dz col = some (dots, flux) ∨ columnIceA o dz col = some (dots, flux) ∨
      columnIceB epsm o dz col = some (dots, flux)) :
    (List.zipWith (fun l d => l.rhod * (d - l.dot)) col dots).sum = flux := by
  rcases h with h | h | h
  · unfold columnRain at h; rw [hs] at h; exact (column_budget _ dz col dots flux hr h).2
  · unfold columnIceA at h; rw [hs] at h; exact (column_budget _ dz col dots flux hr h).2
  · unfold columnIceB at h; rw [hs] at h; exact (column_budget _ dz col dots flux hr h).2

/-- a two-level column with all the rain on top: the flux leaves the upper level and enters the lower one -/
example : column true (fun _ _ => 1) 10 [⟨1, 0, 0⟩, ⟨1, 2, 0⟩] = some ([1/5, -1/5], 0) := by
  simp [column, colLoop]; norm_num

/-- and the Courant condition of `column_nonneg` holds there for a time step of 5 s -/
example : ∀ l ∈ [(⟨1, 0, 0⟩ : Lev), ⟨1, 2, 0⟩], ∀ b ∈ [(⟨1, 0, 0⟩ : Lev), ⟨1, 2, 0⟩],
    (5 : ℝ) * ((b.rhod * 1 + l.rhod * 1) / 2) ≤ l.rhod * 10 := by
  intro l hl b hb
  simp at hl hb
  rcases hl with rfl | rfl <;> rcases hb with rfl | rfl <;> norm_num

end LCP.Blk1m
