import Verif.Blk2m.Model
import Mathlib.Tactic.Ring
import Mathlib.Tactic.Linarith
import Mathlib.Tactic.FieldSimp
import Mathlib.Tactic.Positivity
import Mathlib.Tactic.NormNum

/-!
# Sedimentation in the double-moment scheme: column budget (C39)
-/
namespace LCP.Blk2m
open LCP.Common

theorem colLoop_length (vm vn : ℝ → ℝ → ℝ → ℝ) (dt dz : ℝ) : ∀ (rest : List Lev) (fr fn : ℝ) (c : Lev),
    (colLoop vm vn dt dz fr fn c rest).1.length = rest.length + 1 := by
  intro rest
  induction rest with
  | nil => intro fr fn c; simp [colLoop]
  | cons b rest ih => intro fr fn c; simp [colLoop, ih]

theorem colLoop_budget (vm vn : ℝ → ℝ → ℝ → ℝ) (dt dz : ℝ) : ∀ (rest : List Lev) (fr fn : ℝ) (c : Lev),
    (∀ l ∈ c :: rest, l.rhod ≠ 0) →
    (List.zipWith (fun l d => l.rhod * (d.1 - l.dotR)) (c :: rest) (colLoop vm vn dt dz fr fn c rest).1).sum =
      (colLoop vm vn dt dz fr fn c rest).2.1 - fr ∧
    (List.zipWith (fun l d => l.rhod * (d.2 - l.dotN)) (c :: rest) (colLoop vm vn dt dz fr fn c rest).1).sum =
      (colLoop vm vn dt dz fr fn c rest).2.2 - fn := by
  have e : ∀ r a b d : ℝ, r ≠ 0 → r * (d - (a - b) / r - d) = b - a := by
    intro r a b d h; field_simp; ring
  intro rest
  induction rest with
  | nil =>
    intro fr fn c h
    have := h c (by simp)
    simp only [colLoop, List.zipWith_cons_cons, List.zipWith_nil_left, List.sum_cons, List.sum_nil, add_zero]
    exact ⟨e _ _ _ _ this, e _ _ _ _ this⟩
  | cons b rest ih =>
    intro fr fn c h
    have h1 := h c (by simp)
    simp only [colLoop, List.zipWith_cons_cons, List.sum_cons]
    obtain ⟨i1, i2⟩ := ih (fluxOut dt dz c.rhod (-0.5 * (b.rhod * vm b.rhod b.rr b.nr + c.rhod * vm c.rhod c.rr c.nr)) c.rr c.dotR)
      (fluxOut dt dz c.rhod (-0.5 * (b.rhod * vn b.rhod b.rr b.nr + c.rhod * vn c.rhod c.rr c.nr)) c.nr c.dotN) b
      (fun l hl => h l (by simp at hl ⊢; tauto))
    rw [i1, i2, e _ _ _ _ h1, e _ _ _ _ h1]
    constructor <;> ring

/-- **C39.** The density-weighted sum over the column of the rain-mass tendencies added by sedimentation equals the returned
surface flux; the same holds for the rain number with some flux through the surface that is not returned. -/
theorem column_budget (epsm dt dz : ℝ) (o : Opts) (hs : o.sedi = true) (col : List Lev) (dots : List (ℝ × ℝ)) (flux : ℝ)
    (hr : ∀ l ∈ col, l.rhod ≠ 0) (h : column epsm o dt dz col = some (dots, flux)) :
    dots.length = col.length ∧ (List.zipWith (fun l d => l.rhod * (d.1 - l.dotR)) col dots).sum = flux := by
  unfold column at h
  rw [hs] at h
  simp only [Bool.true_eq_false, if_false] at h
  rcases col with _ | ⟨c, rest⟩
  · simp at h
  · simp only [Option.some.injEq, Prod.mk.injEq] at h
    obtain ⟨h1, h2⟩ := h
    refine ⟨by rw [← h1, colLoop_length]; simp, ?_⟩
    rw [← h1, ← h2, (colLoop_budget _ _ dt dz rest 0 0 c hr).1, sub_zero]

/-- the limited flux of a level with `x` left after the other processes: between zero and emptying it -/
theorem fluxOut_range (dt dz rhod mom x dot : ℝ) (hdt : 0 < dt) (hz : 0 < dz) (hr : 0 ≤ rhod) (hx : 0 ≤ x) (hm : mom ≤ 0)
    (hd : 0 ≤ x + dt * dot) :
    -(rhod * (x + dt * dot) / dt) ≤ fluxOut dt dz rhod mom x dot ∧ fluxOut dt dz rhod mom x dot ≤ 0 := by
  unfold fluxOut
  constructor
  · have := min_le_right (-(mom * x / dz)) (rhod * (x + dt * dot) / dt); linarith
  · have h1 : 0 ≤ -(mom * x / dz) := by
      rw [← neg_div, ← neg_mul]
      exact div_nonneg (mul_nonneg (by linarith) hx) hz.le
    have h2 : 0 ≤ rhod * (x + dt * dot) / dt := by positivity
    have := le_min h1 h2
    linarith

/-- conditions on a level: what the other processes have left is non-negative -/
structure LevOK (vm vn : ℝ → ℝ → ℝ → ℝ) (dt : ℝ) (l : Lev) : Prop where
  rho : 0 < l.rhod
  rr : 0 ≤ l.rr
  nr : 0 ≤ l.nr
  rr' : 0 ≤ l.rr + dt * l.dotR
  nr' : 0 ≤ l.nr + dt * l.dotN
  vm : 0 ≤ vm l.rhod l.rr l.nr
  vn : 0 ≤ vn l.rhod l.rr l.nr

theorem level_step (dt rhod x dot fin fout : ℝ) (hdt : 0 < dt) (hr : 0 < rhod) (hf : fin ≤ 0)
    (h : -(rhod * (x + dt * dot) / dt) ≤ fout) : 0 ≤ x + dt * (dot - (fin - fout) / rhod) := by
  have e : x + dt * (dot - (fin - fout) / rhod) = dt / rhod * (rhod * (x + dt * dot) / dt + fout + -fin) := by
    field_simp; ring
  rw [e]
  apply mul_nonneg (by positivity)
  linarith

theorem colLoop_nonneg (vm vn : ℝ → ℝ → ℝ → ℝ) (dt dz : ℝ) (hdt : 0 < dt) (hz : 0 < dz) : ∀ (rest : List Lev) (fr fn : ℝ) (c : Lev),
    fr ≤ 0 → fn ≤ 0 → (∀ l ∈ c :: rest, LevOK vm vn dt l) →
    List.Forall₂ (fun l d => 0 ≤ l.rr + dt * d.1 ∧ 0 ≤ l.nr + dt * d.2) (c :: rest) (colLoop vm vn dt dz fr fn c rest).1 ∧
    (colLoop vm vn dt dz fr fn c rest).2.1 ≤ 0 ∧ (colLoop vm vn dt dz fr fn c rest).2.2 ≤ 0 := by
  intro rest
  induction rest with
  | nil =>
    intro fr fn c hr hn h
    have hc := h c (by simp)
    have a := mul_nonneg hc.rho.le hc.vm
    have b := mul_nonneg hc.rho.le hc.vn
    have r1 := fluxOut_range dt dz c.rhod (-(c.rhod * vm c.rhod c.rr c.nr)) c.rr c.dotR hdt hz hc.rho.le hc.rr (by linarith) hc.rr'
    have r2 := fluxOut_range dt dz c.rhod (-(c.rhod * vn c.rhod c.rr c.nr)) c.nr c.dotN hdt hz hc.rho.le hc.nr (by linarith) hc.nr'
    simp only [colLoop]
    exact ⟨List.Forall₂.cons ⟨level_step dt _ _ _ _ _ hdt hc.rho hr r1.1, level_step dt _ _ _ _ _ hdt hc.rho hn r2.1⟩ List.Forall₂.nil,
      r1.2, r2.2⟩
  | cons b rest ih =>
    intro fr fn c hr hn h
    have hc := h c (by simp)
    have hb := h b (by simp)
    have a1 := mul_nonneg hc.rho.le hc.vm
    have b1 := mul_nonneg hc.rho.le hc.vn
    have a2 := mul_nonneg hb.rho.le hb.vm
    have b2 := mul_nonneg hb.rho.le hb.vn
    have r1 := fluxOut_range dt dz c.rhod (-0.5 * (b.rhod * vm b.rhod b.rr b.nr + c.rhod * vm c.rhod c.rr c.nr)) c.rr c.dotR hdt hz
      hc.rho.le hc.rr (by linarith) hc.rr'
    have r2 := fluxOut_range dt dz c.rhod (-0.5 * (b.rhod * vn b.rhod b.rr b.nr + c.rhod * vn c.rhod c.rr c.nr)) c.nr c.dotN hdt hz
      hc.rho.le hc.nr (by linarith) hc.nr'
    obtain ⟨i1, i2⟩ := ih _ _ b r1.2 r2.2 (fun l hl => h l (List.mem_cons_of_mem _ hl))
    simp only [colLoop]
    exact ⟨List.Forall₂.cons ⟨level_step dt _ _ _ _ _ hdt hc.rho hr r1.1, level_step dt _ _ _ _ _ hdt hc.rho hn r2.1⟩ i1, i2⟩

/-- **C39.** If what the other processes leave of rain mass and number is non-negative on every level, then so is what
sedimentation leaves, whatever the time step, and the surface flux never points upwards. -/
theorem column_nonneg (epsm dt dz : ℝ) (hdt : 0 < dt) (hz : 0 < dz) (o : Opts) (col : List Lev) (dots : List (ℝ × ℝ)) (flux : ℝ)
    (hl : ∀ l ∈ col, LevOK (v_term_m epsm) (v_term_n epsm) dt l) (h : column epsm o dt dz col = some (dots, flux)) :
    List.Forall₂ (fun l d => 0 ≤ l.rr + dt * d.1 ∧ 0 ≤ l.nr + dt * d.2) col dots ∧ flux ≤ 0 := by
  unfold column at h
  split at h
  · simp only [Option.some.injEq, Prod.mk.injEq] at h
    obtain ⟨h1, h2⟩ := h
    refine ⟨?_, h2.symm.le⟩
    rw [← h1, List.forall₂_map_right_iff]
    exact List.forall₂_same.2 fun l h => ⟨(hl l h).rr', (hl l h).nr'⟩
  · rcases col with _ | ⟨c, rest⟩
    · simp at h
    · simp only [Option.some.injEq, Prod.mk.injEq] at h
      obtain ⟨h1, h2⟩ := h
      have := colLoop_nonneg (v_term_m epsm) (v_term_n epsm) dt dz hdt hz rest 0 0 c le_rfl le_rfl hl
      rw [← h1, ← h2]
      exact ⟨this.1, this.2.1⟩

/-- **C39.** `sedi = false` changes nothing and returns zero. -/
theorem column_off (epsm dt dz : ℝ) (o : Opts) (hs : o.sedi = false) (col : List Lev) :
    column epsm o dt dz col = some (col.map fun l => (l.dotR, l.dotN), 0) := by
  simp [column, hs]

/-- a call succeeds on every non-empty column -/
theorem column_total (epsm dt dz : ℝ) (o : Opts) (col : List Lev) (h : col ≠ []) : (column epsm o dt dz col).isSome := by
  unfold column
  split
  · rfl
  · rcases col with _ | ⟨c, rest⟩
    · exact absurd rfl h
    · rfl

/-- every level's new tendency follows from the fluxes through its two faces: what leaves the upper level enters the lower one.
The surface flux of a column is that of its lowest level alone. -/
theorem colLoop_last (vm vn : ℝ → ℝ → ℝ → ℝ) (dt dz : ℝ) : ∀ (rest : List Lev) (fr fn : ℝ) (c : Lev),
    (colLoop vm vn dt dz fr fn c rest).2.1 =
      (fun l : Lev => fluxOut dt dz l.rhod (-(l.rhod * vm l.rhod l.rr l.nr)) l.rr l.dotR) ((c :: rest).getLast (by simp)) := by
  intro rest
  induction rest with
  | nil => intro fr fn c; simp [colLoop]
  | cons b rest ih => intro fr fn c; simp only [colLoop]; rw [ih]; simp

/-- **C39.** Surface flux: density times fall speed times mixing ratio of the lowest level per layer depth, but never more than
that level holds after the other processes. -/
theorem column_flux (epsm dt dz : ℝ) (o : Opts) (hs : o.sedi = true) (above : List Lev) (l : Lev) (dots : List (ℝ × ℝ)) (flux : ℝ)
    (h : column epsm o dt dz (above ++ [l]) = some (dots, flux)) :
    flux = -min (l.rhod * v_term_m epsm l.rhod l.rr l.nr * l.rr / dz) (l.rhod * (l.rr + dt * l.dotR) / dt) := by
  have key : ∀ (c : Lev) (rest : List Lev), (c :: rest) = above ++ [l] →
      (colLoop (v_term_m epsm) (v_term_n epsm) dt dz 0 0 c rest).2.1 =
      -min (l.rhod * v_term_m epsm l.rhod l.rr l.nr * l.rr / dz) (l.rhod * (l.rr + dt * l.dotR) / dt) := by
    intro c rest e
    rw [colLoop_last]
    have : (c :: rest).getLast (by simp) = l := by
      simp only [e]; simp
    simp only [this, fluxOut]
    congr 2
    ring
  unfold column at h
  rw [hs] at h
  simp only [Bool.true_eq_false, if_false] at h
  split at h
  · simp at h
  · rename_i c rest e
    simp only [Option.some.injEq, Prod.mk.injEq] at h
    rw [← h.2]
    exact key c rest e.symm

/-- a case that meets the hypotheses: no fall speed below the thresholds, so `LevOK` holds for a thin drizzle -/
example : ∀ l ∈ [(⟨1, 0, 0, 0, 0⟩ : Lev), ⟨1, 1e-9, 1, -1e-10, 0⟩], LevOK (v_term_m 1e-3) (v_term_n 1e-3) 1 l := by
  intro l hl
  simp at hl
  have v : ∀ r n : ℝ, n ≤ 1 → v_term_m 1e-3 1 r n = 0 ∧ v_term_n 1e-3 1 r n = 0 := by
    intro r n h
    have : n < nr_eps 1e-3 := by unfold nr_eps; linarith
    simp [v_term_m, v_term_n, this]
  rcases hl with rfl | rfl <;> constructor <;> simp only [(v _ 0 (by norm_num)).1, (v _ 0 (by norm_num)).2, (v _ 1 le_rfl).1,
    (v _ 1 le_rfl).2] <;> norm_num

/-- one level of rain falling at 5 m/s through 10 m of unit density during 1 s: half of it leaves -/
example : (colLoop (fun _ _ _ => 5) (fun _ _ _ => 5) 1 10 0 0 ⟨1, 2, 4, 0, 0⟩ []) = ([(-1, -2)], -1, -2) := by
  simp [colLoop, fluxOut]; norm_num

/-- during 10 s the limiter stops at the contents of the level -/
example : (colLoop (fun _ _ _ => 5) (fun _ _ _ => 5) 10 10 0 0 ⟨1, 2, 4, 0, 0⟩ []) = ([(-0.2, -0.4)], -0.2, -0.4) := by
  simp [colLoop, fluxOut]; norm_num

end LCP.Blk2m
