import Verif.Adve.Transport

/-!
# C45 (complete step) and C56 (what moves a super-droplet)
-/
namespace LCP.Adve
open LCP.Grid

/-! ### Histories -/

/-- one call pair: `sync_in` with or without Courant numbers, then the transport of any super-droplet (which resets the scheme) -/
inductive Hist (init : Scheme) (hs : ℕ) (d : Dims) (C0 : Courants) : TrSt → Prop
  | start : Hist init hs d C0 ⟨init, C0⟩
  /-- `sync_in`, possibly several times in a row -/
  | sync {st} (arg) : Hist init hs d C0 st → Hist init hs d C0 (syncTr init hs d st arg)
  /-- the end of `step_async` -/
  | step {st} : Hist init hs d C0 st → Hist init hs d C0 { st with scheme := init }

theorem syncTr_scheme (init : Scheme) (hs : ℕ) (d : Dims) (st : TrSt) (arg : Option Courants) :
    (syncTr init hs d st arg).scheme = st.scheme ∨ (init = .predCorr ∧ (syncTr init hs d st arg).scheme = .euler) := by
  unfold syncTr
  dsimp only
  by_cases hi : init = .predCorr
  · split_ifs <;> simp [hi]
  · rw [if_neg (by simp [hi]), if_neg (by simp [hi])]; simp

theorem hist_scheme {init : Scheme} {hs : ℕ} {d : Dims} {C0 : Courants} {st : TrSt} (h : Hist init hs d C0 st) :
    st.scheme = init ∨ (init = .predCorr ∧ st.scheme = .euler) := by
  induction h with
  | start => exact Or.inl rfl
  | step _ _ => exact Or.inl rfl
  | sync arg _ ih =>
    rcases syncTr_scheme init hs d _ arg with h | h
    · rw [h]; exact ih
    · exact Or.inr h

/-- **C45** if the Courant numbers are passed to `sync_in`, predictor-corrector is only used in the step that follows if all stored x Courant numbers are
within [-2,2]; other schemes are never replaced -/
theorem fallback {init : Scheme} {hs : ℕ} {d : Dims} {C0 C : Courants} {st : TrSt} (h : Hist init hs d C0 st) :
    (syncTr init hs d st (some C)).C = C ∧
    ((syncTr init hs d st (some C)).scheme = .predCorr → ∀ f < sizeX d hs, -2 ≤ C.cx f ∧ C.cx f ≤ 2) ∧
    (init ≠ .predCorr → (syncTr init hs d st (some C)).scheme = init) := by
  refine ⟨rfl, ?_, ?_⟩
  · intro he f hf
    have hi : init = .predCorr := by
      rcases hist_scheme (h.sync (some C)) with h1 | h1
      · rw [← h1, he]
      · exact h1.1
    unfold syncTr at he
    simp only [Option.getD_some, hi, ne_eq, not_true_eq_false, reduceCtorEq, false_or] at he
    split_ifs at he with h1 h2
    exact ⟨h2 f hf, h1 f hf⟩
  · intro hi
    rcases hist_scheme (h.sync (some C)) with h1 | h1
    · exact h1
    · exact absurd h1.1 hi

/-- boundaries of the domain as required by the predictor-corrector scheme, and y Courant numbers that do not move further than the width of the domain -/
structure DomOk (d : Dims) (b : Box) (C : Courants) : Prop where
  z0 : 0 ≤ b.z0
  z1 : b.z1 ≤ d.nz * b.dz
  zz : b.z0 + 2 * (1 / 10 ^ 8 * b.dz) < b.z1
  y : d.ny ≠ 0 → 0 ≤ b.y0 ∧ b.y1 ≤ d.ny * b.dy ∧ b.y0 < b.y1 ∧ ∀ f < sizeY d 2, |C.cy f| * b.dy ≤ b.y1 - b.y0

/-- **C45** In every step for which Courant numbers were passed to `sync_in`, after any history, whatever scheme was configured and
whatever values: advection succeeds for every super-droplet in the grid and its result does not depend on anything beyond the
end of the arrays (`C'` is any other content of memory agreeing on the stored faces).

Missing from the full claim: steps without new Courant numbers, see `stale_courants`. -/
theorem adve_step_stored_partial {init : Scheme} {hs : ℕ} (hhs : init = .predCorr → hs = 2) {d : Dims} {b : Box} (g : GridOk d b) {C0 : Courants} {st : TrSt}
    (h : Hist init hs d C0 st) (C C' : Courants) (hd : DomOk d b C) {p : Pos} (hp : InGrid d b d.nx p) (hy : d.ny ≠ 0 → b.y0 ≤ p.y ∧ p.y < b.y1)
    (hx : ∀ f < sizeX d hs, C.cx f = C'.cx f) (hyy : ∀ f < sizeY d hs, C.cy f = C'.cy f) (hz : ∀ f < sizeZ d hs, C.cz f = C'.cz f) :
    let s := (syncTr init hs d st (some C)).scheme
    adve s hs d b C p = adve s hs d b C' p ∧ (adve s hs d b C p).isSome := by
  intro s
  have key : s = .predCorr → init = .predCorr := by
    intro he
    rcases hist_scheme (h.sync (some C)) with h1 | h1
    · rw [← h1]; exact he
    · exact h1.1
  have hfb := (fallback (C := C) h).2.1
  apply adve_reads_stored g C C' s hs (fun he => hhs (key he)) _ _ hp hy hx hyy hz
  · intro he
    obtain rfl := hhs (key he)
    exact ⟨hfb he, hd.z0, hd.z1, hd.zz, hd.y⟩
  · intro he
    obtain rfl := hhs (key he)
    refine ⟨fun f hf => by rw [← hx f hf]; exact hfb he f hf, hd.z0, hd.z1, hd.zz, fun hh => ?_⟩
    obtain ⟨a1, a2, a3, a4⟩ := hd.y hh
    exact ⟨a1, a2, a3, fun f hf => by rw [← hyy f hf]; exact a4 f hf⟩

/-! ### Steps without new Courant numbers -/

/-- a 2D grid of one cell (with two-column halo: six stored columns of x faces), unit cell -/
def exDm : Dims := ⟨1, 0, 1⟩
def exBx : Box := ⟨1, 1, 1, 0, 1, 0, 1, 0, 1⟩
/-- x Courant numbers 5 at the six stored faces, `v` in memory behind the array -/
noncomputable def exC (v : ℝ) : Courants := ⟨fun f => if f < 6 then 5 else v, fun _ => 0, fun _ => 0⟩

theorem exCast (x : ℝ) (n : ℕ) (h0 : (n : ℝ) ≤ x) (h1 : x < n + 1) (hn : n < 100) : divideByConstantAndCast 1 x = some n := by
  obtain ⟨i, e, _, _, _, hu⟩ := cast_spec (n := 100) (c := 1) (x := x) one_pos (le_trans (Nat.cast_nonneg n) h0)
    (by have : (n : ℝ) + 1 ≤ 100 := by exact_mod_cast hn
        push_cast; linarith) (by norm_num)
  rw [hu n (by linarith) (by linarith)]; exact e

theorem exCell (x z : ℝ) (n : ℕ) (h0 : (n : ℝ) ≤ x) (h1 : x < n + 1) (hn : n < 100) (hz : 0 ≤ z) (hz1 : z < 1) (y : ℝ) :
    cellOf exDm exBx ⟨x, y, z⟩ = some (n, 0, 0, n) := by
  have e1 := exCast x n h0 h1 hn
  have e2 := exCast z 0 (by simpa using hz) (by simpa using hz1) (by norm_num)
  simp only [cellOf, exDm, exBx, ne_eq, one_ne_zero, not_false_eq_true, not_true_eq_false, if_true, if_false, e1, e2]
  have hd : (⟨1, 0, 1⟩ : Dims).nDims = 2 := rfl
  simp [ravel, hd]

theorem exAdve (v : ℝ) : adve .predCorr 2 exDm exBx (exC v) ⟨1 / 2, 0, 1 / 2⟩ = some ⟨1 / 2 + (5 + v) / 2, 0, 1 / 2⟩ := by
  have hd : exDm.nDims = 2 := rfl
  have hnz : exDm.nz = 1 := rfl
  have c0 := exCell (5 / 2) (1 / 2) 2 (by norm_num) (by norm_num) (by norm_num) (by norm_num) (by norm_num) 0
  have c1 := exCell (15 / 2) (1 / 2) 7 (by norm_num) (by norm_num) (by norm_num) (by norm_num) (by norm_num) 0
  have hz : clampZ exBx (1 / 2) = 1 / 2 := clampZ_id (by simp [exBx]) (by simp [exBx]; norm_num)
  have hp0 : ((1 : ℝ) / 2 + ((2 : ℕ) : ℝ) * exBx.dx) = 5 / 2 := by simp [exBx]; norm_num
  have hpred : adveCalc (helperExpl true) 0 exDm exBx (exC v) (2, 0, 0, 2) ⟨5 / 2, 0, 1 / 2⟩ = ⟨15 / 2, 0, 1 / 2⟩ := by
    simp [adveCalc, hd, hnz, helperExpl, lft, rgt, exC, exBx]; norm_num
  have hcorr : adveCalc (helperExpl false) 0 exDm exBx (exC v) (7, 0, 0, 7) ⟨15 / 2, 0, 1 / 2⟩ = ⟨v, 0, 0⟩ := by
    simp [adveCalc, hd, hnz, helperExpl, lft, rgt, exC, exBx]
  unfold adve
  simp only [hd, OfNat.ofNat_ne_zero, if_false, hp0, c0, Option.bind_eq_bind, Option.bind_some, hpred, hz,
    show (2 : ℕ) > 1 by norm_num, if_true, show ¬ ((2 : ℕ) = 3) by norm_num, show ¬ ((2 : ℕ) > 2) by norm_num, c1, hcorr]
  simp only [pure, Option.some.injEq, Pos.mk.injEq, true_and]
  constructor
  · simp [exBx]; ring
  · norm_num

/-- **C45** (negation; what `adve_step_stored_partial` leaves out)  If Courant numbers beyond 2 are passed in one step and none in the next (they are then
reused), the first step falls back to the Euler scheme but the second one uses predictor-corrector: the predicted point is
beyond the halo, and the result of advection depends on memory behind the array of x Courant numbers. -/
theorem stale_courants : ∃ (st : TrSt), Hist .predCorr 2 exDm (exC 0) st ∧
    (syncTr .predCorr 2 exDm st (some (exC 0))).scheme = .euler ∧
    let st2 := syncTr .predCorr 2 exDm { syncTr .predCorr 2 exDm st (some (exC 0)) with scheme := .predCorr } none
    Hist .predCorr 2 exDm (exC 0) st2 ∧ GridOk exDm exBx ∧ InGrid exDm exBx 1 ⟨1 / 2, 0, 1 / 2⟩ ∧ st2.scheme = .predCorr ∧ st2.C = exC 0 ∧
    (∀ f < sizeX exDm 2, (exC 1).cx f = (exC 0).cx f) ∧
    adve st2.scheme 2 exDm exBx (exC 1) ⟨1 / 2, 0, 1 / 2⟩ ≠ adve st2.scheme 2 exDm exBx (exC 0) ⟨1 / 2, 0, 1 / 2⟩ := by
  refine ⟨⟨.predCorr, exC 0⟩, .start, ?_, ?_⟩
  · have hn : ¬ ∀ f < sizeX exDm 2, (exC 0).cx f ≤ 2 := by
      intro h
      have := h 0 (by simp [sizeX, exDm])
      norm_num [exC] at this
    simp only [syncTr, Option.getD_some]
    rw [if_pos (by simp only [ne_eq, not_true_eq_false, reduceCtorEq, false_or]; exact hn)]
  · have hsch : (syncTr .predCorr 2 exDm { syncTr .predCorr 2 exDm ⟨.predCorr, exC 0⟩ (some (exC 0)) with scheme := .predCorr } none).scheme = .predCorr := by
      simp [syncTr]
    refine ⟨.sync none (.step (.sync (some (exC 0)) .start)), ?_, ?_, hsch, rfl, ?_, ?_⟩
    · exact ⟨by norm_num [exDm], by norm_num [exDm], by norm_num [exDm], by norm_num [exDm], by norm_num [exBx], by norm_num [exDm], by norm_num [exBx]⟩
    · norm_num [InGrid, exDm, exBx]
    · intro f hf
      have : f < 6 := by simpa [sizeX, exDm] using hf
      simp [exC, this]
    · rw [hsch, exAdve, exAdve]
      intro h
      simp only [Option.some.injEq, Pos.mk.injEq] at h
      norm_num at h

/-- hypotheses of `adve_step_stored_partial` are met with Courant numbers beyond 2, after a step with smaller ones -/
example : ∃ st, Hist .predCorr 2 exDm (exC 0) st ∧ DomOk exDm exBx (exC 0) ∧ (syncTr .predCorr 2 exDm st (some (exC 0))).scheme = .euler := by
  obtain ⟨st, h, e, _⟩ := stale_courants
  exact ⟨st, h, ⟨by norm_num [exBx], by norm_num [exBx, exDm], by norm_num [exBx], by norm_num [exDm]⟩, e⟩

/-! ### C56 -/

/-- the level index kept after advection is that of the departure point, except for the predictor-corrector scheme -/
theorem kAfter_level {d : Dims} {b : Box} (g : GridOk d b) (C : Courants) (s : Scheme) (hs : ℕ) (hn : s ≠ .predCorr) {p : Pos} (hp : InGrid d b d.nx p) :
    ∃ k, kAfter s hs d b C p = some k ∧ k < d.nz ∧ k * b.dz ≤ p.z ∧ p.z < (k + 1) * b.dz := by
  obtain ⟨i, j, k, hc, e⟩ := cellOf_spec g (by omega) hp
  refine ⟨k, ?_, hc.2.2.1, hc.2.2.2.2.2⟩
  cases s with
  | predCorr => exact absurd rfl hn
  | euler => simp [kAfter, e]
  | implicit => simp [kAfter, e]

/-- **C56** In a two- or three-dimensional run the transport part of a step succeeds and moves a super-droplet by the sum of the displacements
of the processes switched on in this step and by nothing else: the displacement of advection (`a - p`), the turbulent velocity times the time step, and
downwards the terminal velocity and the subsidence velocity of its level times the time step.  (Euler and implicit
schemes; for predictor-corrector see `transport_predCorr`.)  The advection scheme for the next step is the configured one. -/
theorem transport_spec {init : Scheme} {hs : ℕ} {d : Dims} {b : Box} (g : GridOk d b) (o : TrOpts) (dt vt : ℝ) (u : Pos) (wLS : ℕ → ℝ) (st : TrSt)
    (hn : o.adve = true → st.scheme ≠ .predCorr) {p : Pos} (hp : InGrid d b d.nx p) :
    ∃ a k q, (if o.adve then adve st.scheme hs d b st.C p = some a else a = p) ∧ k < d.nz ∧ k * b.dz ≤ p.z ∧ p.z < (k + 1) * b.dz ∧
      transport init hs d b o dt vt u wLS st p = some (⟨init, st.C⟩, q) ∧
      q.x = a.x + (if o.turbAdve then dt * u.x else 0) ∧
      q.y = a.y + (if o.turbAdve ∧ d.ny ≠ 0 then dt * u.y else 0) ∧
      q.z = a.z + (if o.turbAdve then dt * u.z else 0) - (if o.sedi then dt * vt else 0) - (if o.subs then dt * wLS k else 0) := by
  obtain ⟨n0, n1, n2, _⟩ := nDims_of g.lay
  have n0' : d.nDims > 0 := by omega
  obtain ⟨a, k, ha, hk0, hk⟩ : ∃ a k, ((if o.adve then adve st.scheme hs d b st.C p else some p) = some a) ∧
      ((if o.adve then kAfter st.scheme hs d b st.C p else (cellOf d b p).map fun c => c.2.2.1) = some k) ∧
      k < d.nz ∧ k * b.dz ≤ p.z ∧ p.z < (k + 1) * b.dz := by
    obtain ⟨i, j, k, hc, e⟩ := cellOf_spec g (by omega) hp
    by_cases hA : o.adve = true
    · obtain ⟨k, hk1, hk2⟩ := kAfter_level g st.C st.scheme hs (hn hA) hp
      have hsome : (adve st.scheme hs d b st.C p).isSome := by
        unfold adve
        rw [if_neg n0]
        cases hs : st.scheme with
        | predCorr => exact absurd hs (hn hA)
        | euler => simp [e]
        | implicit => simp [e]
      obtain ⟨a, ha⟩ := Option.isSome_iff_exists.1 hsome
      exact ⟨a, k, by simp [hA, ha], by simp [hA, hk1], hk2⟩
    · exact ⟨p, k, by simp [hA], by simp [hA, e], hc.2.2.1, hc.2.2.2.2.2⟩
  refine ⟨a, k, (if o.subs then subs dt wLS k (if o.sedi then sedi dt vt (if o.turbAdve then turbAdve d dt u a else a) else (if o.turbAdve then turbAdve d dt u a else a)) else (if o.sedi then sedi dt vt (if o.turbAdve then turbAdve d dt u a else a) else (if o.turbAdve then turbAdve d dt u a else a))), ?_, hk.1, hk.2.1, hk.2.2, ?_, ?_⟩
  · by_cases hA : o.adve = true
    · simpa [hA] using ha
    · simpa [hA, eq_comm] using ha
  · unfold transport
    rw [ha, hk0]
    rfl
  · refine ⟨?_, ?_, ?_⟩ <;> cases o.turbAdve <;> cases o.sedi <;> cases o.subs <;> by_cases hy : d.ny = 0 <;>
      simp [turbAdve, sedi, subs, n0', n1, n2, hy] <;> ring

/-- **C56** With the predictor-corrector scheme the same holds, with the subsidence velocity of the level of the predicted point (`k1` of
`predCorr_step`), which is a level of the grid but may differ from the departure level. -/
theorem transport_predCorr {init : Scheme} {d : Dims} {b : Box} (g : GridOk d b) (o : TrOpts) (hA : o.adve = true) (dt vt : ℝ) (u : Pos) (wLS : ℕ → ℝ)
    (st : TrSt) (hs : st.scheme = .predCorr) (pc : PcOk d b st.C) {p : Pos} (hp : InGrid d b d.nx p) (hy : d.ny ≠ 0 → b.y0 ≤ p.y ∧ p.y < b.y1) :
    ∃ a k q, adve .predCorr 2 d b st.C p = some a ∧ k < d.nz ∧
      transport init 2 d b o dt vt u wLS st p = some (⟨init, st.C⟩, q) ∧
      q.x = a.x + (if o.turbAdve then dt * u.x else 0) ∧
      q.y = a.y + (if o.turbAdve ∧ d.ny ≠ 0 then dt * u.y else 0) ∧
      q.z = a.z + (if o.turbAdve then dt * u.z else 0) - (if o.sedi then dt * vt else 0) - (if o.subs then dt * wLS k else 0) := by
  obtain ⟨n0, n1, n2, _⟩ := nDims_of g.lay
  have n0' : d.nDims > 0 := by omega
  obtain ⟨i, j, k, i1, j1, k1, p0, p1, v0, v1, e0, c0, ev0, e1, c1, ev1, e⟩ := predCorr_step g st.C pc hp hy
  obtain ⟨k', hk, hk'⟩ : ∃ k, kAfter .predCorr 2 d b st.C p = some k ∧ k < d.nz := by
    refine ⟨k1, ?_, c1.2.2.1⟩
    have uq : ∀ q i j k, Contains d b (d.nx + 4) q i j k → InGrid d b (d.nx + 4) q → cellOf d b q = some (i, j, k, faceX d i j k) := by
      intro q i j k hc hq
      obtain ⟨i', j', k', hc', e'⟩ := cellOf_spec g le_rfl hq
      have lem : ∀ {t x : ℝ} {m n : ℕ}, 0 < t → (m : ℝ) * t ≤ x → x < (m + 1) * t → (n : ℝ) * t ≤ x → x < (n + 1) * t → m = n := by
        intro t x m n ht h1 h2 h3 h4
        have a : (m : ℝ) < n + 1 := (mul_lt_mul_iff_of_pos_right ht).1 (lt_of_le_of_lt h1 h4)
        have c : (n : ℝ) < m + 1 := (mul_lt_mul_iff_of_pos_right ht).1 (lt_of_le_of_lt h3 h2)
        have a' : m < n + 1 := by exact_mod_cast a
        have c' : n < m + 1 := by exact_mod_cast c
        omega
      have h1 := lem g.dx hc.2.2.2.1.1 hc.2.2.2.1.2 hc'.2.2.2.1.1 hc'.2.2.2.1.2
      have h3 := lem g.dz hc.2.2.2.2.2.1 hc.2.2.2.2.2.2 hc'.2.2.2.2.2.1 hc'.2.2.2.2.2.2
      have h2 : j = j' := by
        by_cases hh : d.ny ≠ 0
        · exact lem (g.dy hh) (hc.2.2.2.2.1 hh).1 (hc.2.2.2.2.1 hh).2 (hc'.2.2.2.2.1 hh).1 (hc'.2.2.2.2.1 hh).2
        · have := hc.2.1; have := hc'.2.1; omega
      rw [e', h1, h2, h3]
    have toGrid : ∀ q i j k, Contains d b (d.nx + 4) q i j k → InGrid d b (d.nx + 4) q := by
      intro q i j k ⟨a1, a2, a3, a4, a5, a6⟩
      have mul : ∀ {m n : ℕ} {t : ℝ}, 0 < t → m < n → ((m : ℝ) + 1) * t ≤ n * t := by
        intro m n t ht h
        apply mul_le_mul_of_nonneg_right _ ht.le
        exact_mod_cast h
      refine ⟨le_trans (by have := g.dx; positivity) a4.1, lt_of_lt_of_le a4.2 (mul g.dx a1), fun hh => ?_,
        le_trans (by have := g.dz; positivity) a6.1, lt_of_lt_of_le a6.2 (mul g.dz a3)⟩
      exact ⟨le_trans (by have := g.dy hh; positivity) (a5 hh).1, lt_of_lt_of_le (a5 hh).2 (mul (g.dy hh) (by omega))⟩
    have hq0 := uq _ _ _ _ c0 (toGrid _ _ _ _ c0)
    have hq1 := uq _ _ _ _ c1 (toGrid _ _ _ _ c1)
    have hpred : adveCalc (helperExpl true) 0 d b st.C (i, j, k, faceX d i j k) p0 = ⟨p0.x + b.dx * v0.x, p0.y + b.dy * v0.y, p0.z + b.dz * v0.z⟩ := by
      have := vel_expl g 0 st.C p0 (i := i) c0.2.1 c0.2.2.1
      simpa [haloX, ev0] using this
    have c2 : ((2 : ℕ) : ℝ) = 2 := by norm_num
    unfold kAfter
    dsimp only
    rw [c2, ← e0, hq0]
    simp only [Option.bind_eq_bind, Option.bind_some, hpred, n1, if_true]
    obtain ⟨_, _, _, n3⟩ := nDims_of g.lay
    by_cases hh : d.ny ≠ 0
    · rw [if_pos hh] at e1
      rw [if_pos (n3.2 hh)]
      rw [← e1, hq1]; rfl
    · rw [if_neg hh] at e1
      have hv : v0.y = 0 := by rw [ev0]; unfold vel; dsimp only; rw [if_neg hh]
      rw [if_neg (by rw [n3]; exact hh), hv, mul_zero, add_zero, ← e1, hq1]; rfl
  obtain ⟨a, ha⟩ : ∃ a, a = (⟨p.x + b.dx * ((v0.x + v1.x) / 2), p.y + b.dy * ((v0.y + v1.y) / 2), (p.z + p1.z + b.dz * v1.z) / 2⟩ : Pos) := ⟨_, rfl⟩
  rw [← ha] at e
  refine ⟨a, k', (if o.subs then subs dt wLS k' (if o.sedi then sedi dt vt (if o.turbAdve then turbAdve d dt u a else a) else (if o.turbAdve then turbAdve d dt u a else a)) else (if o.sedi then sedi dt vt (if o.turbAdve then turbAdve d dt u a else a) else (if o.turbAdve then turbAdve d dt u a else a))), e, hk', ?_, ?_⟩
  · unfold transport
    rw [hA, hs, if_pos rfl, if_pos rfl, e, hk]
    rfl
  · refine ⟨?_, ?_, ?_⟩ <;> cases o.turbAdve <;> cases o.sedi <;> cases o.subs <;> by_cases hy : d.ny = 0 <;>
      simp [turbAdve, sedi, subs, n0', n1, n2, hy] <;> ring

/-- **C56** of two super-droplets at the same place with the same turbulent velocity the one with the larger terminal velocity ends up lower by exactly the difference
times the time step when sedimentation is on, at the same place otherwise -/
theorem faster_falls_lower {init : Scheme} {hs : ℕ} {d : Dims} {b : Box} (o : TrOpts) (dt vt vt' : ℝ) (u : Pos) (wLS : ℕ → ℝ) (st : TrSt)
    (p : Pos) (s s' : TrSt) (q q' : Pos) (h : transport init hs d b o dt vt u wLS st p = some (s, q))
    (h' : transport init hs d b o dt vt' u wLS st p = some (s', q')) :
    q'.x = q.x ∧ q'.y = q.y ∧ q.z - q'.z = (if o.sedi then dt * (vt' - vt) else 0) := by
  unfold transport at h h'
  cases h1 : (if o.adve then adve st.scheme hs d b st.C p else some p) with
  | none => rw [h1] at h; simp at h
  | some a =>
    rw [h1] at h h'
    cases h2 : (if o.adve then kAfter st.scheme hs d b st.C p else (cellOf d b p).map fun c => c.2.2.1) with
    | none => rw [h2] at h; simp at h
    | some k =>
      rw [h2] at h h'
      simp only [Option.bind_eq_bind, Option.bind_some, pure, Option.some.injEq, Prod.mk.injEq] at h h'
      obtain ⟨_, rfl⟩ := h
      obtain ⟨_, rfl⟩ := h'
      refine ⟨?_, ?_, ?_⟩ <;> cases o.turbAdve <;> cases o.sedi <;> cases o.subs <;> simp [sedi, subs] <;> ring

/-- a case with everything switched on: a drop falling at 5 m/s in a 2D grid, subsidence 0.1 m/s -/
example : GridOk ⟨4, 0, 4⟩ ⟨10, 1, 10, 0, 40, 0, 1, 0, 40⟩ ∧ InGrid ⟨4, 0, 4⟩ ⟨10, 1, 10, 0, 40, 0, 1, 0, 40⟩ 4 ⟨15, 0, 25⟩ ∧
    ((⟨true, true, true, true⟩ : TrOpts).adve = true → (⟨.implicit, exC 0⟩ : TrSt).scheme ≠ .predCorr) :=
  ⟨⟨by norm_num, by norm_num, by norm_num, by norm_num, by norm_num, by norm_num, by norm_num⟩, by norm_num [InGrid], by simp⟩

end LCP.Adve
