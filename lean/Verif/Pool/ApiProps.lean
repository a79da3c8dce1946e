import Verif.Pool.ApiAcc
import Verif.Pool.ApiWitness

/-!
# C87, C88: no history of API calls exhausts a pool or dereferences a released temporary array

C87: for every configuration accepted by init and every sequence of API calls, with any run-time options, loop counts, data and exceptions, each
acquisition of a temporary vector finds a free one.
C88: under the same quantification, no guard is dereferenced that holds no vector.

Both hold for the histories described by `Legal` (ApiSpec.lean) and fail outside; the failing histories are given below.
-/
namespace LCP.PoolApi

/-- nothing is held in a new object -/
theorem gam0 (f : Flags) : Gam (poolSize f) (ain f g0) (w0 f) := by
  refine ⟨fun p => Pool.fresh_inv _, fun p => by simp [w0, Pool.fresh], ?_, ?_⟩
  · intro p n hn; simp [w0, Pool.fresh] at hn
  · intro h hh; simp [ain, g0, bitIf] at hh

theorem ole_spec {sz : PoolId → ℕ} {n : Option A} {a b : A} {w : W} (h : ole n b = true) (hn : n = some a) (g : Gam sz a w) : Gam sz b w := by
  subst hn; exact gam_le h g

/-- all histories from a described state -/
theorem hist_ok {f : Flags} (hs : f.sane = true) (l : List Event) : ∀ {g : G} {w : W}, g.ok = true → Gam (poolSize f) (ain f g) w →
    IsHist f g l → Legal f g l → ∃ w', exec w (actions l) = .ok w' := by
  induction l with
  | nil => intro g w _ _ _ _; exact ⟨w, rfl⟩
  | cons e l ih =>
    intro g w hok hg hh hl
    obtain ⟨hr, hh'⟩ := hh
    obtain ⟨hsafe, hu, hl'⟩ := hl
    obtain ⟨a, n, t, ha, han, hn, ht⟩ := acc hs hok hsafe
    obtain ⟨w', he, h0, h1⟩ := an_sound hr han (gam_le ha hg)
    have hnext : Gam (poolSize f) (ain f (next f g e.call e.thrown)) w' := by
      cases hb : e.thrown with
      | false => obtain ⟨b, hb1, hb2⟩ := h0 hb; exact ole_spec hn hb1 hb2
      | true => obtain ⟨b, hb1, hb2⟩ := h1 hb; rw [hb] at hu; exact ole_spec (ht hu) hb1 hb2
    obtain ⟨w'', he'⟩ := ih (next_ok hok hsafe hu) hnext hh' hl'
    refine ⟨w'', ?_⟩
    show exec w (e.acts ++ actions l) = _
    rw [exec_append_ok he]; exact he'

/-- **C87** (partial): in every legal history of any length no acquisition finds its pool empty.  Missing: the histories excluded by `safe` and `usable`,
for which the claim is false (below) -/
theorem no_pool_exhausted_partial {f : Flags} (hs : f.sane = true) {l : List Event} (hh : IsHist f g0 l) (hl : Legal f g0 l) : ¬ Exhausts f l := by
  obtain ⟨w, hw⟩ := hist_ok hs l (by rfl) (gam0 f) hh hl
  unfold Exhausts; rw [hw]; simp

/-- **C88** (partial): in every legal history of any length no guard is dereferenced that holds no vector -/
theorem no_released_array_used_partial {f : Flags} (hs : f.sane = true) {l : List Event} (hh : IsHist f g0 l) (hl : Legal f g0 l) : ¬ DerefsNull f l := by
  obtain ⟨w, hw⟩ := hist_ok hs l (by rfl) (gam0 f) hh hl
  unfold DerefsNull; rw [hw]; simp

/-- the model's third outcome, a guard object constructed twice, does not occur either -/
theorem no_guard_constructed_twice {f : Flags} (hs : f.sane = true) {l : List Event} (hh : IsHist f g0 l) (hl : Legal f g0 l) :
    exec (w0 f) (actions l) ≠ .dup := by
  obtain ⟨w, hw⟩ := hist_ok hs l (by rfl) (gam0 f) hh hl
  rw [hw]; simp

/-! ### A usual run is legal: any number of steps, diagnostics after each -/

/-- init, then rounds of sync_in, step_cond, step_async, diag_all and a moment, all returning normally -/
def Usual : List Call → Prop := fun cs => ∃ n : ℕ,
  cs = .init :: (List.replicate n [Call.syncIn, .stepCond, .stepAsync, .select, .moment, .outbuf]).flatten

/-- options without per-particle substepping, with chemistry off or the scheme other than predictor-corrector, with droplets at the start -/
def plain (f : Flags) : Bool := f.sane && !f.exact && !f.predCorr && !f.incloud && !f.noCcn

theorem legal_round {f : Flags} (hp : plain f = true) (es : List Event) : ∀ (n : ℕ) (g : G), g.up = true → g.cond = false → g.async = false → g.ijk = true →
    es.map Event.call = (List.replicate n [Call.syncIn, .stepCond, .stepAsync, .select, .moment, .outbuf]).flatten →
    (∀ e ∈ es, e.thrown = false) → Legal f g es := by
  simp only [plain, Bool.and_eq_true, Bool.not_eq_true'] at hp
  obtain ⟨⟨⟨⟨_, h1⟩, h2⟩, h3⟩, h4⟩ := hp
  intro n
  induction n generalizing es with
  | zero => intro g _ _ _ _ he _; simp at he; subst he; trivial
  | succ n ih =>
    intro g hup hc ha hi he ht
    rw [List.replicate_succ, List.flatten_cons] at he
    match es, he, ht with
    | [], he, _ | [_], he, _ | [_, _], he, _ | [_, _, _], he, _ | [_, _, _, _], he, _ | [_, _, _, _, _], he, _ => simp at he
    | e1 :: e2 :: e3 :: e4 :: e5 :: e6 :: es, he, ht =>
      simp only [List.map_cons, List.cons_append, List.nil_append, List.cons.injEq] at he
      obtain ⟨c1, c2, c3, c4, c5, c6, he⟩ := he
      have t1 := ht e1 (by simp); have t2 := ht e2 (by simp); have t3 := ht e3 (by simp)
      have t4 := ht e4 (by simp); have t5 := ht e5 (by simp); have t6 := ht e6 (by simp)
      have ht' : ∀ e ∈ es, e.thrown = false := fun e he => ht e (by simp [he])
      simp only [Legal, c1, c2, c3, c4, c5, c6, t1, t2, t3, t4, t5, t6]
      obtain ⟨gu, gc, ga, gs, gn, gi⟩ := g
      simp only at hup hc ha hi
      subst hup; subst hc; subst ha; subst hi
      simp only [next, safe, usable, h1, h2, h3, if_true]
      refine ⟨trivial, by simp, by simp, by simp, by simp, by simp, by simp, by simp, by simp, by simp, by simp, by simp, ?_⟩
      exact ih es _ rfl rfl (by simp) (by simp) he ht'

/-- **C87/C88 instance**: without per-particle substepping and predictor-corrector advection, any number of time steps with diagnostics is fine, whatever
the other options, the data and the run-time options -/
theorem usual_run_fine {f : Flags} (hp : plain f = true) {l : List Event} (hh : IsHist f g0 l) (hu : Usual (l.map Event.call)) (ht : ∀ e ∈ l, e.thrown = false) :
    ¬ Exhausts f l ∧ ¬ DerefsNull f l := by
  have hs : f.sane = true := by simp only [plain, Bool.and_eq_true] at hp; exact hp.1.1.1.1
  have hl : Legal f g0 l := by
    obtain ⟨n, hn⟩ := hu
    match l, hn, ht with
    | e :: es, hn, ht =>
      simp only [List.map_cons, List.cons.injEq] at hn
      have t := ht e (by simp)
      have hcc : f.noCcn = false := by simp only [plain, Bool.and_eq_true, Bool.not_eq_true'] at hp; exact hp.2
      refine ⟨by rw [hn.1]; rfl, by rw [hn.1, t]; rfl, ?_⟩
      rw [hn.1, t]
      exact legal_round hp es n _ rfl rfl rfl (by simp [next, hcc]) hn.2 (fun e he => ht e (by simp [he]))
  exact ⟨no_pool_exhausted_partial hs hh hl, no_released_array_used_partial hs hh hl⟩

/-- two dimensions, no switches -/
def base : Flags :=
  { nDims := 2, allow := false, exact := false, adaptive := false, mix := true, ice := false, timeDep := false, chem := false, turbCond := false,
    distmem := false, predCorr := false, vtFast := false, incloud := false, noCcn := false, rlx := false, src := false, matching := false }

/-- non-vacuity: a history with two steps, condensation with substeps, coalescence and advection, in three dimensions with chemistry, meets the hypotheses
of `no_pool_exhausted_partial`; many guards are used -/
example : ∃ l, IsHist { base with nDims := 3, chem := true, allow := true, vtFast := true } g0 l ∧
    Legal { base with nDims := 3, chem := true, allow := true, vtFast := true } g0 l ∧ 60 < (actions l).length ∧
    l.map Event.call = [.init, .syncIn, .stepCond, .select, .moment, .stepAsync, .selectCmp, .precip, .syncIn, .stepCond] := by
  have hm : ∃ r, mk { base with nDims := 3, chem := true, allow := true, vtFast := true } g0
      [(.init, [false, true, true, false]), (.syncIn, [false, true, false]), (.stepCond, [false, true, true, true, true, false, true, true, true, true]),
       (.select, []), (.moment, []), (.stepAsync, [false, false, true, true, true, true, false, true, false, false, true]), (.selectCmp, []), (.precip, []),
       (.syncIn, []), (.stepCond, [false, true, false])] = some r ∧ 60 < (actions r).length ∧ (∀ e ∈ r, e.thrown = false) := by
    refine ⟨_, rfl, ?_, ?_⟩ <;> decide +kernel
  obtain ⟨r, h1, h2, h3⟩ := hm
  refine ⟨r, mk_hist _ _ _ _ h1, ?_, h2, by rw [calls_of h1]; rfl⟩
  have hc := calls_of h1
  match r, hc, h3 with
  | [e1, e2, e3, e4, e5, e6, e7, e8, e9, e10], hc, h3 =>
    simp only [List.map_cons, List.map_nil, List.cons.injEq] at hc
    obtain ⟨c1, c2, c3, c4, c5, c6, c7, c8, c9, c10, _⟩ := hc
    have t1 := h3 e1 (by simp); have t2 := h3 e2 (by simp); have t3 := h3 e3 (by simp); have t4 := h3 e4 (by simp); have t5 := h3 e5 (by simp)
    have t6 := h3 e6 (by simp); have t7 := h3 e7 (by simp); have t8 := h3 e8 (by simp); have t9 := h3 e9 (by simp); have t10 := h3 e10 (by simp)
    simp only [Legal, c1, c2, c3, c4, c5, c6, c7, c8, c9, c10, t1, t2, t3, t4, t5, t6, t7, t8, t9, t10]
    decide +kernel

/-- the same with per-particle substepping, ice and distributed memory are covered by `sane` -/
example : ({ base with exact := true, allow := true, adaptive := true, mix := false } : Flags).sane = true ∧
    ({ base with ice := true, timeDep := true, distmem := true } : Flags).sane = true ∧
    ({ base with nDims := 3, rlx := true, src := true, matching := true, turbCond := true } : Flags).sane = true := by decide

/-! ### C87 is false outside: histories that exhaust the pool of per-particle vectors -/

/-- chemistry with per-particle substepping, adaptive or not: the first step_cond -/
theorem exhausts_chem_exact :
    (∃ l, IsHist { base with allow := true, exact := true, adaptive := true, mix := false, chem := true } g0 l ∧
      l.map Event.call = [.init, .syncIn, .stepCond] ∧ Exhausts { base with allow := true, exact := true, adaptive := true, mix := false, chem := true } l) ∧
    (∃ l, IsHist { base with allow := true, exact := true, chem := true } g0 l ∧
      l.map Event.call = [.init, .syncIn, .stepCond] ∧ Exhausts { base with allow := true, exact := true, chem := true } l) :=
  ⟨exhausts_witness _ [(.init, []), (.syncIn, []), (.stepCond, [false, true])] (by decide +kernel),
   exhausts_witness _ [(.init, []), (.syncIn, []), (.stepCond, [false, true])] (by decide +kernel)⟩

/-- per-particle substepping with mixing: a diagnostic between sync_in and step_cond -/
theorem exhausts_diag_before_cond : ∃ l, IsHist { base with allow := true, exact := true } g0 l ∧
    l.map Event.call = [.init, .syncIn, .select, .stepCond] ∧ Exhausts { base with allow := true, exact := true } l :=
  exhausts_witness _ [(.init, []), (.syncIn, []), (.select, []), (.stepCond, [false, true])] (by decide +kernel)

/-- predictor-corrector advection in two dimensions, and with chemistry in three: the first step_async that advects -/
theorem exhausts_pred_corr :
    (∃ l, IsHist { base with predCorr := true } g0 l ∧ l.map Event.call = [.init, .syncIn, .stepCond, .stepAsync] ∧ Exhausts { base with predCorr := true } l) ∧
    (∃ l, IsHist { base with nDims := 3, predCorr := true, chem := true } g0 l ∧ l.map Event.call = [.init, .syncIn, .stepCond, .stepAsync] ∧
      Exhausts { base with nDims := 3, predCorr := true, chem := true } l) :=
  ⟨exhausts_witness _ [(.init, []), (.syncIn, []), (.stepCond, []), (.stepAsync, [false, false, false, false, false, false, true, true])] (by decide +kernel),
   exhausts_witness _ [(.init, []), (.syncIn, []), (.stepCond, []), (.stepAsync, [false, false, false, false, false, false, true, true])] (by decide +kernel)⟩

/-- a parcel (no dimensions): diag_rw_ge_rc; diag_precip_rate; in-cloud time after a diagnostic -/
theorem exhausts_parcel :
    (∃ l, IsHist { base with nDims := 0 } g0 l ∧ l.map Event.call = [.init, .selectCmp] ∧ Exhausts { base with nDims := 0 } l) ∧
    (∃ l, IsHist { base with nDims := 0 } g0 l ∧ l.map Event.call = [.init, .select, .precip] ∧ Exhausts { base with nDims := 0 } l) ∧
    (∃ l, IsHist { base with nDims := 0, incloud := true } g0 l ∧ l.map Event.call = [.init, .syncIn, .select, .stepCond] ∧
      Exhausts { base with nDims := 0, incloud := true } l) :=
  ⟨exhausts_witness _ [(.init, []), (.selectCmp, [])] (by decide +kernel),
   exhausts_witness _ [(.init, []), (.select, []), (.precip, [])] (by decide +kernel),
   exhausts_witness _ [(.init, []), (.syncIn, []), (.select, []), (.stepCond, [])] (by decide +kernel)⟩

/-! ### C88 is false outside: histories that dereference a guard holding no vector -/

/-- no droplets at the start: the first step_async that advects reads the cell indices -/
theorem derefs_no_ccn : ∃ l, IsHist { base with noCcn := true } g0 l ∧ l.map Event.call = [.init, .syncIn, .stepCond, .stepAsync] ∧
    DerefsNull { base with noCcn := true } l :=
  derefs_witness _ [(.init, []), (.syncIn, []), (.stepCond, []), (.stepAsync, [false, false, false, false, false, false, true])] (by decide +kernel)

/-- a moment asked for after sync_in, the selection having been made before -/
theorem derefs_moment_after_sync : ∃ l, IsHist base g0 l ∧ l.map Event.call = [.init, .select, .syncIn, .moment] ∧ DerefsNull base l :=
  derefs_witness _ [(.init, []), (.select, []), (.syncIn, []), (.moment, [])] (by decide +kernel)

/-- distributed memory: step_async throws while unpacking (too many droplets); the next step_async that advects -/
theorem derefs_after_unpack_throw : ∃ l, IsHist { base with distmem := true } g0 l ∧
    l.map Event.call = [.init, .syncIn, .stepCond, .stepAsync, .syncIn, .stepCond, .stepAsync] ∧ DerefsNull { base with distmem := true } l :=
  derefs_witness _ [(.init, []), (.syncIn, []), (.stepCond, []),
    (.stepAsync, [false, false, false, false, false, false, false, false, false, false, false, false, false, true, true]),
    (.syncIn, []), (.stepCond, []), (.stepAsync, [false, false, false, false, false, false, true])] (by decide +kernel)

/-- the configurations above pass the checks of init -/
example : ({ base with allow := true, exact := true, adaptive := true, mix := false, chem := true } : Flags).sane = true ∧
    ({ base with allow := true, exact := true, chem := true } : Flags).sane = true ∧ ({ base with allow := true, exact := true } : Flags).sane = true ∧
    ({ base with predCorr := true } : Flags).sane = true ∧ ({ base with nDims := 3, predCorr := true, chem := true } : Flags).sane = true ∧
    ({ base with nDims := 0, incloud := true } : Flags).sane = true ∧ ({ base with noCcn := true } : Flags).sane = true ∧
    ({ base with distmem := true } : Flags).sane = true := by decide

end LCP.PoolApi
