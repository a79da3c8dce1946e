import Verif.Hskpng.SortFlag
import Mathlib.Data.Real.Basic
import Mathlib.Algebra.BigOperators.Group.Finset.Basic
import Mathlib.Tactic.Linarith
import Mathlib.Tactic.Ring

/-! # Every statistic is taken over an up-to-date list -/
namespace LCP.SortFlag

/-! ## Specification -/

/-- the two lists are up to date: every super-droplet appears exactly once, beside its own cell, in order of cells -/
structure UpToDate (s : St) : Prop where
  once : s.sid.Perm (List.range s.ijk.length)
  own : s.sijk = s.sid.map fun i => s.ijk.getD i 0
  order : s.sijk.Pairwise (· ≤ ·)

/-- what `reduce_by_key` over the lists gives for an attribute `w` (moms_calc.ipp, hskpng_count.ipp, diag_sd_conc, ...) -/
noncomputable def statistic (s : St) (w : ℕ → ℝ) : List (ℕ × ℝ) := reduceByKey (s.sijk.zip (s.sid.map w))

/-- total of the attribute over super-droplets whose cell is `c` -/
noncomputable def total (s : St) (w : ℕ → ℝ) (c : ℕ) : ℝ :=
  ∑ i ∈ (Finset.range s.ijk.length).filter (fun i => s.ijk.getD i 0 = c), w i

/-- steps in which both the source works (creates super-droplets, or matches) and relaxation runs use predictor-corrector
advection -/
def NoClash (l : List Api) : Prop :=
  ∀ o m k, Api.async o ∈ l → o.src = some (m, k) → (m = true ∨ 0 < k) → o.rlx = true → o.adve = true ∧ o.predCorr = true

/-! ## Up-to-date lists give right statistics -/

theorem sumAt_zip (ks is : List ℕ) (w : ℕ → ℝ) (key : ℕ → ℕ) (h : ks = is.map key) (c : ℕ) :
    sumAt c (ks.zip (is.map w)) = ((is.filter fun i => key i = c).map w).sum := by
  subst h
  induction is with
  | nil => simp [sumAt]
  | cons a l ih =>
    simp only [List.map_cons, List.zip_cons_cons, sumAt_cons, ih]
    by_cases hc : key a = c <;> simp [hc]

/-- over up-to-date lists, a statistic of a cell is the total over super-droplets of the cell; cells are listed at most once,
in order, and are exactly those that have super-droplets -/
theorem upToDate_statistic {s : St} (h : UpToDate s) (w : ℕ → ℝ) :
    (∀ c, sumAt c (statistic s w) = total s w c) ∧ ((statistic s w).map Prod.fst).Pairwise (· < ·) ∧
    (∀ c, c ∈ (statistic s w).map Prod.fst ↔ c ∈ s.ijk) := by
  have hz : (s.sijk.zip (s.sid.map w)).map Prod.fst = s.sijk := by
    rw [List.map_fst_zip]; rw [h.own]; simp
  refine ⟨fun c => ?_, ?_, fun c => ?_⟩
  · unfold statistic
    rw [sumAt_reduceByKey, sumAt_zip _ _ _ _ h.own, total]
    rw [((h.once.filter _).map w).sum_eq, ← List.sum_toFinset w (List.nodup_range.filter _)]
    apply Finset.sum_congr _ fun _ _ => rfl
    ext i; simp
  · exact reduceByKey_keys_strict _ (by rw [hz]; exact h.order)
  · unfold statistic
    rw [mem_keys_reduceByKey, hz, h.own]
    constructor
    · intro hc
      obtain ⟨i, hi, rfl⟩ := List.mem_map.1 hc
      have hi' : i < s.ijk.length := by simpa using h.once.mem_iff.1 hi
      rw [List.getD_eq_getElem _ _ hi']; exact List.getElem_mem _
    · intro hc
      obtain ⟨i, hi, rfl⟩ := List.getElem_of_mem hc
      exact List.mem_map.2 ⟨i, h.once.mem_iff.2 (by simpa using hi), by rw [List.getD_eq_getElem _ _ hi]⟩

/-! ## Every sort brings the lists up to date -/

theorem sortByKey_upToDate {s s' : St} {p : List ℕ} (hp : p.Perm (List.range s.ijk.length))
    (h : SortByKey (p.map fun i => s.ijk.getD i 0) p s'.sijk s'.sid) (hi : s'.ijk = s.ijk) : UpToDate s' := by
  have hz : (p.map fun i => s.ijk.getD i 0).zip p = p.map fun i => (s.ijk.getD i 0, i) := by
    clear h hp
    induction p with
    | nil => rfl
    | cons a l ih => simp only [List.map_cons, List.zip_cons_cons, ih]
  have hperm := h.perm
  rw [hz] at hperm
  have h2 : s'.sid.Perm p := by
    have := hperm.map Prod.snd
    rw [List.map_snd_zip (by rw [h.len])] at this
    simpa [Function.comp_def] using this
  refine ⟨?_, ?_, h.sorted⟩
  · rw [hi]; exact h2.trans hp
  · rw [hi]
    apply List.ext_getElem
    · rw [List.length_map, h.len]
    · intro n h1 h2'
      have hn : n < s'.sid.length := by rw [← h.len]; exact h1
      have hm : (s'.sijk[n], s'.sid[n]) ∈ s'.sijk.zip s'.sid := by
        have hl : n < (s'.sijk.zip s'.sid).length := by rw [List.length_zip]; omega
        have := List.getElem_mem hl
        rwa [List.getElem_zip] at this
      obtain ⟨i, _, he⟩ := List.mem_map.1 (hperm.mem_iff.1 hm)
      rw [List.getElem_map]
      have e1 := congrArg Prod.fst he
      have e2 := congrArg Prod.snd he
      simp only at e1 e2
      rw [← e1, ← e2]

theorem helper_upToDate {b : Bool} {s s' : St} (h : Helper b s s') : UpToDate s' ∧ s'.flag = true := by
  obtain ⟨p, hp, -, hk, hi, hf⟩ := h
  exact ⟨sortByKey_upToDate hp hk hi, hf⟩

/-! ## Invariant, by abstract interpretation of the sequence of operations -/

/-- what is known about the lists: nothing; the flag is down; the flag does not lie; the flag is up and does not lie -/
inductive Known where
  | nothing
  | down
  | honest
  | up

def Known.Holds : Known → St → Prop
  | .nothing, _ => True
  | .down, s => s.flag = false
  | .honest, s => s.flag = true → UpToDate s
  | .up, s => s.flag = true ∧ UpToDate s

/-- what is known after an operation; `none` if the operation might work on out-of-date lists or throw -/
def next : Known → Op → Option Known
  | .nothing, .read => none
  | _, .read => some .up
  | _, .shuffle => some .up
  | _, .relabel => some .down
  | k, .src false 0 => some k
  | .down, .src _ _ => some .down
  | _, .src _ _ => some .nothing
  | .nothing, .rlx => none
  | _, .rlx => some .down
  | .up, .update => some .up
  | _, .update => none

/-- good event: the reader has seen up-to-date lists, and there was no exception -/
def Good : Ev → Prop
  | .saw t => UpToDate t
  | .threw => False
  | .quiet => True

theorem holds_honest {k : Known} {s : St} (h : k.Holds s) (hk : k ≠ .nothing) : s.flag = true → UpToDate s := by
  cases k with
  | nothing => exact absurd rfl hk
  | down => intro hf; exact absurd hf (by rw [show s.flag = false from h]; simp)
  | honest => exact h
  | up => exact fun _ => h.2

theorem doSort_up {s t : St} (h : DoSort s t) (hs : s.flag = true → UpToDate s) : t.flag = true ∧ UpToDate t := by
  unfold DoSort at h
  split at h
  · next hf => subst h; exact ⟨hf, hs hf⟩
  · exact (helper_upToDate h).symm

theorem source_zero {s t : St} (h : Source false s [] t) : t = s := by
  obtain ⟨u, hu, rfl⟩ := h
  have : u = s := by simpa using hu
  subst this
  simp [grow]

theorem source_flag {m : Bool} {s t : St} {cs : List ℕ} (h : Source m s cs t) : t.flag = s.flag := by
  obtain ⟨u, hu, rfl⟩ := h
  cases m
  · have : u = s := by simpa using hu
    subst this; rfl
  · obtain ⟨_, _, _, _, _, _, _, _, hf⟩ : MatchSort s u := by simpa using hu
    exact hf

theorem does_sound {o : Op} {s t : St} {e : Ev} (h : Does o s e t) {k k' : Known} (hk : k.Holds s) (hn : next k o = some k') :
    Good e ∧ k'.Holds t := by
  cases h with
  | read hs =>
    have hne : k ≠ .nothing := by rintro rfl; simp [next] at hn
    have hu := doSort_up hs (holds_honest hk hne)
    have : k' = .up := by cases k <;> simp_all [next]
    subst this
    exact ⟨hu.2, hu⟩
  | shuffle hs =>
    have hu := helper_upToDate hs
    have : k' = .up := by cases k <;> simp_all [next]
    subst this
    exact ⟨hu.1, hu.2, hu.1⟩
  | relabel =>
    have : k' = .down := by cases k <;> simp_all [next]
    subst this
    exact ⟨trivial, rfl⟩
  | @src m s cs t hs =>
    refine ⟨trivial, ?_⟩
    by_cases hc : m = false ∧ cs = []
    · obtain ⟨rfl, rfl⟩ := hc
      have : k' = k := by cases k <;> simp_all [next]
      subst this
      rw [source_zero hs]; exact hk
    · cases k with
      | down =>
        have : k' = .down := by
          cases m <;> cases cs <;> simp_all [next]
        subst this
        exact (source_flag hs).trans hk
      | nothing | honest | up =>
        have : k' = .nothing := by
          cases m <;> cases cs <;> simp_all [next]
        subst this
        trivial
  | rlx hs =>
    have hne : k ≠ .nothing := by rintro rfl; simp [next] at hn
    have hu := doSort_up hs (holds_honest hk hne)
    have : k' = .down := by cases k <;> simp_all [next]
    subst this
    exact ⟨hu.2, rfl⟩
  | update hf =>
    have : k = .up := by cases k <;> simp_all [next]
    subst this
    have : k' = .up := by simp_all [next]
    subst this
    exact ⟨hk.2, hk⟩
  | updateThrow hf =>
    have : k = .up := by cases k <;> simp_all [next]
    subst this
    exact absurd hk.1 (by rw [hf]; simp)

theorem runs_sound {os : List Op} {s t : St} {es : List Ev} (h : Runs os s es t) : ∀ {k k' : Known}, k.Holds s →
    os.foldlM next k = some k' → (∀ e ∈ es, Good e) ∧ k'.Holds t := by
  induction h with
  | nil =>
    intro k k' hk hn
    simp at hn; subst hn
    exact ⟨by simp, hk⟩
  | cons hd _ ih =>
    intro k k' hk hn
    rw [List.foldlM_cons] at hn
    obtain ⟨k1, h1, h2⟩ := Option.bind_eq_some_iff.1 hn
    obtain ⟨hg, hh⟩ := does_sound hd hk h1
    obtain ⟨hg', hh'⟩ := ih hh h2
    refine ⟨?_, hh'⟩
    intro e he
    rcases List.mem_cons.1 he with rfl | he
    · exact hg
    · exact hg' e he

theorem fold_append (l m : List Op) (k : Known) : (l ++ m).foldlM next k = (l.foldlM next k) >>= (m.foldlM next) := by
  rw [List.foldlM_append]

theorem fold_replicate (l : List Op) (k : Known) (h : l.foldlM next k = some k) (n : ℕ) :
    (List.replicate n l).flatten.foldlM next k = some k := by
  induction n with
  | zero => rfl
  | succ n ih => rw [List.replicate_succ, List.flatten_cons, fold_append, h]; exact ih

theorem fold_reads (n : ℕ) : (List.replicate n Op.read).foldlM next .up = some .up := by
  induction n with
  | zero => rfl
  | succ n ih => rw [List.replicate_succ, List.foldlM_cons]; exact ih

theorem fold_cond (o : Opts) : (condOps o).foldlM next .up = some .up := by
  unfold condOps
  rw [fold_append, fold_append]
  have h1 : (if o.nucl then [Op.read, .update] else []).foldlM next .up = some .up := by cases o.nucl <;> rfl
  have h2 : (if o.cond then Op.read :: (if o.perParticle then [.read, .read, .update]
      else (List.replicate o.sstpCond [.read, .read, .update]).flatten) else []).foldlM next .up = some .up := by
    cases o.cond
    · rfl
    · cases o.perParticle
      · simp only [if_true, List.foldlM_cons]
        exact fold_replicate _ _ rfl _
      · rfl
  rw [h1]
  simp only [Option.bind_eq_bind, Option.bind_some]
  rw [h2]
  exact fold_reads _

theorem fold_async (o : Opts) (h : ∀ m k, o.src = some (m, k) → (m = true ∨ 0 < k) → o.rlx = true → o.adve = true ∧ o.predCorr = true) :
    (asyncOps o).foldlM next .up = some .up := by
  unfold asyncOps
  simp only [fold_append]
  have h1 : (if o.coal then (List.replicate o.sstpCoal [Op.shuffle, .read]).flatten else []).foldlM next .up = some .up := by
    cases o.coal
    · rfl
    · exact fold_replicate _ _ rfl _
  rw [h1]
  cases hs : o.src with
  | none => cases o.adve <;> cases o.predCorr <;> cases o.rlx <;> cases o.xchng <;> rfl
  | some q =>
    obtain ⟨m, k⟩ := q
    by_cases hc : m = true ∨ 0 < k
    · have := h m k hs hc
      have hn : ∀ a : Known, next a (.src m k) = some (match a with | .down => .down | _ => .nothing) := by
        intro a
        rcases hc with rfl | hc
        · cases a <;> cases k <;> rfl
        · obtain ⟨k, rfl⟩ : ∃ j, k = j + 1 := ⟨k - 1, by omega⟩
          cases a <;> cases m <;> rfl
      cases hr : o.rlx
      · cases o.adve <;> cases o.predCorr <;> cases o.xchng <;> simp [hn] <;> rfl
      · obtain ⟨ha, hp⟩ := this hr
        rw [ha, hp]
        cases o.xchng <;> simp [hn] <;> rfl
    · have hm : m = false := by cases m <;> simp_all
      have hk : k = 0 := by omega
      subst hm hk
      cases o.adve <;> cases o.predCorr <;> cases o.rlx <;> cases o.xchng <;> rfl

theorem fold_history (l : List Api) (h : NoClash l) : (history l).foldlM next .down = some .up := by
  unfold history
  rw [List.foldlM_cons]
  show (l.flatMap apiOps).foldlM next .up = some .up
  induction l with
  | nil => rfl
  | cons a l ih =>
    rw [List.flatMap_cons, fold_append]
    have ha : (apiOps a).foldlM next .up = some .up := by
      cases a with
      | cond o => exact fold_cond o
      | async o => exact fold_async o fun m k h1 h2 h3 => h o m k (by simp) h1 h2 h3
      | diag k => exact fold_reads k
    rw [ha]
    exact ih fun o m k ho => h o m k (List.mem_cons_of_mem _ ho)

/-- C80: in any history of API calls, everything that takes statistics over grid cells (moments, counts, collisions,
condensation and its budgets, relaxation, diagnostics) works on up-to-date lists, the "unsorted set" exception is never
thrown, and the lists are up to date after each history.  Missing (false): steps in which the source creates or
matches super-droplets and relaxation runs, unless they use predictor-corrector advection -/
theorem readers_up_to_date_partial (l : List Api) (hl : NoClash l) {ijk sid sijk : List ℕ} {es : List Ev} {s : St}
    (h : Runs (history l) (initial ijk sid sijk) es s) :
    (∀ t, Ev.saw t ∈ es → UpToDate t) ∧ Ev.threw ∉ es ∧ s.flag = true ∧ UpToDate s := by
  obtain ⟨hg, hs⟩ := runs_sound h (k := .down) rfl (fold_history l hl)
  exact ⟨fun t ht => hg _ ht, fun ht => hg _ ht, hs⟩

/-! ## Progress: operations can always be executed -/

theorem exists_sortByKey (ks vs : List ℕ) : ∃ ks' vs', SortByKey ks vs ks' vs' := by
  let l := (ks.zip vs).mergeSort fun a b => decide (a.1 ≤ b.1)
  have hp : l.Perm (ks.zip vs) := List.mergeSort_perm _ _
  refine ⟨l.map Prod.fst, l.map Prod.snd, by simp, ?_, ?_⟩
  · have : (l.map Prod.fst).zip (l.map Prod.snd) = l := by
      clear hp
      induction l with
      | nil => rfl
      | cons a t ih => simp [ih]
    rw [this]; exact hp
  · have := List.pairwise_mergeSort (le := fun a b : ℕ × ℕ => decide (a.1 ≤ b.1))
      (by intro a b c h1 h2; simp at *; omega) (by intro a b; simp; omega) (ks.zip vs)
    rw [List.pairwise_map]
    exact this.imp (by intro a b h; simpa using h)

theorem exists_helper (b : Bool) (s : St) : ∃ t, Helper b s t := by
  obtain ⟨ks, vs, h⟩ := exists_sortByKey ((List.range s.ijk.length).map fun i => s.ijk.getD i 0) (List.range s.ijk.length)
  exact ⟨⟨s.ijk, vs, ks, true⟩, _, List.Perm.refl _, fun _ => rfl, h, rfl, rfl⟩

theorem exists_doSort (s : St) : ∃ t, DoSort s t := by
  unfold DoSort
  cases s.flag
  · simpa using exists_helper false s
  · simp

/-- every sequence of operations has an execution -/
theorem exists_runs (os : List Op) (s : St) : ∃ es t, Runs os s es t := by
  induction os generalizing s with
  | nil => exact ⟨[], s, .nil⟩
  | cons o os ih =>
    obtain ⟨e, t, hd⟩ : ∃ e t, Does o s e t := by
      cases o with
      | read => obtain ⟨t, h⟩ := exists_doSort s; exact ⟨_, _, .read h⟩
      | shuffle => obtain ⟨t, h⟩ := exists_helper true s; exact ⟨_, _, .shuffle h⟩
      | relabel => exact ⟨_, _, .relabel (ijk := []) (sid := []) (sijk := [])⟩
      | src m k =>
        obtain ⟨u, hu⟩ : ∃ u, if m then MatchSort s u else u = s := by
          cases m
          · exact ⟨s, by simp⟩
          · obtain ⟨ks, vs, h⟩ := exists_sortByKey s.ijk (List.range s.ijk.length)
            refine ⟨⟨s.ijk, vs, List.replicate ks.length 0, s.flag⟩, ?_⟩
            simp only [if_true]
            refine ⟨ks, List.replicate ks.length none, List.replicate ks.length 0, h, by simp, ?_, by simp, rfl, rfl⟩
            have : compact (ks.zip (List.replicate ks.length none)) = [] := by
              unfold compact
              rw [List.filter_eq_nil_iff.2]
              · rfl
              · intro x hx
                have := (List.of_mem_zip (a := x.1) (b := x.2) hx).2
                rw [(List.mem_replicate.1 this).2]; simp
            rw [this]; rfl
        have := Does.src (m := m) (s := s) (cs := List.replicate k 0) ⟨u, hu, rfl⟩
        rw [List.length_replicate] at this
        exact ⟨_, _, this⟩
      | rlx => obtain ⟨t, h⟩ := exists_doSort s; exact ⟨_, _, .rlx (cs := []) h⟩
      | update =>
        cases hf : s.flag
        · exact ⟨_, _, .updateThrow hf⟩
        · exact ⟨_, _, .update hf⟩
    obtain ⟨es, u, hr⟩ := ih t
    exact ⟨_, _, .cons hd hr⟩

/-! ## What relaxation sees after the source -/

/-- a source that creates super-droplets in cells `cs`, on up-to-date lists with the flag up: relaxation right after it sees
lists in which the new super-droplets are absent and each of them is replaced by super-droplet 0 placed in cell 0 -/
theorem relaxation_after_source {s s1 t u : St} {cs : List ℕ} {e : Ev} (hu : UpToDate s) (hf : s.flag = true) (h0 : s.ijk ≠ [])
    (h1 : Does (.src false cs.length) s .quiet s1) (hs1 : s1.ijk = s.ijk ++ cs) (h2 : Does .rlx s1 e u) (he : e = .saw t) (w : ℕ → ℝ) :
    t.ijk = s.ijk ++ cs ∧ (∀ i, s.ijk.length ≤ i → i ∉ t.sid) ∧
    (∀ c, sumAt c (statistic t w) = total s w c + if c = 0 then cs.length * w 0 else 0) ∧ (cs ≠ [] → ¬ UpToDate t) := by
  obtain ⟨cs', hcs', hsrc⟩ : ∃ cs', cs'.length = cs.length ∧ Source false s cs' s1 := by
    generalize hk : cs.length = k at h1
    cases h1 with
    | src h => exact ⟨_, by rfl, h⟩
  obtain ⟨v, hv, rfl⟩ := hsrc
  have hvs : v = s := by simpa using hv
  have hvu := hu
  have hvf := hf
  have hvi : v.ijk = s.ijk := by rw [hvs]
  rw [← hvs] at hvu hvf
  have hcc : cs' = cs := by
    simp only [grow, hvi] at hs1
    exact List.append_cancel_left hs1
  subst hcc
  subst he
  have ht : t = grow v cs' := by
    cases h2 with
    | rlx h =>
      unfold DoSort at h
      rw [if_pos (show (grow v cs').flag = true from hvf)] at h
      exact h
  subst ht
  have hmem : ∀ i, s.ijk.length ≤ i → i ∉ (grow v cs').sid := by
    intro i hi hm
    simp only [grow, List.mem_append, List.mem_replicate] at hm
    rcases hm with hm | ⟨-, rfl⟩
    · have := hvu.once.mem_iff.1 hm
      rw [hvi] at this
      simp at this; omega
    · simp at hi; exact h0 hi
  refine ⟨by simp [grow, hvi], hmem, ?_, ?_⟩
  · intro c
    have hz : (grow v cs').sijk.zip ((grow v cs').sid.map w)
        = v.sijk.zip (v.sid.map w) ++ List.replicate cs'.length (0, w 0) := by
      simp only [grow, List.map_append, List.map_replicate]
      rw [List.zip_append (by rw [hvu.own]; simp)]
      congr 1
      induction cs'.length with
      | zero => rfl
      | succ n ih => simp [List.replicate_succ, ih]
    have hrep : ∀ n : ℕ, sumAt c (List.replicate n (0, w 0)) = if c = 0 then n * w 0 else 0 := by
      intro n
      induction n with
      | zero => simp [sumAt]
      | succ n ih =>
        rw [List.replicate_succ, sumAt_cons, ih]
        by_cases hc : c = 0
        · subst hc; simp; ring
        · have hc' : ¬ (0 = c) := fun h => hc h.symm
          simp [hc, hc']
    have ha : ∀ a b : List (ℕ × ℝ), sumAt c (a ++ b) = sumAt c a + sumAt c b := by
      intro a b; simp [sumAt]
    have h3 := (upToDate_statistic hvu w).1 c
    unfold statistic at h3 ⊢
    rw [sumAt_reduceByKey] at h3 ⊢
    rw [hz, ha, hrep, h3]
    simp [total, hvi]
  · intro hne hup
    have hl : s.ijk.length < (s.ijk ++ cs').length := by
      rw [List.length_append]
      have := List.length_pos_iff.2 hne
      omega
    have : s.ijk.length ∈ (grow v cs').sid := by
      refine hup.once.mem_iff.2 ?_
      rw [show (grow v cs').ijk = s.ijk ++ cs' by simp [grow, hvi]]
      exact List.mem_range.2 hl
    exact hmem _ le_rfl this

/-- the step of the witness: no coalescence, default (implicit) advection, source, relaxation -/
def clashOpts : Opts :=
  { nucl := false, cond := true, perParticle := false, sstpCond := 1, chemReads := 0, coal := false, sstpCoal := 1,
    adve := true, predCorr := false, src := some (false, 1), rlx := true, xchng := false }

/-- C80 without the restriction is false: two cells with one super-droplet each, the source adds one in cell 1; relaxation
then works on out-of-date lists, finds nothing new in cell 1, counts super-droplet 0 twice in cell 0, and its per-cell
statistic has three entries although there are two cells (and arrays are of that size) -/
theorem readers_out_of_date :
    ∃ es s t, Runs (history [.async clashOpts]) (initial [0, 1] [0, 1] [0, 1]) es s ∧ Ev.saw t ∈ es ∧ ¬ UpToDate t ∧
      t.ijk = [0, 1, 1] ∧ (∀ w : ℕ → ℝ, statistic t w = [(0, w 0), (1, w 1), (0, w 0)]) := by
  let s0 : St := ⟨[0, 1], [0, 1], [0, 1], true⟩
  let t : St := ⟨[0, 1, 1], [0, 1, 0], [0, 1, 0], true⟩
  have hr : DoSort (initial [0, 1] [0, 1] [0, 1]) s0 := by
    simp only [DoSort, initial, Bool.false_eq_true, if_false]
    exact ⟨[0, 1], by decide, fun _ => rfl, ⟨rfl, List.Perm.refl _, by decide⟩, rfl, rfl⟩
  have hsrc : Does (.src false 1) s0 .quiet t := Does.src (cs := [1]) ⟨s0, rfl, rfl⟩
  have hrlx : Does .rlx t (.saw t) { grow t [] with flag := false } := Does.rlx (cs := []) (by simp [DoSort, t])
  obtain ⟨u, hu⟩ := exists_doSort ⟨[0, 1, 1], [0, 1, 0], [0, 1, 0], false⟩
  refine ⟨[.saw s0, .quiet, .saw t, .quiet, .saw u], u, t, ?_, by simp, ?_, rfl, ?_⟩
  · exact .cons (.read hr) (.cons hsrc (.cons hrlx (.cons (.relabel (ijk := [0, 1, 1]) (sid := [0, 1, 0]) (sijk := [0, 1, 0]))
      (.cons (.read hu) .nil))))
  · intro h
    have := h.order
    simp [t] at this
  · intro w
    simp [statistic, reduceByKey, t]

/-- with the matching source it happens even if nothing is created: two super-droplets of cell 0 that fall into one size bin
and one of cell 1; the list of cells handed to relaxation then attributes a super-droplet of cell 0 to cell 1 -/
theorem readers_out_of_date_matching :
    ∃ es s t, Runs (history [.async { clashOpts with src := some (true, 0) }]) (initial [0, 0, 1] [0, 1, 2] [0, 0, 1]) es s ∧
      Ev.saw t ∈ es ∧ ¬ UpToDate t ∧ t.ijk = [0, 0, 1] ∧ t.sid = [0, 1, 2] ∧
      (∀ w : ℕ → ℝ, sumAt 1 (statistic t w) = w 1 + w 2 ∧ total t w 1 = w 2) := by
  let s0 : St := ⟨[0, 0, 1], [0, 1, 2], [0, 0, 1], true⟩
  let t : St := ⟨[0, 0, 1], [0, 1, 2], [0, 1, 1], true⟩
  have hr : DoSort (initial [0, 0, 1] [0, 1, 2] [0, 0, 1]) s0 := by
    simp only [DoSort, initial, Bool.false_eq_true, if_false]
    exact ⟨[0, 1, 2], by decide, fun _ => rfl, ⟨rfl, List.Perm.refl _, by decide⟩, rfl, rfl⟩
  have hsrc : Does (.src true 0) s0 .quiet t := by
    refine Does.src (cs := []) ⟨t, ?_, by simp [grow]⟩
    simp only [if_true]
    exact ⟨[0, 0, 1], [some 3, some 3, some 4], [1], ⟨rfl, List.Perm.refl _, by decide⟩, rfl, by decide, rfl, rfl, rfl⟩
  have hrlx : Does .rlx t (.saw t) { grow t [] with flag := false } := Does.rlx (cs := []) (by simp [DoSort, t])
  obtain ⟨u, hu⟩ := exists_doSort ⟨[0, 0, 1], [0, 1, 2], [0, 1, 1], false⟩
  refine ⟨[.saw s0, .quiet, .saw t, .quiet, .saw u], u, t, ?_, by simp, ?_, rfl, rfl, ?_⟩
  · exact .cons (.read hr) (.cons hsrc (.cons hrlx (.cons (.relabel (ijk := [0, 0, 1]) (sid := [0, 1, 2]) (sijk := [0, 1, 1]))
      (.cons (.read hu) .nil))))
  · intro h
    have := h.own
    simp [t] at this
  · intro w
    constructor
    · simp [statistic, reduceByKey, t, sumAt]
    · have : (Finset.range t.ijk.length).filter (fun i => t.ijk.getD i 0 = 1) = {2} := by decide
      rw [total, this, Finset.sum_singleton]

/-- an ordinary history meets the hypothesis: source and relaxation alternate, one step with both uses predictor-corrector -/
example : NoClash [.cond clashOpts, .async { clashOpts with rlx := false }, .diag 3, .async { clashOpts with src := some (false, 0) },
    .async { clashOpts with predCorr := true }] := by
  intro o m k ho h1 h2 h3
  simp only [List.mem_cons, reduceCtorEq, false_or, Api.async.injEq, List.not_mem_nil, or_false] at ho
  rcases ho with rfl | rfl | rfl <;> simp_all [clashOpts]

/-- and has executions -/
example : ∃ es s, Runs (history [.cond clashOpts, .async { clashOpts with rlx := false }, .diag 3]) (initial [3, 0, 3] [] []) es s :=
  exists_runs _ _

end LCP.SortFlag
