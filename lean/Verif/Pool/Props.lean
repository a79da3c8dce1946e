import Verif.Pool.Model
import Mathlib.Data.List.GetD
import Mathlib.Data.List.Perm.Subperm
import Mathlib.Data.List.Count
import Mathlib.Data.Finset.Card

/-!
# Temporary vectors: C23 (never shared), C24 (enough for advection), C44 (enough for diagnostics)
-/
namespace LCP.Pool

/-- invariant: flags are exactly the indices held by live guards, all distinct, handles distinct -/
structure Inv (s : St) : Prop where
  nodupIdx : (s.live.map Prod.snd).Nodup
  nodupH : (s.live.map Prod.fst).Nodup
  flags : ∀ i, s.used[i]? = some true ↔ i ∈ s.live.map Prod.snd

theorem firstFree_spec (l : List Bool) :
    (∀ i, firstFree l = some i → l[i]? = some false) ∧ (firstFree l = none → ∀ b ∈ l, b = true) := by
  induction l with
  | nil => simp [firstFree]
  | cons b t ih =>
    cases b with
    | false =>
      refine ⟨?_, by simp [firstFree]⟩
      intro i h; simp [firstFree] at h; subst h; simp
    | true =>
      refine ⟨?_, ?_⟩
      · intro i h
        simp only [firstFree, if_true, Option.map_eq_some_iff] at h
        obtain ⟨j, hj, rfl⟩ := h
        simpa using ih.1 j hj
      · intro h
        simp only [firstFree, if_true, Option.map_eq_none_iff] at h
        intro b hb
        rcases List.mem_cons.1 hb with rfl | hb
        · rfl
        · exact ih.2 h b hb

theorem acquire_inv {s t : St} {h : ℕ} (hi : Inv s) (hh : h ∉ s.live.map Prod.fst) (ha : acquire s h = some t) :
    Inv t ∧ t.used.length = s.used.length ∧ t.live.map Prod.fst = h :: s.live.map Prod.fst := by
  unfold acquire at ha
  rw [Option.map_eq_some_iff] at ha
  obtain ⟨i, hf, rfl⟩ := ha
  have hfree := (firstFree_spec s.used).1 i hf
  have hlt : i < s.used.length := by
    by_contra hc
    rw [List.getElem?_eq_none (by omega)] at hfree; simp at hfree
  have hni : i ∉ s.live.map Prod.snd := by
    intro hm
    have := (hi.flags i).2 hm
    rw [hfree] at this; simp at this
  refine ⟨⟨?_, ?_, ?_⟩, by simp, by simp⟩
  · simp only [List.map_cons, List.nodup_cons]; exact ⟨hni, hi.nodupIdx⟩
  · simp only [List.map_cons, List.nodup_cons]; exact ⟨hh, hi.nodupH⟩
  · intro j
    simp only [List.map_cons, List.mem_cons]
    by_cases hj : j = i
    · subst hj; simp [hlt]
    · rw [List.getElem?_set_ne (Ne.symm hj), hi.flags j]; simp [hj]

theorem destroy_inv {s : St} {h : ℕ} (hi : Inv s) :
    Inv (destroy s h) ∧ (destroy s h).used.length = s.used.length ∧
    (destroy s h).live = s.live.filter (fun p => !(p.1 == h)) := by
  unfold destroy
  cases hf : s.live.find? (fun p => p.1 == h) with
  | none =>
    refine ⟨hi, rfl, ?_⟩
    rw [List.find?_eq_none] at hf
    symm
    rw [List.filter_eq_self]
    intro p hp
    simpa using hf p hp
  | some p =>
    obtain ⟨h', i⟩ := p
    have hmem := List.mem_of_find?_eq_some hf
    have hh' : h' = h := by have := List.find?_some hf; simpa using this
    subst hh'
    have hsub : (s.live.filter (fun p => !(p.1 == h'))).Sublist s.live := List.filter_sublist
    refine ⟨⟨hi.nodupIdx.sublist (hsub.map _), hi.nodupH.sublist (hsub.map _), ?_⟩, by simp, rfl⟩
    intro j
    have hlt : i < s.used.length := by
      by_contra hc
      have := (hi.flags i).2 (List.mem_map.2 ⟨_, hmem, rfl⟩)
      rw [List.getElem?_eq_none (by omega)] at this; simp at this
    by_cases hj : j = i
    · subst hj
      simp only [List.getElem?_set_self hlt, Option.some.injEq, Bool.false_eq_true, false_iff, List.mem_map, not_exists, not_and]
      rintro ⟨h2, j2⟩ hp rfl
      rw [List.mem_filter] at hp
      have : (h2, j2) = (h', j2) := List.inj_on_of_nodup_map hi.nodupIdx hp.1 hmem rfl
      simp only [Prod.mk.injEq] at this
      rw [this.1] at hp
      simp at hp
    · rw [List.getElem?_set_ne (Ne.symm hj), hi.flags j]
      simp only [List.mem_map, List.mem_filter]
      constructor
      · rintro ⟨p, hp, rfl⟩
        refine ⟨p, ⟨hp, ?_⟩, rfl⟩
        by_contra hc
        have hp1 : p.1 = h' := by simpa using hc
        have : p = (h', i) := List.inj_on_of_nodup_map hi.nodupH hp hmem hp1
        rw [this] at hj; exact hj rfl
      · rintro ⟨p, ⟨hp, _⟩, rfl⟩; exact ⟨p, hp, rfl⟩

theorem step_inv {s t : St} {o : Op} (hi : Inv s) (h : step s o = some t) : Inv t ∧ t.used.length = s.used.length := by
  cases o with
  | acquire h' =>
    simp only [step] at h
    split_ifs at h with hm
    have := acquire_inv hi hm h
    exact ⟨this.1, this.2.1⟩
  | destroy h' =>
    simp only [step, Option.some.injEq] at h
    subst h
    have := destroy_inv (h := h') hi
    exact ⟨this.1, this.2.1⟩
  | reset h' =>
    simp only [step] at h
    obtain ⟨h1, h2, h3⟩ := destroy_inv (h := h') hi
    have hm : h' ∉ (destroy s h').live.map Prod.fst := by
      rw [h3]; simp
    have := acquire_inv h1 hm h
    exact ⟨this.1, this.2.1.trans h2⟩
  | move a b =>
    simp only [step] at h
    split_ifs at h with hm
    simp only [Option.some.injEq] at h
    subst h
    refine ⟨⟨?_, ?_, ?_⟩, rfl⟩
    · have : ((s.live.map (fun p => if p.1 = a then (b, p.2) else p)).map Prod.snd) = s.live.map Prod.snd := by
        rw [List.map_map]; apply List.map_congr_left; intro p _; simp only [Function.comp]; split_ifs <;> rfl
      show ((s.live.map (fun p => if p.1 = a then (b, p.2) else p)).map Prod.snd).Nodup
      rw [this]; exact hi.nodupIdx
    · show ((s.live.map (fun p => if p.1 = a then (b, p.2) else p)).map Prod.fst).Nodup
      have : ((s.live.map (fun p => if p.1 = a then (b, p.2) else p)).map Prod.fst) = (s.live.map Prod.fst).map (fun x => if x = a then b else x) := by
        rw [List.map_map, List.map_map]; apply List.map_congr_left; intro p _; simp only [Function.comp]; split_ifs <;> rfl
      rw [this]
      apply List.Nodup.map_on _ hi.nodupH
      intro x hx y hy hxy
      by_cases h1 : x = a <;> by_cases h2 : y = a
      · rw [h1, h2]
      · rw [if_pos h1, if_neg h2] at hxy; rw [← hxy] at hy; exact absurd hy hm
      · rw [if_neg h1, if_pos h2] at hxy; rw [hxy] at hx; exact absurd hx hm
      · rw [if_neg h1, if_neg h2] at hxy; exact hxy
    · intro i
      have : ((s.live.map (fun p => if p.1 = a then (b, p.2) else p)).map Prod.snd) = s.live.map Prod.snd := by
        rw [List.map_map]; apply List.map_congr_left; intro p _; simp only [Function.comp]; split_ifs <;> rfl
      show s.used[i]? = some true ↔ i ∈ ((s.live.map (fun p => if p.1 = a then (b, p.2) else p)).map Prod.snd)
      rw [this]; exact hi.flags i

theorem fresh_inv (size : ℕ) : Inv (fresh size) := by
  refine ⟨by simp [fresh], by simp [fresh], ?_⟩
  intro i
  simp only [fresh, List.map_nil, List.not_mem_nil, iff_false]
  rw [List.getElem?_replicate]
  split_ifs <;> simp

theorem run_inv {s t : St} {l : List Op} (hi : Inv s) (h : run s l = some t) : Inv t ∧ t.used.length = s.used.length := by
  induction l generalizing s with
  | nil => simp only [run, Option.some.injEq] at h; subst h; exact ⟨hi, rfl⟩
  | cons o l ih =>
    simp only [run, Option.bind_eq_some_iff] at h
    obtain ⟨u, h1, h2⟩ := h
    have a := step_inv hi h1
    have b := ih a.1 h2
    exact ⟨b.1, b.2.trans a.2⟩

/-- **C23** After any sequence of acquiring, destroying, moving and re-acquiring guards (as long as the pool was not
exhausted): two live guards never refer to the same vector, and every live guard refers to a vector of the pool. -/
theorem guards_disjoint {size : ℕ} {l : List Op} {t : St} (h : run (fresh size) l = some t) :
    (∀ p ∈ t.live, ∀ q ∈ t.live, p.2 = q.2 → p.1 = q.1) ∧ (∀ p ∈ t.live, p.2 < size) := by
  obtain ⟨hi, hl⟩ := run_inv (fresh_inv size) h
  constructor
  · intro p hp q hq he
    exact congrArg Prod.fst (List.inj_on_of_nodup_map hi.nodupIdx hp hq he)
  · intro p hp
    have := (hi.flags p.2).2 (List.mem_map.2 ⟨p, hp, rfl⟩)
    by_contra hc
    rw [List.getElem?_eq_none (by rw [hl]; simp [fresh]; omega)] at this
    simp at this

/-- **C23** When no guard is alive every vector is free again, so nothing leaks. -/
theorem all_free {size : ℕ} {l : List Op} {t : St} (h : run (fresh size) l = some t) (hd : t.live = []) :
    t.used = List.replicate size false := by
  obtain ⟨hi, hl⟩ := run_inv (fresh_inv size) h
  rw [List.eq_replicate_iff]
  refine ⟨by rw [hl]; simp [fresh], ?_⟩
  intro b hb
  cases b with
  | false => rfl
  | true =>
    obtain ⟨i, hi'⟩ := List.mem_iff_getElem?.1 hb
    have := (hi.flags i).1 hi'
    rw [hd] at this; simp at this

theorem count_used {s : St} (hi : Inv s) : s.used.count true = s.live.length := by
  have key : ∀ (u : List Bool) (l : List ℕ), l.Nodup → (∀ i, u[i]? = some true ↔ i ∈ l) → u.count true = l.length := by
    intro u l hl hiff
    have h1 : ((List.range u.length).filter (fun i => u[i]? == some true)).Perm l := by
      rw [List.perm_ext_iff_of_nodup (List.nodup_range.filter _) hl]
      intro i
      rw [List.mem_filter, List.mem_range, ← hiff i]
      constructor
      · rintro ⟨_, h⟩; simpa using h
      · intro h
        refine ⟨?_, by simpa using h⟩
        by_contra hc
        rw [List.getElem?_eq_none (by omega)] at h; simp at h
    rw [← h1.length_eq]
    clear h1 hiff hl
    have h2 : u = (List.range u.length).map (fun i => u.getD i false) := by
      apply List.ext_getElem
      · simp
      · intro i h1 h2; simp [h1]
    conv_lhs => rw [h2]
    rw [List.count, List.countP_map, List.countP_eq_length_filter]
    congr 1
    apply List.filter_congr
    intro i hi
    rw [List.mem_range] at hi
    simp [hi]
  rw [key s.used (s.live.map Prod.snd) hi.nodupIdx hi.flags]
  simp

/-- **C23** An acquisition succeeds exactly as long as fewer guards are alive than the pool has vectors. -/
theorem acquire_iff {size : ℕ} {l : List Op} {t : St} (h : run (fresh size) l = some t) (g : ℕ) :
    (acquire t g).isSome ↔ t.live.length < size := by
  obtain ⟨hi, hl⟩ := run_inv (fresh_inv size) h
  have hlen : t.used.length = size := by rw [hl]; simp [fresh]
  have hc := count_used hi
  unfold acquire
  cases hf : firstFree t.used with
  | some i =>
    have hfree := (firstFree_spec t.used).1 i hf
    simp only [Option.map_some, Option.isSome_some, true_iff]
    rw [← hc, ← hlen]
    refine lt_of_le_of_ne List.count_le_length ?_
    intro he
    rw [List.count_eq_length] at he
    have := he false (List.mem_of_getElem? hfree)
    simp at this
  | none =>
    have hall := (firstFree_spec t.used).2 hf
    simp only [Option.map_none, Option.isSome_none, Bool.false_eq_true, false_iff, not_lt]
    rw [← hc, ← hlen]
    have : t.used.count true = t.used.length := by
      rw [List.count_eq_length]; intro b hb; rw [hall b hb]
    omega

example : ∃ t, run (fresh 2) [.acquire 5, .acquire 6, .destroy 5, .reset 7, .move 6 8] = some t ∧ t.live.length = 2 := by
  refine ⟨⟨[true, true], [(7, 0), (8, 1)]⟩, ?_, rfl⟩
  decide

/-! ### C24 -/

/-- peak number of guards needed is available: running on an otherwise unused pool -/
theorem three_ok {size : ℕ} (h : 3 ≤ size) (l : List Op) (hl : l = [.acquire 1, .acquire 2, .acquire 3, .destroy 3, .destroy 2, .destroy 1]) :
    (run (fresh size) l).isSome := by
  obtain ⟨k, rfl⟩ : ∃ k, size = k + 3 := ⟨size - 3, by omega⟩
  subst hl
  simp [run, step, fresh, acquire, List.replicate_succ, firstFree, destroy]

theorem keep {b : Prop} [Decidable b] {m j k : ℕ} (h : k ≤ m) : k ≤ if b then max m j else m := by
  split_ifs
  · exact h.trans (le_max_left _ _)
  · exact h

theorem hit {b : Prop} [Decidable b] {m j k : ℕ} (hb : b) (h : k ≤ j) : k ≤ if b then max m j else m := by
  rw [if_pos hb]
  exact h.trans (le_max_right _ _)

/-- **C24** (partial) Advection never exhausts the pool, except with the predictor-corrector scheme in one or two dimensions
without any of the options that enlarge the pool to three vectors.
Missing: those configurations — the claim is false for them, `adve_pool_exhausted`. -/
theorem adve_pool_partial (c : Cfg) (hok : c.predCorr = false ∨ c.nDims = 0 ∨ c.nDims = 3 ∨ c.chem = true ∨ c.turbCond = true ∨
      c.distmem = true ∨ ((1 < c.sstpCond ∨ 1 < c.sstpCondAct) ∧ c.exactSstp = true)) :
    (run (fresh (drpNo c)) (adveOps c)).isSome := by
  have hal : (1 < c.sstpCond ∨ 1 < c.sstpCondAct) → c.allowSstp = true := by simp [Cfg.allowSstp]
  unfold adveOps
  split_ifs with h0 h1
  · rfl
  · apply three_ok _ _ rfl
    rcases hok with h | h | h | h | h | h | ⟨hh, h'⟩
    on_goal 7 => have h := hal hh
    · rw [h] at h1; simp at h1
    · exact absurd h h0
    · exact keep (keep (keep (keep (hit h (by omega)))))
    · exact keep (keep (keep (keep (keep (hit h (by omega))))))
    · exact keep (keep (keep (hit h (by omega))))
    · exact keep (keep (hit h (by omega)))
    · cases hn : c.nomixAdaptive
      · exact hit (by simp [h, h', hn]) (by omega)
      · exact keep (hit (by simp [h, h', hn]) (by omega))
  · rfl

/-- **C24** (negation) In every other configuration with the predictor-corrector scheme — e.g. the default options in 2D —
the third acquisition finds no free vector. -/
theorem adve_pool_exhausted (c : Cfg) (hp : c.predCorr = true) (h0 : c.nDims = 1 ∨ c.nDims = 2) (h1 : c.chem = false)
    (h2 : c.turbCond = false) (h3 : c.distmem = false) (h4 : (c.sstpCond ≤ 1 ∧ c.sstpCondAct ≤ 1) ∨ c.exactSstp = false) :
    run (fresh (drpNo c)) (adveOps c) = none := by
  replace h4 : c.allowSstp = false ∨ c.exactSstp = false := h4.imp_left fun h => by simp [Cfg.allowSstp]; omega
  have hd : drpNo c = 1 ∨ drpNo c = 2 := by
    unfold drpNo
    simp only [h1, h2, h3]
    rcases h0 with h0 | h0 <;> rcases h4 with h4 | h4 <;> cases c.ice <;> cases c.timeDepIceNucl <;>
      cases hA : c.allowSstp <;> simp_all
  have hn : adveOps c = [.acquire 1, .acquire 2, .acquire 3, .destroy 3, .destroy 2, .destroy 1] := by
    unfold adveOps
    rcases h0 with h0 | h0 <;> simp [h0, hp]
  rw [hn]
  rcases hd with h | h <;> rw [h] <;> decide

/-! ### C44 -/

/-- **C44** (partial) With at least two vectors in the pool (2D, 3D, substepped condensation, chemistry, ...) every sequence of
diagnostic calls — selections, consecutive selections, comparisons with critical radius / supersaturation, precipitation
rate — can be made without exhausting it.
Missing: pools of a single vector, `diag_pool_exhausted`. -/
theorem diag_pool_partial (c : Cfg) (hc : 2 ≤ drpNo c) (l : List Diag) :
    (run (fresh (drpNo c)) (l.flatMap (diagOps c))).isSome := by
  obtain ⟨k, hk⟩ : ∃ k, drpNo c = k + 2 := ⟨drpNo c - 2, by omega⟩
  rw [hk]
  -- the three states between diagnostic calls: no selection held, or held in vector 0 or 1
  have key : ∀ (l : List Diag) (s : St), (s = fresh (k + 2) ∨ s = ⟨true :: false :: List.replicate k false, [(0, 0)]⟩ ∨
      s = ⟨false :: true :: List.replicate k false, [(0, 1)]⟩) → (run s (l.flatMap (diagOps c))).isSome := by
    intro l
    induction l with
    | nil => intro s _; rfl
    | cons d l ih =>
      intro s hs
      have happ : ∀ (a b : List Op) (s : St), run s (a ++ b) = (run s a).bind (fun t => run t b) := by
        intro a
        induction a with
        | nil => intro b s; rfl
        | cons o a iha =>
          intro b s
          simp only [List.cons_append, run]
          cases step s o with
          | none => rfl
          | some t => simp [iha]
      rw [List.flatMap_cons, happ]
      have hstep : ∃ t, run s (diagOps c d) = some t ∧ (t = fresh (k + 2) ∨ t = ⟨true :: false :: List.replicate k false, [(0, 0)]⟩ ∨
          t = ⟨false :: true :: List.replicate k false, [(0, 1)]⟩) := by
        rcases hs with rfl | rfl | rfl <;> cases d <;> cases hv : c.vtFast <;>
          simp [diagOps, vtermOps, hv, run, step, fresh, acquire, destroy, firstFree, List.replicate_succ]
      obtain ⟨t, ht, hts⟩ := hstep
      rw [ht]
      exact ih t hts
  exact key l _ (Or.inl rfl)

/-- **C44** (negation) In a parcel (or 1D) setup with a single condensation substep and default options the pool holds one
vector, and `diag_rw_ge_rc` (also `diag_RH_ge_Sc`), or `diag_all` followed by `diag_precip_rate`, exhausts it. -/
theorem diag_pool_exhausted (c : Cfg) (h0 : c.nDims = 0 ∨ c.nDims = 1) (h1 : c.chem = false) (h2 : c.turbCond = false)
    (h3 : c.distmem = false) (h4 : c.sstpCond ≤ 1 ∧ c.sstpCondAct ≤ 1) (h5 : (c.ice && c.timeDepIceNucl) = false) :
    run (fresh (drpNo c)) ([.selectCmp].flatMap (diagOps c)) = none ∧
    run (fresh (drpNo c)) ([.select, .precipRate].flatMap (diagOps c)) = none := by
  replace h4 : c.allowSstp = false := by simp [Cfg.allowSstp]; omega
  have hd : drpNo c = 1 := by
    unfold drpNo
    simp only [h1, h2, h3, h4, h5]
    rcases h0 with h0 | h0 <;> simp [h0]
  rw [hd]
  refine ⟨by simp [diagOps, run, step, fresh, acquire, destroy, firstFree], ?_⟩
  cases hv : c.vtFast <;>
    simp [diagOps, vtermOps, hv, run, step, fresh, acquire, destroy, firstFree]

/-- default options in 2D with predictor-corrector: hypotheses of `adve_pool_exhausted` met -/
example : run (fresh (drpNo ⟨2, 1, 1, false, false, false, false, false, false, false, true, false⟩))
    (adveOps ⟨2, 1, 1, false, false, false, false, false, false, false, true, false⟩) = none :=
  adve_pool_exhausted _ rfl (Or.inr rfl) rfl rfl rfl (Or.inl ⟨le_rfl, le_rfl⟩)

end LCP.Pool
