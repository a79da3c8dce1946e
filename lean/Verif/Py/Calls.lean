import Verif.Py.Model
import Verif.Kernel.Model
import Mathlib.Data.List.Nodup
import Mathlib.Data.Finset.Card
import Mathlib.Data.List.Perm.Subperm
import Mathlib.Tactic.IntervalCases

/-!
# Keyword arguments and option assignment from Python (C100)
-/
namespace LCP.Py

/-! ### Keyword arguments -/

/-- **C100** A call succeeds and every argument reaches its parameter: position `i` gets the `i`-th positional argument or else the keyword
argument with the declared name of the position or else the default.  Hypotheses: positions without positional argument have names, pairwise different, and every
keyword is one of these names. -/
theorem call_ok {α : Type} (b : Bound) (pos : List α) (kw : List (String × α)) (hlen : pos.length ≤ b.arity)
    (hnamed : ∀ i, pos.length ≤ i → i < b.arity → ∃ n, b.nameOf i = some n)
    (hkw : (kw.map Prod.fst).Nodup)
    (huse : ∀ n ∈ kw.map Prod.fst, ∃ i, pos.length ≤ i ∧ i < b.arity ∧ b.nameOf i = some n) :
    ∃ r, b.call pos kw = some r ∧ r.length = b.arity ∧
      (∀ i (h : i < pos.length), r[i]? = some (some pos[i])) ∧
      (∀ i n, pos.length ≤ i → i < b.arity → b.nameOf i = some n → r[i]? = some (kw.lookup n)) := by
  classical
  -- a keyword per position
  choose! pick hp1 hp2 hp3 using huse
  have hinj : ∀ n ∈ kw.map Prod.fst, ∀ m ∈ kw.map Prod.fst, pick n = pick m → n = m := by
    intro n hn m hm h
    have h1 := hp3 n hn
    rw [h, hp3 m hm] at h1
    exact (Option.some.inj h1).symm
  have hcount : kw.length ≤ ((List.range b.arity).filter (b.byName pos.length kw)).length := by
    have hnd : ((kw.map Prod.fst).map pick).Nodup := hkw.map_on hinj
    have hsub : (kw.map Prod.fst).map pick ⊆ (List.range b.arity).filter (b.byName pos.length kw) := by
      intro i hi
      obtain ⟨n, hn, rfl⟩ := List.mem_map.1 hi
      rw [List.mem_filter]
      refine ⟨List.mem_range.2 (hp2 n hn), ?_⟩
      have : (kw.lookup n).isSome := by
        obtain ⟨⟨n', v⟩, he, rfl⟩ := List.mem_map.1 hn
        rw [List.lookup_isSome_iff]
        exact ⟨_, he, by simp⟩
      simp [Bound.byName, hp1 n hn, hp3 n hn, this]
    have := (List.subperm_of_subset hnd hsub).length_le
    simpa using this
  have htot : pos.length + kw.length ≤ b.arity := by
    have hnd : (List.range pos.length ++ (kw.map Prod.fst).map pick).Nodup := by
      rw [List.nodup_append]
      refine ⟨List.nodup_range, hkw.map_on hinj, ?_⟩
      intro x hx y hy
      obtain ⟨n, hn, rfl⟩ := List.mem_map.1 hy
      have := hp1 n hn
      have := List.mem_range.1 hx
      omega
    have hsub : List.range pos.length ++ (kw.map Prod.fst).map pick ⊆ List.range b.arity := by
      intro x hx
      rw [List.mem_append] at hx
      rcases hx with hx | hx
      · have := List.mem_range.1 hx; exact List.mem_range.2 (by omega)
      · obtain ⟨n, hn, rfl⟩ := List.mem_map.1 hx
        exact List.mem_range.2 (hp2 n hn)
    have := (List.subperm_of_subset hnd hsub).length_le
    simpa using this
  unfold Bound.call
  rw [if_neg (by omega)]
  simp only []
  rw [if_neg, if_neg (by omega)]
  · refine ⟨_, rfl, by simp, ?_, ?_⟩
    · intro i hi
      have : i < b.arity := by omega
      simp [this, hi]
    · intro i n h1 h2 h3
      have : ¬ i < pos.length := by omega
      simp [h2, this, h3]
  · rw [List.any_map, Bool.not_eq_true, List.any_eq_false]
    intro i hi
    rw [List.mem_range] at hi
    by_cases h : i < pos.length
    · simp [h]
    · obtain ⟨n, hn⟩ := hnamed i (by omega) hi
      simp [h, hn]

/-- **C100** `step_sync`, `sync_in` and `step_cond`: each name belongs to the parameter with that name. -/
theorem names_aligned :
    (∀ i n, i < stepSyncB.arity → stepSyncB.nameOf i = some n → stepSyncParams[i]? = some n) ∧
    (∀ i n, i < syncInB.arity → syncInB.nameOf i = some n → syncInParams[i]? = some n) ∧
    (∀ i n, i < stepCondB.arity → stepCondB.nameOf i = some n → stepCondParams[i]? = some n) ∧
    stepSyncParams.length = stepSyncB.arity ∧ syncInParams.length = syncInB.arity ∧ stepCondParams.length = stepCondB.arity := by
  refine ⟨?_, ?_, ?_, rfl, rfl, rfl⟩
  · intro i n hi h
    have hi : i < 9 := hi
    interval_cases i <;> first | (exact h) | (revert h; simp [stepSyncB, Bound.nameOf])
  · intro i n hi h
    have hi : i < 8 := hi
    interval_cases i <;> exact h
  · intro i n hi h
    have hi : i < 4 := hi
    interval_cases i <;> first | (exact h) | (revert h; simp [stepCondB, Bound.nameOf])

/-- **C100** (negation) `init`: the pressure has no name, so the first three names belong to the parameter after the one they name. -/
theorem init_names_shifted :
    initB.nameOf 0 = none ∧
    (initB.nameOf 1 = some "th" ∧ initParams[1]? = some "rv") ∧ (initB.nameOf 2 = some "rv" ∧ initParams[2]? = some "rhod") ∧
    (initB.nameOf 3 = some "rhod" ∧ initParams[3]? = some "p") ∧
    ∀ i, 4 ≤ i → i < 8 → initB.nameOf i = initParams[i]? := by
  refine ⟨by decide, by decide, by decide, by decide, ?_⟩
  decide

/-- ... hence `init(th, rv=..., rhod=...)` passes the vapour as density, the density as pressure, and no vapour ... -/
theorem init_keywords_wrong {α : Type} (th rv rhod : α) :
    initB.call [th] [("rv", rv), ("rhod", rhod)] = some [some th, none, some rv, some rhod, none, none, none, none] := by
  simp [Bound.call, initB, List.range, List.range.loop, Bound.nameOf, Bound.byName, List.lookup]

/-- ... th cannot be given by name ... -/
theorem init_th_not_by_name {α : Type} (kw : List (String × α)) : initB.call [] kw = none := by
  unfold Bound.call
  split_ifs with h1
  · rfl
  · simp only []
    rw [if_pos]
    rw [List.any_map, List.any_eq_true]
    refine ⟨0, by decide, ?_⟩
    simp [initB, Bound.nameOf]

/-- ... nor can the pressure. -/
theorem init_p_not_by_name {α : Type} (pos : List α) (kw : List (String × α))
    (hp : "p" ∈ kw.map Prod.fst) : initB.call pos kw = none := by
  classical
  unfold Bound.call
  split_ifs with h1
  · rfl
  simp only []
  split_ifs with h2 h3
  · rfl
  · rfl
  · exfalso
    apply h3
    -- positions whose name is a keyword inject into the keywords other than p
    set F := (List.range initB.arity).filter (initB.byName pos.length kw) with hF
    have hnd : F.Nodup := List.nodup_range.filter _
    have hname : ∀ i ∈ F, ∃ n, initB.nameOf i = some n ∧ n ∈ kw.map Prod.fst ∧ i < 8 := by
      intro i hi
      rw [hF, List.mem_filter] at hi
      obtain ⟨h4, h5⟩ := hi
      unfold Bound.byName at h5
      have h6 := (Bool.and_eq_true _ _ ▸ h5 : _ ∧ _).2
      cases hn : initB.nameOf i with
      | none => rw [hn] at h6; simp at h6
      | some n =>
        rw [hn] at h6
        simp only [] at h6
        rw [List.lookup_isSome_iff] at h6
        obtain ⟨p, hp1, hp2⟩ := h6
        refine ⟨n, rfl, ?_, List.mem_range.1 h4⟩
        have : n = p.1 := by simpa using hp2
        rw [this]
        exact List.mem_map_of_mem hp1
    have hinj : ∀ i j : Fin 8, initB.nameOf i = initB.nameOf j → (initB.nameOf i).isSome → i = j := by decide
    have hnp : ∀ i : Fin 8, initB.nameOf i ≠ some "p" := by decide
    have hnd2 : ("p" :: F.map fun i => (initB.nameOf i).getD "").Nodup := by
      rw [List.nodup_cons]
      refine ⟨?_, hnd.map_on ?_⟩
      · intro h
        obtain ⟨i, hi, he⟩ := List.mem_map.1 h
        obtain ⟨n, hn, -, h8⟩ := hname i hi
        rw [hn] at he
        exact hnp ⟨i, h8⟩ (by rw [hn]; exact congrArg some he)
      · intro i hi j hj he
        obtain ⟨n, hn, -, h8⟩ := hname i hi
        obtain ⟨m, hm, -, h8'⟩ := hname j hj
        rw [hn, hm] at he
        have : n = m := he
        subst this
        have := hinj ⟨i, h8⟩ ⟨j, h8'⟩ (by rw [hn, hm]) (by rw [hn]; rfl)
        exact congrArg Fin.val this
    have hsub : ("p" :: F.map fun i => (initB.nameOf i).getD "") ⊆ kw.map Prod.fst := by
      intro x hx
      rw [List.mem_cons] at hx
      rcases hx with rfl | hx
      · exact hp
      · obtain ⟨i, hi, rfl⟩ := List.mem_map.1 hx
        obtain ⟨n, hn, hm, -⟩ := hname i hi
        rw [hn]; exact hm
    have := (List.subperm_of_subset hnd2 hsub).length_le
    simp at this
    omega

/-- what does work: th, rv, rhod (and p) by position and the rest by name -/
theorem init_positional_partial {α : Type} (pos : List α) (kw : List (String × α)) (h3 : pos.length = 3 ∨ pos.length = 4)
    (hkw : (kw.map Prod.fst).Nodup) (huse : ∀ n ∈ kw.map Prod.fst, n ∈ ["Cx", "Cy", "Cz", "ambient_chem"]) :
    ∃ r, initB.call pos kw = some r ∧
      (∀ i (h : i < pos.length), r[i]? = some (some pos[i])) ∧
      (∀ i n, 4 ≤ i → initParams[i]? = some n → r[i]? = some (kw.lookup n)) ∧
      (pos.length = 3 → r[3]? = some none) := by
  have hal := init_names_shifted.2.2.2.2
  have hal3 := init_names_shifted.2.2.2.1.1
  have ha : initB.arity = 8 := rfl
  obtain ⟨r, hr, hl, hpos, hk⟩ := call_ok initB pos kw (by omega)
    (by
      intro i hi h8
      rw [ha] at h8
      have : i = 3 ∨ 4 ≤ i := by omega
      rcases this with rfl | h4
      · exact ⟨_, hal3⟩
      · refine ⟨initParams[i]'(by simpa [initParams] using h8), ?_⟩
        rw [hal i h4 h8, List.getElem?_eq_getElem (by simpa [initParams] using h8)])
    hkw
    (by
      intro n hn
      have := huse n hn
      simp only [List.mem_cons, List.not_mem_nil, or_false] at this
      rcases this with rfl | rfl | rfl | rfl
      · exact ⟨4, by omega, by decide, by decide⟩
      · exact ⟨5, by omega, by decide, by decide⟩
      · exact ⟨6, by omega, by decide, by decide⟩
      · exact ⟨7, by omega, by decide, by decide⟩)
  refine ⟨r, hr, hpos, ?_, ?_⟩
  · intro i n h4 hn
    have h8 : i < 8 := by
      have := (List.getElem?_eq_some_iff.1 hn).1
      simpa [initParams] using this
    exact hk i n (by omega) h8 (by rw [hal i h4 h8, hn])
  · intro h
    rw [hk 3 "rhod" (by omega) (by decide) hal3]
    congr 1
    rw [List.lookup_eq_none_iff]
    intro p hp
    have := huse p.1 (List.mem_map_of_mem hp)
    simp only [List.mem_cons, List.not_mem_nil, or_false] at this
    rcases this with h | h | h | h <;> rw [h] <;> decide

/-- the usual call -/
example : initB.call [1, 2, 3] [("Cz", 5), ("Cx", 4)] =
    some [some 1, some 2, some 3, none, some 4, none, some 5, none] := by decide

/-! ### Option assignment -/

theorem keyEquiv (a b : ℚ × ℚ) : (!keyLt a b && !keyLt b a) = true ↔ a = b := by
  unfold keyLt
  constructor
  · intro h
    by_cases h1 : a.1 = b.1
    · simp [h1] at h
      exact Prod.ext h1 (le_antisymm h.2 h.1)
    · simp [h1, Ne.symm h1] at h
      exact absurd (le_antisymm h.2 h.1) h1
  · rintro rfl; simp

theorem lookup_insert {α : Type} (p : (ℚ × ℚ) × α → Bool) (m : List ((ℚ × ℚ) × α)) (k : ℚ × ℚ) (v : α) (x : ℚ × ℚ)
    (hk : ∀ e ∈ m, e.1 ≠ k) :
    ((m.takeWhile p) ++ (k, v) :: m.dropWhile p).lookup x = if x = k then some v else m.lookup x := by
  induction m with
  | nil =>
    by_cases h : x = k
    · simp [h]
    · have : (x == k) = false := by simpa using h
      simp [List.lookup, this, h]
  | cons e m ih =>
    have hk' : ∀ e ∈ m, e.1 ≠ k := fun e he => hk e (List.mem_cons_of_mem _ he)
    have hek := hk e List.mem_cons_self
    by_cases hp : p e = true
    · rw [List.takeWhile_cons_of_pos hp, List.dropWhile_cons_of_pos hp, List.cons_append]
      obtain ⟨e1, e2⟩ := e
      by_cases h : x = e1
      · subst h
        have : x ≠ k := hek
        simp [List.lookup, this]
      · have h' : (x == e1) = false := by simpa using h
        rw [List.lookup, h', ih hk', List.lookup, h']
    · have hp : p e = false := by simpa using hp
      rw [List.takeWhile_cons_of_neg (by simp [hp]), List.dropWhile_cons_of_neg (by simp [hp]), List.nil_append, List.lookup]
      by_cases h : x = k
      · simp [h]
      · have h' : (x == k) = false := by simpa using h
        rw [h', if_neg h]

theorem any_iff {α : Type} (m : List ((ℚ × ℚ) × α)) (k : ℚ × ℚ) :
    (m.any (fun e => !keyLt e.1 k && !keyLt k e.1)) = true ↔ ∃ e ∈ m, e.1 = k := by
  rw [List.any_eq_true]
  simp only [keyEquiv]

theorem lookup_emplace {α : Type} (m : List ((ℚ × ℚ) × α)) (k : ℚ × ℚ) (v : α) (x : ℚ × ℚ) :
    (mapEmplace keyLt m k v).lookup x = if x = k ∧ m.lookup k = none then some v else m.lookup x := by
  unfold mapEmplace
  split_ifs with h1 h2 h2
  · obtain ⟨e, he, rfl⟩ := (any_iff m k).1 h1
    have := List.lookup_eq_none_iff.1 h2.2 e he
    simp at this
  · rfl
  · have hk : ∀ e ∈ m, e.1 ≠ k := by
      intro e he hek
      exact h1 ((any_iff m k).2 ⟨e, he, hek⟩)
    rw [lookup_insert _ m k v x hk, if_pos h2.1]
  · have hk : ∀ e ∈ m, e.1 ≠ k := by
      intro e he hek
      exact h1 ((any_iff m k).2 ⟨e, he, hek⟩)
    rw [lookup_insert _ m k v x hk, if_neg]
    rintro rfl
    apply h2
    refine ⟨rfl, ?_⟩
    rw [List.lookup_eq_none_iff]
    intro e he
    have := hk e he
    simpa using fun h => this h.symm

/-- **C100** Assigning `dry_distros` (or `src_dry_distros`) replaces it: whatever it was, afterwards the entry of every key is the one in the dict. -/
theorem set_distros_replaces {α : Type} (old new : List ((ℚ × ℚ) × α)) (x : ℚ × ℚ) :
    (setDistros old new).lookup x = new.lookup x := by
  unfold setDistros
  have : ∀ m : List ((ℚ × ℚ) × α), (new.foldl (fun m e => mapEmplace keyLt m e.1 e.2) m).lookup x =
      (m.lookup x).or (new.lookup x) := by
    induction new with
    | nil => intro m; simp
    | cons e new ih =>
      intro m
      obtain ⟨k, v⟩ := e
      rw [List.foldl_cons, ih, lookup_emplace]
      by_cases hx : x = k
      · subst hx
        cases hm : m.lookup x with
        | none => simp [List.lookup]
        | some w => simp
      · have h' : (x == k) = false := by simpa using hx
        simp [hx, List.lookup, h']
  simpa using this []

theorem lookup_map_assign {α : Type} (m : List ((ℚ × ℚ) × α)) (k : ℚ × ℚ) (v : α) (x : ℚ × ℚ) (hk : ∃ e ∈ m, e.1 = k) :
    (m.map fun e => if !keyLt e.1 k && !keyLt k e.1 then (e.1, v) else e).lookup x =
      if x = k then some v else m.lookup x := by
  by_cases hx : x = k
  · subst hx
    rw [if_pos rfl]
    induction m with
    | nil => obtain ⟨e, he, -⟩ := hk; simp at he
    | cons e m ih =>
      rw [List.map_cons]
      obtain ⟨e1, e2⟩ := e
      by_cases h : e1 = x
      · have h2 := (keyEquiv e1 x).2 h
        simp only [h2, if_true]
        rw [List.lookup, h]; simp
      · have h2 : ¬ (!keyLt e1 x && !keyLt x e1) = true := fun hh => h ((keyEquiv e1 x).1 hh)
        have h3 : (x == e1) = false := by simpa using fun hh : x = e1 => h hh.symm
        simp only [h2]
        rw [List.lookup]
        simp only [Bool.false_eq_true, if_false, h3]
        apply ih
        obtain ⟨e, he, hek⟩ := hk
        rw [List.mem_cons] at he
        rcases he with rfl | he
        · exact absurd hek h
        · exact ⟨e, he, hek⟩
  · rw [if_neg hx]
    clear hk
    induction m with
    | nil => rfl
    | cons e m ih =>
      rw [List.map_cons]
      obtain ⟨e1, e2⟩ := e
      by_cases h : e1 = k
      · have h2 := (keyEquiv e1 k).2 h
        have h3 : (x == e1) = false := by rw [h]; simpa using hx
        simp only [h2, if_true]
        rw [List.lookup, h3, List.lookup, h3]
        exact ih
      · have h2 : ¬ (!keyLt e1 k && !keyLt k e1) = true := fun hh => h ((keyEquiv e1 k).1 hh)
        simp only [h2]
        rw [if_neg (by simp), List.lookup, List.lookup]
        rw [ih]

theorem lookup_assign {α : Type} (m : List ((ℚ × ℚ) × α)) (k : ℚ × ℚ) (v : α) (x : ℚ × ℚ) :
    (mapAssign keyLt m k v).lookup x = if x = k then some v else m.lookup x := by
  unfold mapAssign
  split_ifs with h1 h2 h2
  · subst h2; rw [lookup_map_assign m x v x ((any_iff m x).1 h1), if_pos rfl]
  · rw [lookup_map_assign m k v x ((any_iff m k).1 h1), if_neg h2]
  all_goals
    have hk : ∀ e ∈ m, e.1 ≠ k := fun e he hek => h1 ((any_iff m k).2 ⟨e, he, hek⟩)
    rw [lookup_insert _ m k v x hk]
  · rw [if_pos h2]
  · rw [if_neg h2]

/-- **C100** Likewise `dry_sizes` and `src_dry_sizes`. -/
theorem set_sizes_replaces {α : Type} (old new : List ((ℚ × ℚ) × α)) (hd : (new.map Prod.fst).Nodup) (x : ℚ × ℚ) :
    (setSizes old new).lookup x = new.lookup x := by
  unfold setSizes
  split_ifs with h0
  · rw [List.length_eq_zero_iff.1 h0]
  have : ∀ m : List ((ℚ × ℚ) × α), (new.foldl (fun m e => mapAssign keyLt m e.1 e.2) m).lookup x =
      (new.lookup x).or (m.lookup x) := by
    clear h0
    induction new with
    | nil => intro m; simp
    | cons e new ih =>
      intro m
      obtain ⟨k, v⟩ := e
      rw [List.map_cons, List.nodup_cons] at hd
      rw [List.foldl_cons, ih hd.2, lookup_assign]
      by_cases hx : x = k
      · subst hx
        have : new.lookup x = none := by
          rw [List.lookup_eq_none_iff]
          intro p hp
          have : p.1 ≠ x := fun h => hd.1 (List.mem_map.2 ⟨p, hp, h⟩)
          simpa using fun h => this h.symm
        rw [this]
        simp [List.lookup]
      · have h' : (x == k) = false := by simpa using hx
        simp [hx, List.lookup, h']
  simpa using this []

example : setSizes [((1, 0), "old")] [((2, 0), "a"), ((1, 3), "b")] = [((1, 3), "b"), ((2, 0), "a")] := by decide +kernel

theorem foldl_append {α : Type} (new old : List α) : new.foldl (fun l x => l ++ [x]) old = old ++ new := by
  induction new generalizing old with
  | nil => simp
  | cons a l ih => rw [List.foldl_cons, ih]; simp

/-- **C100** Assigning `w_LS` or `SGS_mix_len` replaces the profile. -/
theorem set_profile_replaces {α : Type} (a : NpArr) (old new : List α) (h1 : a.dtype = .float64) (h2 : a.cContig = true) :
    setProfile a old new = some new := by
  unfold setProfile
  rw [if_neg (by simp [h1, h2]), foldl_append, List.nil_append]

/-- **C100** (negation) Assigning `kernel_parameters` does not replace them: the new ones are added to the old ones. -/
theorem set_kernel_params_appends {α : Type} (a : NpArr) (old new : List α) (h1 : a.dtype = .float64) (h2 : a.cContig = true) :
    setKernelParams a old new = some (old ++ new) := by
  unfold setKernelParams
  rw [if_neg (by simp [h1, h2]), foldl_append]

/-- ... so that correcting a parameter makes `init` throw: after `kernel_parameters = [x]` and then `= [y]` no kernel that takes one parameter
can be initialised. -/
theorem kernel_params_twice (tab : Kernel.Table → List ℝ) (tc : Bool) (k : Kernel.Kind) (a : NpArr) (x y : ℝ) (h1 : a.dtype = .float64)
    (h2 : a.cContig = true) :
    ∃ l, (setKernelParams a [] [x]).bind (fun l => setKernelParams a l [y]) = some l ∧ Kernel.initKernel tab tc l k = none := by
  refine ⟨[x, y], ?_, ?_⟩
  · rw [set_kernel_params_appends a [] [x] h1 h2, List.nil_append, Option.bind_some, set_kernel_params_appends a [x] [y] h1 h2]; rfl
  · cases k <;> simp [Kernel.initKernel]

/-- **C100** (negation) Likewise the modes of the double-moment bulk scheme: assigning the same list twice doubles the aerosol. -/
theorem set_modes_2m_appends {α : Type} (old new : List α) : setModes2m old new = old ++ new := foldl_append new old

end LCP.Py
