import Verif.Src.MatchProps

/-!
# C77: what holds with clashes, and what does not
-/
namespace LCP.Src
open LCP.Grid LCP.Init

/-- **C77** the temporary vectors `bin_cell_count` and `bin_cell_count_ptr`, of size `n_part_tot_in_src + n_cell + 1`, are large enough for the runs
written to them, whatever super-droplets exist -/
theorem buffers_suffice {e : Env} {pop : List Sd} {ord : List ℕ} (hc : Conf e) (hp : PopOk e pop) (hs : Sorted pop ord) {cnt : ℕ → ℕ}
    (hcnt : ∀ c, cnt c = open Classical in if InSource e.d e.b e.s c then e.number else 0) :
    (bins e cnt pop ord).length ≤ total e cnt + e.d.nCell + 1 := by
  classical
  have hcnt' : ∀ c, cnt c = if InSource e.d e.b e.s c then e.number else 0 := fun c => by rw [hcnt]
  have hgood := good (cnt := cnt) hs hc.range (fun s h => (hp s h).1) (cnt_le hc hcnt')
  have h := runs_bound hgood (slotList cnt e.d.nCell).toFinset e.d.nCell ?_ ?_
  · rw [List.toFinset_card_of_nodup (nodup_slotList _), length_slotList] at h
    exact h
  · intro p hpl hb
    rw [keys_length hs] at hpl
    obtain ⟨s, h1, _, h3⟩ := sorted_at (e := e) (cnt := cnt) hs hpl
    rw [h3] at hb ⊢
    obtain ⟨g1, g2, g3⟩ := (slot_iff (s := s) hc hcnt').2 ⟨rfl, hb⟩
    rw [List.mem_toFinset, mem_slotList]
    exact ⟨(hp s (List.mem_of_getElem? h1)).2, by simp only [hcnt', if_pos g2]; exact g3.1⟩
  · intro p hpl
    rw [keys_length hs] at hpl
    obtain ⟨s, h1, _, h3⟩ := sorted_at (e := e) (cnt := cnt) hs hpl
    rw [h3]
    exact (hp s (List.mem_of_getElem? h1)).2

/-- every pair kept by `unique_by_key` stands for a run of its own -/
theorem unique_le_inner {K : List (ℕ × ℕ)} (hK : Good K) : (uniqueByKey (K.filter fun p => p.2 ≠ outOfBins)).length ≤ (inner K).length := by
  classical
  set U := uniqueByKey (K.filter fun p => p.2 ≠ outOfBins) with hU
  have hst := unique_strict (filter_sorted hK)
  have hch := unique_chain (K.filter fun p => p.2 ≠ outOfBins)
  rw [← hU] at hst hch
  rw [List.pairwise_iff_getElem] at hst
  rw [List.isChain_iff_getElem] at hch
  have hpos : ∀ i : Fin U.length, ∃ p g, InRun K g p ∧ at' K p = U[i] ∧ U[i].2 ≠ outOfBins := by
    intro i
    have hm : U[i] ∈ K.filter (fun p => p.2 ≠ outOfBins) := (unique_sublist _).subset (List.getElem_mem i.2)
    rw [List.mem_filter] at hm
    obtain ⟨p, hp, hpe⟩ := List.getElem_of_mem hm.1
    obtain ⟨g, hg⟩ := inRun_exists hp
    exact ⟨p, g, hg, by unfold at'; rw [List.getD_eq_getElem _ _ hp, hpe], by simpa using hm.2⟩
  choose p g hrun hat hne using hpos
  have hplt : ∀ i j : Fin U.length, i < j → p i < p j := by
    intro i j hij
    by_contra hge
    have hb := hst i j i.2 j.2 hij
    rcases (Nat.le_of_not_lt hge).eq_or_lt with he | hlt
    · have : at' K (p i) = at' K (p j) := by rw [he]
      rw [hat, hat] at this
      have hb' : Before U[i] U[j] := hb
      rw [this] at hb'
      exact Before.irrefl hb'
    · have hm := hK.mono _ _ hlt (hrun i).lt
      rw [hat, hat] at hm
      have n1 := hne i; have n2 := hne j
      have hb' : Before U[i] U[j] := hb
      unfold Before at hb'
      omega
  have hgle : ∀ i j : Fin U.length, i < j → g i ≤ g j := by
    intro i j hij
    by_contra hlt
    have h1 := start_mono (R := runs K) (show g j + 1 ≤ g i by omega)
    rw [start_succ] at h1
    have := hplt i j hij
    have := (hrun i).2.1; have := (hrun j).2.2
    omega
  have hglt : ∀ i j : Fin U.length, i < j → g i < g j := by
    intro i j hij
    have hi1 : i.1 + 1 < U.length := by have := j.2; have : i.1 < j.1 := hij; omega
    have h1 : g i < g ⟨i.1 + 1, hi1⟩ := by
      refine lt_of_le_of_ne (hgle _ _ (by show i.1 < i.1 + 1; omega)) fun he => ?_
      have k1 := (hrun i).key
      have k2 := (hrun ⟨i.1 + 1, hi1⟩).key
      rw [hat] at k1 k2
      rw [← he, ← k1] at k2
      exact hch i hi1 k2.symm
    rcases (show i.1 + 1 ≤ j.1 from hij).eq_or_lt with he | hlt
    · have : (⟨i.1 + 1, hi1⟩ : Fin U.length) = j := Fin.ext he
      rw [this] at h1; exact h1
    · exact lt_of_lt_of_le h1 (hgle _ _ hlt)
  have hinj : Function.Injective g := by
    intro i j he
    rcases lt_trichotomy i j with h | h | h
    · have := hglt i j h; omega
    · exact h
    · have := hglt j i h; omega
  have hcard : (Finset.univ.image g).card ≤ (inner K).toFinset.card := by
    apply Finset.card_le_card
    intro x hx
    obtain ⟨i, _, rfl⟩ := Finset.mem_image.1 hx
    rw [List.mem_toFinset, inner_mem]
    exact ⟨(hrun i).1, by rw [← (hrun i).key, hat]; exact hne i⟩
  rw [Finset.card_image_of_injective _ hinj, Finset.card_univ, Fintype.card_fin, List.toFinset_card_of_nodup (inner_nodup K)] at hcard
  exact hcard

/-- **C77** with or without clashes, the number of emissions (super-droplets raised plus super-droplets created) is at least the number of size intervals of all
source cells: in total the source never emits for too few of them -/
theorem emissions_ge {e : Env} {r : Rnd} {gb : List (ℕ × ℝ)} {pop pop' : List Sd} {ord : List ℕ} (hc : Conf e) (hr : RndOk e r) (hp : PopOk e pop)
    (hs : Sorted pop ord) (h : srcMatching e r gb pop ord = some pop') :
    ∃ (sel : List ℕ) (new : List Sd) (cnt : ℕ → ℕ), (∀ c, cnt c = open Classical in if InSource e.d e.b e.s c then e.number else 0) ∧
      sel.Nodup ∧ (∀ i ∈ sel, ∃ s c b, pop[i]? = some s ∧ Slot e c b s) ∧
      (∀ (i : ℕ), i < pop.length → pop'[i]? = if i ∈ sel then (pop[i]?).map (raise e) else pop[i]?) ∧
      (∀ i, pop'[pop.length + i]? = new[i]?) ∧ ((List.range e.d.nCell).map cnt).sum ≤ sel.length + new.length := by
  classical
  obtain ⟨cnt, new, hcnt, h, hlen, _, _⟩ := core hc hr hp hs h
  have hcnt' : ∀ c, cnt c = if InSource e.d e.b e.s c then e.number else 0 := fun c => by rw [hcnt]
  have hgood := good (cnt := cnt) hs hc.range (fun s h => (hp s h).1) (cnt_le hc hcnt')
  have hnd := picked_nodup (e := e) (cnt := cnt) (r := r) hs hr.pick
  have hlenF := modify_fold_length (raise e) (picked e cnt r pop ord) pop
  refine ⟨picked e cnt r pop ord, new, cnt, hcnt, hnd, ?_, ?_, ?_, ?_⟩
  · intro i hi
    obtain ⟨m, hm, rfl⟩ := List.getElem_of_mem hi
    obtain ⟨q1, q2, q3⟩ := picked_run (e := e) (cnt := cnt) hs hr.pick hm
    obtain ⟨s, g1, g2, g3⟩ := sorted_at (e := e) (cnt := cnt) hs q2
    rw [picked_get hm]
    exact ⟨s, s.cell, binOf e cnt s, g1, (slot_iff hc hcnt').2 ⟨rfl, by rw [g3] at q3; exact q3⟩⟩
  · intro i hi
    rw [h, List.getElem?_append_left (by rw [hlenF]; exact hi), modify_fold (raise e) _ hnd]
  · intro i
    rw [h, List.getElem?_append_right (by rw [hlenF]; omega), hlenF, Nat.add_sub_cancel_left]
  · have h1 := unique_le_inner hgood
    rw [picked_length]
    have h2 : (matchedBins e cnt pop ord).length ≤ (inner (sortedKeys e cnt pop ord)).length := h1
    have h3 : total e cnt = ((List.range e.d.nCell).map cnt).sum := rfl
    omega

/-! ### Counterexamples -/

/-- **C77** (negation) Two super-droplets of the same size interval in two source cells `c < c'`, nothing else.  If the random number is at least 1/2, cell `c`
gets no particles in this interval although the source covers it, while in `c'` the existing super-droplet is raised and a new one is created besides. -/
theorem clash {e : Env} {r : Rnd} {gb : List (ℕ × ℝ)} {s t : Sd} {pop' : List Sd} {c c' b : ℕ} (hc : Conf e) (hr : RndOk e r) (hp : PopOk e [s, t])
    (hcc : c < c') (h1 : Slot e c b s) (h2 : Slot e c' b t) (hu : 1 / 2 ≤ r.pick 0) (h : srcMatching e r gb [s, t] [0, 1] = some pop') :
    ∃ new : List Sd, pop' = [s, raise e t] ++ new ∧ (∀ x ∈ new, ¬ Slot e c b x) ∧ ∃ x ∈ new, Slot e c' b x := by
  classical
  have hs : Sorted [s, t] [0, 1] := by
    constructor
    · simp [List.range_succ]
    · intro p q hpq hq a b' ha hb
      have hp0 : p = 0 := by simp at hq; omega
      have hq1 : q = 1 := by simp at hq; omega
      subst hp0 hq1
      simp at ha hb
      subst ha hb
      left; rw [h1.1, h2.1]; exact hcc
  obtain ⟨cnt, new, hcnt, h, _, hf, hfill⟩ := core hc hr hp hs h
  have hcnt' : ∀ c, cnt c = if InSource e.d e.b e.s c then e.number else 0 := fun c => by rw [hcnt]
  obtain ⟨k1, k2⟩ := (slot_iff hc hcnt').1 h1
  obtain ⟨k3, _⟩ := (slot_iff hc hcnt').1 h2
  have hK : sortedKeys e cnt [s, t] [0, 1] = [(c, b), (c', b)] := by
    simp only [sortedKeys, List.map_cons, List.map_nil, List.getElem?_cons_zero, List.getElem?_cons_succ, k1, k3]
  have hU : matchedBins e cnt [s, t] [0, 1] = [(c, b)] := by
    simp [matchedBins, hK, k2, uniqueByKey]
  have hR : runs (sortedKeys e cnt [s, t] [0, 1]) = [(b, 2)] := by simp [hK, runs, reduceByKey]
  have hP : picked e cnt r [s, t] [0, 1] = [1] := by
    have hu1 := (hr.pick 0).2
    have hfl : ⌊r.pick 0 * ((2 : ℕ) : ℝ)⌋₊ = 1 := by
      rw [Nat.floor_eq_iff (by push_cast; linarith)]; push_cast; constructor <;> linarith
    have hin : inner (sortedKeys e cnt [s, t] [0, 1]) = [0] := by
      unfold inner; rw [hR]; simp [k2]
    have hlen : (picked e cnt r [s, t] [0, 1]).length = 1 := by rw [picked_length, hin]; rfl
    apply List.ext_getElem
    · rw [hlen]; rfl
    · intro i hi1 hi2
      have : i = 0 := by rw [hlen] at hi1; omega
      subst this
      rw [picked_get hi1]
      unfold pos toUint
      rw [hin, hR]
      simp only [List.getD_cons_zero, size, start, exclusiveScan, hfl]
      rfl
  refine ⟨new, ?_, ?_, ?_⟩
  · rw [h, hP]; rfl
  · intro x hx hsl
    obtain ⟨i, hi⟩ := List.getElem?_of_mem hx
    obtain ⟨c1, b1, _, g2, _, g4⟩ := hf i x hi
    obtain ⟨rfl, rfl⟩ := slot_key hc hsl g2
    rw [hU] at g4
    simp at g4
  · obtain ⟨i, x, g1, g2, _⟩ := hfill c' (by rw [← h2.1]; exact (hp t (by simp)).2) h2.2.1 b h2.2.2.1 (by rw [hU]; simp; omega)
    exact ⟨x, List.mem_of_getElem? g1, g2⟩

/-- **C77** (negation) The same with a third super-droplet, out of the range of sizes, sorted between the two: then, whatever the random numbers, both existing
ones are raised and a new one is created besides in `c'`: three emissions for two intervals, too many particles in total. -/
theorem clash_excess {e : Env} {r : Rnd} {gb : List (ℕ × ℝ)} {s o t : Sd} {pop' : List Sd} {c c' b : ℕ} (hc : Conf e) (hr : RndOk e r)
    (hp : PopOk e [s, o, t]) (hcc : c < c') (h1 : Slot e c b s) (h2 : Slot e c' b t) (h3 : o.cell = c) (h4 : e.hi ≤ Real.log o.rd3 / 3)
    (h : srcMatching e r gb [s, o, t] [0, 1, 2] = some pop') :
    ∃ new : List Sd, pop' = [raise e s, o, raise e t] ++ new ∧ ∃ x ∈ new, Slot e c' b x := by
  classical
  have hso : s.rd3 ≤ o.rd3 := by
    have hlog : Real.log s.rd3 / 3 < e.hi := by
      obtain ⟨g1, _, g3⟩ := h1.2.2
      have hm : (0 : ℝ) < e.number := by exact_mod_cast (by omega : 0 < e.number)
      have hw : 0 < (e.hi - e.lo) / e.number := div_pos (by linarith [hc.range]) hm
      have hend : e.lo + e.number * ((e.hi - e.lo) / e.number) = e.hi := by field_simp; ring
      have hbm : (b : ℝ) + 1 ≤ e.number := by exact_mod_cast g1
      nlinarith
    have := (Real.log_lt_log_iff (hp s (by simp)).1 (hp o (by simp)).1).1 (by linarith)
    exact this.le
  have hs : Sorted [s, o, t] [0, 1, 2] := by
    constructor
    · simp [List.range_succ]
    · intro p q hpq hq a b' ha hb
      simp only [List.length_cons, List.length_nil] at hq
      have hc2 : s.cell < t.cell := by rw [h1.1, h2.1]; exact hcc
      have hc3 : o.cell < t.cell := by rw [h3, h2.1]; exact hcc
      have hc1 : s.cell = o.cell := by rw [h1.1, h3]
      obtain ⟨rfl, rfl⟩ | ⟨rfl, rfl⟩ | ⟨rfl, rfl⟩ : (p = 0 ∧ q = 1) ∨ (p = 0 ∧ q = 2) ∨ (p = 1 ∧ q = 2) := by omega
      · simp at ha hb; subst ha hb; right; exact ⟨hc1, hso⟩
      · simp at ha hb; subst ha hb; left; exact hc2
      · simp at ha hb; subst ha hb; left; exact hc3
  obtain ⟨cnt, new, hcnt, h, _, hf, hfill⟩ := core hc hr hp hs h
  have hcnt' : ∀ c, cnt c = if InSource e.d e.b e.s c then e.number else 0 := fun c => by rw [hcnt]
  obtain ⟨k1, k2⟩ := (slot_iff hc hcnt').1 h1
  obtain ⟨k3, _⟩ := (slot_iff hc hcnt').1 h2
  have ko : (o.cell, binOf e cnt o) = (c, outOfBins) := by
    unfold binOf getBinNo; simp only; rw [if_pos (Or.inr (Or.inl h4)), h3]
  have hK : sortedKeys e cnt [s, o, t] [0, 1, 2] = [(c, b), (c, outOfBins), (c', b)] := by
    simp only [sortedKeys, List.map_cons, List.map_nil, List.getElem?_cons_zero, List.getElem?_cons_succ, k1, k3, ko]
  have hU : matchedBins e cnt [s, o, t] [0, 1, 2] = [(c, b)] := by
    simp [matchedBins, hK, k2, uniqueByKey]
  have hR : runs (sortedKeys e cnt [s, o, t] [0, 1, 2]) = [(b, 1), (outOfBins, 1), (b, 1)] := by
    simp [hK, runs, reduceByKey, k2, Ne.symm k2]
  have hfl : ∀ i, ⌊r.pick i * ((1 : ℕ) : ℝ)⌋₊ = 0 := by
    intro i
    have hu1 := hr.pick i
    rw [Nat.floor_eq_zero]; push_cast; linarith
  have hP : picked e cnt r [s, o, t] [0, 1, 2] = [0, 2] := by
    have hin : inner (sortedKeys e cnt [s, o, t] [0, 1, 2]) = [0, 2] := by
      unfold inner; rw [hR]
      have : List.range [(b, 1), (outOfBins, 1), (b, 1)].length = [0, 1, 2] := by simp [List.range_succ]
      rw [this]; simp [k2]
    have hlen : (picked e cnt r [s, o, t] [0, 1, 2]).length = 2 := by rw [picked_length, hin]; rfl
    apply List.ext_getElem
    · rw [hlen]; rfl
    · intro i hi1 hi2
      obtain rfl | rfl : i = 0 ∨ i = 1 := by rw [hlen] at hi1; omega
      · rw [picked_get hi1]
        unfold pos toUint
        rw [hin, hR]
        simp only [List.getD_cons_zero, size, start, exclusiveScan, hfl]
        rfl
      · rw [picked_get hi1]
        unfold pos toUint
        rw [hin, hR]
        simp only [List.getD_cons_zero, List.getD_cons_succ, size, start, exclusiveScan, hfl]
        rfl
  refine ⟨new, by rw [h, hP]; rfl, ?_⟩
  obtain ⟨i, x, g1, g2, _⟩ := hfill c' (by rw [← h2.1]; exact (hp t (by simp)).2) h2.2.1 b h2.2.2.1 (by rw [hU]; simp; omega)
  exact ⟨x, List.mem_of_getElem? g1, g2⟩

/-! ### The hypotheses can be met -/

theorem exConf : Conf exEnv := by
  constructor <;> norm_num [exEnv, Grid23]

theorem exRndOk : RndOk exEnv exRnd := by
  refine ⟨fun p => by norm_num [exRnd], fun p => by norm_num [exRnd], ?_⟩
  show (List.range 16).Perm (List.range (Dims.nCell ⟨4, 0, 4⟩)); simp [Dims.nCell, m1]

/-- super-droplet of log-radius `l` in cell `c` -/
noncomputable def exSd (c : ℕ) (l : ℝ) : Sd := ⟨c, Real.exp (3 * l), 0, 1 / 2, 1000, 0, 0, 0⟩

theorem exSlot {c b : ℕ} {l : ℝ} (hc : InSource exEnv.d exEnv.b exEnv.s c) (hb : b < 2) (h1 : (b : ℝ) * (1 / 2) ≤ l) (h2 : l < (b + 1) * (1 / 2)) :
    Slot exEnv c b (exSd c l) := by
  refine ⟨rfl, hc, hb, ?_, ?_⟩
  · simp only [exSd, Real.log_exp]; norm_num [exEnv]; linarith
  · simp only [exSd, Real.log_exp]; norm_num [exEnv]; linarith

theorem exIn4 : InSource exEnv.d exEnv.b exEnv.s 4 := by
  have hd : Dims.nDims ⟨4, 0, 4⟩ = 2 := nDims2 (by norm_num)
  simp only [InSource, exEnv, unravel, hd]; norm_num

theorem exIn5 : InSource exEnv.d exEnv.b exEnv.s 5 := by
  have hd : Dims.nDims ⟨4, 0, 4⟩ = 2 := nDims2 (by norm_num)
  simp only [InSource, exEnv, unravel, hd]; norm_num

theorem exPopOk {pop : List Sd} (h : ∀ s ∈ pop, ∃ c l, c < 16 ∧ s = exSd c l) : PopOk exEnv pop := by
  intro s hs
  obtain ⟨c, l, h1, rfl⟩ := h s hs
  exact ⟨Real.exp_pos _, by show c < Dims.nCell ⟨4, 0, 4⟩; simpa [Dims.nCell, m1] using h1⟩

/-- the sizes fit -/
theorem exRuns {pop : List Sd} {ord : List ℕ} {r : Rnd} (hl : pop.length ≤ 10) (hs : Sorted pop ord) (hp : PopOk exEnv pop) (hr : RndOk exEnv r) :
    ∃ pop', srcMatching exEnv r [] pop ord = some pop' := by
  classical
  obtain ⟨cnt, hcs, hcnt⟩ := source_cells (s := exEnv.s) (b := exEnv.b) exConf.grid exConf.dx exConf.dy exConf.dz exConf.box exConf.boxy exEnv.number
  have hle : total exEnv cnt ≤ 32 := by
    unfold total
    have hN : exEnv.d.nCell = 16 := by simp [exEnv, Dims.nCell, m1]
    rw [hN]
    refine (List.sum_le_card_nsmul _ 2 ?_).trans ?_
    · intro x hx
      obtain ⟨c, _, rfl⟩ := List.mem_map.1 hx
      rw [hcnt]; split_ifs <;> simp [exEnv]
    · simp
  have hN : exEnv.nSdMax = 100 := rfl
  have hcnt' : ∀ c, cnt c = if InSource exEnv.d exEnv.b exEnv.s c then exEnv.number else 0 := hcnt
  obtain ⟨_, hlen⟩ := unmatched_length exConf hcnt' hs hp hr
  have hpl : (picked exEnv cnt r pop ord).length ≤ pop.length := by
    have h1 := (List.nodup_iff_injective_get.1 (picked_nodup (e := exEnv) (cnt := cnt) (r := r) hs hr.pick))
    have h2 : (picked exEnv cnt r pop ord).toFinset ⊆ Finset.range pop.length := by
      intro i hi
      obtain ⟨m, hm, rfl⟩ := List.getElem_of_mem (List.mem_toFinset.1 hi)
      rw [picked_get hm]
      obtain ⟨_, _, g2, _⟩ := sorted_at (e := exEnv) (cnt := cnt) hs (picked_run (e := exEnv) (cnt := cnt) hs hr.pick hm).2.1
      exact Finset.mem_range.2 g2
    have h3 := Finset.card_le_card h2
    rw [List.toFinset_card_of_nodup (picked_nodup hs hr.pick), Finset.card_range] at h3
    exact h3
  simp only [srcMatching, hcs]
  rw [if_neg (by omega), if_neg]
  · exact ⟨_, rfl⟩
  · rw [hN, List.append_nil, List.take_of_length_le (by rw [List.length_map]; omega), List.length_map]
    omega

/-- `matching_partial`: the super-droplets of log-radius 1/4 in cell 4 and 3/4 in cell 5 do not clash -/
example : ∃ pop pop' ord, NoClash exEnv pop ∧ Sorted pop ord ∧ PopOk exEnv pop ∧ srcMatching exEnv exRnd [] pop ord = some pop' ∧ pop ≠ [] := by
  have h1 : Slot exEnv 4 0 (exSd 4 (1 / 4)) := exSlot exIn4 (by norm_num) (by norm_num) (by norm_num)
  have h2 : Slot exEnv 5 1 (exSd 5 (3 / 4)) := exSlot exIn5 (by norm_num) (by norm_num) (by norm_num)
  have hp : PopOk exEnv [exSd 4 (1 / 4), exSd 5 (3 / 4)] := exPopOk (by
    intro s hs
    simp only [List.mem_cons, List.not_mem_nil, or_false] at hs
    rcases hs with rfl | rfl
    · exact ⟨4, _, by norm_num, rfl⟩
    · exact ⟨5, _, by norm_num, rfl⟩)
  have hs : Sorted [exSd 4 (1 / 4), exSd 5 (3 / 4)] [0, 1] := by
    constructor
    · simp [List.range_succ]
    · intro p q hpq hq a b' ha hb
      have hp0 : p = 0 := by simp at hq; omega
      have hq1 : q = 1 := by simp at hq; omega
      subst hp0 hq1
      simp at ha hb
      subst ha hb
      left; show 4 < 5; norm_num
  obtain ⟨pop', h⟩ := exRuns (by simp) hs hp exRndOk
  refine ⟨_, pop', _, ?_, hs, hp, h, by simp⟩
  intro s hsm t htm c c' b hcc hs1 ht1
  exfalso
  simp only [List.mem_cons, List.not_mem_nil, or_false] at hsm htm
  rcases hsm with rfl | rfl <;> rcases htm with rfl | rfl
  · have := slot_key exConf hs1 h1; have := slot_key exConf ht1 h1; omega
  · have := slot_key exConf hs1 h1; have := slot_key exConf ht1 h2; omega
  · have := slot_key exConf hs1 h2; have := slot_key exConf ht1 h1; omega
  · have := slot_key exConf hs1 h2; have := slot_key exConf ht1 h2; omega

/-- `clash`, `clash_excess`: concrete cases -/
example : ∃ pop' r, srcMatching exEnv r [] [exSd 4 (1 / 4), exSd 5 (1 / 4)] [0, 1] = some pop' ∧ RndOk exEnv r ∧ 1 / 2 ≤ r.pick 0 ∧
    Slot exEnv 4 0 (exSd 4 (1 / 4)) ∧ Slot exEnv 5 0 (exSd 5 (1 / 4)) := by
  have hp : PopOk exEnv [exSd 4 (1 / 4), exSd 5 (1 / 4)] := exPopOk (by
    intro s hs
    simp only [List.mem_cons, List.not_mem_nil, or_false] at hs
    rcases hs with rfl | rfl
    · exact ⟨4, _, by norm_num, rfl⟩
    · exact ⟨5, _, by norm_num, rfl⟩)
  have hs : Sorted [exSd 4 (1 / 4), exSd 5 (1 / 4)] [0, 1] := by
    constructor
    · simp [List.range_succ]
    · intro p q hpq hq a b' ha hb
      have hp0 : p = 0 := by simp at hq; omega
      have hq1 : q = 1 := by simp at hq; omega
      subst hp0 hq1
      simp at ha hb
      subst ha hb
      left; show 4 < 5; norm_num
  have hr : RndOk exEnv { exRnd with pick := fun _ => 1 / 2 } := ⟨exRndOk.lnrd, fun p => by norm_num, exRndOk.order⟩
  obtain ⟨pop', h⟩ := exRuns (by simp) hs hp hr
  exact ⟨pop', _, h, hr, by norm_num, exSlot exIn4 (by norm_num) (by norm_num) (by norm_num), exSlot exIn5 (by norm_num) (by norm_num) (by norm_num)⟩

example : ∃ pop', srcMatching exEnv exRnd [] [exSd 4 (1 / 4), exSd 4 2, exSd 5 (1 / 4)] [0, 1, 2] = some pop' ∧ exEnv.hi ≤ Real.log (exSd 4 2).rd3 / 3 := by
  have hp : PopOk exEnv [exSd 4 (1 / 4), exSd 4 2, exSd 5 (1 / 4)] := exPopOk (by
    intro s hs
    simp only [List.mem_cons, List.not_mem_nil, or_false] at hs
    rcases hs with rfl | rfl | rfl
    · exact ⟨4, _, by norm_num, rfl⟩
    · exact ⟨4, _, by norm_num, rfl⟩
    · exact ⟨5, _, by norm_num, rfl⟩)
  have hs : Sorted [exSd 4 (1 / 4), exSd 4 2, exSd 5 (1 / 4)] [0, 1, 2] := by
    constructor
    · simp [List.range_succ]
    · intro p q hpq hq a b' ha hb
      simp only [List.length_cons, List.length_nil] at hq
      obtain ⟨rfl, rfl⟩ | ⟨rfl, rfl⟩ | ⟨rfl, rfl⟩ : (p = 0 ∧ q = 1) ∨ (p = 0 ∧ q = 2) ∨ (p = 1 ∧ q = 2) := by omega
      · simp at ha hb; subst ha hb; right; exact ⟨rfl, by simp only [exSd]; exact Real.exp_le_exp.2 (by norm_num)⟩
      · simp at ha hb; subst ha hb; left; show 4 < 5; norm_num
      · simp at ha hb; subst ha hb; left; show 4 < 5; norm_num
  obtain ⟨pop', h⟩ := exRuns (by simp) hs hp exRndOk
  exact ⟨pop', h, by simp only [exSd, Real.log_exp]; norm_num [exEnv]⟩

end LCP.Src
