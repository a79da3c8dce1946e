import Verif.Src.Match

/-!
# C77: the matching source: theorems and counterexamples
-/
namespace LCP.Src
open LCP.Grid LCP.Init

/-- specification: the super-droplet belongs to the size interval `b` of the source in cell `c` -/
def Slot (e : Env) (c b : ℕ) (s : Sd) : Prop := s.cell = c ∧ InSource e.d e.b e.s c ∧ InBin e.lo e.hi e.number b s.rd3

/-- The last occupied slot of a cell and the first occupied slot of the next occupied cell never have the same size interval: if slots of the same
interval in two cells are occupied, so is a slot between them (in the order by cell, then by interval). -/
def NoClash (e : Env) (pop : List Sd) : Prop :=
  ∀ s ∈ pop, ∀ t ∈ pop, ∀ c c' b, c < c' → Slot e c b s → Slot e c' b t →
    ∃ x ∈ pop, ∃ c'' b'', Slot e c'' b'' x ∧ (c < c'' ∨ c = c'' ∧ b < b'') ∧ (c'' < c' ∨ c'' = c' ∧ b'' < b)

/-- requirements on the configuration: a grid with two or three dimensions, source box at non-negative coordinates, non-empty range of sizes, fewer size
intervals than the reserved number -/
structure Conf (e : Env) : Prop where
  grid : Grid23 e.d
  dx : 0 < e.b.dx
  dy : e.d.ny ≠ 0 → 0 < e.b.dy
  dz : 0 < e.b.dz
  box : 0 ≤ e.s.x0 ∧ 0 ≤ e.s.x1 ∧ 0 ≤ e.s.z0 ∧ 0 ≤ e.s.z1
  boxy : e.d.ny ≠ 0 → 0 ≤ e.s.y0 ∧ 0 ≤ e.s.y1
  range : e.lo < e.hi
  few : e.number ≤ outOfBins

/-- requirements on random numbers and schedule -/
structure RndOk (e : Env) (r : Rnd) : Prop where
  lnrd : ∀ p, 0 ≤ r.lnrd p ∧ r.lnrd p < 1
  pick : ∀ p, 0 ≤ r.pick p ∧ r.pick p < 1
  order : r.order.Perm (List.range e.d.nCell)

/-- requirements on the existing super-droplets -/
def PopOk (e : Env) (pop : List Sd) : Prop := ∀ s ∈ pop, 0 < s.rd3 ∧ s.cell < e.d.nCell

/-- `k` is the number of particles of dry volume `rd3` emitted in cell `c` between two activations, rounded -/
def Emits (e : Env) (c : ℕ) (rd3 : ℝ) (k : ℕ) : Prop :=
  let x := emitted (e.f (Real.log rd3 / 3)) ((e.hi - e.lo) / e.number) (e.sup * e.dt0) (e.b.dx * e.b.dy * e.b.dz) (e.cf c)
  0 ≤ x → |(k : ℝ) - x| ≤ 1 / 2

section
variable {e : Env} {cnt : ℕ → ℕ} {pop : List Sd} {ord : List ℕ}

open Classical in
theorem slot_iff (hc : Conf e) (hcnt : ∀ c, cnt c = if InSource e.d e.b e.s c then e.number else 0) {c b : ℕ} {s : Sd} :
    Slot e c b s ↔ (s.cell, binOf e cnt s) = (c, b) ∧ b ≠ outOfBins := by
  constructor
  · rintro ⟨h1, h2, h3⟩
    have : cnt c = e.number := by rw [hcnt, if_pos h2]
    unfold binOf
    rw [h1, this, getBinNo_eq hc.range h3]
    exact ⟨rfl, by have := h3.1; have := hc.few; omega⟩
  · rintro ⟨h1, h2⟩
    obtain ⟨h3, h4⟩ := Prod.mk.inj h1
    unfold binOf at h4
    have h5 := getBinNo_in hc.range (by rw [h4]; exact h2)
    rw [h4, h3] at h5
    by_cases hin : InSource e.d e.b e.s c
    · rw [hcnt, if_pos hin] at h5
      exact ⟨h3, hin, h5⟩
    · rw [hcnt, if_neg hin] at h5
      exact absurd h5.1 (by omega)

theorem slot_key (hc : Conf e) {c b c' b' : ℕ} {s : Sd} (h : Slot e c b s) (h' : Slot e c' b' s) : c = c' ∧ b = b' :=
  ⟨h.1.symm.trans h'.1, inBin_unique hc.range h.2.2 h'.2.2⟩

open Classical in
theorem cnt_le (hc : Conf e) (hcnt : ∀ c, cnt c = if InSource e.d e.b e.s c then e.number else 0) (c : ℕ) : cnt c ≤ outOfBins := by
  rw [hcnt]; split_ifs
  · exact hc.few
  · omega

/-- members of the sorted list of pairs -/
theorem mem_keys (hs : Sorted pop ord) {x : ℕ × ℕ} :
    x ∈ sortedKeys e cnt pop ord ↔ ∃ s ∈ pop, x = (s.cell, binOf e cnt s) := by
  constructor
  · intro hx
    obtain ⟨p, hp, rfl⟩ := List.getElem_of_mem hx
    obtain ⟨s, h1, _, h3⟩ := sorted_at (e := e) (cnt := cnt) hs (show p < pop.length by rw [← keys_length hs]; exact hp)
    unfold at' at h3
    rw [List.getD_eq_getElem _ _ hp] at h3
    exact ⟨s, List.mem_of_getElem? h1, h3⟩
  · rintro ⟨s, hsm, rfl⟩
    obtain ⟨i, hi, rfl⟩ := List.getElem_of_mem hsm
    obtain ⟨p, hp, hpi⟩ := position hs hi
    obtain ⟨s, h1, h2, h3⟩ := sorted_at (e := e) (cnt := cnt) hs hp
    rw [hpi, List.getElem?_eq_getElem hi] at h1
    rw [Option.some.injEq] at h1
    rw [h1, ← h3]
    unfold at'
    have : p < (sortedKeys e cnt pop ord).length := by rw [keys_length hs]; exact hp
    rw [List.getD_eq_getElem _ _ this]
    exact List.getElem_mem this

/-- occupied slots -/
theorem mem_occ (hc : Conf e) (hcnt : ∀ c, cnt c = open Classical in if InSource e.d e.b e.s c then e.number else 0) (hs : Sorted pop ord) {c b : ℕ} :
    (c, b) ∈ (sortedKeys e cnt pop ord).filter (fun p => p.2 ≠ outOfBins) ↔ ∃ s ∈ pop, Slot e c b s := by
  rw [List.mem_filter, mem_keys hs]
  constructor
  · rintro ⟨⟨s, h1, h2⟩, h3⟩
    exact ⟨s, h1, (slot_iff hc hcnt).2 ⟨h2.symm, by simpa using h3⟩⟩
  · rintro ⟨s, h1, h2⟩
    obtain ⟨h3, h4⟩ := (slot_iff hc hcnt).1 h2
    exact ⟨⟨s, h1, h3.symm⟩, by simpa using h4⟩

theorem matched_strict (hc : Conf e) (hcnt : ∀ c, cnt c = open Classical in if InSource e.d e.b e.s c then e.number else 0) (hs : Sorted pop ord)
    (hp : PopOk e pop) : (matchedBins e cnt pop ord).Pairwise Before :=
  unique_strict (filter_sorted (good hs hc.range (fun s h => (hp s h).1) (cnt_le hc hcnt)))

theorem matched_sub (hc : Conf e) (hcnt : ∀ c, cnt c = open Classical in if InSource e.d e.b e.s c then e.number else 0) (hs : Sorted pop ord)
    {x : ℕ × ℕ} (hx : x ∈ matchedBins e cnt pop ord) : ∃ s ∈ pop, Slot e x.1 x.2 s :=
  (mem_occ hc hcnt hs).1 ((unique_sublist _).subset hx)

theorem matched_slot (hc : Conf e) (hcnt : ∀ c, cnt c = open Classical in if InSource e.d e.b e.s c then e.number else 0) (hs : Sorted pop ord)
    (hp : PopOk e pop) {x : ℕ × ℕ} (hx : x ∈ matchedBins e cnt pop ord) : x ∈ slotList cnt e.d.nCell := by
  obtain ⟨s, hsm, h1, h2, h3⟩ := matched_sub hc hcnt hs hx
  rw [mem_slotList]
  exact ⟨by rw [← h1]; exact (hp s hsm).2, by rw [hcnt, if_pos h2]; exact h3.1⟩

/-- number of unmatched new super-droplets: exactly the room left for them -/
theorem unmatched_length (hc : Conf e) (hcnt : ∀ c, cnt c = open Classical in if InSource e.d e.b e.s c then e.number else 0) (hs : Sorted pop ord)
    (hp : PopOk e pop) {r : Rnd} (hr : RndOk e r) :
    (unmatched e cnt r pop ord).map (fun i => (newCell cnt r pop.length i, getBinNo e.lo e.hi (newRd3 e cnt r pop.length i) (cnt (newCell cnt r pop.length i)))) =
      (slotList cnt e.d.nCell).filter (fun x => !binarySearch (matchedBins e cnt pop ord) x) ∧
    (unmatched e cnt r pop ord).length + (matchedBins e cnt pop ord).length = total e cnt := by
  have hmap : (unmatched e cnt r pop ord).map (fun i => (newCell cnt r pop.length i, getBinNo e.lo e.hi (newRd3 e cnt r pop.length i) (cnt (newCell cnt r pop.length i)))) =
      (slotList cnt e.d.nCell).filter (fun x => !binarySearch (matchedBins e cnt pop ord) x) := by
    rw [← new_keys (cnt := cnt) hc.range hr.lnrd hr.order pop.length, List.filter_map]
    rfl
  refine ⟨hmap, ?_⟩
  have h1 : (unmatched e cnt r pop ord).length = ((slotList cnt e.d.nCell).filter (fun x => !binarySearch (matchedBins e cnt pop ord) x)).length := by
    rw [← hmap, List.length_map]
  have h2 : ((slotList cnt e.d.nCell).filter (fun x => binarySearch (matchedBins e cnt pop ord) x)).Perm (matchedBins e cnt pop ord) := by
    rw [List.perm_ext_iff_of_nodup ((nodup_slotList _).filter _)
      ((matched_strict hc hcnt hs hp).imp fun {a b} h he => by rw [he] at h; exact Before.irrefl h)]
    intro x
    rw [List.mem_filter, search_iff (matched_strict hc hcnt hs hp)]
    exact ⟨fun h => h.2, fun h => ⟨matched_slot hc hcnt hs hp h, h⟩⟩
  have h3 := List.length_eq_length_filter_add (l := slotList cnt e.d.nCell) (fun x => binarySearch (matchedBins e cnt pop ord) x)
  rw [length_slotList, h2.length_eq] at h3
  omega

/-- without clashes, neighbours in different cells have different bins -/
theorem adjacent (hc : Conf e) (hcnt : ∀ c, cnt c = open Classical in if InSource e.d e.b e.s c then e.number else 0) (hs : Sorted pop ord)
    (hp : PopOk e pop) (hn : NoClash e pop) :
    ((sortedKeys e cnt pop ord).filter fun p => p.2 ≠ outOfBins).IsChain (fun a b => a.2 = b.2 → a.1 = b.1) := by
  have hsort := filter_sorted (good hs hc.range (fun s h => (hp s h).1) (cnt_le hc hcnt))
  set L := (sortedKeys e cnt pop ord).filter fun p => p.2 ≠ outOfBins with hL
  rw [List.isChain_iff_getElem]
  intro i hi hb
  by_contra hne
  have hord := List.pairwise_iff_getElem.1 hsort
  have h1 := hord i (i + 1) (by omega) hi (by omega)
  have hlt : L[i].1 < L[i + 1].1 := by rcases h1 with h | h; exact h; exact absurd h.1 hne
  obtain ⟨s, hsm, hss⟩ := (mem_occ (b := L[i].2) (c := L[i].1) hc hcnt hs).1 (List.getElem_mem (by omega : i < L.length))
  obtain ⟨t, htm, hts⟩ := (mem_occ (b := L[i + 1].2) (c := L[i + 1].1) hc hcnt hs).1 (List.getElem_mem hi)
  rw [← hb] at hts
  obtain ⟨x, hxm, c'', b'', hxs, g1, g2⟩ := hn s hsm t htm _ _ _ hlt hss hts
  have hx : (c'', b'') ∈ L := (mem_occ hc hcnt hs).2 ⟨x, hxm, hxs⟩
  obtain ⟨j, hj, hje⟩ := List.getElem_of_mem hx
  rcases Nat.lt_or_ge i j with hij | hij
  · rcases Nat.lt_or_ge (i + 1) j with hij' | hij'
    · have := hord (i + 1) j hi hj hij'
      rw [hje] at this
      unfold NotAfter at this
      simp only at this
      omega
    · have : j = i + 1 := by omega
      subst this
      rw [hje] at g2 hb
      simp only at g2 hb
      omega
  · rcases hij.eq_or_lt with rfl | hij
    · rw [hje] at g1
      simp only at g1
      omega
    · have := hord j i hj (by omega) hij
      rw [hje] at this
      unfold NotAfter at this
      simp only at this
      omega

/-- without clashes, a run lies in one cell -/
theorem run_cell (hc : Conf e) (hcnt : ∀ c, cnt c = open Classical in if InSource e.d e.b e.s c then e.number else 0) (hs : Sorted pop ord)
    (hp : PopOk e pop) (hn : NoClash e pop) {g p q : ℕ} (h1 : InRun (sortedKeys e cnt pop ord) g p) (h2 : InRun (sortedKeys e cnt pop ord) g q)
    (hpq : p ≤ q) (hb : (at' (sortedKeys e cnt pop ord) p).2 ≠ outOfBins) : at' (sortedKeys e cnt pop ord) q = at' (sortedKeys e cnt pop ord) p := by
  have hgood := good (cnt := cnt) hs hc.range (fun s h => (hp s h).1) (cnt_le hc hcnt)
  set K := sortedKeys e cnt pop ord with hK
  obtain ⟨k, rfl⟩ := Nat.exists_eq_add_of_le hpq
  clear hpq
  induction k with
  | zero => rfl
  | succ k ih =>
    have hmid : InRun K g (p + k) := ⟨h1.1, by have := h1.2.1; omega, by have := h2.2.2; omega⟩
    have ih' := ih hmid
    rw [← ih']
    have hb1 : (at' K (p + k)).2 = (at' K (p + (k + 1))).2 := by rw [hmid.key, h2.key]
    have hbk : (at' K (p + k)).2 ≠ outOfBins := by rw [ih']; exact hb
    refine Prod.ext ?_ hb1.symm
    by_contra hne
    have hm := hgood.mono (p + k) (p + (k + 1)) (by omega) h2.lt
    have hlt : (at' K (p + k)).1 < (at' K (p + (k + 1))).1 := by rcases hm with h | h; exact h; exact absurd h.1.symm hne
    have toSlot : ∀ m < K.length, (at' K m).2 ≠ outOfBins → ∃ s ∈ pop, Slot e (at' K m).1 (at' K m).2 s := by
      intro m hm hbm
      apply (mem_occ hc hcnt hs).1
      rw [List.mem_filter]
      refine ⟨?_, by simpa using hbm⟩
      show at' K m ∈ K
      unfold at'
      rw [List.getD_eq_getElem _ _ hm]
      exact List.getElem_mem hm
    obtain ⟨s, hsm, hss⟩ := toSlot _ hmid.lt hbk
    obtain ⟨t, htm, hts⟩ := toSlot _ h2.lt (by rw [← hb1]; exact hbk)
    rw [← hb1] at hts
    obtain ⟨x, hxm, c'', b'', hxs, g1, g2⟩ := hn s hsm t htm _ _ _ hlt hss hts
    have hx : (c'', b'') ∈ K.filter (fun p => p.2 ≠ outOfBins) := (mem_occ hc hcnt hs).2 ⟨x, hxm, hxs⟩
    rw [List.mem_filter] at hx
    obtain ⟨hxK, hxb⟩ := hx
    have hxb' : b'' ≠ outOfBins := by simpa using hxb
    obtain ⟨j, hj, hje⟩ := List.getElem_of_mem hxK
    have hjat : at' K j = (c'', b'') := by unfold at'; rw [List.getD_eq_getElem _ _ hj, hje]
    rcases Nat.lt_or_ge (p + k) j with hij | hij
    · rcases Nat.lt_or_ge (p + (k + 1)) j with hij' | hij'
      · have := hgood.mono _ _ hij' hj
        rw [hjat] at this
        simp only at this
        rw [← hb1] at this
        omega
      · have : j = p + (k + 1) := by omega
        subst this
        rw [hjat] at g2 hb1
        simp only at g2 hb1
        omega
    · rcases hij.eq_or_lt with rfl | hij
      · rw [hjat] at g1
        simp only at g1
        omega
      · have := hgood.mono _ _ hij hmid.lt
        rw [hjat] at this
        simp only at this
        omega

end

/-- the outcome of the source in terms of the slots found occupied -/
theorem core {e : Env} {r : Rnd} {gb : List (ℕ × ℝ)} {pop pop' : List Sd} {ord : List ℕ} (hc : Conf e) (hr : RndOk e r) (hp : PopOk e pop)
    (hs : Sorted pop ord) (h : srcMatching e r gb pop ord = some pop') :
    ∃ (cnt : ℕ → ℕ) (new : List Sd), (∀ c, cnt c = open Classical in if InSource e.d e.b e.s c then e.number else 0) ∧
      pop' = (picked e cnt r pop ord).foldl (fun l id => l.modify id (raise e)) pop ++ new ∧
      new.length + (matchedBins e cnt pop ord).length = total e cnt ∧
      (∀ (i : ℕ) (s : Sd), new[i]? = some s → ∃ c b, c < e.d.nCell ∧ Slot e c b s ∧ Requested e r c b s ∧ (c, b) ∉ matchedBins e cnt pop ord) ∧
      ∀ c < e.d.nCell, InSource e.d e.b e.s c → ∀ b < e.number, (c, b) ∉ matchedBins e cnt pop ord →
        ∃ (i : ℕ) (s : Sd), new[i]? = some s ∧ Slot e c b s ∧ ∀ (j : ℕ) (t : Sd), new[j]? = some t → Slot e c b t → j = i := by
  classical
  obtain ⟨cnt, hcs, hcnt⟩ := source_cells (s := e.s) (b := e.b) hc.grid hc.dx hc.dy hc.dz hc.box hc.boxy e.number
  have hcnt' : ∀ c, cnt c = open Classical in if InSource e.d e.b e.s c then e.number else 0 := fun c => by rw [hcnt]
  simp only [srcMatching, hcs] at h
  split_ifs at h with hmax1 hmax2
  simp only [Option.some.injEq] at h
  obtain ⟨hum, hlen⟩ := unmatched_length hc hcnt hs hp hr
  set U := matchedBins e cnt pop ord with hU
  have hmstrict := matched_strict hc hcnt hs hp
  -- the unspecified entries are not used
  set nl := (unmatched e cnt r pop ord).map (fun i => (newCell cnt r pop.length i, newRd3 e cnt r pop.length i)) with hnl
  have htake : (nl ++ gb).take (total e cnt - U.length) = nl := by
    apply List.take_left'
    rw [hnl, List.length_map]; omega
  rw [htake] at h
  set new := nl.zipIdx.map (fun c => finish e r c.2 c.1.1 c.1.2) with hnew
  have hnewlen : new.length = (unmatched e cnt r pop ord).length := by simp [hnew, hnl]
  -- a new super-droplet and its slot
  have hnewget : ∀ i s, new[i]? = some s → ∃ hi : i < (unmatched e cnt r pop ord).length,
      s = finish e r i (newCell cnt r pop.length (unmatched e cnt r pop ord)[i]) (newRd3 e cnt r pop.length (unmatched e cnt r pop ord)[i]) := by
    intro i s hi
    obtain ⟨h1, h2⟩ := List.getElem?_eq_some_iff.1 hi
    refine ⟨by omega, ?_⟩
    rw [← h2]
    simp [hnew, hnl]
  have hkey : ∀ i (hi : i < (unmatched e cnt r pop ord).length), ∃ x : ℕ × ℕ,
      x = ((slotList cnt e.d.nCell).filter (fun x => !binarySearch U x))[i]'(by rw [← hum, List.length_map]; exact hi) ∧
      x = (newCell cnt r pop.length (unmatched e cnt r pop ord)[i], getBinNo e.lo e.hi (newRd3 e cnt r pop.length (unmatched e cnt r pop ord)[i])
        (cnt (newCell cnt r pop.length (unmatched e cnt r pop ord)[i]))) := by
    intro i hi
    refine ⟨_, rfl, ?_⟩
    simp only [← hum, List.getElem_map]
  have hfresh : ∀ i s, new[i]? = some s → ∃ c b, c < e.d.nCell ∧ Slot e c b s ∧ Requested e r c b s ∧ (c, b) ∉ U ∧
      ∃ hi : i < ((slotList cnt e.d.nCell).filter (fun x => !binarySearch U x)).length,
        ((slotList cnt e.d.nCell).filter (fun x => !binarySearch U x))[i] = (c, b) := by
    intro i s hi
    obtain ⟨hi', rfl⟩ := hnewget i s hi
    obtain ⟨x, hx1, hx2⟩ := hkey i hi'
    have hxm : x ∈ (slotList cnt e.d.nCell).filter (fun x => !binarySearch U x) := by rw [hx1]; exact List.getElem_mem _
    rw [List.mem_filter] at hxm
    obtain ⟨hm1, hm2⟩ := hxm
    have hns : x ∉ U := by
      intro hxU
      rw [(search_iff hmstrict x).2 hxU] at hm2
      simp at hm2
    obtain ⟨hs1, hs2⟩ := mem_slotList.1 hm1
    have hin : InSource e.d e.b e.s x.1 := by
      by_contra hno
      rw [hcnt, if_neg hno] at hs2; omega
    have hnum : cnt x.1 = e.number := by rw [hcnt, if_pos hin]
    have hx21 := congrArg Prod.fst hx2
    have hx22 := congrArg Prod.snd hx2
    simp only at hx21 hx22
    have hbin : InBin e.lo e.hi e.number x.2 (newRd3 e cnt r pop.length (unmatched e cnt r pop ord)[i]) := by
      rw [← hx21, hnum] at hx22
      rw [hx22]
      apply getBinNo_in hc.range
      rw [← hx22]
      have := hc.few; omega
    refine ⟨x.1, x.2, hs1, ⟨?_, hin, hbin⟩, ?_, by simpa using hns, by rw [← hum, List.length_map]; exact hi', by rw [← hx1]⟩
    · rw [hx21]; rfl
    · rw [← hx21]
      exact finish_requested e r i x.1 x.2 _ (Real.exp_pos _) hbin.2.1 hbin.2.2
  refine ⟨cnt, new, hcnt', h.symm, by rw [hnewlen]; exact hlen, ?_, ?_⟩
  · intro i s hi
    obtain ⟨c, b, h1, h2, h3, h4, _⟩ := hfresh i s hi
    exact ⟨c, b, h1, h2, h3, h4⟩
  · intro c hcN hin b hb hnU
    have hmem : (c, b) ∈ (slotList cnt e.d.nCell).filter (fun x => !binarySearch U x) := by
      rw [List.mem_filter, mem_slotList]
      refine ⟨⟨hcN, by simp only [hcnt, if_pos hin]; exact hb⟩, ?_⟩
      have : ¬ binarySearch U (c, b) = true := fun h => hnU ((search_iff hmstrict _).1 h)
      simpa using this
    obtain ⟨i, hi, hie⟩ := List.getElem_of_mem hmem
    have hi' : i < new.length := by rw [hnewlen]; rw [← hum, List.length_map] at hi; exact hi
    obtain ⟨c1, b1, _, hsl, _, _, hi2, he2⟩ := hfresh i new[i] (List.getElem?_eq_getElem hi')
    have hcb : (c1, b1) = (c, b) := by rw [← he2, hie]
    obtain ⟨rfl, rfl⟩ := Prod.mk.inj hcb
    refine ⟨i, new[i], List.getElem?_eq_getElem hi', hsl, ?_⟩
    intro j t hj hts
    obtain ⟨c2, b2, _, hsl2, _, _, hj2, hje2⟩ := hfresh j t hj
    obtain ⟨rfl, rfl⟩ := slot_key hc hts hsl2
    exact (List.Nodup.getElem_inj_iff ((nodup_slotList _).filter _)).1 (hje2.trans hie.symm)

/-- **C77** (partial: without clashes, and with time counted in `opts_init.dt`, see C76) A firing matching source changes nothing but multiplicities of some
existing super-droplets and appends new ones; for every cell and size interval of the source exactly one thing happens: either exactly one of the existing
super-droplets of that cell and size gets the number of particles emitted (evaluated for its size) and there is no new one, or there is no existing one and
exactly one new super-droplet is created, with the number of particles emitted.  Nothing else gets any. -/
theorem matching_partial {e : Env} {r : Rnd} {gb : List (ℕ × ℝ)} {pop pop' : List Sd} {ord : List ℕ} (hc : Conf e) (hr : RndOk e r) (hp : PopOk e pop)
    (hs : Sorted pop ord) (hn : NoClash e pop) (h : srcMatching e r gb pop ord = some pop') :
    ∃ (inc : ℕ → ℕ) (sel : Finset ℕ) (new : List Sd),
      pop'.length = pop.length + new.length ∧
      (∀ (i : ℕ) (s : Sd), pop[i]? = some s → pop'[i]? = some { s with n := s.n + inc i }) ∧
      (∀ i, pop'[pop.length + i]? = new[i]?) ∧
      (∀ i, i ∉ sel → inc i = 0) ∧
      (∀ i ∈ sel, ∃ s c b, pop[i]? = some s ∧ Slot e c b s ∧ Emits e c s.rd3 (inc i)) ∧
      (∀ s ∈ new, ∃ c < e.d.nCell, ∃ b, Slot e c b s ∧ Requested e r c b s) ∧
      ∀ c < e.d.nCell, InSource e.d e.b e.s c → ∀ b < e.number,
        ((∃ i ∈ sel, ∃ s, pop[i]? = some s ∧ Slot e c b s ∧ ∀ j ∈ sel, ∀ t, pop[j]? = some t → Slot e c b t → j = i) ∧ ∀ s ∈ new, ¬ Slot e c b s) ∨
        ((∀ s ∈ pop, ¬ Slot e c b s) ∧ ∃ (i : ℕ) (s : Sd), new[i]? = some s ∧ Slot e c b s ∧ ∀ (j : ℕ) (t : Sd), new[j]? = some t → Slot e c b t → j = i) := by
  classical
  obtain ⟨cnt, new, hcnt', h, _, hfresh, hfill⟩ := core hc hr hp hs h
  have hcnt : ∀ c, cnt c = if InSource e.d e.b e.s c then e.number else 0 := fun c => by rw [hcnt']
  have hgood := good (cnt := cnt) hs hc.range (fun s h => (hp s h).1) (cnt_le hc hcnt)
  set U := matchedBins e cnt pop ord with hU
  set ids := picked e cnt r pop ord with hids
  set K := sortedKeys e cnt pop ord with hK
  have hnd := picked_nodup (e := e) (cnt := cnt) (r := r) hs hr.pick
  have hlenF := modify_fold_length (raise e) ids pop
  refine ⟨fun i => if i ∈ ids then (match pop[i]? with | some s => amount e s.cell s.rd3 | none => 0) else 0, ids.toFinset, new, ?_, ?_, ?_, ?_, ?_, ?_, ?_⟩
  · rw [h, List.length_append, hlenF]
  · intro i s hi
    have hlt := (List.getElem?_eq_some_iff.1 hi).1
    rw [h, List.getElem?_append_left (by rw [hlenF]; exact hlt), modify_fold (raise e) ids hnd, hi]
    by_cases hm : i ∈ ids
    · simp only [if_pos hm, Option.map_some, hi]; rfl
    · simp only [if_neg hm]; rfl
  · intro i
    rw [h, List.getElem?_append_right (by rw [hlenF]; omega), hlenF, Nat.add_sub_cancel_left]
  · intro i hi
    have : i ∉ ids := fun hm => hi (List.mem_toFinset.2 hm)
    simp [this]
  · intro i hi
    have hm := List.mem_toFinset.1 hi
    obtain ⟨m, hm', hme⟩ := List.getElem_of_mem hm
    obtain ⟨q1, q2, q3⟩ := picked_run (e := e) (cnt := cnt) hs hr.pick hm'
    obtain ⟨s, g1, g2, g3⟩ := sorted_at (e := e) (cnt := cnt) hs q2
    have hpg := picked_get (e := e) (cnt := cnt) (r := r) (pop := pop) (ord := ord) hm'
    rw [← hpg] at g1
    rw [show (picked e cnt r pop ord)[m] = i from hme] at g1
    have hslot : Slot e s.cell (binOf e cnt s) s := (slot_iff hc hcnt).2 ⟨rfl, by rw [g3] at q3; exact q3⟩
    refine ⟨s, s.cell, binOf e cnt s, g1, hslot, ?_⟩
    simp only [hm, if_true, g1]
    exact amount_close e s.cell s.rd3
  · intro s hsn
    obtain ⟨i, hi⟩ := List.getElem?_of_mem hsn
    obtain ⟨c, b, h1, h2, h3, _⟩ := hfresh i s hi
    exact ⟨c, h1, b, h2, h3⟩
  · intro c hcN hin b hb
    by_cases hocc : ∃ s ∈ pop, Slot e c b s
    · left
      have hmem : (c, b) ∈ K.filter (fun p => p.2 ≠ outOfBins) := (mem_occ hc hcnt hs).2 hocc
      constructor
      · -- one of the existing ones
        rw [List.mem_filter] at hmem
        obtain ⟨p, hpl, hpe⟩ := List.getElem_of_mem hmem.1
        have hbo : b ≠ outOfBins := by simpa using hmem.2
        have hpat : at' K p = (c, b) := by unfold at'; rw [List.getD_eq_getElem _ _ hpl, hpe]
        obtain ⟨g, hg⟩ := inRun_exists hpl
        have hgi : g ∈ inner K := inner_mem.2 ⟨hg.1, by rw [← hg.key, hpat]; exact hbo⟩
        obtain ⟨m, hm, hmg⟩ := List.getElem_of_mem hgi
        have hm' : m < (picked e cnt r pop ord).length := by rw [picked_length]; exact hm
        obtain ⟨q1, q2, q3⟩ := picked_run (e := e) (cnt := cnt) hs hr.pick hm'
        rw [← hK, List.getD_eq_getElem _ _ hm, hmg] at q1
        have hqat : at' K (pos K r.pick m) = (c, b) := by
          rcases le_total p (pos K r.pick m) with hle | hle
          · rw [run_cell hc hcnt hs hp hn hg q1 hle (by rw [← hK, hpat]; exact hbo), ← hK, hpat]
          · rw [← run_cell hc hcnt hs hp hn q1 hg hle q3, ← hK, hpat]
        obtain ⟨s, g1, g2, g3⟩ := sorted_at (e := e) (cnt := cnt) hs q2
        refine ⟨ord.getD (pos K r.pick m) 0, ?_, s, g1, ?_, ?_⟩
        · rw [List.mem_toFinset, ← picked_get hm']; exact List.getElem_mem hm'
        · rw [slot_iff hc hcnt]
          exact ⟨by rw [← g3, ← hK, hqat], hbo⟩
        · intro j hj t htj hts
          obtain ⟨m', hm2, hme2⟩ := List.getElem_of_mem (List.mem_toFinset.1 hj)
          obtain ⟨k1, k2, k3⟩ := picked_run (e := e) (cnt := cnt) hs hr.pick hm2
          obtain ⟨t', f1, f2, f3⟩ := sorted_at (e := e) (cnt := cnt) hs k2
          have hpg := picked_get (e := e) (cnt := cnt) (r := r) (pop := pop) (ord := ord) hm2
          replace hme2 : ord.getD (pos K r.pick m') 0 = j := by rw [← hme2]; exact hpg.symm
          rw [← hK, hme2, htj, Option.some.injEq] at f1
          subst f1
          have hjat : at' K (pos K r.pick m') = (c, b) := by rw [hK, f3]; exact ((slot_iff hc hcnt).1 hts).1
          have hrun : InRun K g (pos K r.pick m') := by
            rw [← hK] at k1
            have hsame : g = (inner K).getD m' 0 := by
              rcases le_total (pos K r.pick m) (pos K r.pick m') with hle | hle
              · exact inRun_same q1 k1 hle fun x h1 h2 => by rw [hgood.same h1 h2 k1.lt (by rw [hqat, hjat]) (by rw [hqat]; exact hbo)]
              · exact (inRun_same k1 q1 hle fun x h1 h2 => by rw [hgood.same h1 h2 q1.lt (by rw [hqat, hjat]) (by rw [hjat]; exact hbo)]).symm
            rw [hsame]; exact k1
          have := pos_inj (e := e) (cnt := cnt) hs hr.pick hm2 hm' rfl rfl hrun q1
          rw [← hme2, this]
      · -- no new one
        intro s hsn hslot
        obtain ⟨i, hi⟩ := List.getElem?_of_mem hsn
        obtain ⟨c', b', _, h2, _, h4⟩ := hfresh i s hi
        obtain ⟨rfl, rfl⟩ := slot_key hc hslot h2
        exact h4 (unique_mem (adjacent hc hcnt hs hp hn) hmem)
    · right
      push Not at hocc
      refine ⟨hocc, ?_⟩
      exact hfill c hcN hin b hb fun hm => by
        obtain ⟨s, h1, h2⟩ := matched_sub hc hcnt hs hm
        exact hocc s h1 h2

end LCP.Src
