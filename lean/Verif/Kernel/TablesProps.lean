import Verif.Kernel.Tables

/-!
# C91: collision efficiencies with the tables of the library
-/
namespace LCP.Kernel
noncomputable section

/-! ### entries -/

theorem raw_of_check (f : ℕ → ℕ → Bool) (m : ℕ) (t : Table) (h : allRows f m (rowsOf t) 0 = true) (i : ℕ) (hi : i ≤ 200) (hm : m ≤ i) :
    f ((rowsOf t).getD i 0) i = true := by
  have := allRows_get f m (rowsOf t) 0 h i (by rw [rows_length]; omega) (by omega)
  simpa using this

theorem raw_le (t : Table) (i j : ℕ) (hi : i ≤ 200) (hj : j ≤ i) : raw (rowsOf t) i j ≤ 4000000 := by
  have := raw_of_check rowOk 0 t (rows_ok t) i hi (Nat.zero_le _)
  simp only [rowOk, Bool.and_eq_true, List.all_eq_true, List.mem_range] at this
  exact Nat.le_of_ble_eq_true (this.2 j (by omega))

theorem raw_le_one (t : Table) (i j : ℕ) (hi : i ≤ 200) (hj : j ≤ i) (h : j ≤ 35) : raw (rowsOf t) i j ≤ 1000000 := by
  have := raw_of_check rowSmall 0 t (rows_small t) i hi (Nat.zero_le _)
  simp only [rowSmall, List.all_eq_true, List.mem_range, Bool.or_eq_true] at this
  rcases this j (by omega) with h' | h'
  · have := Nat.le_of_ble_eq_true h'; omega
  · exact Nat.le_of_ble_eq_true h'

theorem raw_zero (t : Table) (ht : t ≠ .vohl_davis_no_waals) (i j : ℕ) (hi : i ≤ 200) (hj : j ≤ 14) (h : 120 ≤ i) : raw (rowsOf t) i j = 0 := by
  have := raw_of_check (rowZero 15) 120 t (rows_zero t ht) i hi h
  simp only [rowZero, List.all_eq_true, List.mem_range, Bool.or_eq_true] at this
  rcases this j (by omega) with h' | h'
  · have := Nat.le_of_ble_eq_true h'; omega
  · exact Nat.eq_of_beq_eq_true h'

/-- an entry, whichever drop comes first -/
theorem entry_raw (t : Table) (user : List ℝ) (i j : ℕ) (hi : i ≤ 200) (hj : j ≤ 200) :
    entry (user ++ tables t) user.length i j = (raw (rowsOf t) (max i j) (min i j) : ℝ) / 1000000 := by
  rcases le_total j i with h | h
  · rw [entry_eq_raw t (rows_length t) i j hi h _ user rfl, max_eq_left h, min_eq_right h]
  · rw [entry_symm, entry_eq_raw t (rows_length t) j i hj h _ user rfl, max_eq_right h, min_eq_left h]

theorem tables_length (t : Table) : (tables t).length = 20301 := by
  rw [tables, List.length_map, tri_length, rows_length]; rfl

theorem tables_entry_nonneg (t : Table) : ∀ e ∈ tables t, 0 ≤ e := by
  intro e he
  simp only [tables, List.mem_map] at he
  obtain ⟨n, -, rfl⟩ := he
  positivity

/-- the cells used for any two radii (in metres) -/
theorem eff_cells (t : Table) (user : List ℝ) (del r1 r2 : ℝ) (hd : 0 < del) (hd' : del ≤ 1100) (h1 : 0 ≤ r1) (h2 : 0 ≤ r2) :
    ∃ i < 200, ∃ j < 200, (node i : ℝ) ≤ clip 1100 del r1 ∧ clip 1100 del r1 < node (i + 1) ∧ (node j : ℝ) ≤ clip 1100 del r2 ∧ clip 1100 del r2 < node (j + 1) ∧
      interpolatedEfficiency (user ++ tables t) user.length 1100 del r1 r2 = some (blend (pos i (clip 1100 del r1)) (pos j (clip 1100 del r2))
        (entry (user ++ tables t) user.length i j) (entry (user ++ tables t) user.length (i + 1) j)
        (entry (user ++ tables t) user.length i (j + 1)) (entry (user ++ tables t) user.length (i + 1) (j + 1))) := by
  obtain ⟨a1, a2⟩ := clip_range del r1 hd hd' h1
  obtain ⟨b1, b2⟩ := clip_range del r2 hd hd' h2
  obtain ⟨i, hi', i1, i2⟩ := exists_node _ a1 a2
  obtain ⟨j, hj', j1, j2⟩ := exists_node _ b1 b2
  exact ⟨i, hi', j, hj', i1, i2, j1, j2,
    eff_cell _ user.length 1100 del r1 r2 (by rw [List.length_append, tables_length]) i j hi' hj' i1 i2 j1 j2⟩

theorem node_lt_of {i m : ℕ} {x : ℝ} (h : (node i : ℝ) ≤ x) (hx : x < node m) : i < m := by
  by_contra hc
  have : node m ≤ node i := node_mono (by omega)
  have : (node m : ℝ) ≤ node i := by exact_mod_cast this
  linarith

theorem node_le_of {i m : ℕ} {x : ℝ} (h : x < node (i + 1)) (hx : (node m : ℝ) ≤ x) : m ≤ i := by
  by_contra hc
  have : node (i + 1) ≤ node m := node_mono (by omega)
  have : (node (i + 1) : ℝ) ≤ node m := by exact_mod_cast this
  linarith

theorem clip_small (del r b : ℝ) (hb : b ≤ 1100) (h : r * 1e6 < b) : clip 1100 del r = r * 1e6 := by
  unfold clip; rw [if_neg (by linarith)]

theorem le_clip (del r b : ℝ) (hb : b ≤ 1100 - del) (h : b ≤ r * 1e6) : b ≤ clip 1100 del r := by
  unfold clip; split_ifs <;> linarith

/-! ### theorems -/

/-- **C91 (complete, no negative entry).** The six tables have the 201·202/2 entries that interpolation needs and no negative one. -/
theorem tables_ok : TablesOk tables := ⟨tables_length, tables_entry_nonneg⟩

/-- **C91 (efficiencies are between 0 and 4).** For every table and all radii, the efficiency used in a collision is defined and between 0 and 4; it is at most 1 when one of the
two drops is smaller than 35 micrometers. -/
theorem efficiency_in_range (t : Table) (user : List ℝ) (del r1 r2 : ℝ) (hd : 0 < del) (hd' : del ≤ 1) (h1 : 0 ≤ r1) (h2 : 0 ≤ r2) :
    ∃ e, interpolatedEfficiency (user ++ tables t) user.length 1100 del r1 r2 = some e ∧ 0 ≤ e ∧ e ≤ 4 ∧ (min r1 r2 < 35e-6 → e ≤ 1) := by
  obtain ⟨i, hi, j, hj, i1, i2, j1, j2, he⟩ := eff_cells t user del r1 r2 hd (by linarith) h1 h2
  have p1 := pos_mem i _ i1 i2.le
  have p2 := pos_mem j _ j1 j2.le
  have b4 : ∀ a ≤ 200, ∀ b ≤ 200, 0 ≤ entry (user ++ tables t) user.length a b ∧ entry (user ++ tables t) user.length a b ≤ 4 := by
    intro a ha b hb
    rw [entry_raw t user a b ha hb]
    have : raw (rowsOf t) (max a b) (min a b) ≤ 4000000 := raw_le t _ _ (by omega) (by omega)
    have : (raw (rowsOf t) (max a b) (min a b) : ℝ) ≤ 4000000 := by exact_mod_cast this
    exact ⟨by positivity, by rw [div_le_iff₀ (by norm_num)]; linarith⟩
  have b1 : ∀ a ≤ 200, ∀ b ≤ 200, min a b ≤ 35 → 0 ≤ entry (user ++ tables t) user.length a b ∧ entry (user ++ tables t) user.length a b ≤ 1 := by
    intro a ha b hb hm
    rw [entry_raw t user a b ha hb]
    have : raw (rowsOf t) (max a b) (min a b) ≤ 1000000 := raw_le_one t _ _ (by omega) (by omega) hm
    have : (raw (rowsOf t) (max a b) (min a b) : ℝ) ≤ 1000000 := by exact_mod_cast this
    exact ⟨by positivity, by rw [div_le_iff₀ (by norm_num)]; linarith⟩
  have B := blend_mem 0 4 _ _ _ _ _ _ p1 p2 (b4 i (by omega) j (by omega)) (b4 (i + 1) (by omega) j (by omega)) (b4 i (by omega) (j + 1) (by omega))
    (b4 (i + 1) (by omega) (j + 1) (by omega))
  refine ⟨_, he, B.1, B.2, ?_⟩
  intro hm
  have n35 : (node 35 : ℝ) = 35 := by norm_num [node]
  have hs : i < 35 ∨ j < 35 := by
    rcases min_lt_iff.1 hm with h | h
    · left
      have h' : r1 * 1e6 < 35 := by linarith
      refine node_lt_of i1 ?_
      rw [clip_small del r1 35 (by norm_num) h', n35]; exact h'
    · right
      have h' : r2 * 1e6 < 35 := by linarith
      refine node_lt_of j1 ?_
      rw [clip_small del r2 35 (by norm_num) h', n35]; exact h'
  exact (blend_mem 0 1 _ _ _ _ _ _ p1 p2 (b1 i (by omega) j (by omega) (by omega)) (b1 (i + 1) (by omega) j (by omega) (by omega))
    (b1 i (by omega) (j + 1) (by omega) (by omega)) (b1 (i + 1) (by omega) (j + 1) (by omega) (by omega))).2

/-- **C91 (kernels of the library).** In double precision every kernel accepted by initialisation, the turbulent ones excepted, is defined and non-negative for every pair of
droplets; no assumption on the tables is left. -/
theorem library_kernels_nonneg (turb : Bool) (user : List ℝ) (hu : ∀ k ∈ user, 0 ≤ k) (k : Kind) (K : Kern)
    (hk : k ≠ .onishi_hall ∧ k ≠ .onishi_hall_davis_no_waals) (hK : initKernel tables turb user k = some K)
    (air : Air) (a b : Coal.SD) (ha : 0 ≤ a.rw2) (hb : 0 ≤ b.rw2) : ∃ v, kval 1e-6 air a b K = some v ∧ 0 ≤ v :=
  kernel_nonneg tables tables_ok turb user hu k K hk hK 1e-6 (by norm_num) (by norm_num) air a b ha hb

theorem raw_congr (t u : Table) (n i j : ℕ) (h : (rowsOf t).drop n = (rowsOf u).drop n) (hi : n ≤ i) : raw (rowsOf t) i j = raw (rowsOf u) i j := by
  unfold raw
  have e : ∀ l : List ℕ, l.getD i 0 = (l.drop n).getD (i - n) 0 := by
    intro l
    rw [List.getD_eq_getElem?_getD, List.getD_eq_getElem?_getD, List.getElem?_drop]
    congr 2; omega
  rw [e, e (rowsOf u), h]

theorem agree_beyond (t u : Table) (n : ℕ) (hn : n ≤ 190) (h : (rowsOf t).drop n = (rowsOf u).drop n) (user : List ℝ) (del r1 r2 : ℝ) (hd : 0 < del) (hd' : del ≤ 1)
    (h1 : 0 ≤ r1) (h2 : 0 ≤ r2) (hr : (node n : ℝ) ≤ max r1 r2 * 1e6) :
    interpolatedEfficiency (user ++ tables t) user.length 1100 del r1 r2 = interpolatedEfficiency (user ++ tables u) user.length 1100 del r1 r2 := by
  have key : ∀ a b : ℕ, a ≤ 200 → b ≤ 200 → n ≤ max a b → entry (user ++ tables t) user.length a b = entry (user ++ tables u) user.length a b := by
    intro a b ha hb hm
    rw [entry_raw t user a b ha hb, entry_raw u user a b ha hb, raw_congr t u n _ _ h hm]
  have hn' : (node n : ℝ) ≤ 1100 - del := by
    have : node n ≤ node 190 := node_mono hn
    have e : node 190 = 1000 := by norm_num [node]
    have : (node n : ℝ) ≤ 1000 := by rw [e] at this; exact_mod_cast this
    linarith
  obtain ⟨a1, a2⟩ := clip_range del r1 hd (by linarith) h1
  obtain ⟨b1, b2⟩ := clip_range del r2 hd (by linarith) h2
  obtain ⟨i, hi', i1, i2⟩ := exists_node _ a1 a2
  obtain ⟨j, hj', j1, j2⟩ := exists_node _ b1 b2
  have hm : n ≤ max i j := by
    rcases le_total r2 r1 with hle | hle
    · rw [max_eq_left hle] at hr
      exact le_trans (node_le_of i2 (le_clip del r1 _ hn' hr)) (le_max_left _ _)
    · rw [max_eq_right hle] at hr
      exact le_trans (node_le_of j2 (le_clip del r2 _ hn' hr)) (le_max_right _ _)
  rw [eff_cell _ user.length 1100 del r1 r2 (by rw [List.length_append, tables_length]) i j hi' hj' i1 i2 j1 j2,
    eff_cell _ user.length 1100 del r1 r2 (by rw [List.length_append, tables_length]) i j hi' hj' i1 i2 j1 j2,
    key i j (by omega) (by omega) (by omega), key (i + 1) j (by omega) (by omega) (by omega), key i (j + 1) (by omega) (by omega) (by omega),
    key (i + 1) (j + 1) (by omega) (by omega) (by omega)]

/-- **C91 (Pinsky's efficiencies replace Hall's for small drops only).** As soon as one drop has 22 micrometers or more, the three Pinsky kernels are the Hall kernel. -/
theorem pinsky_is_hall_beyond (t : Table) (ht : t = .hall_pinsky_1000mb_grav ∨ t = .hall_pinsky_cumulonimbus ∨ t = .hall_pinsky_stratocumulus)
    (del r1 r2 : ℝ) (hd : 0 < del) (hd' : del ≤ 1) (h1 : 0 ≤ r1) (h2 : 0 ≤ r2) (hr : 22e-6 ≤ max r1 r2) :
    interpolatedEfficiency (tables t) 0 1100 del r1 r2 = interpolatedEfficiency (tables .hall) 0 1100 del r1 r2 := by
  have n22 : (node 22 : ℝ) = 22 := by norm_num [node]
  exact agree_beyond t .hall 22 (by norm_num) (pinsky_rows t ht) [] del r1 r2 hd hd' h1 h2 (by rw [n22]; linarith)

/-- **C91 (Davis' efficiencies replace Hall's for small drops only).** From 31 micrometers on. -/
theorem davis_is_hall_beyond (user : List ℝ) (del r1 r2 : ℝ) (hd : 0 < del) (hd' : del ≤ 1) (h1 : 0 ≤ r1) (h2 : 0 ≤ r2) (hr : 31e-6 ≤ max r1 r2) :
    interpolatedEfficiency (user ++ tables .hall_davis_no_waals) user.length 1100 del r1 r2 =
      interpolatedEfficiency (user ++ tables .hall) user.length 1100 del r1 r2 := by
  have n31 : (node 31 : ℝ) = 31 := by norm_num [node]
  exact agree_beyond .hall_davis_no_waals .hall 31 (by norm_num) davis_rows user del r1 r2 hd hd' h1 h2 (by rw [n31]; linarith)

/-- **C91 (Vohl-Davis is Hall-Davis for small drops).** While both drops are smaller than 30 micrometers. -/
theorem vohl_is_davis_below (del r1 r2 : ℝ) (hd : 0 < del) (hd' : del ≤ 1) (h1 : 0 ≤ r1) (h2 : 0 ≤ r2) (hr1 : r1 < 30e-6) (hr2 : r2 < 30e-6) :
    interpolatedEfficiency (tables .vohl_davis_no_waals) 0 1100 del r1 r2 = interpolatedEfficiency (tables .hall_davis_no_waals) 0 1100 del r1 r2 := by
  have key : ∀ a b : ℕ, a ≤ 30 → b ≤ 30 → entry ([] ++ tables .vohl_davis_no_waals) ([] : List ℝ).length a b = entry ([] ++ tables .hall_davis_no_waals) ([] : List ℝ).length a b := by
    intro a b ha hb
    rw [entry_raw _ [] a b (by omega) (by omega), entry_raw _ [] a b (by omega) (by omega)]
    have : raw (rowsOf .vohl_davis_no_waals) (max a b) (min a b) = raw (rowsOf .hall_davis_no_waals) (max a b) (min a b) := by
      unfold raw
      have e : ∀ l : List ℕ, l.getD (max a b) 0 = (l.take 31).getD (max a b) 0 := by
        intro l
        rw [List.getD_eq_getElem?_getD, List.getD_eq_getElem?_getD, List.getElem?_take, if_pos (by omega)]
      rw [e, e (rowsOf .hall_davis_no_waals)]
      show digits7 _ ((rowsVohlDavis.take 31).getD _ 0) _ = digits7 _ ((rowsHallDavis.take 31).getD _ 0) _
      rw [vohl_rows]
    rw [this]
  obtain ⟨a1, a2⟩ := clip_range del r1 hd (by linarith) h1
  obtain ⟨b1, b2⟩ := clip_range del r2 hd (by linarith) h2
  obtain ⟨i, hi', i1, i2⟩ := exists_node _ a1 a2
  obtain ⟨j, hj', j1, j2⟩ := exists_node _ b1 b2
  have n30 : (node 30 : ℝ) = 30 := by norm_num [node]
  have q1 : r1 * 1e6 < 30 := by linarith
  have q2 : r2 * 1e6 < 30 := by linarith
  have li : i < 30 := node_lt_of i1 (by rw [clip_small del r1 30 (by norm_num) q1, n30]; exact q1)
  have lj : j < 30 := node_lt_of j1 (by rw [clip_small del r2 30 (by norm_num) q2, n30]; exact q2)
  have E : ∀ t : Table, interpolatedEfficiency (tables t) 0 1100 del r1 r2 = interpolatedEfficiency ([] ++ tables t) ([] : List ℝ).length 1100 del r1 r2 := fun _ => rfl
  rw [E, E]
  rw [eff_cell ([] ++ tables .vohl_davis_no_waals) _ 1100 del r1 r2 (by rw [List.length_append, tables_length]) i j hi' hj' i1 i2 j1 j2,
    eff_cell ([] ++ tables .hall_davis_no_waals) _ 1100 del r1 r2 (by rw [List.length_append, tables_length]) i j hi' hj' i1 i2 j1 j2,
    key i j (by omega) (by omega), key (i + 1) j (by omega) (by omega), key i (j + 1) (by omega) (by omega), key (i + 1) (j + 1) (by omega) (by omega)]

/-- **C91 (finding).** With all tables but Vohl's, a drop of 300 micrometers or more never collects a droplet smaller than 14 micrometers. -/
theorem large_drops_miss_small_ones (t : Table) (ht : t ≠ .vohl_davis_no_waals) (user : List ℝ) (del r1 r2 : ℝ) (hd : 0 < del) (hd' : del ≤ 1) (h2 : 0 ≤ r2)
    (hR : 300e-6 ≤ r1) (hr : r2 < 14e-6) : interpolatedEfficiency (user ++ tables t) user.length 1100 del r1 r2 = some 0 := by
  obtain ⟨i, hi, j, hj, i1, i2, j1, j2, he⟩ := eff_cells t user del r1 r2 hd (by linarith) (by linarith) h2
  have n14 : (node 14 : ℝ) = 14 := by norm_num [node]
  have n120 : (node 120 : ℝ) = 300 := by norm_num [node]
  have q2 : r2 * 1e6 < 14 := by linarith
  have lj : j < 14 := node_lt_of j1 (by rw [clip_small del r2 14 (by norm_num) q2, n14]; exact q2)
  have li : 120 ≤ i := node_le_of i2 (by rw [n120]; exact le_clip del r1 _ (by linarith) (by linarith))
  have z : ∀ a b : ℕ, a ≤ 200 → 120 ≤ a → b ≤ 14 → entry (user ++ tables t) user.length a b = 0 := by
    intro a b ha ha' hb
    rw [entry_raw t user a b ha (by omega), max_eq_left (by omega), min_eq_right (by omega), raw_zero t ht a b ha hb ha']
    simp
  rw [he, z i j (by omega) li (by omega), z (i + 1) j (by omega) (by omega) (by omega), z i (j + 1) (by omega) li (by omega), z (i + 1) (j + 1) (by omega) (by omega) (by omega)]
  unfold blend
  congr 1
  ring

/-! ### entries that stand out -/

set_option maxRecDepth 100000 in
/-- **C91 (finding).** In the gravitational Pinsky table the efficiency of two equal drops up to 21 micrometers is 0, except for 8 micrometers, where the table has the number of the
table for turbulent stratocumulus. -/
theorem gravitational_table_stray_entry :
    (∀ i ≤ 21, i ≠ 8 → raw rowsHallPinskyGrav i i = 0) ∧ raw rowsHallPinskyGrav 8 8 = 42000 ∧ raw rowsHallPinskySc 8 8 = 42000 := by
  decide +kernel

set_option maxRecDepth 100000 in
/-- **C91 (finding).** In the cumulonimbus table the entry for 20 and 13 micrometers (0.2) is smaller than its four neighbours. -/
theorem cumulonimbus_table_dip :
    raw rowsHallPinskyCu 20 13 = 200000 ∧ raw rowsHallPinskyCu 20 12 = 263000 ∧ raw rowsHallPinskyCu 20 14 = 250000 ∧ raw rowsHallPinskyCu 19 13 = 211000 ∧
      raw rowsHallPinskyCu 21 13 = 310000 := by
  decide +kernel

/-- the efficiency for equal drops of 8 micrometers in the gravitational table -/
theorem gravitational_equal_drops (del : ℝ) : interpolatedEfficiency (tables .hall_pinsky_1000mb_grav) 0 1100 del 8e-6 8e-6 = some 0.042 := by
  have h := eff_node ([] ++ tables .hall_pinsky_1000mb_grav) ([] : List ℝ).length del (by rw [List.length_append, tables_length]) 8 8 (by norm_num) (by norm_num)
  rw [entry_raw _ [] 8 8 (by norm_num) (by norm_num)] at h
  have e : raw (rowsOf .hall_pinsky_1000mb_grav) (max 8 8) (min 8 8) = 42000 := gravitational_table_stray_entry.2.1
  rw [e] at h
  have n8 : (node 8 : ℝ) / 1e6 = 8e-6 := by norm_num [node]
  rw [n8] at h
  rw [show (0.042 : ℝ) = ((42000 : ℕ) : ℝ) / 1000000 by norm_num]
  exact h

/-! ### concrete cases -/

/-- a drop of 40 micrometers and one of 10 micrometers in the Hall table: 0.62 -/
example : raw rowsHall 40 10 = 620000 := by decide +kernel

example : ∃ e, interpolatedEfficiency ([] ++ tables .hall) ([] : List ℝ).length 1100 1e-6 40e-6 5e-3 = some e ∧ 0 ≤ e ∧ e ≤ 4 ∧ (min (40e-6 : ℝ) 5e-3 < 35e-6 → e ≤ 1) :=
  efficiency_in_range .hall [] 1e-6 40e-6 5e-3 (by norm_num) (by norm_num) (by norm_num) (by norm_num)

example : interpolatedEfficiency (tables .hall_pinsky_cumulonimbus) 0 1100 1e-6 40e-6 5e-6 = interpolatedEfficiency (tables .hall) 0 1100 1e-6 40e-6 5e-6 :=
  pinsky_is_hall_beyond _ (by simp) 1e-6 _ _ (by norm_num) (by norm_num) (by norm_num) (by norm_num) (by rw [max_eq_left (by norm_num)]; norm_num)

end
end LCP.Kernel
