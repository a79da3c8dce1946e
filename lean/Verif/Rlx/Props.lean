import Verif.Rlx.Model
import Mathlib.Tactic.Positivity
import Mathlib.Tactic.NormNum
import Mathlib.Tactic.FieldSimp
import Mathlib.Analysis.SpecialFunctions.Exp

/-!
# Relaxation: what is added and how much (C37)
-/
namespace LCP.Rlx
open LCP.Grid LCP.Diag

/-! ### Specification -/

/-- a droplet of the kappa range `[kLo, kHi)` with dry volume in `[rLo, rHi)`, at height level `k` -/
def InBin (kLo kHi rLo rHi : ℝ) (nz k : ℕ) (s : Sd) : Prop :=
  kLo ≤ s.kpa ∧ s.kpa < kHi ∧ rLo ≤ s.rd3 ∧ s.rd3 < rHi ∧ s.cell % nz = k

open Classical in
/-- number of real droplets of a population satisfying a condition -/
noncomputable def number (P : Sd → Prop) (pop : List Sd) : ℕ := (pop.map fun s => if P s then s.n else 0).sum

/-- number of real droplets in bin `m` of distribution `dd` at level `k` -/
noncomputable def present (o : Opts) (dd : Distro) (tot : ℝ) (m k : ℕ) (pop : List Sd) : ℕ :=
  number (InBin dd.kLo dd.kHi (edge o dd tot m) (edge o dd tot (m + 1)) o.d.nz k) pop

/-! ### Lemmas -/

theorem number_append (P : Sd → Prop) (a b : List Sd) : number P (a ++ b) = number P a + number P b := by
  simp [number]

theorem number_perm (P : Sd → Prop) {a b : List Sd} (h : a.Perm b) : number P a = number P b := by
  unfold number; exact (h.map _).sum_eq

theorem number_zero (P : Sd → Prop) (a : List Sd) (h : ∀ s ∈ a, ¬ P s) : number P a = 0 := by
  unfold number
  apply List.sum_eq_zero
  intro x hx
  obtain ⟨s, hs, rfl⟩ := List.mem_map.1 hx
  rw [if_neg (h s hs)]

theorem sumAt_map_reduceByKey (f : ℕ → ℕ) (c : ℕ) (l : List (ℕ × ℝ)) :
    sumAt c ((reduceByKey l).map fun p => (f p.1, p.2)) = sumAt c (l.map fun p => (f p.1, p.2)) := by
  induction l with
  | nil => rfl
  | cons kv t ih =>
    obtain ⟨k, v⟩ := kv
    rw [reduceByKey_cons, List.map_cons, sumAt_cons, ← ih]
    cases h : reduceByKey t with
    | nil => simp [sumAt_cons, sumAt_nil]
    | cons kv' r =>
      obtain ⟨k', v'⟩ := kv'
      by_cases hk : k = k'
      · subst hk
        by_cases hc : f k = c <;> simp [sumAt_cons, hc, add_assoc]
      · simp [hk, sumAt_cons]

theorem momentCounter_zero (n x : ℝ) : momentCounter 0 n x = n := by
  unfold momentCounter
  split_ifs <;> simp

theorem sumAt_levels (kLo kHi rLo rHi : ℝ) (nz k : ℕ) (l : List Sd) :
    sumAt k ((l.map fun s => (s.cell, momentCounter 0 (rangeFilter rLo rHi (rangeFilter kLo kHi s.n s.kpa) s.rd3) s.rd3)).map
      fun p => (p.1 % nz, p.2)) = (number (InBin kLo kHi rLo rHi nz k) l : ℝ) := by
  induction l with
  | nil => simp [sumAt, number]
  | cons s t ih =>
    rw [List.map_cons, List.map_cons, sumAt_cons, ih]
    have : number (InBin kLo kHi rLo rHi nz k) (s :: t) = number (InBin kLo kHi rLo rHi nz k) [s] +
        number (InBin kLo kHi rLo rHi nz k) t := number_append _ [s] t
    rw [this, Nat.cast_add]
    congr 1
    simp only [momentCounter_zero, rangeFilter, number, InBin, List.map_cons, List.map_nil, List.sum_cons, List.sum_nil, add_zero]
    by_cases h1 : kLo ≤ s.kpa ∧ s.kpa < kHi <;> by_cases h2 : rLo ≤ s.rd3 ∧ s.rd3 < rHi <;> by_cases h3 : s.cell % nz = k <;>
      simp [h1, h2, h3]

/-- the horizontal sum computed is the number of droplets of the bin at the level, whatever the outcomes of the sorts -/
theorem horSum_eq (o : Opts) (dd : Distro) (tot : ℝ) (m k : ℕ) (pop : List Sd) (hs : ℕ → ℝ) (h : HorSum o dd tot m pop hs) :
    hs k = present o dd tot m k pop := by
  obtain ⟨srt, srt2, h1, h2, rfl⟩ := h
  unfold horSum
  rw [scatter_reduceByKey _ _ h2.sorted, sumAt_perm h2.perm, levelKeys, cellMoments,
    sumAt_map_reduceByKey (fun c => c % o.d.nz), sumAt_levels]
  unfold present
  rw [number_perm _ h1.perm]

theorem edge_lt (o : Opts) (dd : Distro) (tot : ℝ) (hb : 0 < binSize o dd tot) {a b : ℕ} (h : a < b) :
    edge o dd tot a < edge o dd tot b := by
  unfold edge
  apply Real.exp_lt_exp.2
  have : (a : ℝ) < b := by exact_mod_cast h
  nlinarith

theorem edge_le (o : Opts) (dd : Distro) (tot : ℝ) (hb : 0 < binSize o dd tot) {a b : ℕ} (h : a ≤ b) :
    edge o dd tot a ≤ edge o dd tot b := by
  rcases h.eq_or_lt with rfl | h
  · exact le_rfl
  · exact (edge_lt o dd tot hb h).le

theorem new_rd3 (o : Opts) (dd : Distro) (tot : ℝ) (m : ℕ) (u : ℝ) :
    Real.exp (3 * (Real.log (edge o dd tot m ^ (1 / 3 : ℝ)) + u * binSize o dd tot)) =
      Real.exp (3 * (dd.lnLo + (m + u) * binSize o dd tot)) := by
  unfold edge
  rw [← Real.exp_mul, Real.log_exp]
  congr 1; ring

theorem new_rd3_in (o : Opts) (dd : Distro) (tot : ℝ) (m : ℕ) (u : ℝ) (hb : 0 < binSize o dd tot) (h0 : 0 ≤ u) (h1 : u < 1) :
    edge o dd tot m ≤ Real.exp (3 * (Real.log (edge o dd tot m ^ (1 / 3 : ℝ)) + u * binSize o dd tot)) ∧
    Real.exp (3 * (Real.log (edge o dd tot m ^ (1 / 3 : ℝ)) + u * binSize o dd tot)) < edge o dd tot (m + 1) := by
  rw [new_rd3]
  unfold edge
  constructor
  · apply Real.exp_le_exp.2
    nlinarith [mul_nonneg h0 hb.le]
  · apply Real.exp_lt_exp.2
    push_cast
    nlinarith [mul_lt_mul_of_pos_right h1 hb]

/-- every created super-droplet: level, multiplicity, kappa, dry radius in the bin -/
theorem mem_createBin (o : Opts) (dd : Distro) (tot dt : ℝ) (m : ℕ) (hs : ℕ → ℝ) (u : Rnd) (s : Sd)
    (h : s ∈ createBin o dd tot dt m hs u) (hb : 0 < binSize o dd tot)
    (hu : ∀ p, 0 ≤ u.ui p ∧ u.ui p < 1 ∧ 0 ≤ u.ur p ∧ u.ur p < 1 ∧ 0 ≤ u.uj p ∧ u.uj p < 1) :
    s.kpa = dd.kappa ∧ edge o dd tot m ≤ s.rd3 ∧ s.rd3 < edge o dd tot (m + 1) := by
  unfold createBin at h
  obtain ⟨q, _, rfl⟩ := List.mem_map.1 h
  exact ⟨rfl, new_rd3_in o dd tot m _ hb (hu q.2).2.2.1 (hu q.2).2.2.2.1⟩

/-- every created super-droplet is in a cell of the grid -/
theorem cell_createBin (o : Opts) (dd : Distro) (tot dt : ℝ) (m : ℕ) (hs : ℕ → ℝ) (u : Rnd) (s : Sd)
    (h : s ∈ createBin o dd tot dt m hs u) (hx : 0 < o.d.nx)
    (hu : ∀ p, 0 ≤ u.ui p ∧ u.ui p < 1 ∧ 0 ≤ u.ur p ∧ u.ur p < 1 ∧ 0 ≤ u.uj p ∧ u.uj p < 1) :
    s.cell < o.d.nCell := by
  unfold createBin at h
  obtain ⟨q, hq, rfl⟩ := List.mem_map.1 h
  have hq1 : q.1 ∈ _ := List.mem_map_of_mem (f := Prod.fst) hq
  rw [List.zipIdx_map_fst] at hq1
  obtain ⟨k, hk, hq2⟩ := List.mem_flatMap.1 hq1
  have hq3 := List.eq_of_mem_replicate hq2
  have hkn : q.1.1 < o.d.nz := by rw [hq3]; exact List.mem_range.1 hk
  have hfl : ∀ (a : ℝ) (n : ℕ), 0 < n → 0 ≤ a → a < 1 → ⌊a * n⌋₊ < n := by
    intro a n hn h0 h1
    have hn' : (0 : ℝ) < n := by exact_mod_cast hn
    rw [Nat.floor_lt (by positivity)]
    nlinarith
  have hi := hfl (u.ui q.2) _ hx (hu q.2).1 (hu q.2).2.1
  have hz : 0 < o.d.nz := by omega
  simp only [Dims.nCell, m1]
  rw [if_neg (show ¬ o.d.nx = 0 by omega), if_neg (show ¬ o.d.nz = 0 by omega)]
  by_cases hy : o.d.ny = 0
  · simp only [if_pos hy]
    nlinarith [Nat.mul_le_mul_right o.d.nz (Nat.succ_le_of_lt hi)]
  · simp only [if_neg hy]
    have hj := hfl (u.uj q.2) _ (Nat.pos_of_ne_zero hy) (hu q.2).2.2.2.2.1 (hu q.2).2.2.2.2.2
    nlinarith [Nat.mul_le_mul_right (o.d.nz * o.d.ny) (Nat.succ_le_of_lt hi), Nat.mul_le_mul_right o.d.nz (Nat.succ_le_of_lt hj)]

theorem level_cell (o : Opts) (i j k : ℕ) (hk : k < o.d.nz) :
    (if o.d.ny = 0 then i * o.d.nz + k else i * (o.d.nz * o.d.ny) + j * o.d.nz + k) % o.d.nz = k := by
  split_ifs
  · rw [Nat.add_comm, Nat.add_mul_mod_self_right, Nat.mod_eq_of_lt hk]
  · rw [show i * (o.d.nz * o.d.ny) + j * o.d.nz + k = k + (i * o.d.ny + j) * o.d.nz by ring, Nat.add_mul_mod_self_right,
      Nat.mod_eq_of_lt hk]

theorem sum_flatMap_levels (nz k : ℕ) (a b : ℕ → ℕ) (hk : k < nz) :
    ((((List.range nz).flatMap fun k => List.replicate (a k) (k, b k))).map
      fun p : ℕ × ℕ => if p.1 = k then p.2 else 0).sum = a k * b k := by
  have key : ∀ n, ((((List.range n).flatMap fun k => List.replicate (a k) (k, b k))).map
      fun p : ℕ × ℕ => if p.1 = k then p.2 else 0).sum = if k < n then a k * b k else 0 := by
    intro n
    induction n with
    | zero => simp
    | succ n ih =>
      rw [List.range_succ, List.flatMap_append, List.map_append, List.sum_append, ih]
      simp only [List.flatMap_singleton, List.map_replicate, List.sum_replicate]
      rcases lt_trichotomy k n with h | h | h
      · rw [if_pos h, if_pos (show k < n + 1 by omega), if_neg (show ¬ n = k by omega)]; simp
      · subst h; simp
      · rw [if_neg (show ¬ k < n by omega), if_neg (show ¬ k < n + 1 by omega), if_neg (show ¬ n = k by omega)]; simp
  rw [key, if_pos hk]

/-- what the creation for bin `m'` adds to bin `m` -/
theorem number_createBin (o : Opts) (dd : Distro) (tot dt : ℝ) (m m' k : ℕ) (hs : ℕ → ℝ) (u : Rnd) (hk : k < o.d.nz)
    (hkap : dd.kLo ≤ dd.kappa ∧ dd.kappa < dd.kHi) (hb : 0 < binSize o dd tot)
    (hu : ∀ p, 0 ≤ u.ui p ∧ u.ui p < 1 ∧ 0 ≤ u.ur p ∧ u.ur p < 1 ∧ 0 ≤ u.uj p ∧ u.uj p < 1) :
    present o dd tot m k (createBin o dd tot dt m' hs u) =
      if m' = m then nSdToCreate o (missing (expected o dd tot m k) (hs k)) (expected o dd tot m k) *
        newMult o dt (missing (expected o dd tot m k) (hs k)) else 0 := by
  by_cases hm : m' = m
  · subst hm
    rw [if_pos rfl]
    rw [← sum_flatMap_levels o.d.nz k
      (fun k => nSdToCreate o (missing (expected o dd tot m' k) (hs k)) (expected o dd tot m' k))
      (fun k => newMult o dt (missing (expected o dd tot m' k) (hs k))) hk]
    unfold present number createBin
    dsimp only
    rw [List.map_map]
    generalize hL : ((List.range o.d.nz).flatMap fun k => List.replicate (nSdToCreate o (missing (expected o dd tot m' k) (hs k))
      (expected o dd tot m' k)) (k, newMult o dt (missing (expected o dd tot m' k) (hs k)))) = L
    have hlev : ∀ p ∈ L, p.1 < o.d.nz := by
      intro p hp
      rw [← hL] at hp
      obtain ⟨k, hk, hq2⟩ := List.mem_flatMap.1 hp
      rw [List.eq_of_mem_replicate hq2]; exact List.mem_range.1 hk
    conv_rhs => rw [← List.zipIdx_map_fst 0 L, List.map_map]
    congr 1
    apply List.map_congr_left
    intro q hq
    have hq1 : q.1 ∈ L := by
      have := List.mem_map_of_mem (f := Prod.fst) hq
      rwa [List.zipIdx_map_fst] at this
    have hr := new_rd3_in o dd tot m' (u.ur q.2) hb (hu q.2).2.2.1 (hu q.2).2.2.2.1
    have hl := level_cell o ⌊u.ui q.2 * o.d.nx⌋₊ ⌊u.uj q.2 * o.d.ny⌋₊ q.1.1 (hlev _ hq1)
    simp only [Function.comp]
    by_cases hqk : q.1.1 = k
    · rw [if_pos (show InBin _ _ _ _ _ _ _ from ⟨hkap.1, hkap.2, hr.1, hr.2, hl.trans hqk⟩), if_pos hqk]
    · rw [if_neg (fun h : InBin _ _ _ _ _ _ _ => hqk (hl.symm.trans h.2.2.2.2)), if_neg hqk]
  · rw [if_neg hm]
    apply number_zero
    intro s hsm hin
    have := mem_createBin o dd tot dt m' hs u s hsm hb hu
    obtain ⟨_, _, h3, h4, _⟩ := hin
    rcases lt_or_gt_of_ne hm with h | h
    · have := edge_le o dd tot hb (show m' + 1 ≤ m by omega)
      linarith
    · have := edge_le o dd tot hb (show m + 1 ≤ m' by omega)
      linarith

theorem binSize_pos (o : Opts) (dd : Distro) (tot : ℝ) (h : dd.lnLo < dd.lnHi) (hn : 0 < nBins o dd tot) : 0 < binSize o dd tot := by
  unfold binSize
  have : (0 : ℝ) < nBins o dd tot := by exact_mod_cast hn
  exact div_pos (by linarith) this

/-- the number added to a bin at a level, in terms of the numbers expected and present -/
noncomputable def added (o : Opts) (dt exp pres : ℝ) : ℕ :=
  nSdToCreate o (missing exp pres) exp * newMult o dt (missing exp pres)

theorem bins_present (o : Opts) (dd : Distro) (tot dt : ℝ) (m k M : ℕ) (pop l : List Sd) (hk : k < o.d.nz)
    (hkap : dd.kLo ≤ dd.kappa ∧ dd.kappa < dd.kHi) (hb : 0 < binSize o dd tot) (h : Bins o dd tot dt pop M l) :
    present o dd tot m k l = if m < M then added o dt (expected o dd tot m k) (present o dd tot m k pop) else 0 := by
  induction h with
  | zero => simp [present, number]
  | @succ M l hs u hl hh hu ih =>
    unfold present at *
    rw [number_append, ih]
    have := number_createBin o dd tot dt m M k hs u hk hkap hb hu
    unfold present at this
    rw [this]
    have he := horSum_eq o dd tot M k pop hs hh
    rcases lt_trichotomy m M with hm | hm | hm
    · rw [if_pos hm, if_neg (by omega), if_pos (by omega)]; simp
    · subst hm
      rw [if_neg (lt_irrefl _), if_pos rfl, if_pos (by omega), he]; simp [added, present]
    · rw [if_neg (by omega), if_neg (by omega), if_neg (by omega)]

theorem bins_kappa (o : Opts) (dd : Distro) (tot dt : ℝ) (M : ℕ) (pop l : List Sd) (h : Bins o dd tot dt pop M l) :
    ∀ s ∈ l, s.kpa = dd.kappa := by
  induction h with
  | zero => simp
  | succ _ _ _ ih =>
    intro s hs
    rcases List.mem_append.1 hs with h | h
    · exact ih s h
    · unfold createBin at h
      obtain ⟨q, _, rfl⟩ := List.mem_map.1 h
      rfl

theorem run_kappa (o : Opts) (tot dt : ℝ) (pop : List Sd) (ds : List Distro) (l : List Sd) (h : Run o tot dt pop ds l) :
    ∀ s ∈ l, ∃ dd ∈ ds, s.kpa = dd.kappa := by
  induction h with
  | nil => simp
  | @cons dd ds l l' h1 _ ih =>
    intro s hs
    rcases List.mem_append.1 hs with h | h
    · exact ⟨dd, by simp, bins_kappa _ _ _ _ _ _ _ h1 s h⟩
    · obtain ⟨d', hd', e⟩ := ih s h
      exact ⟨d', by simp [hd'], e⟩

/-- kappa of each distribution is in its own range and in no other one's (the user's obligation; not checked by the library) -/
def KappaOk (ds : List Distro) : Prop :=
  (∀ dd ∈ ds, dd.kLo ≤ dd.kappa ∧ dd.kappa < dd.kHi) ∧
  ds.Pairwise fun a b => ¬ (a.kLo ≤ b.kappa ∧ b.kappa < a.kHi) ∧ ¬ (b.kLo ≤ a.kappa ∧ a.kappa < b.kHi)

theorem run_present (o : Opts) (tot dt : ℝ) (pop : List Sd) (ds : List Distro) (l : List Sd) (h : Run o tot dt pop ds l)
    (hok : KappaOk ds) (hln : ∀ dd ∈ ds, dd.lnLo < dd.lnHi) (dd : Distro) (hd : dd ∈ ds) (m k : ℕ) (hm : m < nBins o dd tot)
    (hk : k < o.d.nz) :
    present o dd tot m k l = added o dt (expected o dd tot m k) (present o dd tot m k pop) := by
  induction h with
  | nil => simp at hd
  | @cons d0 ds l l' h1 h2 ih =>
    obtain ⟨hk1, hk2⟩ := hok
    rw [List.pairwise_cons] at hk2
    have hz : ∀ (l : List Sd) (e : ℝ), (∀ s ∈ l, s.kpa = e) → ¬ (dd.kLo ≤ e ∧ e < dd.kHi) → present o dd tot m k l = 0 := by
      intro l e he hne
      apply number_zero
      intro s hs hin
      rw [InBin, he s hs] at hin
      exact hne ⟨hin.1, hin.2.1⟩
    have happ : present o dd tot m k (l ++ l') = present o dd tot m k l + present o dd tot m k l' := number_append _ _ _
    rw [happ]
    by_cases h0 : dd ∈ ds
    · rw [ih ⟨fun d hd => hk1 d (by simp [hd]), hk2.2⟩ (fun d hd => hln d (by simp [hd])) h0]
      rw [hz l d0.kappa (bins_kappa _ _ _ _ _ _ _ h1) (hk2.1 dd h0).2, zero_add]
    · have hdd : dd = d0 := by
        rcases List.mem_cons.1 hd with h | h
        · exact h
        · exact absurd h h0
      subst hdd
      have hzero : present o dd tot m k l' = 0 := by
        apply number_zero
        intro s hs hin
        obtain ⟨d', hd', e⟩ := run_kappa _ _ _ _ _ _ h2 s hs
        exact (hk2.1 d' hd').1 ⟨e ▸ hin.1, e ▸ hin.2.1⟩
      rw [hzero, add_zero, bins_present o dd tot dt m k _ pop l hk (hk1 dd (by simp))
        (binSize_pos o dd tot (hln dd (by simp)) (by omega)) h1, if_pos hm]

/-! ### How much is added -/

theorem floor_half (x : ℝ) (h : 0 ≤ x) : |(⌊x + 1 / 2⌋₊ : ℝ) - x| ≤ 1 / 2 := by
  have h1 := Nat.floor_le (show 0 ≤ x + 1 / 2 by linarith)
  have h2 := Nat.lt_floor_add_one (x + 1 / 2)
  rw [abs_le]; constructor <;> linarith

/-- with a positive integer number of super-droplets per bin, the number added is the missing number times the fraction
`min(dt/tau, 1)`, up to half a droplet per super-droplet -/
theorem added_close (o : Opts) (dt exp pres : ℝ) (N : ℕ) (hN : 0 < N) (hp : o.perBin = N) (hdt : 0 ≤ dt) (htau : 0 < o.tau)
    (hexp : 0 < exp) (hmiss : missing exp pres / exp > o.tol) :
    |(added o dt exp pres : ℝ) - max 0 (exp - pres) * min (dt / o.tau) 1| ≤ N / 2 := by
  have hm : missing exp pres = max 0 (exp - pres) := by
    unfold missing
    split_ifs with h
    · rw [max_eq_left h.le]
    · rw [max_eq_right (not_lt.1 h)]
  have hfl : ⌊(N : ℝ) + 1 / 2⌋₊ = N := by
    rw [Nat.floor_eq_iff (by positivity)]; constructor <;> linarith
  unfold added nSdToCreate
  rw [if_pos hexp, if_pos hmiss, hp, hfl, max_eq_right hN, newMult, hp, ← hm]
  have hm0 : 0 ≤ missing exp pres := by rw [hm]; exact le_max_left _ _
  generalize missing exp pres = M at *
  have hNr : (0 : ℝ) < N := by exact_mod_cast hN
  have hf : 0 ≤ min (dt / o.tau) 1 := le_min (by positivity) (by norm_num)
  generalize min (dt / o.tau) 1 = f at *
  have := floor_half (M / N * f) (by positivity)
  have e : ((N * ⌊M / N * f + 1 / 2⌋₊ : ℕ) : ℝ) - M * f = N * ((⌊M / N * f + 1 / 2⌋₊ : ℝ) - M / N * f) := by
    push_cast; field_simp
  rw [e, abs_mul, abs_of_pos hNr]
  nlinarith

/-- nothing is added when the population has enough droplets (within the tolerance), or none are expected -/
theorem added_zero (o : Opts) (dt exp pres : ℝ) (h : exp ≤ 0 ∨ exp - pres ≤ o.tol * exp) (htol : 0 ≤ o.tol) :
    added o dt exp pres = 0 := by
  unfold added nSdToCreate
  by_cases he : exp > 0
  · rw [if_pos he, if_neg]
    · simp
    · rw [not_lt, div_le_iff₀ he]
      unfold missing
      split_ifs
      · positivity
      · rcases h with h | h
        · linarith
        · exact h
  · rw [if_neg he]; simp

/-- **C37.** One call of the relaxation, for any number of distributions with separate kappa ranges, any population and any
outcomes of sorting and drawing: droplets are only appended; in every bin of every distribution and at every level, nothing
is added if at most the tolerated fraction is missing, and otherwise the number of droplets becomes larger by the
missing number times `min(dt/tau,1)` up to half a droplet per super-droplet, so it does not exceed the expected number by
more than that.

Missing from the full claim: `rlx_sd_per_bin` that is not a positive integer (there the claim is false, see `overshoot`), and
distributions whose kappa ranges overlap or do not contain their own kappa (there it is false too, `kappa_outside`). -/
theorem relax_partial (o : Opts) (dt : ℝ) (ds : List Distro) (pop pop' : List Sd) (h : Relax o dt ds pop pop') (hok : KappaOk ds)
    (hln : ∀ dd ∈ ds, dd.lnLo < dd.lnHi) (N : ℕ) (hN : 0 < N) (hp : o.perBin = N) (hdt : 0 ≤ dt) (htau : 0 < o.tau)
    (htol : 0 ≤ o.tol) (dd : Distro) (hd : dd ∈ ds) (m k : ℕ)
    (hm : m < nBins o dd ((ds.map fun dd => dd.lnHi - dd.lnLo).sum)) (hk : k < o.d.nz) :
    let tot := (ds.map fun dd => dd.lnHi - dd.lnLo).sum
    let exp := expected o dd tot m k
    let before : ℝ := present o dd tot m k pop
    let after : ℝ := present o dd tot m k pop'
    (∃ l, pop' = pop ++ l) ∧
    (exp - before ≤ o.tol * exp → after = before) ∧
    (exp ≤ 0 → after = before) ∧
    (0 < exp → o.tol * exp < exp - before → |after - (before + (exp - before) * min (dt / o.tau) 1)| ≤ N / 2) ∧
    after ≤ max before (exp + N / 2) := by
  obtain ⟨l, hl, rfl⟩ := h
  intro tot exp before after
  have hab : after = before + (added o dt exp before : ℝ) := by
    have h1 : present o dd tot m k (pop ++ l) = present o dd tot m k pop + present o dd tot m k l := number_append _ _ _
    have h2 := run_present o tot dt pop ds l hl hok hln dd hd m k hm hk
    simp only [after, before, exp]
    rw [h1, h2]; push_cast; rfl
  have hz : (exp - before ≤ o.tol * exp → after = before) := by
    intro h
    rw [hab, added_zero o dt exp before (Or.inr h) htol]; simp
  have hz2 : exp ≤ 0 → after = before := by
    intro h
    rw [hab, added_zero o dt exp before (Or.inl h) htol]; simp
  have hc : 0 < exp → o.tol * exp < exp - before → |after - (before + (exp - before) * min (dt / o.tau) 1)| ≤ N / 2 := by
    intro he hlt
    have hpos : 0 < exp - before := lt_of_le_of_lt (by positivity) hlt
    have := added_close o dt exp before N hN hp hdt htau he (by
      rw [gt_iff_lt, lt_div_iff₀ he]; unfold missing; rw [if_neg (by linarith)]; exact hlt)
    rw [max_eq_right hpos.le] at this
    rw [hab, show before + (added o dt exp before : ℝ) - (before + (exp - before) * min (dt / o.tau) 1) =
      added o dt exp before - (exp - before) * min (dt / o.tau) 1 by ring]
    exact this
  refine ⟨⟨l, rfl⟩, hz, hz2, hc, ?_⟩
  by_cases h : exp - before ≤ o.tol * exp
  · rw [hz h]; exact le_max_left _ _
  · by_cases he : exp ≤ 0
    · rw [hz2 he]; exact le_max_left _ _
    · push Not at h he
      have := hc he h
      have hpos : 0 < exp - before := lt_of_le_of_lt (by positivity) h
      have hf : min (dt / o.tau) 1 ≤ 1 := min_le_right _ _
      have := (abs_le.1 this).2
      apply le_max_of_le_right
      nlinarith

/-- created super-droplets are in cells of the grid, have the kappa of their distribution -/
theorem relax_cells (o : Opts) (dt : ℝ) (ds : List Distro) (pop pop' : List Sd) (h : Relax o dt ds pop pop') (hx : 0 < o.d.nx) :
    ∃ l, pop' = pop ++ l ∧ ∀ s ∈ l, s.cell < o.d.nCell ∧ ∃ dd ∈ ds, s.kpa = dd.kappa := by
  obtain ⟨l, hl, rfl⟩ := h
  refine ⟨l, rfl, fun s hs => ⟨?_, run_kappa _ _ _ _ _ _ hl s hs⟩⟩
  generalize (ds.map fun dd => dd.lnHi - dd.lnLo).sum = tot at hl
  induction hl with
  | nil => simp at hs
  | @cons dd ds l l' h1 _ ih =>
    rcases List.mem_append.1 hs with h | h
    · generalize nBins o dd tot = M at h1
      clear ih hs
      induction h1 with
      | zero => simp at h
      | succ _ _ hu ih2 =>
        rcases List.mem_append.1 h with h | h
        · exact ih2 h
        · exact cell_createBin _ _ _ _ _ _ _ _ h hx hu
    · exact ih h

/-! ### Where the full claim fails -/

/-- options of the examples: one column of one cell, volume 100, no density correction -/
noncomputable def exO (p : ℝ) : Opts :=
  { d := ⟨1, 0, 1⟩, b := ⟨10, 10, 1, 0, 10, 0, 10, 0, 1⟩, bins := 1, perBin := p, tau := 1, tol := 1 / 10, indep := true, rhoStp := 1, rhod := fun _ => 1 }
/-- one distribution, uniform in log-radius over [0,1], created droplets have the given kappa; kappa range [0,1), all heights -/
noncomputable def exD (kappa : ℝ) : Distro := ⟨kappa, fun _ => 1, 0, 1, 0, 1, 0, 1⟩
/-- all random numbers zero -/
def exU : Rnd := ⟨fun _ => 0, fun _ => 0, fun _ => 0⟩

theorem exO_bins (p kap : ℝ) : nBins (exO p) (exD kap) 1 = 1 := by simp [nBins, exO, exD]
theorem exO_size (p kap : ℝ) : binSize (exO p) (exD kap) 1 = 1 := by simp [binSize, exO_bins]; simp [exD]
theorem exO_expected (p kap : ℝ) : expected (exO p) (exD kap) 1 0 0 = 100 := by
  have h : horDv (exO p).b 0 = 100 := by simp [horDv, exO]; norm_num
  simp only [expected, exO_size]
  rw [h]
  simp [exO, exD]

theorem missing_100 : missing 100 0 = 100 := by simp [missing]

/-- an empty population: the horizontal sums are zero -/
theorem horSum_nil (o : Opts) (dd : Distro) (tot : ℝ) (m : ℕ) : HorSum o dd tot m [] (fun _ => 0) :=
  ⟨[], [], ⟨List.Perm.refl _, by simp⟩, ⟨by simp [levelKeys, cellMoments, reduceByKey], by simp⟩, by simp [horSum, reduceByKey, scatter]⟩

theorem exRelax (p kap : ℝ) : Relax (exO p) 1 [exD kap] [] (createBin (exO p) (exD kap) 1 1 0 (fun _ => 0) exU) := by
  have htot : (([exD kap] : List Distro).map fun dd => dd.lnHi - dd.lnLo).sum = 1 := by simp [exD]
  refine ⟨createBin (exO p) (exD kap) 1 1 0 (fun _ => 0) exU, ?_, by simp⟩
  rw [htot]
  have hb : Bins (exO p) (exD kap) 1 1 [] 1 ([] ++ createBin (exO p) (exD kap) 1 1 0 (fun _ => 0) exU) :=
    Bins.succ Bins.zero (horSum_nil _ _ _ _) (by simp [exU])
  have := Run.cons (o := exO p) (tot := 1) (dt := 1) (pop := []) (dd := exD kap) (ds := []) (l := createBin (exO p) (exD kap) 1 1 0 (fun _ => 0) exU)
    (l' := []) (by rw [exO_bins]; simpa using hb) Run.nil
  simpa using this

/-- the hypotheses of `relax_partial` are met by a case in which droplets are created -/
example : Relax (exO 2) 1 [exD 0] [] (createBin (exO 2) (exD 0) 1 1 0 (fun _ => 0) exU) ∧ KappaOk [exD 0] ∧
    (exD 0).lnLo < (exD 0).lnHi ∧ (exO 2).perBin = (2 : ℕ) ∧ 0 < nBins (exO 2) (exD 0) 1 ∧
    added (exO 2) 1 (expected (exO 2) (exD 0) 1 0 0) 0 = 100 := by
  refine ⟨exRelax 2 0, ⟨by simp [exD], by simp⟩, by simp [exD], by simp [exO], by rw [exO_bins]; norm_num, ?_⟩
  rw [exO_expected]
  have h2 : ⌊(2 : ℝ) + 1 / 2⌋₊ = 2 := by rw [Nat.floor_eq_iff (by norm_num)]; norm_num
  have h3 : ⌊(100 : ℝ) / 2 * min (1 / 1) 1 + 1 / 2⌋₊ = 50 := by rw [Nat.floor_eq_iff (by norm_num)]; norm_num
  simp only [added, missing_100, nSdToCreate, newMult, exO]
  rw [if_pos (by norm_num), if_pos (by norm_num), h2, h3]; norm_num

/-- **C37, negative.** With a fractional `rlx_sd_per_bin` (the library divides the user's number by the number of devices),
e.g. 0.4, one call of the relaxation creates 2.5 times the missing number. -/
theorem overshoot : ∃ (o : Opts) (dd : Distro) (pop pop' : List Sd), 0 < o.perBin ∧ Relax o 1 [dd] pop pop' ∧ KappaOk [dd] ∧
    expected o dd 1 0 0 = 100 ∧ present o dd 1 0 0 pop = 0 ∧ present o dd 1 0 0 pop' = 250 := by
  refine ⟨exO (2 / 5), exD 0, [], _, by simp [exO], exRelax (2 / 5) 0, ⟨by simp [exD], by simp⟩, exO_expected _ _, by simp [present, number], ?_⟩
  rw [number_createBin _ _ _ _ _ _ _ _ _ (by simp [exO]) (by simp [exD]) (by rw [exO_size]; norm_num) (by simp [exU]), if_pos rfl, exO_expected]
  have h2 : ⌊(2 / 5 : ℝ) + 1 / 2⌋₊ = 0 := by rw [Nat.floor_eq_zero]; norm_num
  have h3 : ⌊(100 : ℝ) / (2 / 5) * min (1 / 1) 1 + 1 / 2⌋₊ = 250 := by rw [Nat.floor_eq_iff (by norm_num)]; norm_num
  simp only [missing_100, nSdToCreate, newMult, exO]
  rw [if_pos (by norm_num), if_pos (by norm_num), h2, h3]; norm_num

/-- **C37, negative.** If the kappa of a distribution lies outside its own kappa range (never checked), created droplets are
not counted as present: no call brings the number present closer to the expected one, and every call creates droplets again. -/
theorem kappa_outside (o : Opts) (dt : ℝ) (dd : Distro) (pop pop' : List Sd) (h : Relax o dt [dd] pop pop')
    (hk : ¬ (dd.kLo ≤ dd.kappa ∧ dd.kappa < dd.kHi)) (m k : ℕ) :
    present o dd (dd.lnHi - dd.lnLo) m k pop' = present o dd (dd.lnHi - dd.lnLo) m k pop := by
  obtain ⟨l, hl, rfl⟩ := h
  have h0 : present o dd (dd.lnHi - dd.lnLo) m k l = 0 := by
    apply number_zero
    intro s hs hin
    obtain ⟨d', hd', e⟩ := run_kappa _ _ _ _ _ _ hl s hs
    simp only [List.mem_singleton] at hd'
    subst hd'
    exact hk ⟨e ▸ hin.1, e ▸ hin.2.1⟩
  have h1 : present o dd (dd.lnHi - dd.lnLo) m k (pop ++ l) = present o dd (dd.lnHi - dd.lnLo) m k pop + present o dd (dd.lnHi - dd.lnLo) m k l :=
    number_append _ _ _
  rw [h1, h0, add_zero]

/-- such a call does create droplets -/
example : ¬ ((exD 2).kLo ≤ (exD 2).kappa ∧ (exD 2).kappa < (exD 2).kHi) ∧ Relax (exO 2) 1 [exD 2] [] (createBin (exO 2) (exD 2) 1 1 0 (fun _ => 0) exU) ∧
    createBin (exO 2) (exD 2) 1 1 0 (fun _ => 0) exU ≠ [] := by
  refine ⟨by simp [exD], exRelax 2 2, ?_⟩
  have h2 : ⌊(2 : ℝ) + 1 / 2⌋₊ = 2 := by rw [Nat.floor_eq_iff (by norm_num)]; norm_num
  have : nSdToCreate (exO 2) (missing (expected (exO 2) (exD 2) 1 0 0) 0) (expected (exO 2) (exD 2) 1 0 0) = 2 := by
    rw [exO_expected]
    simp only [nSdToCreate, missing_100, exO]
    rw [if_pos (by norm_num), if_pos (by norm_num), h2]; norm_num
  unfold createBin
  rw [show (exO 2).d.nz = 1 from rfl]
  simp only [List.range_one, List.flatMap_singleton, this]
  simp

/-! ### Random numbers -/

/-- size of the vector of random numbers: a temporary vector with one entry per super-droplet after the bin's creation
(hskpng_resize_npart, called at line 222), while `n_part_to_init * n_dims` entries are written (line 271): within bounds
exactly if the super-droplets existing before are at least `n_dims - 1` times the created ones -/
theorem u01_bound (nOld nNew dims : ℕ) (hd : 0 < dims) : nNew * dims ≤ nOld + nNew ↔ nNew * (dims - 1) ≤ nOld := by
  obtain ⟨d, rfl⟩ : ∃ d, dims = d + 1 := ⟨dims - 1, by omega⟩
  simp only [Nat.add_sub_cancel, Nat.mul_add, Nat.mul_one]; omega

end LCP.Rlx
