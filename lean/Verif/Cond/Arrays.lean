import Verif.Cond.PerCell
import Verif.Diag.Props

/-!
# Per-cell sums and the counting arrays (helper lemmas for C58)
-/
namespace LCP.Cond
open LCP.Common LCP.Diag

/-- values under distinct keys -/
theorem mem_sumAt (l : List (ℕ × ℝ)) (hn : (l.map Prod.fst).Nodup) (kv : ℕ × ℝ) (hm : kv ∈ l) : kv.2 = sumAt kv.1 l := by
  induction l with
  | nil => simp at hm
  | cons a t ih =>
    obtain ⟨k, v⟩ := a
    rw [List.map_cons, List.nodup_cons] at hn
    rw [sumAt_cons]
    rcases List.mem_cons.1 hm with he | he
    · subst he
      rw [if_pos rfl, sumAt_not_mem _ _ hn.1, add_zero]
    · have hck : k ≠ kv.1 := by
        rintro rfl
        exact hn.1 (List.mem_map.2 ⟨_, he, rfl⟩)
      rw [if_neg hck, zero_add]
      exact ih hn.2 he

/-- scattering values that are a function of the key -/
theorem scatter_fun (a : ℕ → ℝ) (F : ℕ → ℝ) (l : List (ℕ × ℝ)) (hF : ∀ kv ∈ l, kv.2 = F kv.1) (c : ℕ) :
    scatter a l c = if c ∈ l.map Prod.fst then F c else a c := by
  induction l generalizing a with
  | nil => simp [scatter]
  | cons kv t ih =>
    obtain ⟨k, v⟩ := kv
    have hv : v = F k := hF (k, v) (by simp)
    rw [scatter, ih _ (fun kv h => hF kv (by simp [h]))]
    simp only [List.map_cons, List.mem_cons]
    by_cases h1 : c ∈ t.map Prod.fst
    · rw [if_pos h1, if_pos (Or.inr h1)]
    · rw [if_neg h1]
      by_cases h2 : c = k
      · subst h2; rw [Function.update_self, if_pos (Or.inl rfl), hv]
      · rw [Function.update_of_ne h2, if_neg (by tauto)]

/-- a cell holds a super-droplet -/
def occ (d : Diag.St) (c : ℕ) : Prop := ∃ i < d.N, d.ijk i = c

/-- the counting arrays list every occupied cell once, with the value `M` -/
structure Lists (t : Diag.St) (M : ℕ → ℝ) : Prop where
  nodup : ((entries t).map Prod.fst).Nodup
  mem : ∀ c, c ∈ (entries t).map Prod.fst ↔ occ t c
  val : ∀ kv ∈ entries t, kv.2 = M kv.1

theorem permMap_eq {t : Diag.St} {M : ℕ → ℝ} (h : Lists t M) (op : ℝ → ℝ → ℝ) (a : ℕ → ℝ) (c : ℕ) [Decidable (occ t c)] :
    permMap op t a c = if occ t c then op (M c) (a c) else a c := by
  unfold permMap
  rw [scatter_fun a (fun c => op (M c) (a c)) _ (by
    intro kv hkv
    obtain ⟨kv', h', rfl⟩ := List.mem_map.1 hkv
    simp only [h.val kv' h'])]
  have : ((entries t).map fun kv => (kv.1, op kv.2 (a kv.1))).map Prod.fst = (entries t).map Prod.fst := by
    rw [List.map_map]; rfl
  rw [this]
  by_cases hc : occ t c
  · rw [if_pos hc, if_pos ((h.mem c).2 hc)]
  · rw [if_neg hc, if_neg (fun hh => hc ((h.mem c).1 hh))]

/-- if as many cells are listed as there are, all are occupied -/
theorem occ_of_full {t : Diag.St} {M : ℕ → ℝ} (h : Lists t M) (hc : ∀ i < t.N, t.ijk i < t.nCell) (hn : t.countN = t.nCell) (c : ℕ)
    (hlt : c < t.nCell) : occ t c := by
  rw [← h.mem c]
  have hsub : (entries t).map Prod.fst ⊆ List.range t.nCell := by
    intro c hcm
    obtain ⟨i, hi, rfl⟩ := (h.mem c).1 hcm
    simpa using hc i hi
  have hlen : ((entries t).map Prod.fst).length = t.nCell := by simp [entries, hn]
  have hsp := h.nodup.subperm hsub
  have hp := hsp.perm_of_length_le (by rw [hlen, List.length_range])
  exact hp.mem_iff.2 (by simpa using hlt)

/-- `moms_calc` in terms of per-cell sums; nothing but the counting arrays changes -/
theorem momsCalc_lists {s : Diag.St} (h : IsCellSort s.N s.ijk s.sid) {nf : ℕ → ℝ} (hnf : s.nf = some nf) (v : ℕ → ℝ) (power : ℝ) :
    ∃ t, momsCalc s v power true = some t ∧
      Lists t (fun c => cellSum s c (fun i => momentCounter power (nf i) (v i)) * perMass s c) ∧
      t = { s with countN := t.countN, countIjk := t.countIjk, countMom := t.countMom } := by
  obtain ⟨t, ht, hout⟩ := momsCalc_outbuf h hnf v power true
  refine ⟨t, ht, ?_, ?_⟩
  · have hframe : t.N = s.N ∧ t.ijk = s.ijk ∧ t.countN = (reduceByKey (s.sid.map (fun i => (s.ijk i, momentCounter power (nf i) (v i))))).length ∧
        ∀ p, t.countIjk p = store ((reduceByKey (s.sid.map (fun i => (s.ijk i, momentCounter power (nf i) (v i))))).map Prod.fst) s.countIjk p := by
      unfold momsCalc at ht
      rw [hnf] at ht
      simp only [Option.map_some, Option.some.injEq] at ht
      split_ifs at ht <;> subst ht <;> exact ⟨rfl, rfl, rfl, fun _ => rfl⟩
    obtain ⟨f1, f2, f3, f4⟩ := hframe
    set r := reduceByKey (s.sid.map (fun i => (s.ijk i, momentCounter power (nf i) (v i)))) with hr
    have hkeys : (entries t).map Prod.fst = r.map Prod.fst := by
      apply List.ext_getElem
      · simp [entries, f3]
      · intro p h1 h2
        have hp : p < r.length := by simpa using h2
        simp only [entries, List.map_map, List.getElem_map, List.getElem_range, Function.comp]
        rw [f4, store_lt (by simpa using hp)]
        simp
    have hnd : ((entries t).map Prod.fst).Nodup := by
      rw [hkeys]
      exact (reduceByKey_keys_strict _ (sorted_keys h _)).imp (fun h => Nat.ne_of_lt h)
    have hmem : ∀ c, c ∈ (entries t).map Prod.fst ↔ occ t c := by
      intro c
      rw [hkeys, hr, mem_keys_reduceByKey, List.map_map]
      unfold occ
      rw [f1, f2]
      simp only [List.mem_map, Function.comp]
      constructor
      · rintro ⟨i, hi, rfl⟩
        exact ⟨i, by simpa using h.perm.mem_iff.1 hi, rfl⟩
      · rintro ⟨i, hi, rfl⟩
        exact ⟨i, h.perm.mem_iff.2 (by simpa using hi), rfl⟩
    refine ⟨hnd, hmem, ?_⟩
    intro kv hkv
    have h1 := mem_sumAt _ hnd kv hkv
    have h2 := hout kv.1
    have h3 : (outbuf t).2 kv.1 = scatter (fun _ => 0) (entries t) kv.1 := rfl
    rw [h3, scatter_nodup _ _ _ hnd, if_pos (List.mem_map.2 ⟨kv, hkv, rfl⟩), ← h1] at h2
    rw [h2]
    unfold perMass
    simp
  · unfold momsCalc at ht
    rw [hnf] at ht
    simp only [Option.map_some, Option.some.injEq] at ht
    split_ifs at ht <;> subst ht <;> rfl

end LCP.Cond
