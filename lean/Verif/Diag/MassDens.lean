import Verif.Diag.Props
import Mathlib.Analysis.SpecialFunctions.Exp
import Mathlib.Analysis.SpecialFunctions.Log.Basic

/-!
# C43: the mass density estimator (`diag_wet_mass_dens`)

Source: src/impl/diagnose_SD_attributes/particles_impl_mass_dens.ipp
-/
namespace LCP.Diag

/-- `detail::mass_dens_estimator` (particles_impl_mass_dens.ipp:20-26): `n` selected multiplicity, `x` attribute (`rw²`),
`cnt` number of super-droplets; `xp` the power making a radius out of `x` -/
noncomputable def massDensEstimator (rad sig0 xp n x cnt : ℝ) : ℝ :=
  let sig := sig0 / cnt ^ (0.2 : ℝ)
  n / sig * x ^ (3 * xp) * Real.exp (-(((Real.log (x ^ xp) - Real.log rad) / sig) ^ 2) / 2)

/-- `mass_dens_estim` (particles_impl_mass_dens.ipp:31-108); `num` is the content of `count_num` before the call (its
entries beyond the number of non-empty cells are not overwritten by `hskpng_count`), `pref` the constant prefactor -/
noncomputable def massDensEstim (s : St) (num : ℕ → ℕ) (x : ℕ → ℝ) (rad sig0 xp pref : ℝ) : Option St :=
  s.nf.map (fun nf =>
    let num := store ((hskpngCount s.ijk s.sid).map Prod.snd) num
    let s := reduceToCount (count s) (fun i => massDensEstimator rad sig0 xp (nf i) (x i) (num (s.ijk i)))
    { s with countMom := fun p => if p < s.countN then pref * s.countMom p / s.dv (s.countIjk p) else s.countMom p })

/-- Specification (Shima et al. 2009): log-normal smearing of each droplet of radius `r` with a width that depends on the
number of super-droplets in the cell -/
noncomputable def shimaKernel (rad sig0 : ℝ) (numInCell : ℕ) (r : ℝ) : ℝ :=
  r ^ 3 * Real.exp (-(((Real.log r - Real.log rad) / (sig0 / (numInCell : ℝ) ^ (0.2:ℝ))) ^ 2) / 2) /
    (sig0 / (numInCell : ℝ) ^ (0.2:ℝ))

/-- number of super-droplets of a cell -/
def numIn (s : St) (c : ℕ) : ℕ := ((Finset.range s.N).filter (fun i => s.ijk i = c)).card

theorem massDensEstim_outbuf {s : St} (h : IsCellSort s.N s.ijk s.sid) {nf : ℕ → ℝ} (hnf : s.nf = some nf)
    (num : ℕ → ℕ) (x : ℕ → ℝ) (rad sig0 xp pref : ℝ) :
    ∃ t, massDensEstim s num x rad sig0 xp pref = some t ∧ ∀ c, (outbuf t).2 c =
      cellSum s c (fun i => massDensEstimator rad sig0 xp (nf i) (x i)
        ((store ((hskpngCount s.ijk s.sid).map Prod.snd) num (s.ijk i) : ℕ) : ℝ)) * (pref / s.dv c) := by
  unfold massDensEstim
  rw [hnf]
  refine ⟨_, rfl, ?_⟩
  intro c
  unfold outbuf cellSum
  dsimp only
  refine fillOutbuf_reduce_mul (s := count s) h _ (fun c => pref / s.dv c) c _ ?_
  intro p hp
  rw [if_pos hp]
  show pref * _ / s.dv _ = _ * (pref / s.dv _)
  ring

open Classical in
/-- **C43** (partial) If the non-empty cells are exactly the cells `0..m-1` (e.g. every cell holds a super-droplet), then
`diag_wet_mass_dens(rad, sig0)` + `outbuf()` gives in every cell `pref/dv` times the sum over the selected super-droplets of
the Shima kernel with the number of super-droplets *of that cell*.
Missing: arbitrary sets of non-empty cells — the claim is then false, see `mass_dens_wrong`. -/
theorem mass_dens_partial {s : St} (h : IsCellSort s.N s.ijk s.sid) {P : ℕ → Prop}
    (hnf : s.nf = some (fun i => if P i then (s.n i : ℝ) else 0)) (num : ℕ → ℕ) (r : ℕ → ℝ) (hr : ∀ i, 0 ≤ r i)
    (rad sig0 pref : ℝ) (m : ℕ) (hocc : ∀ c, (∃ i < s.N, s.ijk i = c) ↔ c < m) :
    ∃ t, massDensEstim s num (fun i => r i ^ 2) rad sig0 (1 / 2) pref = some t ∧ ∀ c, (outbuf t).2 c =
      (∑ i ∈ (Finset.range s.N).filter (fun i => s.ijk i = c ∧ P i),
        (s.n i : ℝ) * shimaKernel rad sig0 (numIn s c) (r i)) * (pref / s.dv c) := by
  obtain ⟨t, ht, hc⟩ := massDensEstim_outbuf h hnf num (fun i => r i ^ 2) rad sig0 (1/2) pref
  refine ⟨t, ht, fun c => ?_⟩
  rw [hc c]
  congr 1
  unfold cellSum
  rw [← Finset.filter_filter, Finset.sum_filter (p := P)]
  apply Finset.sum_congr rfl
  intro i hi
  have hi' := Finset.mem_filter.1 hi
  have hic : s.ijk i = c := hi'.2
  have hcm : c < m := (hocc c).1 ⟨i, by simpa using hi'.1, hic⟩
  -- count_num[c] is the number of super-droplets of cell c
  have hkeys : (hskpngCount s.ijk s.sid).map Prod.fst = List.range m := by
    obtain ⟨k1, k2, _, _⟩ := count_ok h
    apply List.Perm.eq_of_pairwise' (r := (· ≤ ·)) (k1.imp (fun h => Nat.le_of_lt h)) List.pairwise_le_range
    apply (List.perm_ext_iff_of_nodup (k1.imp (fun h => Nat.ne_of_lt h)) List.nodup_range).2
    intro a
    rw [k2 a, hocc a]; simp
  have hlen : (hskpngCount s.ijk s.sid).length = m := by simpa using congrArg List.length hkeys
  have hcl : c < (hskpngCount s.ijk s.sid).length := by rw [hlen]; exact hcm
  have hst : store ((hskpngCount s.ijk s.sid).map Prod.snd) num (s.ijk i) = numIn s c := by
    rw [hic, store_lt (by simpa using hcl), List.getElem_map]
    have h1 : (hskpngCount s.ijk s.sid)[c].1 = c := by
      have h0 : ((hskpngCount s.ijk s.sid).map Prod.fst)[c]'(by simpa using hcl) = (List.range m)[c]'(by simpa using hcm) := by
        simp only [hkeys]
      simpa using h0
    have hmem : (hskpngCount s.ijk s.sid)[c] ∈ hskpngCount s.ijk s.sid := List.getElem_mem hcl
    have := (count_ok h).2.2.1 (hskpngCount s.ijk s.sid)[c].1 (hskpngCount s.ijk s.sid)[c].2 hmem
    rw [this, h1]; rfl
  beta_reduce
  rw [hst]
  have hsq : ((r i ^ 2 : ℝ)) ^ (1 / 2 : ℝ) = r i := by
    rw [← Real.rpow_natCast, ← Real.rpow_mul (hr i)]
    norm_num
  have hcu : ((r i ^ 2 : ℝ)) ^ (3 * (1 / 2) : ℝ) = r i ^ 3 := by
    rw [← Real.rpow_natCast, ← Real.rpow_mul (hr i), ← Real.rpow_natCast (r i) 3]
    norm_num
  unfold massDensEstimator shimaKernel
  simp only [hsq, hcu]
  by_cases hP : P i
  · simp only [hP, if_true]; ring
  · simp only [hP, if_false]; ring

/-- `exSt` (two cells, a single super-droplet in cell 1) after `diag_all` -/
noncomputable def exMd : St := { exSt with nf := some (fun _ => 5) }

/-- **C43** (negation) With an empty cell below, the width is computed from whatever `count_num` held before: with one
super-droplet in cell 1, cell 0 empty and a leftover 32 in `count_num[1]`, the result in cell 1 is twice the claimed
one. -/
theorem mass_dens_wrong : IsCellSort exMd.N exMd.ijk exMd.sid ∧ numIn exMd 1 = 1 ∧
    ∃ t, massDensEstim exMd (fun _ => 32) (fun _ => 1 ^ 2) 1 1 (1 / 2) 1 = some t ∧
      (outbuf t).2 1 = 10 ∧ (exMd.n 0 : ℝ) * shimaKernel 1 1 (numIn exMd 1) 1 = 5 := by
  have hs : IsCellSort exMd.N exMd.ijk exMd.sid := ⟨by simp [exMd, exSt], by simp [exMd, exSt]⟩
  refine ⟨hs, by simp [numIn, exMd, exSt], ?_⟩
  obtain ⟨t, ht, hc⟩ := massDensEstim_outbuf hs (nf := fun _ => 5) rfl (fun _ => 32) (fun _ => 1 ^ 2) 1 1 (1/2) 1
  refine ⟨t, ht, ?_, ?_⟩
  · rw [hc 1]
    have h32 : ((32:ℕ):ℝ) ^ (0.2:ℝ) = 2 := by
      rw [show ((32:ℕ):ℝ) = (2:ℝ) ^ (5:ℝ) by norm_num, ← Real.rpow_mul (by norm_num)]
      norm_num
    have hst : store ((hskpngCount exMd.ijk exMd.sid).map Prod.snd) (fun _ => 32) 1 = 32 := by
      simp [exMd, exSt, hskpngCount, reduceByKey, store]
    have hcs : ∀ f : ℕ → ℝ, cellSum exMd 1 f = f 0 := by
      intro f; simp [cellSum, exMd, exSt]
    rw [hcs]
    have hi : exMd.ijk 0 = 1 := rfl
    rw [hi, hst]
    unfold massDensEstimator
    rw [h32]
    simp [exMd, exSt]
    norm_num
  · have : numIn exMd 1 = 1 := by simp [numIn, exMd, exSt]
    rw [this]
    simp [shimaKernel, exMd, exSt]

/-- the hypotheses of `mass_dens_partial` are met e.g. by one cell with one super-droplet -/
example : let s : St := { exSt with nCell := 1, ijk := fun _ => 0, nf := some (fun i => if (i = 0) then ((exSt.n i : ℕ) : ℝ) else 0) }
    IsCellSort s.N s.ijk s.sid ∧ ∀ c, (∃ i < s.N, s.ijk i = c) ↔ c < 1 := by
  refine ⟨⟨by simp [exSt], by simp [exSt]⟩, fun c => ?_⟩
  simp only [exSt]
  constructor
  · rintro ⟨i, _, rfl⟩; omega
  · intro h; exact ⟨0, by norm_num, by omega⟩

end LCP.Diag
