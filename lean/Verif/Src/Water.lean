import Verif.Src.Fresh

/-!
# C103: water brought in by super-droplets added during a run

Sources: src/impl/sources_and_relaxation_of_SDs/particles_impl_src.ipp:13-24, particles_impl_rlx.ipp:13-21 (the calls of `ante_adding_SD`
and `post_adding_SD`, which would take the water of the new super-droplets from the vapour, are commented out),
particles_impl_ante_adding_SD.ipp:13-16, particles_impl_post_adding_SD.ipp:13-42.
-/
namespace LCP.Src
open LCP.Common LCP.Cond

/-! ### Specification -/

/-- water of a cell per mass of dry air: vapour and liquid -/
noncomputable def totalWater (s : LCP.Cond.St) (c : ℕ) : ℝ := s.rv c + liquidMass s c / airMass s (s.d.rhod c) c

/-- mass of the water of the new super-droplets put into cell `c` -/
noncomputable def newWater (w : New) (N c : ℕ) : ℝ :=
  ∑ i ∈ (Finset.range w.k).filter (fun i => w.ijk (N + i) = c), w.n (N + i) * (4 / 3 * Real.pi * Real.sqrt (w.rw2 (N + i)) ^ 3 * rho_w)

theorem sum_put {β : Type} [AddCommMonoid β] (N k : ℕ) (f g : ℕ → β) :
    ∑ i ∈ Finset.range (N + k), put N g f i = ∑ i ∈ Finset.range N, f i + ∑ i ∈ Finset.range k, g (N + i) := by
  rw [Finset.sum_range_add]
  congr 1
  · exact Finset.sum_congr rfl fun i hi => by simp [put, Finset.mem_range.1 hi]
  · exact Finset.sum_congr rfl fun i _ => by simp [put]

/-- **C103 (account).** The liquid water of a cell grows by exactly that of the super-droplets put into it; vapour, temperature, densities
and volumes of all cells stay as they are, so that the total water grows by the same amount per mass of dry air. -/
theorem water_added (o : Cfg) (full : Bool) (w : New) (q : PSt) (c : ℕ) :
    let r := addSds o full w q
    liquidMass r.s c = liquidMass q.s c + newWater w q.s.d.N c ∧
    (∀ c, r.s.rv c = q.s.rv c ∧ r.s.th c = q.s.th c ∧ r.s.d.rhod c = q.s.d.rhod c ∧ r.s.d.dv c = q.s.d.dv c) ∧
    totalWater r.s c = totalWater q.s c + newWater w q.s.d.N c / airMass q.s (q.s.d.rhod c) c := by
  have h1 : liquidMass (addSds o full w q).s c = liquidMass q.s c + newWater w q.s.d.N c := by
    have e : liquidMass (addSds o full w q).s c = ∑ i ∈ (Finset.range (q.s.d.N + w.k)).filter (fun i => put q.s.d.N w.ijk q.s.d.ijk i = c),
        ((put q.s.d.N w.n q.s.d.n i : ℕ) : ℝ) * (4 / 3 * Real.pi * Real.sqrt (put q.s.d.N w.rw2 q.s.rw2 i) ^ 3 * rho_w) := by
      cases full <;> rfl
    rw [e]
    unfold liquidMass newWater
    rw [Finset.sum_filter, Finset.sum_filter, Finset.sum_filter, ← sum_put q.s.d.N w.k
      (fun i => if q.s.d.ijk i = c then (q.s.d.n i : ℝ) * (4 / 3 * Real.pi * Real.sqrt (q.s.rw2 i) ^ 3 * rho_w) else 0)
      (fun i => if w.ijk i = c then (w.n i : ℝ) * (4 / 3 * Real.pi * Real.sqrt (w.rw2 i) ^ 3 * rho_w) else 0)]
    refine Finset.sum_congr rfl fun i _ => ?_
    unfold put
    by_cases h : i < q.s.d.N <;> simp [h]
  refine ⟨h1, fun c => by cases full <;> exact ⟨rfl, rfl, rfl, rfl⟩, ?_⟩
  have h2 : airMass (addSds o full w q).s ((addSds o full w q).s.d.rhod c) c = airMass q.s (q.s.d.rhod c) c := by cases full <;> rfl
  have h3 : (addSds o full w q).s.rv c = q.s.rv c := by cases full <;> rfl
  unfold totalWater
  rw [h1, h2, h3]
  ring

/-- **C103, negation.** A cell that receives a super-droplet with a wet radius (all new super-droplets have one, C102) has more water
afterwards. -/
theorem water_not_conserved (o : Cfg) (full : Bool) (w : New) (q : PSt) (c i : ℕ) (hi : i < w.k) (hc : w.ijk (q.s.d.N + i) = c)
    (hn : 0 < w.n (q.s.d.N + i)) (hr : 0 < w.rw2 (q.s.d.N + i)) (ha : 0 < airMass q.s (q.s.d.rhod c) c) :
    totalWater q.s c < totalWater (addSds o full w q).s c := by
  rw [(water_added o full w q c).2.2]
  have hw : 0 < rho_w := rho_w_pos
  have hp := Real.pi_pos
  have : 0 < newWater w q.s.d.N c := by
    refine Finset.sum_pos' (fun j _ => by positivity) ⟨i, by simp [hi, hc], ?_⟩
    have := Real.sqrt_pos.2 hr
    have : (0:ℝ) < w.n (q.s.d.N + i) := by exact_mod_cast hn
    positivity
  have := div_pos this ha
  linarith

/-- total water of a cell that receives nothing is unchanged -/
theorem water_other_cells (o : Cfg) (full : Bool) (w : New) (q : PSt) (c : ℕ) (h : ∀ i < w.k, w.ijk (q.s.d.N + i) ≠ c) :
    totalWater (addSds o full w q).s c = totalWater q.s c := by
  rw [(water_added o full w q c).2.2]
  have : newWater w q.s.d.N c = 0 := by
    unfold newWater
    rw [Finset.filter_eq_empty_iff.2 (fun i hi => h i (Finset.mem_range.1 hi)), Finset.sum_empty]
  rw [this]; ring

/-! ### With the calls that are commented out -/

/-- `ante_adding_SD`, the source or relaxation, `post_adding_SD` (particles_impl_ante_adding_SD.ipp:13-16, particles_impl_post_adding_SD.ipp:13-42), without ice; `sid` is
the outcome of sorting the super-droplets by cell, triggered by `sorted = false` (post_adding_SD.ipp:16) -/
noncomputable def addTaken (o : Cfg) (w : New) (sid : List ℕ) (q : PSt) : Option LCP.Cond.St := do
  let s ← saveContent { o with ice := false } q.s
  let r := addSds o true w { q with s := s }
  let t ← calcChange { r.s with d := { r.s.d with sid := sid } }
  some (updateThRv { o with ice := false } t)

/-- **C103 (partial).** If the two calls were made, the total water of every cell would be conserved. -/
theorem water_conserved_if_called_partial (o : Cfg) (w : New) (sid : List ℕ) (q : PSt) (hs : Sorted q.s.d)
    (hsid : IsCellSort (q.s.d.N + w.k) (put q.s.d.N w.ijk q.s.d.ijk) sid) (hcell : ∀ i < w.k, w.ijk (q.s.d.N + i) < q.s.d.nCell)
    (hr : ∀ i < q.s.d.N, 0 ≤ q.s.rw2 i) (hw : ∀ i, 0 ≤ w.rw2 i) :
    ∃ s', addTaken o w sid q = some s' ∧ ∀ c < q.s.d.nCell,
      liquidMass s' c = liquidMass q.s c + newWater w q.s.d.N c ∧ totalWater s' c = totalWater q.s c := by
  classical
  obtain ⟨s1, e1, g1, f1, -, d1⟩ := saveContent_ok { o with ice := false } q.s hs
  obtain ⟨r, hrd⟩ : ∃ r, r = addSds o true w { q with s := s1 } := ⟨_, rfl⟩
  obtain ⟨t, ht⟩ : ∃ t : LCP.Cond.St, t = { r.s with d := { r.s.d with sid := sid } } := ⟨_, rfl⟩
  have hN : t.d.N = q.s.d.N + w.k := by rw [ht, hrd]; show s1.d.N + w.k = _; rw [g1.N]
  have hijk : t.d.ijk = put q.s.d.N w.ijk q.s.d.ijk := by rw [ht, hrd]; show put s1.d.N w.ijk s1.d.ijk = _; rw [g1.N, g1.ijk]
  have hn : t.d.n = put q.s.d.N w.n q.s.d.n := by rw [ht, hrd]; show put s1.d.N w.n s1.d.n = _; rw [g1.N, g1.n]
  have hnc : t.d.nCell = q.s.d.nCell := by rw [ht, hrd]; show s1.d.nCell = _; rw [g1.nCell]
  have hnd : t.d.nDims = q.s.d.nDims := by rw [ht, hrd]; show s1.d.nDims = _; rw [g1.nDims]
  have hdv : t.d.dv = q.s.d.dv := by rw [ht, hrd]; show s1.d.dv = _; rw [g1.dv]
  have hrh : t.d.rhod = q.s.d.rhod := by rw [ht, hrd]; show s1.d.rhod = _; rw [g1.rhod]
  have hrw : t.rw2 = put q.s.d.N w.rw2 q.s.rw2 := by rw [ht, hrd]; show put s1.d.N w.rw2 s1.rw2 = _; rw [g1.N, f1]
  have hrv : t.rv = q.s.rv := by rw [ht, hrd]; show s1.rv = _; rw [f1]
  have hdrw : ∀ c < q.s.d.nCell, t.drw c = -Wd q.s.d q.s.rw2 c := by
    intro c hc; rw [ht, hrd]; show s1.drw c = _; exact (d1 c hc).1
  have hst : Sorted t.d := by
    constructor
    · rw [hN, hijk]
      have : t.d.sid = sid := by rw [ht]
      rw [this]; exact hsid
    · rw [hN, hijk, hnc]
      intro i hi
      unfold put
      split_ifs with h
      · exact hs.cell i h
      · have := hcell (i - q.s.d.N) (by omega)
        rwa [show q.s.d.N + (i - q.s.d.N) = i by omega] at this
  obtain ⟨d, e2, l2, g2⟩ := mom3_ok hst t.rw2
  obtain ⟨u, hu⟩ : ∃ u : LCP.Cond.St, u = { t with d := d, drw := permMap (fun m x => m + x) d t.drw } := ⟨_, rfl⟩
  have E : addTaken o w sid q = some (updateThRv { o with ice := false } u) := by
    unfold addTaken
    simp only [e1, Option.bind_eq_bind, Option.bind_some]
    rw [← hrd, ← ht]
    unfold calcChange
    simp only [e2, Option.bind_eq_bind, Option.bind_some]
    rw [← hu]
  refine ⟨_, E, fun c hc => ?_⟩
  have hdelta : u.drw c = Wd t.d t.rw2 c - Wd q.s.d q.s.rw2 c := by
    rw [hu]
    show permMap (fun m x => m + x) d t.drw c = _
    rw [permMap_eq l2, hdrw c hc]
    split_ifs with ho
    · ring
    · have h3 : ¬ LCP.Cond.occ t.d c := fun hh => ho ((g2.occ c).2 hh)
      have h4 : ¬ LCP.Cond.occ q.s.d c := by
        rintro ⟨i, hi, hic⟩
        exact h3 ⟨i, by rw [hN]; omega, by rw [hijk]; unfold put; rw [if_pos hi]; exact hic⟩
      rw [Wd_unocc _ _ _ h3, Wd_unocc _ _ _ h4]; ring
  have hL : liquidMass (updateThRv { o with ice := false } u) c = liquidMass t c := by
    unfold liquidMass
    rw [show (updateThRv { o with ice := false } u).d = d by rw [hu]; rfl, show (updateThRv { o with ice := false } u).rw2 = t.rw2 by rw [hu]; rfl, g2.N, g2.ijk, g2.n]
  have hA : airMass (updateThRv { o with ice := false } u) ((updateThRv { o with ice := false } u).d.rhod c) c = airMass q.s (q.s.d.rhod c) c := by
    unfold airMass
    rw [show (updateThRv { o with ice := false } u).d = d by rw [hu]; rfl, g2.nDims, g2.dv, g2.rhod, hnd, hdv, hrh]
  have hA2 : airMass t (t.d.rhod c) c = airMass q.s (q.s.d.rhod c) c := by unfold airMass; rw [hnd, hdv, hrh]
  have hV : (updateThRv { o with ice := false } u).rv c = q.s.rv c - u.drw c * mltW := by
    show u.rv c - u.drw c * mltW = _
    rw [show u.rv = t.rv by rw [hu], hrv]
  have m1 := Wd_mass q.s hr c
  have m2 := Wd_mass t (by
    intro i _
    rw [hrw]; unfold put
    split_ifs with h
    · exact hr i h
    · exact hw i) c
  have hlm : liquidMass t c = liquidMass q.s c + newWater w q.s.d.N c := by
    rw [← (water_added o true w q c).1]
    unfold liquidMass
    rw [hN, hijk, hn, hrw]
    rfl
  refine ⟨by rw [hL, hlm], ?_⟩
  unfold totalWater
  rw [hL, hA, hV, hdelta]
  rw [hA2] at m2
  linear_combination m1 - m2

/-! ### Non-vacuity: the state of C60 (two droplets in cell 0 of two) and one droplet of 100 nm put into cell 0 -/

example : totalWater exPart.s 0 < totalWater (addSds exPC false exNew exPart).s 0 := by
  refine water_not_conserved exPC false exNew exPart 0 0 (by decide) rfl (by decide) ?_ ?_
  · show (0:ℝ) < 1e-14
    norm_num
  · norm_num [airMass, exPart]

example : totalWater (addSds exPC false exNew exPart).s 1 = totalWater exPart.s 1 :=
  water_other_cells exPC false exNew exPart 1 (fun i _ (h : (0:ℕ) = 1) => by omega)

example : ∃ s', addTaken exPC exNew [2, 1, 0] exPart = some s' ∧ ∀ c < 2,
      liquidMass s' c = liquidMass exPart.s c + newWater exNew 2 c ∧ totalWater s' c = totalWater exPart.s c :=
  water_conserved_if_called_partial exPC exNew [2, 1, 0] exPart exPart_sorted
    ⟨by decide, by simp [put, exPart, exNew]⟩ (by simp [exNew, exPart]) exPart_rw2 (by intro i; norm_num [exNew])

end LCP.Src
