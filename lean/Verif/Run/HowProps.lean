import Verif.Run.Model
import Verif.Cond.AdaptiveStep

/-! # What all the ways of condensation have in common -/
namespace LCP.Run
open LCP

/-- the ways and circumstances in which condensation keeps the total water of each cell: always without mixing (adaptive or not); otherwise only if the masses of air
used in all the substeps agree (C58, C60) -/
def How.Exact (o : Cond.Cfg) (q : Cond.St) : How → Prop
  | .off => True
  | .percell _ => o.ice = false ∧ (o.sstp = 1 ∨ o.varRho = false ∨ q.d.nDims = 0 ∨ q.tRh = q.d.rhod)
  | .perpart true _ _ _ _ => q.d.nDims = 0 ∨ ∀ i < q.d.N, q.tRh i = q.d.rhod (q.d.ijk i)
  | .perpart false _ _ _ _ => True
  | .adaptive _ _ _ _ _ _ _ => True

/-- condensation succeeds in every way, keeps droplets, cells and densities, leaves no negative radius, and where `Exact` holds keeps the water of each cell -/
theorem how_ok (o : Cond.Cfg) (h : How) (q : Cond.St) (hs : Cond.Sorted q.d) (hn : 0 < o.sstp) (hr : ∀ i < q.d.N, 0 ≤ q.rw2 i) (hk : h.Ok o q.d.N) :
    ∃ r, h.run o q = some r ∧ r.d.N = q.d.N ∧ r.d.n = q.d.n ∧ r.d.ijk = q.d.ijk ∧ (∀ i < q.d.N, 0 ≤ r.rw2 i) ∧
      (h.Exact o q → ∀ c < q.d.nCell, r.rv c + Cond.liquidMass r c / Cond.airMass q (q.d.rhod c) c =
        q.rv c + Cond.liquidMass q c / Cond.airMass q (q.d.rhod c) c) := by
  cases h with
  | off => exact ⟨q, rfl, rfl, rfl, rfl, hr, fun _ _ _ => rfl⟩
  | percell allow =>
    obtain ⟨r, e, h1, h2, h3, -, h5, -⟩ := Cond.percell_water o allow q hs hn hr
    refine ⟨r, e, h1, h2, h3, h5, fun hx c hc => ?_⟩
    obtain ⟨r', e', H⟩ := Cond.percell_conserved_partial o allow q hs hn hr hx.2
    rw [e] at e'
    obtain rfl : r = r' := by simpa using e'
    have := H c hc
    unfold Cond.condensed at this
    rw [hx.1] at this
    simpa using this
  | perpart mix allow ordRv ordTh p =>
    obtain ⟨k1, k2⟩ := hk
    cases mix with
    | false =>
      obtain ⟨q', e, h1, h2, h3, -, h5, h6⟩ := Cond.perpart_nomix_water o allow ordRv ordTh { p with s := q } hs hr
      refine ⟨q'.s, by simp only [How.run, e, Option.map_some], h1, h2, h3, h5, fun _ c hc => ?_⟩
      have := (h6 c hc).1
      simp only at this
      rw [this]; ring
    | true =>
      obtain ⟨a, q', ea, e, h1, h2, h3, -, h5, h6, -⟩ := Cond.perpart_mix_water o allow ordRv ordTh { p with s := q } hs hn hr k1 k2
      obtain ⟨a', ea', A⟩ := Cond.startP_ok o true { p with s := q } hs
      rw [ea] at ea'
      obtain rfl : a = a' := by simpa using ea'
      refine ⟨q'.s, by simp only [How.run, e, Option.map_some], h1, h2, h3, fun i hi => ?_, fun hx c hc => ?_⟩
      · rw [h5]
        exact Cond.runP_nonneg o true a (A.geo.sorted hs) _ i (by rw [h6]; exact hr i hi)
      · obtain ⟨q'', e', H⟩ := Cond.perpart_mix_conserved_partial o allow ordRv ordTh { p with s := q } hs hn hr k1 k2
        rw [e] at e'
        obtain rfl : q' = q'' := by simpa using e'
        refine H c ?_
        rcases hx with h | h
        · exact Or.inl h
        · exact Or.inr fun i hi hc => by rw [← hc]; exact h i hi
  | adaptive eps mx act rc2 junk allow p =>
    have hk : o.tpr.th_dry = true ∨ o.tpr.const_p = true := hk
    obtain ⟨q', e, h1, h2, h3, -, h6⟩ := Cond.adaptive_water o eps mx act rc2 junk allow { p with s := q } hs hk hn hr
    obtain ⟨a, q'', -, -, e', -, h5, -⟩ := Cond.condAdaptive_eq o eps mx act rc2 junk allow { p with s := q } hs
    rw [e] at e'
    obtain rfl : q' = q'' := by simpa using e'
    refine ⟨q'.s, by simp only [How.run, e, Option.map_some], h1, h2, h3, fun i hi => ?_, fun _ c hc => ?_⟩
    · rw [h5]; exact Cond.adaptiveF_nonneg (Cond.optsA o eps mx act { p with s := q }) _ hk hn _ _ (hr i hi)
    · have := (h6 c hc).1
      simp only at this
      rw [this]; ring

end LCP.Run
