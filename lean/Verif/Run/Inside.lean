import Verif.Run.Props

/-! # The population after every step of a run (C104), and a concrete run -/
namespace LCP.Run
open LCP LCP.Common

/-- inside the domain, in the directions that exist -/
def Inside (o : Bcnd.Opts) (d : Drop) : Prop :=
  (o.nDims ≠ 0 → o.x0 ≤ d.x ∧ d.x < o.x1) ∧ (o.nDims = 3 → o.y0 ≤ d.y ∧ d.y < o.y1) ∧ (1 < o.nDims → o.z0 ≤ d.z ∧ d.z < o.z1)

/-- within ten domain lengths to the left of periodic walls (C17) -/
def Near (o : Bcnd.Opts) (s : St) : Prop := ∀ i < s.N,
  (o.openSide = false → o.x0 - 10 * (o.x1 - o.x0) ≤ (s.sd i).x ∧ (o.nDims = 3 → o.y0 - 10 * (o.y1 - o.y0) ≤ (s.sd i).y)) ∧
  (1 < o.nDims → o.periodicTopBot = true → o.z0 - 10 * (o.z1 - o.z0) ≤ (s.sd i).z)

/-- the domain has a positive extent -/
def Extent (o : Bcnd.Opts) : Prop := (o.nDims ≠ 0 → o.x0 < o.x1) ∧ (o.nDims = 3 → o.y0 < o.y1) ∧ (1 < o.nDims → o.z0 < o.z1)

theorem bcndRun_inside {o : Bcnd.Opts} (hdist : o.dist = none) (he : Extent o) {s : St} (hn : Near o s) (i : ℕ) (hi : i < s.N) (hl : ((bcndRun o s).sd i).n ≠ 0) :
    Inside o ((bcndRun o s).sd i) := by
  by_cases hd : o.nDims = 0
  · exact ⟨fun h => absurd hd h, fun h => by omega, fun h => by omega⟩
  · obtain ⟨h1, h2, h3⟩ := Bcnd.bcnd_survivors_inside (o := o) (s := toBcnd s) hd hdist (he.1 hd) (fun ho i hi => ((hn i hi).1 ho).1) he.2.1
      (fun h3 ho i hi => ((hn i hi).1 ho).2 h3) he.2.2 (fun h1 hp i hi => (hn i hi).2 h1 hp) hi hl
    exact ⟨fun _ => h1, h2, h3⟩

/-- dead super-droplets are removed: recycling off, or the population is of constant multiplicity, or some multiplicity is one, or at most half are dead (C09) -/
def Clears (r : Option RcycIn) (s : St) : Prop :=
  ∀ a, r = some a → a.pcm = true ∨ (∃ i < s.N, (s.sd i).n = 1) ∨ 2 * ((Finset.range s.N).filter (fun i => (s.sd i).n = 0)).card ≤ s.N

/-- **C104.** After every step of every run each super-droplet stands for at least one particle and is inside the domain. -/
theorem run_inside {cfg : Cfg} {T : ℕ} {s : ℕ → St} {t : ℕ → Trace} (H : History cfg T s t) (hdist : cfg.bcnd.dist = none) (he : Extent cfg.bcnd)
    (hnear : ∀ k < T, Near cfg.bcnd (t k).atWalls) (hclear : ∀ k < T, Clears (t k).rcyc (bcndRun cfg.bcnd (t k).atWalls)) :
    ∀ k, 0 < k → k ≤ T → ∀ i < (s k).N, 1 ≤ ((s k).sd i).n ∧ Inside cfg.bcnd ((s k).sd i) := by
  intro k hk0 hkT i hi
  obtain ⟨k, rfl⟩ : ∃ j, k = j + 1 := ⟨k - 1, by omega⟩
  have hs := H.step k (by omega)
  have hf := H.fin k (by omega)
  have hc := hclear k (by omega)
  rw [← hf] at hi ⊢
  have hN : (bcndRun cfg.bcnd (t k).atWalls).N = (t k).atWalls.N := (bcnd_n_le cfg.bcnd (toBcnd (t k).atWalls) 0).2
  have key : ∀ j < (bcndRun cfg.bcnd (t k).atWalls).N, ((bcndRun cfg.bcnd (t k).atWalls).sd j).n ≠ 0 → Inside cfg.bcnd ((bcndRun cfg.bcnd (t k).atWalls).sd j) :=
    fun j hj hl => bcndRun_inside hdist he (hnear k (by omega)) j (by rw [← hN]; exact hj) hl
  have attrs : ∀ (n : ℕ) (d : Drop), Inside cfg.bcnd d → Inside cfg.bcnd (mkDrop n d.get) := fun _ _ h => h
  revert hi
  unfold Trace.fin
  have hr := hs.rcyc
  revert hr hc
  cases (t k).rcyc with
  | none =>
    intro _ _ hi
    obtain ⟨j, hj, e1, e2, e3⟩ := removeN0_mem (toRcyc (bcndRun cfg.bcnd (t k).atWalls)) i hi
    have hl : ((bcndRun cfg.bcnd (t k).atWalls).sd j).n ≠ 0 := e3
    show 1 ≤ (Rcyc.removeN0 (toRcyc (bcndRun cfg.bcnd (t k).atWalls))).n i ∧ Inside cfg.bcnd (mkDrop _ ((Rcyc.removeN0 (toRcyc (bcndRun cfg.bcnd (t k).atWalls))).attr i))
    rw [e1, e2]
    exact ⟨Nat.one_le_iff_ne_zero.2 hl, attrs _ _ (key j hj hl)⟩
  | some a =>
    intro hc hr hi
    obtain ⟨r1, r2⟩ := hr a rfl
    have hz := Rcyc.rcyc_no_zeros_partial a.pcm (s := toRcyc (bcndRun cfg.bcnd (t k).atWalls)) r1 r2 (hc a rfl) i hi
    obtain ⟨j, hj, e1, -, e3⟩ := Rcyc.rcyc_clones a.pcm (s := toRcyc (bcndRun cfg.bcnd (t k).atWalls)) r1 r2 i hi hz
    show 1 ≤ (Rcyc.rcyc a.pcm (toRcyc (bcndRun cfg.bcnd (t k).atWalls)) a.sid a.σ).1.n i ∧
      Inside cfg.bcnd (mkDrop _ ((Rcyc.rcyc a.pcm (toRcyc (bcndRun cfg.bcnd (t k).atWalls)) a.sid a.σ).1.attr i))
    refine ⟨Nat.one_le_iff_ne_zero.2 hz, ?_⟩
    rw [e1]
    exact attrs _ _ (key j hj e3)

/-- the number of super-droplets grows only by new ones -/
theorem run_count {cfg : Cfg} {T : ℕ} {s : ℕ → St} {t : ℕ → Trace} (H : History cfg T s t) (hn : 0 < cfg.cond.sstp) (hg : AllGood (s 0))
    (hw : ∀ k < T, ∀ i < (t k).new.k, Good ((t k).new.sd i)) : (s T).N ≤ (s 0).N + ∑ k ∈ Finset.range T, (t k).new.k := by
  have G := run_good H hn hg hw
  have : ∀ k ≤ T, (s k).N ≤ (s 0).N + ∑ j ∈ Finset.range k, (t j).new.k := by
    intro k
    induction k with
    | zero => intro _; simp
    | succ k ih =>
      intro hk
      have fr := step_front (H.step k hk) (by rw [H.beg k hk]; exact G k (by omega)) (hw k hk) hn
      have e1 : (bcndRun cfg.bcnd (t k).atWalls).N = (t k).a.N + (t k).new.k := by
        have h1 : (bcndRun cfg.bcnd (t k).atWalls).N = (t k).atWalls.N := (bcnd_n_le cfg.bcnd (toBcnd (t k).atWalls) 0).2
        have h2 : (t k).atWalls.N = (t k).m.N + (t k).new.k := rfl
        rw [h1, h2, fr.2.2.2.2.1]
      have e2 : ((t k).fin cfg).N ≤ (bcndRun cfg.bcnd (t k).atWalls).N := by
        unfold Trace.fin
        cases (t k).rcyc with
        | none =>
          show ((List.range _).filter _).length ≤ _
          exact (List.length_filter_le _ _).trans (by simp; rfl)
        | some a => exact (Rcyc.rcyc_count a.pcm (toRcyc (bcndRun cfg.bcnd (t k).atWalls)) a.sid a.σ).1
      rw [H.fin k hk] at e2
      rw [H.beg k hk] at e1
      rw [Finset.sum_range_succ]
      have := ih (by omega)
      omega
  exact this T le_rfl

end LCP.Run
