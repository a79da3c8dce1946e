import Verif.Run.Lemmas
import Verif.Run.HowProps

/-! # Budgets over whole runs (C104, C105) -/
namespace LCP.Run
open LCP LCP.Common

/-! ### Specification -/

/-- dry aerosol volume in the domain: multiplicity times the volume of a dry sphere -/
noncomputable def dryVolume (s : St) : ℝ := ∑ i ∈ Finset.range s.N, ((s.sd i).n : ℝ) * (4 / 3 * Real.pi * (s.sd i).rd3)

/-- liquid water volume in the domain -/
noncomputable def waterVolume (s : St) : ℝ := ∑ i ∈ Finset.range s.N, ((s.sd i).n : ℝ) * (4 / 3 * Real.pi * √(s.sd i).rw2 ^ 3)

/-- number of particles in the domain -/
noncomputable def number (s : St) : ℝ := ∑ i ∈ Finset.range s.N, ((s.sd i).n : ℝ)

/-- beyond an open side wall or above the (non-periodic) top; shared-memory runs -/
def Beyond (o : Bcnd.Opts) (d : Drop) : Prop :=
  (o.nDims ≠ 0 ∧ o.openSide = true ∧ ¬ (o.x0 ≤ d.x ∧ d.x < o.x1)) ∨
  (o.nDims = 3 ∧ o.openSide = true ∧ ¬ (o.y0 ≤ d.y ∧ d.y < o.y1)) ∨
  (1 < o.nDims ∧ o.periodicTopBot = false ∧ o.z1 ≤ d.z)

open Classical in
/-- what leaves through open walls and the top, when the boundary conditions find the population `s`; `w` is the amount carried by a droplet -/
noncomputable def leaving (o : Bcnd.Opts) (s : St) (w : Drop → ℝ) : ℝ :=
  ∑ i ∈ Finset.range s.N, if Beyond o (s.sd i) then ((s.sd i).n : ℝ) * w (s.sd i) else 0

/-- dry volume of new super-droplets -/
noncomputable def newDry (w : New) : ℝ := ∑ i ∈ Finset.range w.k, ((w.sd i).n : ℝ) * (4 / 3 * Real.pi * (w.sd i).rd3)
/-- water volume of new super-droplets -/
noncomputable def newWater (w : New) : ℝ := ∑ i ∈ Finset.range w.k, ((w.sd i).n : ℝ) * (4 / 3 * Real.pi * √(w.sd i).rw2 ^ 3)
/-- number of particles in new super-droplets -/
noncomputable def newNumber (w : New) : ℝ := ∑ i ∈ Finset.range w.k, ((w.sd i).n : ℝ)

/-- mass of water vapour in the domain: mixing ratios times masses of dry air -/
noncomputable def vapourMass (f : Cond.St) : ℝ := ∑ c ∈ Finset.range f.d.nCell, f.rv c * Cond.airMass f (f.d.rhod c) c

/-! ### One step -/

theorem sqrt_cube (x : ℝ) (h : 0 ≤ x) : x ^ (3 / 2 : ℝ) = √x ^ 3 := by
  rw [Real.sqrt_eq_rpow, ← Real.rpow_natCast, ← Real.rpow_mul h]
  norm_num

theorem bcnd_total (o : Bcnd.Opts) (hdist : o.dist = none) (hzz : o.z0 ≤ o.z1) (s : St) (q : Bcnd.Q) (hq : Bcnd.tracked o q) (w : Drop → ℝ)
    (hw : ∀ i < s.N, Bcnd.amount (toBcnd s) i q = w (s.sd i)) (hw' : ∀ d n x y z, w { d with n := n, x := x, y := y, z := z } = w d) :
    total (bcndRun o s) w + (bcndRun o s).puddle q + leaving o s w = total s w + s.puddle q := by
  classical
  have c1 : Bcnd.content (toBcnd s) q = total s w := Finset.sum_congr rfl fun i hi => by
    rw [hw i (Finset.mem_range.1 hi)]; rfl
  by_cases hd : o.nDims = 0
  · have e : Bcnd.bcnd o (toBcnd s) = toBcnd s := bcnd_zero_dims _ _ hd
    have e1 : total (bcndRun o s) w = total s w := by
      apply total_congr
      · show (Bcnd.bcnd o (toBcnd s)).N = _; rw [e]; rfl
      · intro i _
        refine ⟨?_, by simp only [bcndRun]; rw [hw']⟩
        show (Bcnd.bcnd o (toBcnd s)).n i = _; rw [e]; rfl
    have e2 : (bcndRun o s).puddle q = s.puddle q := by show (Bcnd.bcnd o (toBcnd s)).puddle q = _; rw [e]; rfl
    have e3 : leaving o s w = 0 := by
      unfold leaving
      refine Finset.sum_eq_zero fun i _ => if_neg ?_
      rintro (⟨h, -⟩ | ⟨h, -⟩ | ⟨h, -⟩)
      · exact h hd
      · omega
      · omega
    rw [e1, e2, e3]; ring
  · have B := Bcnd.puddle_budget o (toBcnd s) hd hzz hq
    obtain ⟨-, hN, f1, f2, f3, f4, f5, f6⟩ := Bcnd.bcnd_removes_leavers o (toBcnd s) hd 0
    have c2 : Bcnd.content (Bcnd.bcnd o (toBcnd s)) q = total (bcndRun o s) w := by
      unfold Bcnd.content total
      show _ = ∑ i ∈ Finset.range (Bcnd.bcnd o (toBcnd s)).N, _
      refine Finset.sum_congr rfl fun i hi => ?_
      have hi : i < s.N := by have := Finset.mem_range.1 hi; rw [hN] at this; exact this
      rw [Bcnd.amount_congr f1 f2 f3 f4 f5 f6, hw i hi]
      exact congrArg (fun v => ((Bcnd.bcnd o (toBcnd s)).n i : ℝ) * v) (hw' (s.sd i) _ _ _ _).symm
    have c3 : ∑ i ∈ (Finset.range (toBcnd s).N).filter (fun i => Bcnd.leftSide o (toBcnd s) i ∨ Bcnd.leftTop o (toBcnd s) i),
        ((toBcnd s).n i : ℝ) * Bcnd.amount (toBcnd s) i q = leaving o s w := by
      rw [Finset.sum_filter]
      unfold leaving
      refine Finset.sum_congr rfl fun i hi => ?_
      have hb : (Bcnd.leftSide o (toBcnd s) i ∨ Bcnd.leftTop o (toBcnd s) i) ↔ Beyond o (s.sd i) := by
        unfold Bcnd.leftSide Bcnd.leftTop Beyond
        simp only [hdist, true_and, reduceCtorEq, false_and, exists_false, false_or]
        constructor
        · rintro ((h | h) | h)
          · exact Or.inl ⟨hd, h⟩
          · exact Or.inr (Or.inl h)
          · exact Or.inr (Or.inr h)
        · rintro (h | h | h)
          · exact Or.inl (Or.inl h.2)
          · exact Or.inl (Or.inr h)
          · exact Or.inr h
      rw [hw i (Finset.mem_range.1 hi)]
      by_cases h : Beyond o (s.sd i)
      · rw [if_pos h, if_pos (hb.2 h)]; rfl
      · rw [if_neg h, if_neg (fun h' => h (hb.1 h'))]
    rw [c1, c2, c3] at B
    have : (toBcnd s).puddle q = s.puddle q := rfl
    rw [this] at B
    show total (bcndRun o s) w + (Bcnd.bcnd o (toBcnd s)).puddle q + leaving o s w = _
    linarith

/-! ### Steps -/

/-- the puddle entry and the amount per droplet for a quantity -/
theorem postCopy_puddle (r : Option RcycIn) (s : St) : (postCopy r s).puddle = s.puddle := by cases r <;> rfl

theorem total_scale (s : St) (a : ℝ) (w : Drop → ℝ) : total s (fun d => a * w d) = a * total s w := by
  unfold total
  rw [Finset.mul_sum]
  exact Finset.sum_congr rfl fun i _ => by ring

theorem dryVolume_eq (s : St) : dryVolume s = total s (fun d => 4 / 3 * Real.pi * d.rd3) := rfl
theorem waterVolume_eq (s : St) : waterVolume s = total s (fun d => 4 / 3 * Real.pi * √d.rw2 ^ 3) := rfl

/-- facts about a time step from its beginning to the walls -/
theorem step_front {cfg : Cfg} {t : Trace} (h : TimeStep cfg t) (hg : AllGood t.a) (hw : ∀ i < t.new.k, Good (t.new.sd i)) (hn : 0 < cfg.cond.sstp) :
    AllGood t.b ∧ AllGood t.m ∧ AllGood t.atWalls ∧ t.b.N = t.a.N ∧ t.m.N = t.a.N ∧ t.atWalls.puddle = t.a.puddle ∧
    dryVolume t.b = dryVolume t.a ∧ dryVolume t.atWalls = dryVolume t.a + newDry t.new ∧
    waterVolume t.atWalls = waterVolume t.b + newWater t.new ∧ number t.atWalls ≤ number t.a + newNumber t.new := by
  obtain ⟨s', e, eN, en, -, pos, -⟩ := how_ok cfg.cond t.how (toCond t.fields t.a) h.sorted hn (fun i hi => (hg i hi).rw2) h.how
  rw [h.cond] at e
  obtain rfl : t.cond = s' := by simpa using e
  have gb : AllGood t.b := fun i hi => ⟨(hg i hi).n, pos i hi, (hg i hi).rd3⟩
  obtain ⟨c1, c2, c3, c4, c5, -, c7⟩ := coalSteps_ok h.coal gb
  obtain ⟨m, hm⟩ := h.move
  obtain ⟨m1, m2, m3⟩ := moved_ok hm
  have gm : AllGood t.m := by
    intro i hi
    rw [m1] at hi
    have g := c3 i hi
    have e := m3 i hi
    exact ⟨by rw [e]; exact g.n, by rw [e]; exact g.rw2, by rw [e]; exact g.rd3⟩
  have tm : ∀ w : Drop → ℝ, (∀ d d' : Drop, d'.toSD = d.toSD → w d' = w d) → total t.m w = total t.c w := by
    intro w hw
    apply total_congr m1
    intro i hi
    exact ⟨by rw [m3 i hi], hw _ _ (m3 i hi)⟩
  refine ⟨gb, gm, addNew_good gm hw, rfl, ?_, ?_, rfl, ?_, ?_, ?_⟩
  · rw [m1, c1]; rfl
  · show t.m.puddle = _; rw [m2, c2]; rfl
  · rw [dryVolume_eq, show t.atWalls = addNew t.new t.m from rfl, addNew_total, tm _ (fun d d' e => by rw [e]), total_scale, c4, ← total_scale]
    rfl
  · rw [waterVolume_eq, show t.atWalls = addNew t.new t.m from rfl, addNew_total, tm _ (fun d d' e => by rw [e]), total_scale, c5, ← total_scale]
    rfl
  · have e1 : ∀ s : St, number s = total s (fun _ => 1) := fun s => Finset.sum_congr rfl fun i _ => by ring
    rw [e1, show t.atWalls = addNew t.new t.m from rfl, addNew_total, tm _ (fun _ _ _ => rfl), ← e1]
    have e2 : totalNew t.new (fun _ => 1) = newNumber t.new := Finset.sum_congr rfl fun i _ => by ring
    rw [e2]
    have : number t.c ≤ number t.a := by
      unfold number
      rw [c1]
      refine Finset.sum_le_sum fun i hi => ?_
      exact_mod_cast (c7 i (Finset.mem_range.1 hi)).1
    linarith

theorem step_good {cfg : Cfg} {t : Trace} (h : TimeStep cfg t) (hg : AllGood t.a) (hw : ∀ i < t.new.k, Good (t.new.sd i)) (hn : 0 < cfg.cond.sstp) :
    AllGood (t.fin cfg) := postCopy_good h.rcyc (bcndRun_good (step_front h hg hw hn).2.2.1)

/-- budget of dry volume in one step -/
theorem step_dry {cfg : Cfg} {t : Trace} (h : TimeStep cfg t) (hg : AllGood t.a) (hw : ∀ i < t.new.k, Good (t.new.sd i)) (hn : 0 < cfg.cond.sstp)
    (hdist : cfg.bcnd.dist = none) (hzz : cfg.bcnd.z0 ≤ cfg.bcnd.z1) :
    dryVolume (t.fin cfg) + (t.fin cfg).puddle .dryVol + leaving cfg.bcnd t.atWalls (fun d => 4 / 3 * Real.pi * d.rd3) =
      dryVolume t.a + t.a.puddle .dryVol + newDry t.new := by
  obtain ⟨-, -, -, -, -, e5, -, e6, -⟩ := step_front h hg hw hn
  have e1 : dryVolume (t.fin cfg) = total (bcndRun cfg.bcnd t.atWalls) (fun d => 4 / 3 * Real.pi * d.rd3) :=
    postCopy_total h.rcyc (fun d => 4 / 3 * Real.pi * d.rd3) (fun _ _ => rfl)
  have e2 : (t.fin cfg).puddle = (bcndRun cfg.bcnd t.atWalls).puddle := postCopy_puddle _ _
  have e3 := bcnd_total cfg.bcnd hdist hzz t.atWalls .dryVol trivial (fun d => 4 / 3 * Real.pi * d.rd3) (fun _ _ => rfl) (fun _ _ _ _ _ => rfl)
  rw [e1, e2, e3, ← dryVolume_eq, e6, e5]
  ring

/-- budget of liquid water in the second part of a step -/
theorem step_water {cfg : Cfg} {t : Trace} (h : TimeStep cfg t) (hg : AllGood t.a) (hw : ∀ i < t.new.k, Good (t.new.sd i)) (hn : 0 < cfg.cond.sstp)
    (hdist : cfg.bcnd.dist = none) (hzz : cfg.bcnd.z0 ≤ cfg.bcnd.z1) :
    waterVolume (t.fin cfg) + (t.fin cfg).puddle .liqVol + leaving cfg.bcnd t.atWalls (fun d => 4 / 3 * Real.pi * √d.rw2 ^ 3) =
      waterVolume t.b + t.a.puddle .liqVol + newWater t.new := by
  obtain ⟨-, -, g, -, -, e5, -, -, e6, -⟩ := step_front h hg hw hn
  have e1 : waterVolume (t.fin cfg) = total (bcndRun cfg.bcnd t.atWalls) (fun d => 4 / 3 * Real.pi * √d.rw2 ^ 3) :=
    postCopy_total h.rcyc (fun d => 4 / 3 * Real.pi * √d.rw2 ^ 3) (fun _ _ => rfl)
  have e2 : (t.fin cfg).puddle = (bcndRun cfg.bcnd t.atWalls).puddle := postCopy_puddle _ _
  have e3 := bcnd_total cfg.bcnd hdist hzz t.atWalls .liqVol trivial (fun d => 4 / 3 * Real.pi * √d.rw2 ^ 3)
    (fun i hi => by
      show 4 / 3 * Real.pi * (t.atWalls.sd i).rw2 ^ (3 / 2 : ℝ) = _
      rw [sqrt_cube _ (g i hi).rw2]) (fun _ _ _ _ _ => rfl)
  rw [e1, e2, e3, ← waterVolume_eq, e6, e5]
  ring

/-- condensation: what the droplets gain is what the vapour loses -/
theorem step_cond {cfg : Cfg} {t : Trace} (h : TimeStep cfg t) (hg : AllGood t.a) (hn : 0 < cfg.cond.sstp)
    (hcons : t.how.Exact cfg.cond (toCond t.fields t.a))
    (hair : ∀ c < t.fields.d.nCell, Cond.airMass t.fields (t.fields.d.rhod c) c ≠ 0) :
    rho_w * waterVolume t.b + vapourMass { t.fields with rv := t.cond.rv } = rho_w * waterVolume t.a + vapourMass t.fields := by
  obtain ⟨s', e, eN, en, eijk, -, H⟩ := how_ok cfg.cond t.how (toCond t.fields t.a) h.sorted hn (fun i hi => (hg i hi).rw2) h.how
  rw [h.cond] at e
  obtain rfl : t.cond = s' := by simpa using e
  have cells : ∀ (g : ℕ → ℝ), ∑ c ∈ Finset.range t.fields.d.nCell, ∑ i ∈ (Finset.range t.a.N).filter (fun i => t.fields.d.ijk i = c), g i =
      ∑ i ∈ Finset.range t.a.N, g i := by
    intro g
    simp_rw [Finset.sum_filter]
    rw [Finset.sum_comm]
    refine Finset.sum_congr rfl fun i hi => ?_
    rw [Finset.sum_ite_eq, if_pos]
    exact Finset.mem_range.2 (h.sorted.cell i (Finset.mem_range.1 hi))
  have L : ∀ rw2 : ℕ → ℝ, ∑ c ∈ Finset.range t.fields.d.nCell, ∑ i ∈ (Finset.range t.a.N).filter (fun i => t.fields.d.ijk i = c),
      ((t.a.sd i).n : ℝ) * (4 / 3 * Real.pi * √(rw2 i) ^ 3 * rho_w) = rho_w * ∑ i ∈ Finset.range t.a.N, ((t.a.sd i).n : ℝ) * (4 / 3 * Real.pi * √(rw2 i) ^ 3) := by
    intro rw2
    rw [cells, Finset.mul_sum]
    exact Finset.sum_congr rfl fun i _ => by ring
  have l1 : ∀ c, Cond.liquidMass (toCond t.fields t.a) c = ∑ i ∈ (Finset.range t.a.N).filter (fun i => t.fields.d.ijk i = c),
      ((t.a.sd i).n : ℝ) * (4 / 3 * Real.pi * √(t.a.sd i).rw2 ^ 3 * rho_w) := fun c => rfl
  have l2 : ∀ c, Cond.liquidMass t.cond c = ∑ i ∈ (Finset.range t.a.N).filter (fun i => t.fields.d.ijk i = c),
      ((t.a.sd i).n : ℝ) * (4 / 3 * Real.pi * √(t.cond.rw2 i) ^ 3 * rho_w) := by
    intro c
    unfold Cond.liquidMass
    rw [eN, en, eijk]
    rfl
  have hsum : ∑ c ∈ Finset.range t.fields.d.nCell, (t.cond.rv c * Cond.airMass t.fields (t.fields.d.rhod c) c + Cond.liquidMass t.cond c) =
      ∑ c ∈ Finset.range t.fields.d.nCell, (t.fields.rv c * Cond.airMass t.fields (t.fields.d.rhod c) c + Cond.liquidMass (toCond t.fields t.a) c) := by
    refine Finset.sum_congr rfl fun c hc => ?_
    have hc := Finset.mem_range.1 hc
    have hH := H hcons c hc
    have ha := hair c hc
    have ea : Cond.airMass (toCond t.fields t.a) ((toCond t.fields t.a).d.rhod c) c = Cond.airMass t.fields (t.fields.d.rhod c) c := rfl
    have er : (toCond t.fields t.a).rv c = t.fields.rv c := rfl
    rw [ea, er] at hH
    have := congrArg (fun v => v * Cond.airMass t.fields (t.fields.d.rhod c) c) hH
    simp only [add_mul, div_mul_cancel₀ _ ha] at this
    exact this
  rw [Finset.sum_add_distrib, Finset.sum_add_distrib] at hsum
  simp only [l1, l2] at hsum
  rw [L, L] at hsum
  have w1 : waterVolume t.b = ∑ i ∈ Finset.range t.a.N, ((t.a.sd i).n : ℝ) * (4 / 3 * Real.pi * √(t.cond.rw2 i) ^ 3) := rfl
  have w2 : waterVolume t.a = ∑ i ∈ Finset.range t.a.N, ((t.a.sd i).n : ℝ) * (4 / 3 * Real.pi * √(t.a.sd i).rw2 ^ 3) := rfl
  rw [← w1, ← w2] at hsum
  have v1 : vapourMass { t.fields with rv := t.cond.rv } = ∑ c ∈ Finset.range t.fields.d.nCell, t.cond.rv c * Cond.airMass t.fields (t.fields.d.rhod c) c := rfl
  have v2 : vapourMass t.fields = ∑ c ∈ Finset.range t.fields.d.nCell, t.fields.rv c * Cond.airMass t.fields (t.fields.d.rhod c) c := rfl
  rw [v1, v2]
  linarith

/-- number of particles in one step -/
theorem step_number {cfg : Cfg} {t : Trace} (h : TimeStep cfg t) (hg : AllGood t.a) (hw : ∀ i < t.new.k, Good (t.new.sd i)) (hn : 0 < cfg.cond.sstp)
    (hdist : cfg.bcnd.dist = none) (hzz : cfg.bcnd.z0 ≤ cfg.bcnd.z1) :
    number (t.fin cfg) + (t.fin cfg).puddle .prtclNum + leaving cfg.bcnd t.atWalls (fun _ => 1) ≤ number t.a + t.a.puddle .prtclNum + newNumber t.new := by
  obtain ⟨-, -, -, -, -, e5, -, -, -, e6⟩ := step_front h hg hw hn
  have en : ∀ s : St, number s = total s (fun _ => 1) := fun s => Finset.sum_congr rfl fun i _ => by ring
  have e1 : number (t.fin cfg) = total (bcndRun cfg.bcnd t.atWalls) (fun _ => 1) := by
    rw [en]; exact postCopy_total h.rcyc (fun _ => 1) (fun _ _ => rfl)
  have e2 : (t.fin cfg).puddle = (bcndRun cfg.bcnd t.atWalls).puddle := postCopy_puddle _ _
  have e3 := bcnd_total cfg.bcnd hdist hzz t.atWalls .prtclNum trivial (fun _ => 1) (fun _ _ => rfl) (fun _ _ _ _ _ => rfl)
  rw [e1, e2, e3, ← en, e5]
  linarith

/-! ### Runs -/

/-- **C104.** In every run, however long, multiplicities stay within their type and radii stay non-negative. -/
theorem run_good {cfg : Cfg} {T : ℕ} {s : ℕ → St} {t : ℕ → Trace} (H : History cfg T s t) (hn : 0 < cfg.cond.sstp) (hg : AllGood (s 0))
    (hw : ∀ k < T, ∀ i < (t k).new.k, Good ((t k).new.sd i)) : ∀ k ≤ T, AllGood (s k) := by
  intro k
  induction k with
  | zero => exact fun _ => hg
  | succ k ih =>
    intro hk
    rw [← H.fin k hk]
    exact step_good (H.step k hk) (by rw [H.beg k hk]; exact ih (by omega)) (hw k hk) hn

/-- **C105 (aerosol).** Over every run: dry volume in the domain plus dry volume that fell to the ground plus what left through open walls and the top equals
the initial amount plus what sources and relaxation added.  Condensation, coalescence, transport, recycling and removal neither create nor destroy any. -/
theorem run_dry {cfg : Cfg} {T : ℕ} {s : ℕ → St} {t : ℕ → Trace} (H : History cfg T s t) (hn : 0 < cfg.cond.sstp) (hg : AllGood (s 0))
    (hw : ∀ k < T, ∀ i < (t k).new.k, Good ((t k).new.sd i)) (hdist : cfg.bcnd.dist = none) (hzz : cfg.bcnd.z0 ≤ cfg.bcnd.z1) :
    dryVolume (s T) + (s T).puddle .dryVol + ∑ k ∈ Finset.range T, leaving cfg.bcnd (t k).atWalls (fun d => 4 / 3 * Real.pi * d.rd3) =
      dryVolume (s 0) + (s 0).puddle .dryVol + ∑ k ∈ Finset.range T, newDry (t k).new := by
  have G := run_good H hn hg hw
  have : ∀ k ≤ T, dryVolume (s k) + (s k).puddle .dryVol + ∑ j ∈ Finset.range k, leaving cfg.bcnd (t j).atWalls (fun d => 4 / 3 * Real.pi * d.rd3) =
      dryVolume (s 0) + (s 0).puddle .dryVol + ∑ j ∈ Finset.range k, newDry (t j).new := by
    intro k
    induction k with
    | zero => intro _; simp
    | succ k ih =>
      intro hk
      have e := step_dry (H.step k hk) (by rw [H.beg k hk]; exact G k (by omega)) (hw k hk) hn hdist hzz
      rw [H.fin k hk, H.beg k hk] at e
      rw [Finset.sum_range_succ, Finset.sum_range_succ]
      linarith [ih (by omega)]
  exact this T le_rfl

/-- **C105 (number).** The number of particles never grows except by sources and relaxation. -/
theorem run_number {cfg : Cfg} {T : ℕ} {s : ℕ → St} {t : ℕ → Trace} (H : History cfg T s t) (hn : 0 < cfg.cond.sstp) (hg : AllGood (s 0))
    (hw : ∀ k < T, ∀ i < (t k).new.k, Good ((t k).new.sd i)) (hdist : cfg.bcnd.dist = none) (hzz : cfg.bcnd.z0 ≤ cfg.bcnd.z1) :
    number (s T) + (s T).puddle .prtclNum + ∑ k ∈ Finset.range T, leaving cfg.bcnd (t k).atWalls (fun _ => 1) ≤
      number (s 0) + (s 0).puddle .prtclNum + ∑ k ∈ Finset.range T, newNumber (t k).new := by
  have G := run_good H hn hg hw
  have : ∀ k ≤ T, number (s k) + (s k).puddle .prtclNum + ∑ j ∈ Finset.range k, leaving cfg.bcnd (t j).atWalls (fun _ => 1) ≤
      number (s 0) + (s 0).puddle .prtclNum + ∑ j ∈ Finset.range k, newNumber (t j).new := by
    intro k
    induction k with
    | zero => intro _; simp
    | succ k ih =>
      intro hk
      have e := step_number (H.step k hk) (by rw [H.beg k hk]; exact G k (by omega)) (hw k hk) hn hdist hzz
      rw [H.fin k hk, H.beg k hk] at e
      rw [Finset.sum_range_succ, Finset.sum_range_succ]
      linarith [ih (by omega)]
  exact this T le_rfl

/-- conditions under which condensation with per-cell substeps conserves water exactly (C58) -/
def Exact (cfg : Cfg) (t : Trace) : Prop :=
  t.how.Exact cfg.cond (toCond t.fields t.a) ∧
  ∀ c < t.fields.d.nCell, Cond.airMass t.fields (t.fields.d.rhod c) c ≠ 0

/-- **C105 (water).** Over every run: the mass of liquid water in the domain, on the ground and gone through open walls, plus the vapour removed or returned by the
library, closes: what condensation took from the vapour in all steps together is found as liquid water. -/
theorem run_water {cfg : Cfg} {T : ℕ} {s : ℕ → St} {t : ℕ → Trace} (H : History cfg T s t) (hn : 0 < cfg.cond.sstp) (hg : AllGood (s 0))
    (hw : ∀ k < T, ∀ i < (t k).new.k, Good ((t k).new.sd i)) (hdist : cfg.bcnd.dist = none) (hzz : cfg.bcnd.z0 ≤ cfg.bcnd.z1) (hx : ∀ k < T, Exact cfg (t k)) :
    rho_w * (waterVolume (s T) + (s T).puddle .liqVol + ∑ k ∈ Finset.range T, leaving cfg.bcnd (t k).atWalls (fun d => 4 / 3 * Real.pi * √d.rw2 ^ 3)) =
      rho_w * (waterVolume (s 0) + (s 0).puddle .liqVol + ∑ k ∈ Finset.range T, newWater (t k).new) +
      ∑ k ∈ Finset.range T, (vapourMass (t k).fields - vapourMass { (t k).fields with rv := (t k).cond.rv }) := by
  have G := run_good H hn hg hw
  have : ∀ k ≤ T, rho_w * (waterVolume (s k) + (s k).puddle .liqVol + ∑ j ∈ Finset.range k, leaving cfg.bcnd (t j).atWalls (fun d => 4 / 3 * Real.pi * √d.rw2 ^ 3)) =
      rho_w * (waterVolume (s 0) + (s 0).puddle .liqVol + ∑ j ∈ Finset.range k, newWater (t j).new) +
      ∑ j ∈ Finset.range k, (vapourMass (t j).fields - vapourMass { (t j).fields with rv := (t j).cond.rv }) := by
    intro k
    induction k with
    | zero => intro _; simp
    | succ k ih =>
      intro hk
      have g : AllGood (t k).a := by rw [H.beg k hk]; exact G k (by omega)
      have e := step_water (H.step k hk) g (hw k hk) hn hdist hzz
      have c := step_cond (H.step k hk) g hn (hx k hk).1 (hx k hk).2
      rw [H.fin k hk, H.beg k hk] at e
      rw [H.beg k hk] at c
      rw [Finset.sum_range_succ, Finset.sum_range_succ, Finset.sum_range_succ]
      have i := ih (by omega)
      have e' := congrArg (fun v => rho_w * v) e
      simp only [mul_add] at e' i ⊢
      linarith
  exact this T le_rfl

/-- **C105 (water, conservative host).** If the host model moves vapour around without creating or destroying any, the total water (vapour in the domain, liquid in
the domain, on the ground and gone through open walls) is the initial one plus that of new super-droplets. -/
theorem run_total_water {cfg : Cfg} {T : ℕ} {s : ℕ → St} {t : ℕ → Trace} (H : History cfg (T + 1) s t) (hn : 0 < cfg.cond.sstp)
    (hg : AllGood (s 0)) (hw : ∀ k < T + 1, ∀ i < (t k).new.k, Good ((t k).new.sd i)) (hdist : cfg.bcnd.dist = none) (hzz : cfg.bcnd.z0 ≤ cfg.bcnd.z1)
    (hx : ∀ k < T + 1, Exact cfg (t k)) (hhost : ∀ k < T, vapourMass (t (k + 1)).fields = vapourMass { (t k).fields with rv := (t k).cond.rv }) :
    vapourMass { (t T).fields with rv := (t T).cond.rv } + rho_w * (waterVolume (s (T + 1)) + (s (T + 1)).puddle .liqVol +
        ∑ k ∈ Finset.range (T + 1), leaving cfg.bcnd (t k).atWalls (fun d => 4 / 3 * Real.pi * √d.rw2 ^ 3)) =
      vapourMass (t 0).fields + rho_w * (waterVolume (s 0) + (s 0).puddle .liqVol + ∑ k ∈ Finset.range (T + 1), newWater (t k).new) := by
  rw [run_water H hn hg hw hdist hzz hx]
  have tel : ∀ k ≤ T, ∑ j ∈ Finset.range (k + 1), (vapourMass (t j).fields - vapourMass { (t j).fields with rv := (t j).cond.rv }) =
      vapourMass (t 0).fields - vapourMass { (t k).fields with rv := (t k).cond.rv } := by
    intro k
    induction k with
    | zero => intro _; simp
    | succ k ih =>
      intro hk
      rw [Finset.sum_range_succ, ih (by omega), hhost k (by omega)]
      ring
  rw [tel T le_rfl]
  ring

theorem leaving_nonneg {o : Bcnd.Opts} {s : St} {w : Drop → ℝ} (h : ∀ i < s.N, 0 ≤ w (s.sd i)) : 0 ≤ leaving o s w := by
  classical
  refine Finset.sum_nonneg fun i hi => ?_
  split_ifs
  · exact mul_nonneg (Nat.cast_nonneg _) (h i (Finset.mem_range.1 hi))
  · exact le_rfl

/-- **C105 (closed box).** In a box that is periodic in all its directions, without sources, no aerosol appears or disappears in any number of steps. -/
theorem run_dry_closed {cfg : Cfg} {T : ℕ} {s : ℕ → St} {t : ℕ → Trace} (H : History cfg T s t) (hn : 0 < cfg.cond.sstp) (hg : AllGood (s 0))
    (hdist : cfg.bcnd.dist = none) (hzz : cfg.bcnd.z0 ≤ cfg.bcnd.z1) (hside : cfg.bcnd.openSide = false) (htop : cfg.bcnd.nDims ≤ 1 ∨ cfg.bcnd.periodicTopBot = true)
    (hnew : ∀ k < T, (t k).new.k = 0) : dryVolume (s T) = dryVolume (s 0) := by
  have hw : ∀ k < T, ∀ i < (t k).new.k, Good ((t k).new.sd i) := fun k hk i hi => by rw [hnew k hk] at hi; omega
  have B := run_dry H hn hg hw hdist hzz
  have l0 : ∀ s : St, ∀ w, leaving cfg.bcnd s w = 0 := by
    intro s w
    classical
    refine Finset.sum_eq_zero fun i _ => if_neg ?_
    rintro (⟨-, h, -⟩ | ⟨-, h, -⟩ | ⟨h1, h2, -⟩)
    · rw [hside] at h; cases h
    · rw [hside] at h; cases h
    · rcases htop with h | h
      · omega
      · rw [h] at h2; cases h2
  have n0 : ∑ k ∈ Finset.range T, newDry (t k).new = 0 := Finset.sum_eq_zero fun k hk => by
    unfold newDry; rw [hnew k (Finset.mem_range.1 hk)]; simp
  have pud : ∀ k ≤ T, (s k).puddle = (s 0).puddle := by
    intro k
    induction k with
    | zero => exact fun _ => rfl
    | succ k ih =>
      intro hk
      have g := run_good H hn hg hw k (by omega)
      have fr := (step_front (H.step k hk) (by rw [H.beg k hk]; exact g) (hw k hk) hn).2.2.2.2.2.1
      rw [← ih (by omega), ← H.fin k hk, ← H.beg k hk, ← fr]
      show (postCopy _ _).puddle = _
      rw [postCopy_puddle]
      show (Bcnd.bcnd cfg.bcnd (toBcnd (t k).atWalls)).puddle = _
      have hXY : (Bcnd.bcndY cfg.bcnd (Bcnd.bcndX cfg.bcnd (toBcnd (t k).atWalls))).puddle = (t k).atWalls.puddle := by rw [Bcnd.bcndXY_frame]; rfl
      unfold Bcnd.bcnd Bcnd.bcndZ
      rcases htop with h | h
      · rw [if_neg (by omega : ¬ cfg.bcnd.nDims > 1)]
        split_ifs
        · rfl
        · exact hXY
      · rw [h]
        split_ifs <;> first | rfl | exact hXY | contradiction
  rw [pud T le_rfl, n0, Finset.sum_eq_zero (fun k _ => l0 _ _)] at B
  linarith

end LCP.Run
