import Verif.Run.Inside
import Verif.Adve.TransportProps

/-!
# A run can be continued (C106)

`step_async` ends (src/impl/distributed_memory/particles_impl_post_copy.ipp:36) with `hskpng_ijk`, which converts the position of every super-droplet to cell
indices; it is defined only for positions inside the grid.  Here: when does the next step complete, whatever the inputs are.
-/
namespace LCP.Run
open LCP LCP.Common

/-- `hskpng_ijk` at the end of `step_async` (particles_impl_post_copy.ipp:36, particles_impl_hskpng_ijk.ipp:158-200) is defined for all super-droplets -/
def Indexed (d : Grid.Dims) (b : Grid.Box) (s : St) : Prop := ∀ i < s.N, ∃ q, Adve.cellOf d b (s.sd i).pos = some q

/-- the Lagrangian domain lies inside the grid, in two or three dimensions -/
structure Fits (d : Grid.Dims) (b : Grid.Box) (o : Bcnd.Opts) : Prop where
  grid : Adve.GridOk d b
  dims : o.nDims = if d.ny = 0 then 2 else 3
  x0 : 0 ≤ o.x0
  x1 : o.x1 ≤ d.nx * b.dx
  y0 : d.ny ≠ 0 → 0 ≤ o.y0
  y1 : d.ny ≠ 0 → o.y1 ≤ d.ny * b.dy
  z0 : 0 ≤ o.z0
  z1 : o.z1 ≤ d.nz * b.dz

theorem Fits.inGrid {d : Grid.Dims} {b : Grid.Box} {o : Bcnd.Opts} (h : Fits d b o) {D : Drop} (hi : Inside o D) : Adve.InGrid d b d.nx D.pos := by
  obtain ⟨hx, hy, hz⟩ := hi
  have hd := h.dims
  have hx := hx (by split_ifs at hd <;> omega)
  have hz := hz (by split_ifs at hd <;> omega)
  refine ⟨le_trans h.x0 hx.1, lt_of_lt_of_le hx.2 h.x1, fun hn => ?_, le_trans h.z0 hz.1, lt_of_lt_of_le hz.2 h.z1⟩
  have hy := hy (by rw [if_neg hn] at hd; exact hd)
  exact ⟨le_trans (h.y0 hn) hy.1, lt_of_lt_of_le hy.2 (h.y1 hn)⟩

theorem Fits.indexed {d : Grid.Dims} {b : Grid.Box} {o : Bcnd.Opts} (h : Fits d b o) {s : St} (hi : ∀ i < s.N, Inside o (s.sd i)) : Indexed d b s := by
  intro i hs
  obtain ⟨i', j, k, -, e⟩ := Adve.cellOf_spec h.grid (X := d.nx) (by omega) (h.inGrid (hi i hs))
  exact ⟨_, e⟩

/-- the flow is usable by the scheme of the step: no condition for the explicit and implicit schemes; predictor-corrector needs x Courant numbers within
[-2,2] (otherwise sync_in switches to Euler), a two-column halo and moves in y shorter than the domain -/
def FlowOk (m : MoveIn) (o : Bcnd.Opts) : Prop :=
  m.st.scheme = .predCorr → m.hs = 2 ∧ Adve.PcOk m.d m.b m.st.C ∧ (m.d.ny ≠ 0 → m.b.y0 = o.y0 ∧ m.b.y1 = o.y1)

theorem adve_defined {m : MoveIn} {o : Bcnd.Opts} (h : Fits m.d m.b o) (hf : FlowOk m o) {D : Drop} (hi : Inside o D) :
    ∃ r, Adve.adve m.st.scheme m.hs m.d m.b m.st.C D.pos = some r := by
  have hg := h.inGrid hi
  obtain ⟨i, j, k, -, e⟩ := Adve.cellOf_spec h.grid (X := m.d.nx) (by omega) hg
  rcases hs : m.st.scheme with _ | _ | _
  · unfold Adve.adve
    rw [if_neg (Adve.nDims_of h.grid.lay).1]
    exact ⟨_, by rw [e]; rfl⟩
  · unfold Adve.adve
    rw [if_neg (Adve.nDims_of h.grid.lay).1]
    exact ⟨_, by rw [e]; rfl⟩
  · obtain ⟨h2, pc, hy⟩ := hf hs
    rw [h2]
    obtain ⟨_, _, _, _, _, _, _, _, _, _, -, -, -, -, -, -, e⟩ := Adve.predCorr_step h.grid m.st.C pc hg (by
      intro hn
      have hd := h.dims
      rw [if_neg hn] at hd
      have := hi.2.1 hd
      rw [(hy hn).1, (hy hn).2]
      exact this)
    exact ⟨_, e⟩

theorem kAfter_defined {s : Adve.Scheme} {hs : ℕ} {d : Grid.Dims} {b : Grid.Box} {C : Adve.Courants} {p r : Adve.Pos} (hd : d.nDims ≠ 0)
    (h : Adve.adve s hs d b C p = some r) : ∃ k, Adve.kAfter s hs d b C p = some k := by
  unfold Adve.adve at h
  rw [if_neg hd] at h
  rcases s with _ | _ | _
  · simp only [Option.bind_eq_bind, Option.bind_eq_some_iff] at h
    obtain ⟨q, hq, -⟩ := h
    exact ⟨_, by simp [Adve.kAfter, hq]; rfl⟩
  · simp only [Option.bind_eq_bind, Option.bind_eq_some_iff] at h
    obtain ⟨q, hq, -⟩ := h
    exact ⟨_, by simp [Adve.kAfter, hq]; rfl⟩
  · simp only [Option.bind_eq_bind, Option.bind_eq_some_iff] at h
    obtain ⟨q, hq, q1, hq1, -⟩ := h
    exact ⟨q1.2.2.1, by simp only [Adve.kAfter, hq, Option.bind_eq_bind, Option.bind_some, hq1]; rfl⟩

theorem transport_defined {m : MoveIn} {o : Bcnd.Opts} (h : Fits m.d m.b o) (hf : FlowOk m o) {D : Drop} (hi : Inside o D) (u : Adve.Pos) :
    ∃ st' p, Adve.transport m.init m.hs m.d m.b m.o m.dt D.vt u m.wLS m.st D.pos = some (st', p) := by
  obtain ⟨i, j, k, -, e⟩ := Adve.cellOf_spec h.grid (X := m.d.nx) (by omega) (h.inGrid hi)
  obtain ⟨r, hr⟩ := adve_defined h hf hi
  obtain ⟨k', hk'⟩ := kAfter_defined (Adve.nDims_of h.grid.lay).1 hr
  unfold Adve.transport
  rw [hr, hk', e]
  by_cases ha : m.o.adve = true
  · simp only [ha, if_true]
    exact ⟨_, _, rfl⟩
  · simp only [ha]
    exact ⟨_, _, rfl⟩

theorem moved_exists {m : MoveIn} {o : Bcnd.Opts} (h : Fits m.d m.b o) (hf : FlowOk m o) {s : St} (hi : ∀ i < s.N, Inside o (s.sd i)) : ∃ t, Moved m s t := by
  classical
  refine ⟨{ s with sd := fun i => if hi' : i < s.N then
      (let p := (transport_defined (m := m) h hf (hi i hi') (m.u i)).choose_spec.choose
       { s.sd i with x := p.x, y := p.y, z := p.z }) else s.sd i }, rfl, rfl, fun i hi' => ?_⟩
  refine ⟨_, _, (transport_defined (m := m) h hf (hi i hi') (m.u i)).choose_spec.choose_spec, ?_⟩
  dsimp only
  rw [dif_pos hi']

theorem coalOnce_defined (o : Coal.Opts) (a : CoalIn) {s : St} (h : s.N ≠ 0) : ∃ t, coalOnce o a s = some t := by
  unfold coalOnce Coal.coal
  rw [if_neg (show (a.env s.N).N ≠ 0 from h)]
  exact ⟨_, rfl⟩

/-- without super-droplets coalescence is undefined (`begin + n_part - 1`, particles_impl_coal.ipp:442-450) -/
theorem coalOnce_empty (o : Coal.Opts) (a : CoalIn) {s : St} (h : s.N = 0) : coalOnce o a s = none := by
  unfold coalOnce Coal.coal
  rw [if_pos (show (a.env s.N).N = 0 from h)]
  rfl

/-- coalescence changes neither positions nor the number of super-droplets -/
theorem coalOnce_pos {o : Coal.Opts} {a : CoalIn} {s t : St} (h : coalOnce o a s = some t) :
    t.N = s.N ∧ ∀ i, (t.sd i).x = (s.sd i).x ∧ (t.sd i).y = (s.sd i).y ∧ (t.sd i).z = (s.sd i).z := by
  unfold coalOnce at h
  rw [Option.map_eq_some_iff] at h
  obtain ⟨r, -, e⟩ := h
  rw [← e]
  exact ⟨rfl, fun i => ⟨rfl, rfl, rfl⟩⟩

/-- coalescence steps with the given inputs -/
inductive CoalWith (o : Coal.Opts) : List CoalIn → St → St → Prop
  | done (s : St) : CoalWith o [] s s
  | step {s t u : St} {a : CoalIn} {l : List CoalIn} (h : coalOnce o a s = some t) (hr : CoalWith o l t u) : CoalWith o (a :: l) s u

theorem coalWith_exists (o : Coal.Opts) (l : List CoalIn) : ∀ s : St, (l ≠ [] → s.N ≠ 0) → ∃ t, CoalWith o l s t := by
  induction l with
  | nil => exact fun s _ => ⟨s, .done s⟩
  | cons a l ih =>
    intro s hs
    obtain ⟨t, ht⟩ := coalOnce_defined o a (hs (by simp))
    obtain ⟨u, hu⟩ := ih t (fun _ => by rw [(coalOnce_pos ht).1]; exact hs (by simp))
    exact ⟨u, .step ht hu⟩

theorem CoalWith.pos {o : Coal.Opts} {l : List CoalIn} {s t : St} (h : CoalWith o l s t) :
    t.N = s.N ∧ ∀ i, (t.sd i).x = (s.sd i).x ∧ (t.sd i).y = (s.sd i).y ∧ (t.sd i).z = (s.sd i).z := by
  induction h with
  | done => exact ⟨rfl, fun _ => ⟨rfl, rfl, rfl⟩⟩
  | step h _ ih =>
    obtain ⟨a, b⟩ := coalOnce_pos h
    exact ⟨ih.1.trans a, fun i => ⟨(ih.2 i).1.trans (b i).1, (ih.2 i).2.1.trans (b i).2.1, (ih.2 i).2.2.trans (b i).2.2⟩⟩

theorem CoalWith.steps {o : Coal.Opts} {l : List CoalIn} {s t : St} (h : CoalWith o l s t) (hok : ∀ a ∈ l, a.Ok s.N) : CoalSteps o s t := by
  induction h with
  | done s => exact .done s
  | step h _ ih =>
    refine .step _ (hok _ (by simp)) h (ih fun a ha => ?_)
    rw [(coalOnce_pos h).1]
    exact hok a (by simp [ha])

/-- everything a step is not told by the state: fields and sorting for condensation, inputs of each coalescence sub-step, transport, new super-droplets, and what
recycling does (outcome of its sort, orders of execution) for the population it finds -/
structure Inputs where
  fields : Cond.St
  how : How
  inc : ℕ → ℝ
  vt : ℕ → ℝ
  coal : List CoalIn
  move : MoveIn
  new : New
  rcyc : St → Option RcycIn

/-- the inputs are possible ones for the population `s` -/
structure Inputs.Ok (u : Inputs) (cfg : Cfg) (s : St) : Prop where
  sorted : Cond.Sorted (toCond u.fields s).d
  how : u.how.Ok cfg.cond s.N
  coal : ∀ a ∈ u.coal, a.Ok s.N
  fits : Fits u.move.d u.move.b cfg.bcnd
  flow : FlowOk u.move cfg.bcnd
  good : ∀ i < u.new.k, Good (u.new.sd i)
  rcyc : ∀ p, RcycOk (u.rcyc p) p

/-- the step took these inputs -/
def Trace.Took (t : Trace) (cfg : Cfg) (u : Inputs) : Prop :=
  t.fields = u.fields ∧ t.how = u.how ∧ t.inc = u.inc ∧ t.vt = u.vt ∧ CoalWith cfg.coal u.coal t.b t.c ∧ Moved u.move t.c t.m ∧ t.new = u.new ∧
  t.rcyc = u.rcyc (bcndRun cfg.bcnd t.atWalls)

/-- the step completes: it is a time step and the cell indices at its end are defined -/
def Completes (cfg : Cfg) (u : Inputs) (s : St) (t : Trace) : Prop :=
  t.a = s ∧ TimeStep cfg t ∧ t.Took cfg u ∧ Indexed u.move.d u.move.b (t.fin cfg)

/-- **C106 (one step).** For every well-formed population inside the domain and all possible inputs the step completes, provided that coalescence does not meet an
empty population, the flow does not carry droplets many domain lengths to the left, and recycling can clear the dead super-droplets. -/
theorem step_completes_partial {cfg : Cfg} (hn : 0 < cfg.cond.sstp) (hdist : cfg.bcnd.dist = none) (he : Extent cfg.bcnd) {s : St} (hg : AllGood s)
    (hi : ∀ i < s.N, Inside cfg.bcnd (s.sd i)) {u : Inputs} (hu : u.Ok cfg s) (hcoal : u.coal ≠ [] → s.N ≠ 0)
    (hend : ∀ t : Trace, t.a = s → TimeStep cfg t → t.Took cfg u → Near cfg.bcnd t.atWalls ∧ Clears t.rcyc (bcndRun cfg.bcnd t.atWalls)) :
    ∃ t, Completes cfg u s t ∧ AllGood (t.fin cfg) ∧ ∀ i < (t.fin cfg).N, 1 ≤ ((t.fin cfg).sd i).n ∧ Inside cfg.bcnd ((t.fin cfg).sd i) := by
  obtain ⟨q, hq, -⟩ := how_ok cfg.cond u.how (toCond u.fields s) hu.sorted hn (fun i hi => (hg i hi).rw2) hu.how
  obtain ⟨b, hb⟩ : ∃ b, b = ofCond q u.inc u.vt s := ⟨_, rfl⟩
  have bN : b.N = s.N := by rw [hb]; rfl
  obtain ⟨c, hc⟩ := coalWith_exists cfg.coal u.coal b (by rw [bN]; exact hcoal)
  obtain ⟨cN, cp⟩ := hc.pos
  have ci : ∀ i < c.N, Inside cfg.bcnd (c.sd i) := by
    intro i hi'
    have := hi i (by omega)
    unfold Inside
    rw [(cp i).1, (cp i).2.1, (cp i).2.2, hb]
    exact this
  obtain ⟨m, hm⟩ := moved_exists hu.fits hu.flow ci
  obtain ⟨w, hw⟩ : ∃ w, w = addNew u.new m := ⟨_, rfl⟩
  obtain ⟨t, ht⟩ : ∃ t : Trace, t = { a := s, fields := u.fields, how := u.how, cond := q, inc := u.inc, vt := u.vt, c := c, m := m, new := u.new
                                      rcyc := u.rcyc (bcndRun cfg.bcnd w) } := ⟨_, rfl⟩
  have tb : t.b = b := by rw [ht, hb]; rfl
  have tw : t.atWalls = w := by rw [ht, hw]; rfl
  have hts : TimeStep cfg t := by
    refine ⟨by rw [ht]; exact hu.sorted, by rw [ht]; exact hu.how, by rw [ht]; exact hq, ?_, ⟨u.move, by rw [ht]; exact hm⟩, ?_⟩
    · rw [tb]
      have : t.c = c := by rw [ht]
      rw [this]
      exact hc.steps (by rw [bN]; exact hu.coal)
    · rw [tw]
      have : t.rcyc = u.rcyc (bcndRun cfg.bcnd w) := by rw [ht]
      rw [this]
      exact hu.rcyc _
  have ta : t.a = s := by rw [ht]
  have tn : t.new = u.new := by rw [ht]
  have H : History cfg 1 (fun k => if k = 0 then s else t.fin cfg) (fun _ => t) :=
    ⟨fun _ _ => hts, fun k hk => by rw [if_pos (by omega), ta], fun k _ => by rw [if_neg (by omega)]⟩
  have tk : t.Took cfg u := by
    refine ⟨by rw [ht], by rw [ht], by rw [ht], by rw [ht], ?_, ?_, tn, ?_⟩
    · rw [tb, ht]; exact hc
    · rw [ht]; exact hm
    · rw [tw, ht]
  obtain ⟨hnear, hclear⟩ := hend t ta hts tk
  have R := run_inside H hdist he (fun _ _ => hnear) (fun k _ => hclear) 1 (by norm_num) le_rfl
  have G := run_good H hn (by simpa using hg) (fun _ _ => by rw [tn]; exact hu.good) 1 le_rfl
  have R' : ∀ i < (t.fin cfg).N, 1 ≤ ((t.fin cfg).sd i).n ∧ Inside cfg.bcnd ((t.fin cfg).sd i) := R
  exact ⟨t, ⟨ta, hts, tk, hu.fits.indexed fun i hi => (R' i hi).2⟩, G, R'⟩

/-! ### When no droplet is carried far -/

/-- Courant numbers in x and y are at most `c` in magnitude, `c` = 2 for the explicit and the predictor-corrector scheme and 1/3 for the implicit one -/
def Calm (m : MoveIn) : Prop := ∀ f, |m.st.C.cx f| ≤ (if m.st.scheme = .implicit then 1 / 3 else 2) ∧ |m.st.C.cy f| ≤ (if m.st.scheme = .implicit then 1 / 3 else 2)

theorem expl_disp {dx x Cl Cr : ℝ} {i : ℕ} (hdx : 0 < dx) (h0 : i * dx ≤ x) (h1 : x < (i + 1) * dx) (hl : |Cl| ≤ 2) (hr : |Cr| ≤ 2) :
    x - 2 * dx ≤ x + dx * Adve.lin Cl Cr dx i x := by
  have := (Adve.lin_bounds hdx h0 h1 (abs_le.1 hl) (abs_le.1 hr)).1
  nlinarith

theorem impl_disp {dx x Cl Cr : ℝ} {i : ℕ} (hdx : 0 < dx) (h0 : i * dx ≤ x) (h1 : x < (i + 1) * dx) (hl : |Cl| ≤ 1 / 3) (hr : |Cr| ≤ 1 / 3) :
    x - 2 * dx ≤ Adve.helperImpl dx x i Cl Cr := by
  have a := abs_le.1 hl
  have b := abs_le.1 hr
  have hD : 0 < 1 - (Cr - Cl) := by linarith
  unfold Adve.helperImpl
  rw [le_div_iff₀ hD]
  obtain ⟨w, hw⟩ : ∃ w, x = (i + w) * dx := ⟨x / dx - i, by field_simp; ring⟩
  subst hw
  have w0 : 0 ≤ w := by
    have := (mul_le_mul_iff_of_pos_right hdx).1 h0; linarith
  have w1 : w < 1 := by
    have := (mul_lt_mul_iff_of_pos_right hdx).1 h1; linarith
  have e : (i + w) * dx + dx * (Cl - i * (Cr - Cl)) - ((i + w) * dx - 2 * dx) * (1 - (Cr - Cl)) = dx * (2 * (1 - (Cr - Cl)) + (Cl + w * (Cr - Cl))) := by ring
  have : 0 ≤ dx * (2 * (1 - (Cr - Cl)) + (Cl + w * (Cr - Cl))) := by
    apply mul_nonneg hdx.le
    nlinarith
  linarith

/-- advection moves no super-droplet more than two cells to the left in x or y -/
theorem adve_disp {m : MoveIn} {o : Bcnd.Opts} (h : Fits m.d m.b o) (hf : FlowOk m o) (hc : Calm m) {D : Drop} (hi : Inside o D) {r : Adve.Pos}
    (hr : Adve.adve m.st.scheme m.hs m.d m.b m.st.C D.pos = some r) : D.x - 2 * m.b.dx ≤ r.x ∧ (m.d.ny ≠ 0 → D.y - 2 * m.b.dy ≤ r.y) := by
  have hg := h.inGrid hi
  have g := h.grid
  unfold Calm at hc
  rcases hs : m.st.scheme with _ | _ | _
  · rw [hs] at hr
    simp only [hs, if_true] at hc
    obtain ⟨i, j, k, ⟨-, hj, hk, hx, hy, -⟩, e⟩ := Adve.cellOf_spec g (X := m.d.nx) (by omega) hg
    unfold Adve.adve at hr
    rw [if_neg (Adve.nDims_of g.lay).1] at hr
    simp only [e] at hr
    have hr := Option.some.inj hr
    rw [Adve.adveCalc_spec g _ m.hs m.st.C D.pos hj hk] at hr
    rw [← hr]
    refine ⟨impl_disp g.dx hx.1 hx.2 (hc _).1 (hc _).1, fun hn => ?_⟩
    dsimp only
    rw [if_pos hn]
    exact impl_disp (g.dy hn) (hy hn).1 (hy hn).2 (hc _).2 (hc _).2
  · rw [hs] at hr
    simp only [hs, reduceCtorEq, if_false] at hc
    obtain ⟨i, j, k, ⟨-, hj, hk, hx, hy, -⟩, e⟩ := Adve.euler_step g m.hs m.st.C hg
    rw [hr] at e
    rw [Option.some.inj e]
    refine ⟨expl_disp g.dx hx.1 hx.2 (hc _).1 (hc _).1, fun hn => ?_⟩
    have := expl_disp (g.dy hn) (hy hn).1 (hy hn).2 (hc (Grid.faceY m.d (i + m.hs) j k)).2 (hc (Grid.faceY m.d (i + m.hs) (j + 1) k)).2
    show D.pos.y - 2 * m.b.dy ≤ _
    simpa [Adve.vel, hn] using this
  · rw [hs] at hr
    simp only [hs, reduceCtorEq, if_false] at hc
    obtain ⟨h2, pc, hyb⟩ := hf hs
    rw [h2] at hr
    obtain ⟨i, j, k, i1, j1, k1, p0, p1, v0, v1, -, c0, e0, -, c1, e1, e⟩ := Adve.predCorr_step g m.st.C pc hg (by
      intro hn
      have hd := h.dims
      rw [if_neg hn] at hd
      have := hi.2.1 hd
      rw [(hyb hn).1, (hyb hn).2]
      exact this)
    rw [hr] at e
    rw [Option.some.inj e]
    have bx0 : -2 ≤ v0.x := by
      rw [e0]; exact (Adve.lin_bounds g.dx c0.2.2.2.1.1 c0.2.2.2.1.2 (abs_le.1 (hc _).1) (abs_le.1 (hc _).1)).1
    have bx1 : -2 ≤ v1.x := by
      rw [e1]; exact (Adve.lin_bounds g.dx c1.2.2.2.1.1 c1.2.2.2.1.2 (abs_le.1 (hc _).1) (abs_le.1 (hc _).1)).1
    refine ⟨?_, fun hn => ?_⟩
    · show D.x - 2 * m.b.dx ≤ D.x + m.b.dx * ((v0.x + v1.x) / 2)
      have := g.dx
      nlinarith
    · have by0 : -2 ≤ v0.y := by
        have := (Adve.lin_bounds (g.dy hn) (c0.2.2.2.2.1 hn).1 (c0.2.2.2.2.1 hn).2 (abs_le.1 (hc (Grid.faceY m.d i j k)).2) (abs_le.1 (hc (Grid.faceY m.d i (j + 1) k)).2)).1
        rw [e0]; simpa [Adve.vel, hn] using this
      have by1 : -2 ≤ v1.y := by
        have := (Adve.lin_bounds (g.dy hn) (c1.2.2.2.2.1 hn).1 (c1.2.2.2.2.1 hn).2 (abs_le.1 (hc (Grid.faceY m.d i1 j1 k1)).2) (abs_le.1 (hc (Grid.faceY m.d i1 (j1 + 1) k1)).2)).1
        rw [e1]; simpa [Adve.vel, hn] using this
      show D.y - 2 * m.b.dy ≤ D.y + m.b.dy * ((v0.y + v1.y) / 2)
      have := g.dy hn
      nlinarith

/-- In a calm flow, with turbulent displacements below one domain length, rigid top and bottom and cells not longer than four domains, no droplet is carried
further than ten domain lengths to the left of a periodic wall. -/
theorem near_moved {m : MoveIn} {o : Bcnd.Opts} (h : Fits m.d m.b o) (hf : FlowOk m o) (hc : Calm m) (he : Extent o) (htb : o.periodicTopBot = false)
    (hx : m.b.dx ≤ 4 * (o.x1 - o.x0)) (hy : m.d.ny ≠ 0 → m.b.dy ≤ 4 * (o.y1 - o.y0))
    (hu : m.o.turbAdve = true → ∀ i, |(m.u i).x * m.dt| ≤ o.x1 - o.x0 ∧ |(m.u i).y * m.dt| ≤ o.y1 - o.y0) {s t : St}
    (hi : ∀ i < s.N, Inside o (s.sd i)) (hm : Moved m s t) : Near o t := by
  obtain ⟨hN, -, hmv⟩ := hm
  intro i hi'
  rw [hN] at hi'
  obtain ⟨st', p, hp, e⟩ := hmv i hi'
  have hin := hi i hi'
  have hd := h.dims
  have n0 := Adve.nDims_of h.grid.lay
  have hx0 := hin.1 (by split_ifs at hd <;> omega)
  have hex := he.1 (by split_ifs at hd <;> omega)
  obtain ⟨r, hr⟩ := adve_defined h hf hin
  have ds := adve_disp h hf hc hin hr
  have ddx := h.grid.dx
  -- position after advection
  obtain ⟨q, hq, q1, q2⟩ : ∃ q : Adve.Pos, (if m.o.adve = true then Adve.adve m.st.scheme m.hs m.d m.b m.st.C (s.sd i).pos else some (s.sd i).pos) = some q ∧
      (s.sd i).x - 2 * m.b.dx ≤ q.x ∧ (m.d.ny ≠ 0 → (s.sd i).y - 2 * m.b.dy ≤ q.y) := by
    by_cases ha : m.o.adve = true
    · rw [if_pos ha]; exact ⟨r, hr, ds⟩
    · rw [if_neg ha]
      refine ⟨_, rfl, ?_, fun hn => ?_⟩
      · show (s.sd i).x - 2 * m.b.dx ≤ (s.sd i).x; linarith
      · have := h.grid.dy hn
        show (s.sd i).y - 2 * m.b.dy ≤ (s.sd i).y; linarith
  have key : (q.x - (o.x1 - o.x0) ≤ p.x) ∧ (m.d.ny ≠ 0 → q.y - (o.y1 - o.y0) ≤ p.y) := by
    unfold Adve.transport at hp
    rw [hq] at hp
    simp only [Option.bind_eq_bind, Option.bind_some, Option.bind_eq_some_iff] at hp
    obtain ⟨k, -, hp⟩ := hp
    have hp := (Prod.mk.inj (Option.some.inj hp)).2
    have sx : ∀ (a b : Bool) (r : Adve.Pos) (v : ℝ) (wl : ℕ → ℝ) (k : ℕ), (if a = true then Adve.subs m.dt wl k (if b = true then Adve.sedi m.dt v r else r) else (if b = true then Adve.sedi m.dt v r else r)).x = r.x ∧
        (if a = true then Adve.subs m.dt wl k (if b = true then Adve.sedi m.dt v r else r) else (if b = true then Adve.sedi m.dt v r else r)).y = r.y := by
      intro a b r v wl k
      cases a <;> cases b <;> exact ⟨rfl, rfl⟩
    rw [← hp, (sx _ _ _ _ _ _).1, (sx _ _ _ _ _ _).2]
    by_cases ht : m.o.turbAdve = true
    · rw [if_pos ht]
      obtain ⟨u1, u2⟩ := hu ht i
      have u1 := abs_le.1 u1
      have u2 := abs_le.1 u2
      unfold Adve.turbAdve
      refine ⟨?_, fun hn => ?_⟩
      · dsimp only
        rw [if_pos (by omega)]
        linarith
      · dsimp only
        rw [if_pos (n0.2.2.1.2 hn)]
        linarith
    · rw [if_neg ht]
      refine ⟨by linarith, fun hn => ?_⟩
      rw [if_neg hn] at hd
      have := he.2.1 hd
      linarith
  rw [e]
  refine ⟨fun _ => ⟨?_, fun h3 => ?_⟩, fun _ hp => by rw [htb] at hp; cases hp⟩
  · show o.x0 - 10 * (o.x1 - o.x0) ≤ p.x
    linarith [key.1]
  · have hn : m.d.ny ≠ 0 := by
      intro hn
      rw [if_pos hn] at hd
      omega
    have := hy hn
    have := hin.2.1 h3
    have := he.2.1 h3
    have := q2 hn
    have := key.2 hn
    show o.y0 - 10 * (o.y1 - o.y0) ≤ p.y
    linarith

theorem near_addNew {o : Bcnd.Opts} {w : New} {s : St} (he : Extent o) (hd : 1 < o.nDims) (hs : Near o s) (hw : ∀ i < w.k, Inside o (w.sd i)) :
    Near o (addNew w s) := by
  intro i hi
  by_cases h : i < s.N
  · have e : (addNew w s).sd i = s.sd i := if_pos h
    rw [e]
    exact hs i h
  · have e : (addNew w s).sd i = w.sd (i - s.N) := if_neg h
    rw [e]
    have hi' : i < s.N + w.k := hi
    obtain ⟨hx, hy, hz⟩ := hw (i - s.N) (by omega)
    have := he.1 (by omega)
    have := he.2.2 hd
    refine ⟨fun _ => ⟨by have := (hx (by omega)).1; linarith, fun h3 => ?_⟩, fun _ _ => by have := (hz hd).1; linarith⟩
    have := he.2.1 h3
    have := (hy h3).1
    linarith

/-! ### Runs -/

/-- a well-formed population: sizes and multiplicities, at least one particle each, inside the domain -/
def WellFormed (o : Bcnd.Opts) (s : St) : Prop := AllGood s ∧ ∀ i < s.N, 1 ≤ (s.sd i).n ∧ Inside o (s.sd i)

/-- what is asked of the surroundings of a run so that it never stops: all inputs possible ones, coalescence switched off when there are no super-droplets, a calm
flow, new super-droplets inside the domain, recycling off or
switched on only where it can clear the dead super-droplets -/
structure Benign (cfg : Cfg) (u : Inputs) (s : St) : Prop where
  ok : u.Ok cfg s
  coal : u.coal ≠ [] → s.N ≠ 0
  calm : Calm u.move
  dx : u.move.b.dx ≤ 4 * (cfg.bcnd.x1 - cfg.bcnd.x0)
  dy : u.move.d.ny ≠ 0 → u.move.b.dy ≤ 4 * (cfg.bcnd.y1 - cfg.bcnd.y0)
  turb : u.move.o.turbAdve = true → ∀ i, |(u.move.u i).x * u.move.dt| ≤ cfg.bcnd.x1 - cfg.bcnd.x0 ∧ |(u.move.u i).y * u.move.dt| ≤ cfg.bcnd.y1 - cfg.bcnd.y0
  inside : ∀ i < u.new.k, Inside cfg.bcnd (u.new.sd i)
  rcyc : ∀ p, Clears (u.rcyc p) p

/-- **C106 (runs).** With rigid top and bottom: whatever the surroundings do (random numbers, flow, sources, order of droplets, all of them possibly depending on
time and on the population), the run goes on for any number of steps from any well-formed population, and every state is well formed. -/
theorem run_continues_partial {cfg : Cfg} (hn : 0 < cfg.cond.sstp) (hdist : cfg.bcnd.dist = none) (he : Extent cfg.bcnd) (htb : cfg.bcnd.periodicTopBot = false)
    (E : ℕ → St → Inputs) (hE : ∀ k s, WellFormed cfg.bcnd s → Benign cfg (E k s) s) {s₀ : St} (h₀ : WellFormed cfg.bcnd s₀) (T : ℕ) :
    ∃ (s : ℕ → St) (t : ℕ → Trace), s 0 = s₀ ∧ History cfg T s t ∧ (∀ k < T, Completes cfg (E k (s k)) (s k) (t k)) ∧ ∀ k ≤ T, WellFormed cfg.bcnd (s k) := by
  have next : ∀ k s, WellFormed cfg.bcnd s → ∃ t, Completes cfg (E k s) s t ∧ WellFormed cfg.bcnd (t.fin cfg) := by
    intro k s hs
    have B := hE k s hs
    have hd : 1 < cfg.bcnd.nDims := by
      have := B.ok.fits.dims
      split_ifs at this <;> omega
    obtain ⟨t, h1, h2, h3⟩ := step_completes_partial hn hdist he hs.1 (fun i hi => (hs.2 i hi).2) B.ok B.coal (fun t ta hts tk => by
      obtain ⟨-, -, -, -, tc, tm, tn, tr⟩ := tk
      refine ⟨?_, by rw [tr]; exact B.rcyc _⟩
      refine near_addNew he hd ?_ (by rw [tn]; exact B.inside)
      refine near_moved B.ok.fits B.ok.flow B.calm he htb B.dx B.dy B.turb (fun i hi => ?_) tm
      obtain ⟨cN, cp⟩ := tc.pos
      have tbN : t.b.N = s.N := by rw [← ta]; rfl
      have := (hs.2 i (by omega)).2
      unfold Inside
      rw [(cp i).1, (cp i).2.1, (cp i).2.2]
      show Inside cfg.bcnd (t.a.sd i)
      rw [ta]
      exact this)
    exact ⟨t, h1, h2, h3⟩
  classical
  obtain ⟨G, hG⟩ : ∃ G : ℕ → St → Trace, ∀ k s, WellFormed cfg.bcnd s → Completes cfg (E k s) s (G k s) ∧ WellFormed cfg.bcnd ((G k s).fin cfg) :=
    ⟨fun k s => if h : WellFormed cfg.bcnd s then (next k s h).choose else ⟨s, (E k s).fields, .off, (E k s).fields, fun _ => 0, fun _ => 0, s, s, ⟨0, s.sd⟩, none⟩,
      fun k s h => by beta_reduce; rw [dif_pos h]; exact (next k s h).choose_spec⟩
  obtain ⟨S, S0, SS⟩ : ∃ S : ℕ → St, S 0 = s₀ ∧ ∀ k, S (k + 1) = (G k (S k)).fin cfg :=
    ⟨fun n => Nat.rec s₀ (fun k s => (G k s).fin cfg) n, rfl, fun k => rfl⟩
  have W : ∀ k, WellFormed cfg.bcnd (S k) := by
    intro k
    induction k with
    | zero => rw [S0]; exact h₀
    | succ k ih => rw [SS]; exact (hG k _ ih).2
  refine ⟨S, fun k => G k (S k), S0, ⟨fun k _ => (hG k _ (W k)).1.2.1, fun k _ => (hG k _ (W k)).1.1, fun k _ => (SS k).symm⟩, fun k _ => (hG k _ (W k)).1, fun k _ => W k⟩

end LCP.Run
