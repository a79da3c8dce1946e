import Verif.Cond.PerPartLemmas
import Verif.Cond.Air
import Mathlib.Algebra.BigOperators.Field
import Mathlib.Analysis.Complex.ExponentialBounds

/-!
# C60: condensation with substeps and air of each super-droplet (fixed number of substeps)
-/
namespace LCP.Cond
open LCP.Common LCP.Diag

/-- mass of a droplet, from its squared radius -/
noncomputable def dropMass (r2 : ℝ) : ℝ := 4 / 3 * Real.pi * Real.sqrt r2 ^ 3 * rho_w

/-- state at the beginning of the substeps -/
structure Start (o : Cfg) (mix : Bool) (q a : PSt) : Prop where
  geo : Geo q.s.d a.s.d
  rv : a.s.rv = q.s.rv
  th : a.s.th = q.s.th
  p : a.s.p = q.s.p
  T : a.s.T = q.s.T
  rw2 : a.s.rw2 = q.s.rw2
  rd3 : a.s.rd3 = q.s.rd3
  kpa : a.s.kpa = q.s.kpa
  vt : a.s.vt = q.s.vt
  tRv : a.s.tRv = q.s.tRv
  tTh : a.s.tTh = q.s.tTh
  tRh : a.s.tRh = q.s.tRh
  tP : a.tP = q.tP
  ssp : a.s.ssp = q.s.ssp
  dotSsp : a.s.dotSsp = q.s.dotSsp
  lamD : a.s.lamD = fun c => lambda_D (q.s.T c)
  lamK : a.s.lamK = fun c => lambda_K (q.s.T c) (q.s.p c)
  dRv : a.dRv = fun i => q.s.rv (q.s.d.ijk i) - q.s.tRv i
  dTh : a.dTh = fun i => q.s.th (q.s.d.ijk i) - q.s.tTh i
  dRh : a.dRh = fun i => q.s.d.rhod (q.s.d.ijk i) - q.s.tRh i
  dP : o.tpr.const_p = true → a.dP = fun i => q.s.p (q.s.d.ijk i) - q.tP i
  drw : mix = false → ∀ c < q.s.d.nCell, a.s.drw c = -Wd q.s.d q.s.rw2 c

theorem startP_ok (o : Cfg) (mix : Bool) (q : PSt) (hs : Sorted q.s.d) : ∃ a, startP o mix q = some a ∧ Start o mix q a := by
  unfold startP
  cases mix with
  | true =>
    simp only [if_true, Option.bind_eq_bind, Option.bind_some]
    refine ⟨_, rfl, Geo.refl _, rfl, rfl, rfl, rfl, rfl, rfl, rfl, rfl, rfl, rfl, rfl, rfl, rfl, rfl, rfl, rfl, rfl, rfl, rfl, ?_, ?_⟩
    · intro h; unfold calcDelta; simp only [h, if_true]
    · intro h; exact absurd h (by simp)
  | false =>
    simp only [Bool.false_eq_true, if_false, Option.bind_eq_bind]
    obtain ⟨s', e, g, f, -, w⟩ := saveContent_ok { o with ice := false }
      { q.s with lamD := fun c => lambda_D (q.s.T c), lamK := fun c => lambda_K (q.s.T c) (q.s.p c) } hs
    rw [e, Option.bind_some]
    refine ⟨_, rfl, g, ?_, ?_, ?_, ?_, ?_, ?_, ?_, ?_, ?_, ?_, ?_, rfl, ?_, ?_, ?_, ?_, ?_, ?_, ?_, ?_, ?_⟩
    · show s'.rv = _; rw [f]
    · show s'.th = _; rw [f]
    · show s'.p = _; rw [f]
    · show s'.T = _; rw [f]
    · show s'.rw2 = _; rw [f]
    · show s'.rd3 = _; rw [f]
    · show s'.kpa = _; rw [f]
    · show s'.vt = _; rw [f]
    · show s'.tRv = _; rw [f]
    · show s'.tTh = _; rw [f]
    · show s'.tRh = _; rw [f]
    · show s'.ssp = _; rw [f]
    · show s'.dotSsp = _; rw [f]
    · show s'.lamD = _; rw [f]
    · show s'.lamK = _; rw [f]
    · show (fun i => s'.rv (s'.d.ijk i) - s'.tRv i) = _; rw [g.ijk, f]
    · show (fun i => s'.th (s'.d.ijk i) - s'.tTh i) = _; rw [g.ijk, f]
    · show (fun i => s'.d.rhod (s'.d.ijk i) - s'.tRh i) = _; rw [g.ijk, g.rhod, f]
    · intro h; unfold calcDelta; simp only [h, if_true]; rw [g.ijk, f]
    · intro _ c hc; exact (w c hc).1

theorem saveP_eq (o : Cfg) (allow : Bool) (q : PSt) : (saveP o allow q).s.d = q.s.d ∧ (saveP o allow q).s.rw2 = q.s.rw2 ∧
    (saveP o allow q).s.rv = q.s.rv ∧ (saveP o allow q).s.th = q.s.th ∧ (saveP o allow q).s.rd3 = q.s.rd3 ∧ (saveP o allow q).s.kpa = q.s.kpa ∧
    (saveP o allow q).s.p = q.s.p := by
  unfold saveP; split_ifs <;> exact ⟨rfl, rfl, rfl, rfl, rfl, rfl, rfl⟩

/-- everything about the result in terms of the state after the last substep -/
theorem nomix_end (o : Cfg) (allow : Bool) (ordRv ordTh : List ℕ) (q a : PSt) (hs : Sorted q.s.d) (e : startP o false q = some a)
    (h : Start o false q a) : ∃ q', condPerPart o false allow ordRv ordTh q = some q' ∧ Geo q.s.d q'.s.d ∧
      q'.s.rw2 = (runP o false a o.sstp).s.rw2 ∧ q'.s.rd3 = q.s.rd3 ∧ q'.s.kpa = q.s.kpa ∧ ∀ c < q.s.d.nCell,
      q'.s.rv c = q.s.rv c - mltW * (Wd q.s.d q'.s.rw2 c - Wd q.s.d q.s.rw2 c) ∧
      q'.s.th c = q.s.th c - mltW * (Wd q.s.d q'.s.rw2 c - Wd q.s.d q.s.rw2 c) * d_th_d_rv (q.s.T c) (q.s.th c) := by
  classical
  have ha := h.geo.sorted hs
  have F := runP_frm o false a ha o.sstp
  set b := runP o false a o.sstp with hb
  have G := h.geo.trans F.geo
  obtain ⟨d, e1, l1, g1⟩ := mom3_ok (G.sorted hs) b.s.rw2
  unfold condPerPart
  rw [e]
  simp only [Option.bind_eq_bind, Option.bind_some, Bool.false_eq_true, if_false]
  rw [← hb]
  unfold calcChange
  simp only [e1, Option.bind_eq_bind, Option.bind_some]
  set s1 : St := { b.s with d := d, drw := permMap (fun m x => m + x) d b.s.drw } with hs1
  obtain ⟨p1, p2, p3, p4, p5, p6, -⟩ := saveP_eq o allow { b with s := updateThRv { o with ice := false } s1 }
  refine ⟨_, rfl, ?_, ?_, ?_, ?_, fun c hc => ?_⟩
  · rw [p1]; exact G.trans g1
  · rw [p2]; rfl
  · rw [p5]; show b.s.rd3 = _; rw [F.rd3, h.rd3]
  · rw [p6]; show b.s.kpa = _; rw [F.kpa, h.kpa]
  · rw [p2, p3, p4]
    have hd : s1.drw c = Wd q.s.d b.s.rw2 c - Wd q.s.d q.s.rw2 c := by
      rw [hs1]
      simp only
      rw [permMap_eq l1, F.drw, h.drw rfl c hc, G.Wd]
      split_ifs with ho
      · ring
      · have : ¬ occ q.s.d c := fun hh => ho ((g1.occ c).2 ((G.occ c).2 hh))
        rw [Wd_unocc _ _ _ this, Wd_unocc _ _ _ this]; ring
    have e2 : (updateThRv { o with ice := false } s1).rw2 = b.s.rw2 := rfl
    have e3 : (updateThRv { o with ice := false } s1).rv c = s1.rv c - s1.drw c * mltW := rfl
    have e4 : (updateThRv { o with ice := false } s1).th c = s1.th c - s1.drw c * mltW * d_th_d_rv (s1.T c) (s1.th c) := rfl
    have e5 : s1.rv = q.s.rv := by show b.s.rv = _; rw [F.rv, h.rv]
    have e6 : s1.th = q.s.th := by show b.s.th = _; rw [F.th, h.th]
    have e7 : s1.T = q.s.T := by show b.s.T = _; rw [F.T, h.T]
    simp only [e2, e3, e4]
    rw [hd, e5, e6, e7]
    constructor <;> ring

/-- liquid mass of a cell from the specific third moment -/
theorem Wd_mass (s : St) (h : ∀ i < s.d.N, 0 ≤ s.rw2 i) (c : ℕ) : mltW * Wd s.d s.rw2 c = liquidMass s c / airMass s (s.d.rhod c) c := by
  have := S3_eq s h c
  unfold S3 at this
  unfold Wd
  rw [← mul_assoc, this, div_eq_mul_inv]
  congr 1
  unfold perMass airMass
  rcases Nat.eq_zero_or_pos s.d.nDims with h0 | h0
  · simp [h0]
  · rw [if_neg h0.ne', if_pos h0]

theorem runP_nonneg (o : Cfg) (mix : Bool) (q : PSt) (hs : Sorted q.s.d) (k : ℕ) (i : ℕ) (hr : 0 ≤ q.s.rw2 i) :
    0 ≤ (runP o mix q k).s.rw2 i := by
  induction k with
  | zero => exact hr
  | succ k ih =>
    show 0 ≤ (substepP o mix k _).s.rw2 i
    rw [(substepP_ok o mix k _ ((runP_frm o mix q hs k).geo.sorted hs)).2.1]
    exact advance_nonneg _ _ _ _ ih

/-- **C60 (budgets without mixing).** Whatever the fields, particles and numbers: the step succeeds, particles stay where they are, and
total water of every cell is conserved exactly (cells without super-droplets keep their vapour and potential temperature); the potential temperature
changes by the latent heat of what has condensed - at the temperature that the cell had before the step (`q.s.T`, diagnosed in the
previous step), not one diagnosed from the fields received. -/
theorem perpart_nomix_water (o : Cfg) (allow : Bool) (ordRv ordTh : List ℕ) (q : PSt) (hs : Sorted q.s.d) (hr : ∀ i < q.s.d.N, 0 ≤ q.s.rw2 i) :
    ∃ q', condPerPart o false allow ordRv ordTh q = some q' ∧ q'.s.d.N = q.s.d.N ∧ q'.s.d.n = q.s.d.n ∧ q'.s.d.ijk = q.s.d.ijk ∧
      q'.s.d.rhod = q.s.d.rhod ∧ (∀ i < q.s.d.N, 0 ≤ q'.s.rw2 i) ∧ ∀ c < q.s.d.nCell,
      let dq := (liquidMass q'.s c - liquidMass q.s c) / airMass q.s (q.s.d.rhod c) c
      q'.s.rv c = q.s.rv c - dq ∧ q'.s.th c = q.s.th c + dq * (q.s.th c / q.s.T c * l_v (q.s.T c) / c_pd) := by
  obtain ⟨a, e, h⟩ := startP_ok o false q hs
  obtain ⟨q', e', g, r, -, -, w⟩ := nomix_end o allow ordRv ordTh q a hs e h
  have hr' : ∀ i < q.s.d.N, 0 ≤ q'.s.rw2 i := fun i hi => by
    rw [r]; exact runP_nonneg o false a (h.geo.sorted hs) _ i (by rw [h.rw2]; exact hr i hi)
  refine ⟨q', e', g.N, g.n, g.ijk, g.rhod, hr', fun c hc => ?_⟩
  obtain ⟨w1, w2⟩ := w c hc
  have m0 := Wd_mass q.s hr c
  have m1 := Wd_mass q'.s (by rw [g.N]; exact hr') c
  have hair : airMass q'.s (q'.s.d.rhod c) c = airMass q.s (q.s.d.rhod c) c := by unfold airMass; rw [g.nDims, g.dv, g.rhod]
  rw [g.Wd, hair] at m1
  rw [mul_sub, m0, m1] at w1 w2
  constructor
  · rw [w1]; ring
  · rw [w2]; unfold d_th_d_rv; ring

/-- the air of a super-droplet, given its own vapour, potential temperature, density and pressure -/
noncomputable def airFor (o : Cfg) (q : PSt) (i : ℕ) (rv th rho p : ℝ) : Env :=
  let T := TofCell o.tpr th rho p
  let p' := pOfCell o.tpr rho rv T p
  { rhod := rho, rv := rv, T := T, p := p', RH := RHof o.tpr.RH_formula p' rv T + (if o.turb then q.s.ssp i + o.dt / o.sstp * q.s.dotSsp i else 0)
    eta := visc T, rd3 := q.s.rd3 i, kpa := q.s.kpa i, vt := q.s.vt i, lamD := q.s.lamD (q.s.d.ijk i), lamK := q.s.lamK (q.s.d.ijk i)
    RHmax := o.RHmax }

/-- condensed mixing ratio due to one super-droplet whose squared radius changes, in air of density `rho` -/
noncomputable def dqOf (s : St) (i : ℕ) (r2 r2' rho : ℝ) : ℝ := s.d.n i * (dropMass r2' - dropMass r2) / airMass s rho (s.d.ijk i)

theorem rw3of_eq (r : ℝ) (h : 0 ≤ r) : rw3of r = Real.sqrt r ^ 3 := by
  unfold rw3of
  nth_rewrite 1 [← Real.sq_sqrt h]
  ring

theorem drv_eq (s : St) (i : ℕ) (r r' rho : ℝ) (h : 0 ≤ r) (h' : 0 ≤ r') :
    rw3diff2drv s.d.nDims (rw3of r' - rw3of r) rho (s.d.n i) (s.d.dv (s.d.ijk i)) = -dqOf s i r r' rho := by
  unfold rw3diff2drv dqOf airMass dropMass
  rw [rw3of_eq r h, rw3of_eq r' h']
  rcases Nat.eq_zero_or_pos s.d.nDims with h0 | h0
  · simp only [h0, lt_irrefl, if_false, if_true, div_one]; unfold mltW; ring
  · rw [if_pos h0, if_neg h0.ne', div_div, mul_comm rho]; unfold mltW; ring

/-- **C60 (each substep).** In the k-th substep (k = 0, 1, ...) every super-droplet sees its own vapour, potential temperature, density and
(if constant in time) pressure, left by the previous substep, plus one `sstp`-th of the difference between the received value of its
cell and the value it had at the end of the previous time step; it grows in that air for `dt/sstp`; then its vapour decreases and its
potential temperature increases by what it has itself condensed (without mixing) or by what all super-droplets of the cell have, each in
air of its own density, with the latent heat at its own temperature (with mixing). -/
theorem perpart_substep (o : Cfg) (mix : Bool) (q a : PSt) (hs : Sorted q.s.d) (hr : ∀ i < q.s.d.N, 0 ≤ q.s.rw2 i) (ha : startP o mix q = some a)
    (k : ℕ) (hk : k < o.sstp) (i : ℕ) (hi : i < q.s.d.N) :
    let b := runP o mix a k
    let b' := runP o mix a (k + 1)
    let c := q.s.d.ijk
    let rv := fun i => b.s.tRv i + (q.s.rv (c i) - q.s.tRv i) / o.sstp
    let th := fun i => b.s.tTh i + (q.s.th (c i) - q.s.tTh i) / o.sstp
    let rho := fun i => q.s.tRh i + (k + 1) * ((q.s.d.rhod (c i) - q.s.tRh i) / o.sstp)
    let p := fun i => if o.tpr.const_p then q.tP i + (k + 1) * ((q.s.p (c i) - q.tP i) / o.sstp) else b.tP i
    let T := fun i => TofCell o.tpr (th i) (rho i) (p i)
    let dq := fun i => dqOf q.s i (b.s.rw2 i) (b'.s.rw2 i) (rho i)
    let dth := fun i => dq i * (th i / T i * l_v (T i) / c_pd)
    b'.s.rw2 i = advance o.num (airFor o b i (rv i) (th i) (rho i) (p i)) (o.dt / o.sstp) (b.s.rw2 i) ∧
    b.s.rd3 = q.s.rd3 ∧ b.s.kpa = q.s.kpa ∧ b.s.vt = q.s.vt ∧ b.s.d.ijk = c ∧ b'.s.tRh i = rho i ∧
    b'.s.tRv i = rv i - (if mix then ∑ j ∈ (Finset.range q.s.d.N).filter (fun j => c j = c i), dq j else dq i) ∧
    b'.s.tTh i = th i + (if mix then ∑ j ∈ (Finset.range q.s.d.N).filter (fun j => c j = c i), dth j else dth i) := by
  obtain ⟨a', e, h⟩ := startP_ok o mix q hs
  rw [ha] at e
  obtain rfl : a = a' := by simpa using e
  have ha' := h.geo.sorted hs
  have F := runP_frm o mix a ha' k
  obtain ⟨j1, j2, j3, j4⟩ := runP_ok o mix a ha' k hk.le
  have hN := fun i => runP_nonneg o mix a ha' k i
  intro b b' c rv th rho p T dq dth
  change Frm a b at F
  have G := h.geo.trans F.geo
  obtain ⟨k1, k2, k3, k4, k5, k6, k7⟩ := substepP_ok o mix k b (G.sorted hs)
  change b'.s.rw2 = _ at k2
  obtain ⟨m1, m2, m3, m4, m5, m6, m7⟩ := midP_eq o b
  have M := midP_frm o b
  have erv : (midP o b).s.tRv = rv := by rw [m3, F.dRv, h.dRv]
  have eth : (midP o b).s.tTh = th := by rw [m4, F.dTh, h.dTh]
  have erh : (midP o b).s.tRh = rho := by
    funext i; rw [m5, F.dRh, h.dRh]; simp only; rw [j2 i, h.tRh, h.dRh]; simp only [rho, c]; ring
  have ep : (midP o b).tP = p := by
    funext i; rw [m6, F.dP]
    simp only [p]
    split_ifs with hc
    · have j := j3 hc i
      change b.tP i = _ at j
      show b.tP i + a.dP i / _ = _
      rw [j, h.tP, h.dP hc]; simp only [c]; ring
    · rfl
  have eT : TpOf o b = T := by
    funext i; unfold TpOf; rw [eth, erh, ep]
  have hb0 : ∀ i < q.s.d.N, 0 ≤ b.s.rw2 i := fun i hi => hN i (by rw [h.rw2]; exact hr i hi)
  have hb1 : ∀ i < q.s.d.N, 0 ≤ b'.s.rw2 i := fun i hi => by rw [k2]; exact advance_nonneg _ _ _ _ (hb0 i hi)
  have hd0 : drvP o k b = fun i => rw3diff2drv q.s.d.nDims (rw3of (b'.s.rw2 i) - rw3of (b.s.rw2 i)) (rho i) (q.s.d.n i) (q.s.d.dv (c i)) := by
    funext i
    unfold drvP
    rw [erh, G.nDims, G.n, G.dv, G.ijk, k2]
    have : (if 0 < k then b.rw3 i else rw3of (b.s.rw2 i)) = rw3of (b.s.rw2 i) := by
      split_ifs with hk0
      · exact j1 hk0.ne' hk i
      · rfl
    rw [this]
  have hd : ∀ i < q.s.d.N, drvP o k b i = -dq i := by
    intro i hi; rw [hd0]; exact drv_eq q.s i _ _ _ (hb0 i hi) (hb1 i hi)
  have ht : ∀ i < q.s.d.N, dthP o k b i = dth i := by
    intro i hi; unfold dthP; rw [hd i hi, eT, eth]; simp only [dth]; unfold d_th_d_rv; ring
  have hsum : ∀ (f g : ℕ → ℝ) (x : ℕ), (∀ i < q.s.d.N, f i = g i) → cellSum b.s.d x f = ∑ j ∈ (Finset.range q.s.d.N).filter (fun j => c j = x), g j := by
    intro f g x hfg
    rw [G.cellSum]
    unfold cellSum
    exact Finset.sum_congr rfl (fun j hj => hfg j (by simpa using (Finset.mem_filter.1 hj).1))
  refine ⟨?_, F.rd3.trans h.rd3, F.kpa.trans h.kpa, F.vt.trans h.vt, G.ijk, ?_, ?_, ?_⟩
  · rw [k2]
    show advance _ (envP o (midP o b) i) _ _ = _
    congr 1
    unfold envP airFor
    rw [erv, eth, erh, ep, M.rd3, M.kpa, M.vt, M.lamD, M.lamK, M.geo.ijk, m7]
    simp only
    congr 1
    split_ifs <;> simp
  · show (substepP o mix k b).s.tRh i = _
    rw [k4, erh]
  · obtain ⟨x, -⟩ := k7 i (by rw [G.N]; exact hi)
    change b'.s.tRv i = _ at x
    rw [x, erv, G.ijk, hd i hi, hsum _ _ (q.s.d.ijk i) hd, Finset.sum_neg_distrib]
    split_ifs <;> ring
  · obtain ⟨-, x⟩ := k7 i (by rw [G.N]; exact hi)
    change b'.s.tTh i = _ at x
    rw [x, eth, G.ijk, ht i hi, hsum _ _ (q.s.d.ijk i) ht]

theorem scatter_updState (ord : List ℕ) (ijk : ℕ → ℕ) (st ps V : ℕ → ℝ) (N : ℕ) (hp : ord.Perm (List.range N)) (hV : ∀ i < N, ps i = V (ijk i)) (c : ℕ) :
    ((∃ i < N, ijk i = c) → updState ord ijk st ps c = V c) ∧ ((∀ i < N, ijk i ≠ c) → updState ord ijk st ps c = st c) := by
  have hm : ∀ i, i ∈ ord ↔ i < N := fun i => by rw [hp.mem_iff, List.mem_range]
  unfold updState
  rw [scatter_fun st V _ (by
    intro kv hkv
    obtain ⟨i, h1, rfl⟩ := List.mem_map.1 hkv
    exact hV i ((hm i).1 h1))]
  have : c ∈ (ord.map fun i => (ijk i, ps i)).map Prod.fst ↔ ∃ i < N, ijk i = c := by
    simp only [List.map_map, List.mem_map, Function.comp, hm]
  constructor
  · intro h; rw [if_pos (this.2 h)]
  · intro h; rw [if_neg (fun hh => by obtain ⟨i, h1, h2⟩ := this.1 hh; exact h i h1 h2)]

/-- sum over the super-droplets of a cell -/
noncomputable abbrev inCell (q : PSt) (c : ℕ) : Finset ℕ := (Finset.range q.s.d.N).filter (fun i => q.s.d.ijk i = c)

/-- with mixing, after `k` substeps a super-droplet's air differs from its linearly interpolated ambient air by what has condensed in the cell -/
theorem mix_run (o : Cfg) (q a : PSt) (hs : Sorted q.s.d) (ha : startP o true q = some a) (k : ℕ) (hk : k ≤ o.sstp) (i : ℕ) (hi : i < q.s.d.N) :
    (runP o true a k).s.tRv i = q.s.tRv i + k * ((q.s.rv (q.s.d.ijk i) - q.s.tRv i) / o.sstp) +
      ∑ j ∈ Finset.range k, cellSum q.s.d (q.s.d.ijk i) (drvP o j (runP o true a j)) ∧
    (runP o true a k).s.tTh i = q.s.tTh i + k * ((q.s.th (q.s.d.ijk i) - q.s.tTh i) / o.sstp) +
      ∑ j ∈ Finset.range k, cellSum q.s.d (q.s.d.ijk i) (dthP o j (runP o true a j)) := by
  obtain ⟨a', e, h⟩ := startP_ok o true q hs
  rw [ha] at e
  obtain rfl : a = a' := by simpa using e
  have ha' := h.geo.sorted hs
  induction k with
  | zero =>
    show a.s.tRv i = _ ∧ a.s.tTh i = _
    rw [h.tRv, h.tTh]; simp
  | succ k ih =>
    obtain ⟨i1, i2⟩ := ih (by omega)
    have F := runP_frm o true a ha' k
    have G := h.geo.trans F.geo
    obtain ⟨x, y⟩ := (substepP_ok o true k (runP o true a k) (G.sorted hs)).2.2.2.2.2.2 i (by rw [G.N]; exact hi)
    obtain ⟨-, -, m3, m4, -⟩ := midP_eq o (runP o true a k)
    change (runP o true a (k + 1)).s.tRv i = _ at x
    change (runP o true a (k + 1)).s.tTh i = _ at y
    rw [x, y, if_pos rfl, if_pos rfl, m3, m4, Finset.sum_range_succ, Finset.sum_range_succ, G.cellSum, G.cellSum, G.ijk]
    simp only
    rw [i1, i2, F.dRv, F.dTh, h.dRv, h.dTh]
    push_cast
    constructor <;> ring

/-- **C60 (budgets with mixing).** For any order in which the super-droplets write their values to the cells: the step succeeds, the
particles stay where they are, cells without super-droplets keep their vapour and potential temperature, and in any other cell - although the super-droplets may have started
with different air - the vapour received decreases by everything that condensed in the substeps on all its super-droplets, each in air of
the density that super-droplet saw in that substep; the potential temperature increases by the corresponding latent heats. -/
theorem perpart_mix_water (o : Cfg) (allow : Bool) (ordRv ordTh : List ℕ) (q : PSt) (hs : Sorted q.s.d) (hn : 0 < o.sstp)
    (hr : ∀ i < q.s.d.N, 0 ≤ q.s.rw2 i) (h1 : ordRv.Perm (List.range q.s.d.N)) (h2 : ordTh.Perm (List.range q.s.d.N)) :
    ∃ a q', startP o true q = some a ∧ condPerPart o true allow ordRv ordTh q = some q' ∧ q'.s.d.N = q.s.d.N ∧ q'.s.d.n = q.s.d.n ∧
      q'.s.d.ijk = q.s.d.ijk ∧ q'.s.d.rhod = q.s.d.rhod ∧ q'.s.rw2 = (runP o true a o.sstp).s.rw2 ∧ a.s.rw2 = q.s.rw2 ∧
      (∀ c, (∀ i < q.s.d.N, q.s.d.ijk i ≠ c) → q'.s.rv c = q.s.rv c ∧ q'.s.th c = q.s.th c) ∧
      ∀ c, (∃ i < q.s.d.N, q.s.d.ijk i = c) →
        let r2 := fun (k i : ℕ) => (runP o true a k).s.rw2 i
        let rho := fun (k i : ℕ) => q.s.tRh i + ((k : ℝ) + 1) * ((q.s.d.rhod c - q.s.tRh i) / o.sstp)
        let th := fun (k i : ℕ) => (runP o true a k).s.tTh i + (q.s.th c - q.s.tTh i) / o.sstp
        let p := fun (k i : ℕ) => if o.tpr.const_p then q.tP i + ((k : ℝ) + 1) * ((q.s.p c - q.tP i) / o.sstp) else (runP o true a k).tP i
        let T := fun (k i : ℕ) => TofCell o.tpr (th k i) (rho k i) (p k i)
        let dq := fun (k i : ℕ) => dqOf q.s i (r2 k i) (r2 (k + 1) i) (rho k i)
        q'.s.rv c = q.s.rv c - ∑ k ∈ Finset.range o.sstp, ∑ i ∈ inCell q c, dq k i ∧
        q'.s.th c = q.s.th c + ∑ k ∈ Finset.range o.sstp, ∑ i ∈ inCell q c, dq k i * (th k i / T k i * l_v (T k i) / c_pd) := by
  obtain ⟨a, e, h⟩ := startP_ok o true q hs
  have ha' := h.geo.sorted hs
  have F := runP_frm o true a ha' o.sstp
  have G := h.geo.trans F.geo
  have hn' : (o.sstp : ℝ) ≠ 0 := by exact_mod_cast hn.ne'
  set b := runP o true a o.sstp with hb
  obtain ⟨p1, p2, p3, p4, -⟩ := saveP_eq o allow
    { b with s := { b.s with rv := updState ordRv b.s.d.ijk b.s.rv b.s.tRv, th := updState ordTh b.s.d.ijk b.s.th b.s.tTh } }
  have fin : ∀ i < q.s.d.N,
      b.s.tRv i = q.s.rv (q.s.d.ijk i) + ∑ j ∈ Finset.range o.sstp, cellSum q.s.d (q.s.d.ijk i) (drvP o j (runP o true a j)) ∧
      b.s.tTh i = q.s.th (q.s.d.ijk i) + ∑ j ∈ Finset.range o.sstp, cellSum q.s.d (q.s.d.ijk i) (dthP o j (runP o true a j)) := by
    intro i hi
    obtain ⟨x, y⟩ := mix_run o q a hs e o.sstp (le_refl _) i hi
    rw [← hb] at x y
    rw [x, y]
    constructor <;> (congr 1; field_simp; ring)
  have s1 := scatter_updState ordRv b.s.d.ijk b.s.rv b.s.tRv
    (fun c => q.s.rv c + ∑ j ∈ Finset.range o.sstp, cellSum q.s.d c (drvP o j (runP o true a j))) q.s.d.N h1
    (fun i hi => by rw [G.ijk]; exact (fin i hi).1)
  have s2 := scatter_updState ordTh b.s.d.ijk b.s.th b.s.tTh
    (fun c => q.s.th c + ∑ j ∈ Finset.range o.sstp, cellSum q.s.d c (dthP o j (runP o true a j))) q.s.d.N h2
    (fun i hi => by rw [G.ijk]; exact (fin i hi).2)
  refine ⟨a, _, e, by unfold condPerPart; rw [e]; rfl, ?_, ?_, ?_, ?_, ?_, h.rw2, ?_, ?_⟩
  · rw [p1]; exact G.N
  · rw [p1]; exact G.n
  · rw [p1]; exact G.ijk
  · rw [p1]; exact G.rhod
  · rw [p2]
  · intro c hc
    rw [p3, p4]
    simp only
    rw [(s1 c).2 (by rw [G.ijk]; exact hc), (s2 c).2 (by rw [G.ijk]; exact hc), F.rv, F.th, h.rv, h.th]
    exact ⟨rfl, rfl⟩
  · intro c hc r2 rho th p T dq
    rw [p3, p4]
    simp only
    rw [(s1 c).1 (by rw [G.ijk]; exact hc), (s2 c).1 (by rw [G.ijk]; exact hc)]
    have key : ∀ k < o.sstp, ∀ i ∈ inCell q c, drvP o k (runP o true a k) i = -dq k i ∧
        dthP o k (runP o true a k) i = dq k i * (th k i / T k i * l_v (T k i) / c_pd) := by
      intro k hk i hi
      obtain ⟨hi1, hi2⟩ := Finset.mem_filter.1 hi
      have hiN : i < q.s.d.N := by simpa using hi1
      obtain ⟨j1, j2, j3, j4⟩ := runP_ok o true a ha' k hk.le
      have Fk := runP_frm o true a ha' k
      have Gk := h.geo.trans Fk.geo
      have k2 := (substepP_ok o true k _ (Gk.sorted hs)).2.1
      change (runP o true a (k + 1)).s.rw2 = _ at k2
      obtain ⟨m1, m2, m3, m4, m5, m6, m7⟩ := midP_eq o (runP o true a k)
      have hb0 : ∀ i < q.s.d.N, ∀ k, 0 ≤ (runP o true a k).s.rw2 i := fun i hi k => runP_nonneg o true a ha' k i (by rw [h.rw2]; exact hr i hi)
      have eth : (midP o (runP o true a k)).s.tTh i = th k i := by
        rw [m4, Fk.dTh, h.dTh]; simp only [th]; rw [hi2]
      have erh : (midP o (runP o true a k)).s.tRh i = rho k i := by
        rw [m5, Fk.dRh, h.dRh]; simp only; rw [j2 i, h.tRh, h.dRh]; simp only [rho]; rw [hi2]; ring
      have ep : (midP o (runP o true a k)).tP i = p k i := by
        rw [m6, Fk.dP]
        simp only [p]
        split_ifs with hc
        · show (runP o true a k).tP i + a.dP i / _ = _
          rw [j3 hc i, h.tP, h.dP hc]; simp only; rw [hi2]; ring
        · rfl
      have d1 : drvP o k (runP o true a k) i = -dq k i := by
        unfold drvP
        rw [erh, Gk.nDims, Gk.n, Gk.dv, Gk.ijk, ← k2]
        have : (if 0 < k then (runP o true a k).rw3 i else rw3of ((runP o true a k).s.rw2 i)) = rw3of ((runP o true a k).s.rw2 i) := by
          split_ifs with hk0
          · exact j1 hk0.ne' hk i
          · rfl
        rw [this]
        exact drv_eq q.s i _ _ _ (hb0 i hiN k) (hb0 i hiN (k + 1))
      refine ⟨d1, ?_⟩
      unfold dthP TpOf
      rw [d1, eth, erh, ep]
      unfold d_th_d_rv
      ring
    constructor
    · rw [sub_eq_add_neg, ← Finset.sum_neg_distrib]
      congr 1
      refine Finset.sum_congr rfl (fun k hk => ?_)
      rw [← Finset.sum_neg_distrib]
      exact Finset.sum_congr rfl (fun i hi => (key k (by simpa using hk) i hi).1)
    · congr 1
      refine Finset.sum_congr rfl (fun k hk => ?_)
      exact Finset.sum_congr rfl (fun i hi => (key k (by simpa using hk) i hi).2)

theorem sum_dq (q : PSt) (c : ℕ) (f g : ℕ → ℝ) (rho : ℝ) (x y : St) (hx : x.d.N = q.s.d.N ∧ x.d.n = q.s.d.n ∧ x.d.ijk = q.s.d.ijk)
    (hy : y.d.N = q.s.d.N ∧ y.d.n = q.s.d.n ∧ y.d.ijk = q.s.d.ijk) (h1 : x.rw2 = f) (h2 : y.rw2 = g) (rh : ℕ → ℝ)
    (hrh : ∀ i ∈ inCell q c, airMass q.s (rh i) c = airMass q.s rho c) :
    ∑ i ∈ inCell q c, dqOf q.s i (f i) (g i) (rh i) = (liquidMass y c - liquidMass x c) / airMass q.s rho c := by
  unfold liquidMass
  rw [hx.1, hx.2.1, hx.2.2, hy.1, hy.2.1, hy.2.2, h1, h2, ← Finset.sum_sub_distrib, Finset.sum_div]
  refine Finset.sum_congr rfl (fun i hi => ?_)
  unfold dqOf dropMass
  rw [(Finset.mem_filter.1 hi).2, hrh i hi]
  ring

/-- **C60 (conservation with mixing, partial).** If the super-droplets of a cell have last been in air of the density the cell has now (or in a
parcel), total water of the cell is conserved. -/
theorem perpart_mix_conserved_partial (o : Cfg) (allow : Bool) (ordRv ordTh : List ℕ) (q : PSt) (hs : Sorted q.s.d) (hn : 0 < o.sstp)
    (hr : ∀ i < q.s.d.N, 0 ≤ q.s.rw2 i) (h1 : ordRv.Perm (List.range q.s.d.N)) (h2 : ordTh.Perm (List.range q.s.d.N)) :
    ∃ q', condPerPart o true allow ordRv ordTh q = some q' ∧ ∀ c,
      (q.s.d.nDims = 0 ∨ ∀ i < q.s.d.N, q.s.d.ijk i = c → q.s.tRh i = q.s.d.rhod c) →
      q'.s.rv c + liquidMass q'.s c / airMass q.s (q.s.d.rhod c) c = q.s.rv c + liquidMass q.s c / airMass q.s (q.s.d.rhod c) c := by
  obtain ⟨a, q', e, e', n1, n2, n3, n4, r, ra, em, w⟩ := perpart_mix_water o allow ordRv ordTh q hs hn hr h1 h2
  obtain ⟨a', e2, h⟩ := startP_ok o true q hs
  rw [e] at e2
  obtain rfl : a = a' := by simpa using e2
  refine ⟨q', e', fun c hc => ?_⟩
  by_cases ho : ∃ i < q.s.d.N, q.s.d.ijk i = c
  · obtain ⟨w1, -⟩ := w c ho
    rw [w1]
    have hk : ∀ k : ℕ, ∑ i ∈ inCell q c, dqOf q.s i ((runP o true a k).s.rw2 i) ((runP o true a (k + 1)).s.rw2 i)
        (q.s.tRh i + ((k : ℝ) + 1) * ((q.s.d.rhod c - q.s.tRh i) / o.sstp)) =
        liquidMass (runP o true a (k + 1)).s c / airMass q.s (q.s.d.rhod c) c - liquidMass (runP o true a k).s c / airMass q.s (q.s.d.rhod c) c := by
      intro k
      have Gk := fun k => h.geo.trans (runP_frm o true a (h.geo.sorted hs) k).geo
      rw [← sub_div]
      refine sum_dq q c _ _ _ (runP o true a k).s (runP o true a (k + 1)).s ⟨(Gk k).N, (Gk k).n, (Gk k).ijk⟩
        ⟨(Gk (k + 1)).N, (Gk (k + 1)).n, (Gk (k + 1)).ijk⟩ rfl rfl _ (fun i hi => ?_)
      obtain ⟨hi1, hi2⟩ := Finset.mem_filter.1 hi
      rcases hc with hc | hc
      · unfold airMass; rw [if_pos hc, if_pos hc]
      · rw [hc i (by simpa using hi1) hi2]; simp
    rw [Finset.sum_congr rfl (fun k _ => hk k), Finset.sum_range_sub (fun k => liquidMass (runP o true a k).s c / airMass q.s (q.s.d.rhod c) c)]
    have f0 : liquidMass (runP o true a 0).s c = liquidMass q.s c := by
      show liquidMass a.s c = _
      unfold liquidMass; rw [h.geo.N, h.geo.ijk, h.geo.n, h.rw2]
    have f1 : liquidMass (runP o true a o.sstp).s c = liquidMass q'.s c := by
      have G := h.geo.trans (runP_frm o true a (h.geo.sorted hs) o.sstp).geo
      unfold liquidMass; rw [G.N, G.ijk, G.n, n1, n2, n3, r]
    rw [f0, f1]; ring
  · push Not at ho
    have z : ∀ s : St, s.d.N = q.s.d.N → s.d.ijk = q.s.d.ijk → liquidMass s c = 0 := by
      intro s e1 e2
      unfold liquidMass
      rw [e1, e2, Finset.filter_false_of_mem (fun i hi => ho i (by simpa using hi)), Finset.sum_empty]
    rw [(em c ho).1, z q'.s n1 n3, z q.s rfl rfl]

/-- **C60 (finding).** With mixing, two substeps, a spatial grid: if the super-droplets of a cell come from air of another density (they have been
moved to another level since the last step, or the density field has changed) and anything condenses or evaporates in the first substep, the total water of the cell is not conserved. -/
theorem perpart_mix_not_conserved (o : Cfg) (allow : Bool) (ordRv ordTh : List ℕ) (q a : PSt) (hs : Sorted q.s.d) (hn : o.sstp = 2)
    (hr : ∀ i < q.s.d.N, 0 ≤ q.s.rw2 i) (h1 : ordRv.Perm (List.range q.s.d.N)) (h2 : ordTh.Perm (List.range q.s.d.N))
    (hd : 0 < q.s.d.nDims) (c : ℕ) (ho : ∃ i < q.s.d.N, q.s.d.ijk i = c) (hdv : 0 < q.s.d.dv c) (hrho : 0 < q.s.d.rhod c) (rho0 : ℝ) (h0 : 0 < rho0)
    (ht : ∀ i < q.s.d.N, q.s.d.ijk i = c → q.s.tRh i = rho0) (hne : rho0 ≠ q.s.d.rhod c)
    (ha : startP o true q = some a) (hg : liquidMass (runP o true a 1).s c ≠ liquidMass q.s c) :
    ∃ q', condPerPart o true allow ordRv ordTh q = some q' ∧
      q'.s.rv c + liquidMass q'.s c / airMass q.s (q.s.d.rhod c) c ≠ q.s.rv c + liquidMass q.s c / airMass q.s (q.s.d.rhod c) c := by
  obtain ⟨a0, q', e, e', n1, n2, n3, n4, r, ra, em, w⟩ := perpart_mix_water o allow ordRv ordTh q hs (by omega) hr h1 h2
  rw [ha] at e
  obtain rfl : a = a0 := by simpa using e
  obtain ⟨a', e2, h⟩ := startP_ok o true q hs
  rw [ha] at e2
  obtain rfl : a = a' := by simpa using e2
  refine ⟨q', e', ?_⟩
  obtain ⟨w1, -⟩ := w c ho
  have Gk := fun k => h.geo.trans (runP_frm o true a (h.geo.sorted hs) k).geo
  have hk : ∀ k : ℕ, ∑ i ∈ inCell q c, dqOf q.s i ((runP o true a k).s.rw2 i) ((runP o true a (k + 1)).s.rw2 i)
      (q.s.tRh i + ((k : ℝ) + 1) * ((q.s.d.rhod c - q.s.tRh i) / o.sstp)) =
      (liquidMass (runP o true a (k + 1)).s c - liquidMass (runP o true a k).s c) /
        airMass q.s (rho0 + ((k : ℝ) + 1) * ((q.s.d.rhod c - rho0) / 2)) c := by
    intro k
    refine sum_dq q c _ _ _ (runP o true a k).s (runP o true a (k + 1)).s ⟨(Gk k).N, (Gk k).n, (Gk k).ijk⟩
      ⟨(Gk (k + 1)).N, (Gk (k + 1)).n, (Gk (k + 1)).ijk⟩ rfl rfl _ (fun i hi => ?_)
    obtain ⟨hi1, hi2⟩ := Finset.mem_filter.1 hi
    rw [ht i (by simpa using hi1) hi2, hn]
    push_cast
    rfl
  rw [Finset.sum_congr rfl (fun k _ => hk k), hn, Finset.sum_range_succ, Finset.sum_range_one] at w1
  have f0 : liquidMass (runP o true a 0).s c = liquidMass q.s c := by
    show liquidMass a.s c = _
    unfold liquidMass; rw [h.geo.N, h.geo.ijk, h.geo.n, h.rw2]
  have f1 : liquidMass (runP o true a (1 + 1)).s c = liquidMass q'.s c := by
    have G := Gk 2
    unfold liquidMass; rw [G.N, G.ijk, G.n, n1, n2, n3, r, hn]
  rw [f0, f1] at w1
  rw [w1]
  unfold airMass
  simp only [if_neg hd.ne']
  have e1 : rho0 + (((1 : ℕ) : ℝ) + 1) * ((q.s.d.rhod c - rho0) / 2) = q.s.d.rhod c := by push_cast; ring
  have e0 : rho0 + (((0 : ℕ) : ℝ) + 1) * ((q.s.d.rhod c - rho0) / 2) = (rho0 + q.s.d.rhod c) / 2 := by push_cast; ring
  rw [e1, e0]
  set L0 := liquidMass q.s c
  set L1 := liquidMass (runP o true a (0 + 1)).s c
  set L2 := liquidMass q'.s c
  have hg' : L1 - L0 ≠ 0 := sub_ne_zero.2 hg
  set V := q.s.d.dv c
  set rho := q.s.d.rhod c
  intro hh
  have : (L1 - L0) * (1 / (V * ((rho0 + rho) / 2)) - 1 / (V * rho)) = 0 := by
    have k1 : (L2 - L1) / (V * rho) = L2 / (V * rho) - L1 / (V * rho) := sub_div _ _ _
    rw [k1] at hh
    have k2 : (L1 - L0) * (1 / (V * ((rho0 + rho) / 2)) - 1 / (V * rho)) = (L1 - L0) / (V * ((rho0 + rho) / 2)) - L1 / (V * rho) + L0 / (V * rho) := by ring
    rw [k2]; linarith
  rcases mul_eq_zero.1 this with hz | hz
  · exact hg' hz
  · rw [sub_eq_zero, div_eq_div_iff (by positivity) (by positivity)] at hz
    have : rho0 = rho := by
      have h3 : V * (rho0 - rho) = 0 := by linarith
      rcases mul_eq_zero.1 h3 with h4 | h4
      · exact absurd h4 hdv.ne'
      · linarith
    exact hne this

/-- a super-droplet `i` of one state and `j` of another see the same: their own attributes and air, and the values received in their cells -/
structure Alike (a : PSt) (i : ℕ) (b : PSt) (j : ℕ) : Prop where
  rw2 : a.s.rw2 i = b.s.rw2 j
  rd3 : a.s.rd3 i = b.s.rd3 j
  kpa : a.s.kpa i = b.s.kpa j
  vt : a.s.vt i = b.s.vt j
  n : a.s.d.n i = b.s.d.n j
  ssp : a.s.ssp i = b.s.ssp j
  dotSsp : a.s.dotSsp i = b.s.dotSsp j
  tRv : a.s.tRv i = b.s.tRv j
  tTh : a.s.tTh i = b.s.tTh j
  tRh : a.s.tRh i = b.s.tRh j
  tP : a.tP i = b.tP j
  rv : a.s.rv (a.s.d.ijk i) = b.s.rv (b.s.d.ijk j)
  th : a.s.th (a.s.d.ijk i) = b.s.th (b.s.d.ijk j)
  rhod : a.s.d.rhod (a.s.d.ijk i) = b.s.d.rhod (b.s.d.ijk j)
  p : a.s.p (a.s.d.ijk i) = b.s.p (b.s.d.ijk j)
  T : a.s.T (a.s.d.ijk i) = b.s.T (b.s.d.ijk j)
  dv : a.s.d.dv (a.s.d.ijk i) = b.s.d.dv (b.s.d.ijk j)
  nDims : a.s.d.nDims = b.s.d.nDims

/-- **C60 (independence without mixing).** The new size of a super-droplet depends on nothing but its own attributes and air and the values received in its cell:
whatever other super-droplets there are, in that cell or elsewhere, in whatever order, it grows the same. -/
theorem perpart_nomix_independent (o : Cfg) (al1 al2 : Bool) (o1 o2 o3 o4 : List ℕ) (q1 q2 r1 r2 : PSt) (hs1 : Sorted q1.s.d) (hs2 : Sorted q2.s.d)
    (e1 : condPerPart o false al1 o1 o2 q1 = some r1) (e2 : condPerPart o false al2 o3 o4 q2 = some r2) (i j : ℕ) (hi : i < q1.s.d.N) (hj : j < q2.s.d.N)
    (h : Alike q1 i q2 j) : r1.s.rw2 i = r2.s.rw2 j := by
  obtain ⟨a, ea, A⟩ := startP_ok o false q1 hs1
  obtain ⟨b, eb, B⟩ := startP_ok o false q2 hs2
  obtain ⟨r1', x1, -, y1, -⟩ := nomix_end o al1 o1 o2 q1 a hs1 ea A
  obtain ⟨r2', x2, -, y2, -⟩ := nomix_end o al2 o3 o4 q2 b hs2 eb B
  rw [e1] at x1; rw [e2] at x2
  obtain rfl : r1 = r1' := by simpa using x1
  obtain rfl : r2 = r2' := by simpa using x2
  rw [y1, y2]
  have ha := A.geo.sorted hs1
  have hb := B.geo.sorted hs2
  have main : ∀ k ≤ o.sstp, (runP o false a k).s.rw2 i = (runP o false b k).s.rw2 j ∧ (runP o false a k).s.tRv i = (runP o false b k).s.tRv j ∧
      (runP o false a k).s.tTh i = (runP o false b k).s.tTh j ∧ (runP o false a k).s.tRh i = (runP o false b k).s.tRh j ∧
      (runP o false a k).tP i = (runP o false b k).tP j ∧ (runP o false a k).s.ssp i = (runP o false b k).s.ssp j := by
    intro k
    induction k with
    | zero =>
      intro _
      show a.s.rw2 i = b.s.rw2 j ∧ a.s.tRv i = b.s.tRv j ∧ a.s.tTh i = b.s.tTh j ∧ a.s.tRh i = b.s.tRh j ∧ a.tP i = b.tP j ∧ a.s.ssp i = b.s.ssp j
      rw [A.rw2, B.rw2, A.tRv, B.tRv, A.tTh, B.tTh, A.tRh, B.tRh, A.tP, B.tP, A.ssp, B.ssp]
      exact ⟨h.rw2, h.tRv, h.tTh, h.tRh, h.tP, h.ssp⟩
    | succ k ih =>
      intro hk
      obtain ⟨i1, i2, i3, i4, i5, i6⟩ := ih (by omega)
      have Fa := runP_frm o false a ha k
      have Fb := runP_frm o false b hb k
      have Ga := A.geo.trans Fa.geo
      have Gb := B.geo.trans Fb.geo
      obtain ⟨ja, -⟩ := runP_ok o false a ha k (by omega)
      obtain ⟨jb, -⟩ := runP_ok o false b hb k (by omega)
      obtain ⟨-, a2, -, a4, a5, a6, a7⟩ := substepP_ok o false k _ (Ga.sorted hs1)
      obtain ⟨-, b2, -, b4, b5, b6, b7⟩ := substepP_ok o false k _ (Gb.sorted hs2)
      obtain ⟨-, -, m3, m4, m5, m6, m7⟩ := midP_eq o (runP o false a k)
      obtain ⟨-, -, n3, n4, n5, n6, n7⟩ := midP_eq o (runP o false b k)
      have Ma := midP_frm o (runP o false a k)
      have Mb := midP_frm o (runP o false b k)
      have x3 : (midP o (runP o false a k)).s.tRv i = (midP o (runP o false b k)).s.tRv j := by
        rw [m3, n3]; simp only; rw [i2, Fa.dRv, Fb.dRv, A.dRv, B.dRv]; simp only; rw [h.rv, h.tRv]
      have x4 : (midP o (runP o false a k)).s.tTh i = (midP o (runP o false b k)).s.tTh j := by
        rw [m4, n4]; simp only; rw [i3, Fa.dTh, Fb.dTh, A.dTh, B.dTh]; simp only; rw [h.th, h.tTh]
      have x5 : (midP o (runP o false a k)).s.tRh i = (midP o (runP o false b k)).s.tRh j := by
        rw [m5, n5]; simp only; rw [i4, Fa.dRh, Fb.dRh, A.dRh, B.dRh]; simp only; rw [h.rhod, h.tRh]
      have x6 : (midP o (runP o false a k)).tP i = (midP o (runP o false b k)).tP j := by
        rw [m6, n6]
        split_ifs with hc
        · simp only; rw [i5, Fa.dP, Fb.dP, A.dP hc, B.dP hc]; simp only; rw [h.p, h.tP]
        · exact i5
      have x7 : (midP o (runP o false a k)).s.ssp i = (midP o (runP o false b k)).s.ssp j := by
        rw [m7, n7]
        split_ifs
        · simp only; rw [i6, Fa.dotSsp, Fb.dotSsp, A.dotSsp, B.dotSsp, h.dotSsp]
        · exact i6
      have xe : envP o (midP o (runP o false a k)) i = envP o (midP o (runP o false b k)) j := by
        unfold envP
        rw [x3, x4, x5, x6, x7, Ma.rd3, Mb.rd3, Ma.kpa, Mb.kpa, Ma.vt, Mb.vt, Ma.lamD, Mb.lamD, Ma.lamK, Mb.lamK, Ma.geo.ijk, Mb.geo.ijk,
          Fa.rd3, Fb.rd3, Fa.kpa, Fb.kpa, Fa.vt, Fb.vt, Fa.lamD, Fb.lamD, Fa.lamK, Fb.lamK, Ga.ijk, Gb.ijk, A.rd3, B.rd3, A.kpa, B.kpa, A.vt, B.vt,
          A.lamD, B.lamD, A.lamK, B.lamK, h.rd3, h.kpa, h.vt]
        simp only [h.T, h.p]
      have xr : rw2P o (runP o false a k) i = rw2P o (runP o false b k) j := by
        unfold rw2P; rw [xe, i1]
      have xd : drvP o k (runP o false a k) i = drvP o k (runP o false b k) j := by
        unfold drvP
        rw [xr, x5, Ga.nDims, Gb.nDims, Ga.n, Gb.n, Ga.dv, Gb.dv, Ga.ijk, Gb.ijk, h.nDims, h.n, h.dv]
        have : (if 0 < k then (runP o false a k).rw3 i else rw3of ((runP o false a k).s.rw2 i)) =
            (if 0 < k then (runP o false b k).rw3 j else rw3of ((runP o false b k).s.rw2 j)) := by
          split_ifs with hk0
          · rw [ja hk0.ne' (by omega), jb hk0.ne' (by omega), i1]
          · rw [i1]
        rw [this]
      have xt : dthP o k (runP o false a k) i = dthP o k (runP o false b k) j := by
        unfold dthP TpOf; rw [xd, x4, x5, x6]
      obtain ⟨u1, u2⟩ := a7 i (by rw [Ga.N]; exact hi)
      obtain ⟨v1, v2⟩ := b7 j (by rw [Gb.N]; exact hj)
      show (substepP o false k _).s.rw2 i = (substepP o false k _).s.rw2 j ∧ (substepP o false k _).s.tRv i = (substepP o false k _).s.tRv j ∧
        (substepP o false k _).s.tTh i = (substepP o false k _).s.tTh j ∧ (substepP o false k _).s.tRh i = (substepP o false k _).s.tRh j ∧
        (substepP o false k _).tP i = (substepP o false k _).tP j ∧ (substepP o false k _).s.ssp i = (substepP o false k _).s.ssp j
      refine ⟨by rw [a2, b2, xr], ?_, ?_, by rw [a4, b4, x5], by rw [a5, b5, x6], by rw [a6, b6, x7]⟩
      · rw [u1, v1, x3]; simp only [Bool.false_eq_true, if_false]; rw [xd]
      · rw [u2, v2, x4]; simp only [Bool.false_eq_true, if_false]; rw [xt]
  exact (main o.sstp (le_refl _)).1

theorem runP_radii (o : Cfg) (hN : o.num.Ok) (mix : Bool) (a : PSt) (hs : Sorted a.s.d) (k i : ℕ) (hd : 0 < a.s.rd3 i)
    (h : cbrt (a.s.rd3 i) ^ 2 ≤ a.s.rw2 i) : cbrt (a.s.rd3 i) ^ 2 ≤ (runP o mix a k).s.rw2 i := by
  have hc := cbrt_pos _ hd
  induction k with
  | zero => exact h
  | succ k ih =>
    have F := runP_frm o mix a hs k
    show _ ≤ (substepP o mix k _).s.rw2 i
    rw [(substepP_ok o mix k _ (F.geo.sorted hs)).2.1]
    unfold rw2P
    have hq : (envP o (midP o (runP o mix a k)) i).rd3 = a.s.rd3 i := by
      unfold envP; simp only; rw [(midP_frm o _).rd3, F.rd3]
    have h5 : 0 < (runP o mix a k).s.rw2 i := lt_of_lt_of_le (by positivity) ih
    have := ((advance_inv o.num hN (envP o (midP o (runP o mix a k)) i) (o.dt / o.sstp) _ (Or.inr ⟨h5, by rw [hq]; exact ih⟩) (by rw [hq]; exact hd)).2 h5).2
    rw [hq] at this; exact this

/-- **C60 (particles).** With or without mixing, droplets never become smaller than their dry radius, and dry radii and hygroscopicities do not change. -/
theorem perpart_radii (o : Cfg) (hN : o.num.Ok) (mix allow : Bool) (ordRv ordTh : List ℕ) (q q' : PSt) (hs : Sorted q.s.d)
    (e : condPerPart o mix allow ordRv ordTh q = some q') : q'.s.rd3 = q.s.rd3 ∧ q'.s.kpa = q.s.kpa ∧
    ∀ i, 0 < q.s.rd3 i → cbrt (q.s.rd3 i) ^ 2 ≤ q.s.rw2 i → cbrt (q.s.rd3 i) ^ 2 ≤ q'.s.rw2 i := by
  obtain ⟨a, ea, A⟩ := startP_ok o mix q hs
  have ha := A.geo.sorted hs
  have F := runP_frm o mix a ha o.sstp
  have key : q'.s.rd3 = q.s.rd3 ∧ q'.s.kpa = q.s.kpa ∧ q'.s.rw2 = (runP o mix a o.sstp).s.rw2 := by
    cases mix with
    | false =>
      obtain ⟨r, x, -, y, z1, z2, -⟩ := nomix_end o allow ordRv ordTh q a hs ea A
      rw [e] at x
      obtain rfl : q' = r := by simpa using x
      exact ⟨z1, z2, y⟩
    | true =>
      unfold condPerPart at e
      rw [ea] at e
      simp only [Option.bind_eq_bind, Option.bind_some, if_true, Option.some.injEq] at e
      rw [← e]
      obtain ⟨-, p2, -, -, p5, p6, -⟩ := saveP_eq o allow { runP o true a o.sstp with
        s := { (runP o true a o.sstp).s with
               rv := updState ordRv (runP o true a o.sstp).s.d.ijk (runP o true a o.sstp).s.rv (runP o true a o.sstp).s.tRv
               th := updState ordTh (runP o true a o.sstp).s.d.ijk (runP o true a o.sstp).s.th (runP o true a o.sstp).s.tTh } }
      exact ⟨p5.trans (F.rd3.trans A.rd3), p6.trans (F.kpa.trans A.kpa), p2⟩
  refine ⟨key.1, key.2.1, fun i hd h => ?_⟩
  rw [key.2.2]
  have := runP_radii o hN mix a ha o.sstp i (by rw [A.rd3]; exact hd) (by rw [A.rd3, A.rw2]; exact h)
  rw [A.rd3] at this; exact this

/-- **C60 (between steps).** With substeps allowed, every super-droplet's air is that of its cell at the end of the step. -/
theorem perpart_saved (o : Cfg) (mix : Bool) (ordRv ordTh : List ℕ) (q q' : PSt) (e : condPerPart o mix true ordRv ordTh q = some q') :
    (∀ i, q'.s.tRv i = q'.s.rv (q'.s.d.ijk i) ∧ q'.s.tTh i = q'.s.th (q'.s.d.ijk i) ∧ q'.s.tRh i = q'.s.d.rhod (q'.s.d.ijk i)) ∧
    (o.tpr.const_p = true → ∀ i, q'.tP i = q'.s.p (q'.s.d.ijk i)) := by
  have h : ∃ r, q' = saveP o true r := by
    unfold condPerPart at e
    obtain ⟨x, -, e⟩ := Option.bind_eq_some_iff.1 e
    cases mix with
    | true =>
      simp only [if_true, Option.some.injEq] at e
      exact ⟨_, e.symm⟩
    | false =>
      simp only [Bool.false_eq_true, if_false, Option.bind_eq_bind] at e
      obtain ⟨y, -, e⟩ := Option.bind_eq_some_iff.1 e
      simp only [Option.some.injEq] at e
      exact ⟨_, e.symm⟩
  obtain ⟨r, rfl⟩ := h
  unfold saveP
  simp only [if_true]
  refine ⟨fun i => ⟨trivial, trivial, trivial⟩, fun h i => ?_⟩
  rw [if_pos h]

/-- **C60 (schedule).** With mixing, the order in which the super-droplets' threads write does not matter. -/
theorem perpart_mix_order (o : Cfg) (allow : Bool) (o1 o2 o3 o4 : List ℕ) (q r1 r2 : PSt) (hs : Sorted q.s.d) (hn : 0 < o.sstp)
    (hr : ∀ i < q.s.d.N, 0 ≤ q.s.rw2 i) (h1 : o1.Perm (List.range q.s.d.N)) (h2 : o2.Perm (List.range q.s.d.N))
    (h3 : o3.Perm (List.range q.s.d.N)) (h4 : o4.Perm (List.range q.s.d.N)) (e1 : condPerPart o true allow o1 o2 q = some r1)
    (e2 : condPerPart o true allow o3 o4 q = some r2) : r1.s.rv = r2.s.rv ∧ r1.s.th = r2.s.th ∧ r1.s.rw2 = r2.s.rw2 := by
  obtain ⟨a, q1, ea, x1, -, -, -, -, y1, -, z1, w1⟩ := perpart_mix_water o allow o1 o2 q hs hn hr h1 h2
  obtain ⟨b, q2, eb, x2, -, -, -, -, y2, -, z2, w2⟩ := perpart_mix_water o allow o3 o4 q hs hn hr h3 h4
  rw [ea] at eb
  obtain rfl : a = b := by simpa using eb
  rw [e1] at x1; rw [e2] at x2
  obtain rfl : r1 = q1 := by simpa using x1
  obtain rfl : r2 = q2 := by simpa using x2
  refine ⟨?_, ?_, by rw [y1, y2]⟩
  · funext c
    by_cases ho : ∃ i < q.s.d.N, q.s.d.ijk i = c
    · rw [(w1 c ho).1, (w2 c ho).1]
    · push Not at ho; rw [(z1 c ho).1, (z2 c ho).1]
  · funext c
    by_cases ho : ∃ i < q.s.d.N, q.s.d.ijk i = c
    · rw [(w1 c ho).2, (w2 c ho).2]
    · push Not at ho; rw [(z1 c ho).2, (z2 c ho).2]

/-! ## Non-vacuity -/

/-- two super-droplets (1 mm and 10 µm) that came from air of density 1.2 to a cell of density 1, at 0 °C in very humid air; a second, empty cell -/
noncomputable def exPart : PSt :=
  { s := { d := { N := 2, n := fun i => 1000 + i, ijk := fun _ => 0, sid := [1, 0], nf := none, nCell := 2, nDims := 2,
                  dv := fun _ => 1000, rhod := fun _ => 1, countN := 0, countIjk := fun _ => 0, countMom := fun _ => 7 }
           rv := fun _ => 10, th := fun _ => 273.16, p := fun _ => 100000, T := fun _ => 273.16, RH := fun _ => 0, RHi := fun _ => 0, eta := fun _ => 0
           lamD := fun _ => 0, lamK := fun _ => 0, tRv := fun _ => 10, tTh := fun _ => 273.16, tRh := fun _ => 1.2
           rw2 := fun i => if i = 0 then 1e-6 else 1e-10, rd3 := fun _ => 1e-24, kpa := fun _ => 0.6, vt := fun _ => 0
           iceA := fun _ => 0, iceC := fun _ => 0, iceRho := fun _ => 0
           ssp := fun _ => 0, dotSsp := fun _ => 0, drw := fun _ => 5, rwM := fun _ => 6, dIce := fun _ => 7, iceM := fun _ => 8 }
    tP := fun _ => 100000, dRv := fun _ => 1, dTh := fun _ => 2, dRh := fun _ => 3, dP := fun _ => 4, rw3 := fun _ => 5, Tp := fun _ => 6 }

/-- two substeps in 1 s, constant pressure -/
noncomputable def exPC : Cfg :=
  { num := numDbl, sstp := 2, dt := 1, RHmax := 44, turb := false, ice := false, varRho := true, tpr := { th_dry := false, const_p := true } }

theorem exPart_sorted : Sorted exPart.s.d := by
  constructor
  · constructor
    · show [1, 0].Perm (List.range 2); decide
    · show List.Pairwise _ _
      simp [exPart]
  · intro i hi
    show (0 : ℕ) < 2
    norm_num

theorem exPart_rw2 : ∀ i < exPart.s.d.N, 0 ≤ exPart.s.rw2 i := by
  intro i _
  show (0 : ℝ) ≤ if i = 0 then 1e-6 else 1e-10
  split_ifs <;> norm_num

/-- there, both droplets grow in the first substep -/
theorem exPart_grows (a : PSt) (ha : startP exPC true exPart = some a) (i : ℕ) (hi : i < 2) : exPart.s.rw2 i < (runP exPC true a 1).s.rw2 i := by
  obtain ⟨a', e, A⟩ := startP_ok exPC true exPart exPart_sorted
  rw [ha] at e
  obtain rfl : a = a' := by simpa using e
  obtain ⟨h1, -⟩ := perpart_substep exPC true exPart a exPart_sorted exPart_rw2 ha 0 (by norm_num [exPC]) i hi
  have e0 : (runP exPC true a 0).s.rw2 i = exPart.s.rw2 i := by show a.s.rw2 i = _; rw [A.rw2]
  rw [e0] at h1
  have e1 : (runP exPC true a 0).s.tRv i = 10 := by show a.s.tRv i = _; rw [A.tRv]; rfl
  have e2 : (runP exPC true a 0).s.tTh i = 273.16 := by show a.s.tTh i = _; rw [A.tTh]; rfl
  beta_reduce at h1
  rw [e1, e2] at h1
  change (runP exPC true a 1).s.rw2 i = _ at h1
  rw [h1]
  set E := airFor exPC (runP exPC true a 0) i (10 + (exPart.s.rv (exPart.s.d.ijk i) - exPart.s.tRv i) / exPC.sstp)
    (273.16 + (exPart.s.th (exPart.s.d.ijk i) - exPart.s.tTh i) / exPC.sstp)
    (exPart.s.tRh i + (((0 : ℕ) : ℝ) + 1) * ((exPart.s.d.rhod (exPart.s.d.ijk i) - exPart.s.tRh i) / exPC.sstp))
    (if exPC.tpr.const_p then exPart.tP i + (((0 : ℕ) : ℝ) + 1) * ((exPart.s.p (exPart.s.d.ijk i) - exPart.tP i) / exPC.sstp) else (runP exPC true a 0).tP i) with hE
  have hp : (if exPC.tpr.const_p then exPart.tP i + (((0 : ℕ) : ℝ) + 1) * ((exPart.s.p (exPart.s.d.ijk i) - exPart.tP i) / exPC.sstp) else (runP exPC true a 0).tP i) = 100000 := by
    rw [if_pos (show exPC.tpr.const_p = true from rfl)]; norm_num [exPart, exPC]
  have hv : (10 : ℝ) + (exPart.s.rv (exPart.s.d.ijk i) - exPart.s.tRv i) / exPC.sstp = 10 := by norm_num [exPart, exPC]
  have ht : (273.16 : ℝ) + (exPart.s.th (exPart.s.d.ijk i) - exPart.s.tTh i) / exPC.sstp = 273.16 := by norm_num [exPart, exPC]
  have hrh : exPart.s.tRh i + (((0 : ℕ) : ℝ) + 1) * ((exPart.s.d.rhod (exPart.s.d.ijk i) - exPart.s.tRh i) / exPC.sstp) = 1.1 := by
    norm_num [exPart, exPC]
  rw [hp, hv, ht, hrh] at hE
  have hT : TofCell exPC.tpr 273.16 1.1 100000 = 273.16 := by
    unfold TofCell
    rw [if_neg (show ¬ exPC.tpr.th_dry = true by simp [exPC])]
    unfold exner p_1000
    rw [div_self (by norm_num), Real.one_rpow, mul_one]
  have hpp : pOfCell exPC.tpr 1.1 10 273.16 100000 = 100000 := by unfold pOfCell; rw [if_pos (show exPC.tpr.const_p = true from rfl)]
  have hRH : (50 : ℝ) < RHof exPC.tpr.RH_formula 100000 10 273.16 := by
    show 50 < p_v 100000 10 / p_vs 273.16
    have hps : p_vs 273.16 = 611.73 := by
      unfold p_vs p_tri
      rw [show T_tri = 273.16 from rfl, sub_self, mul_zero, div_self (by norm_num), Real.log_one, mul_zero, sub_self, Real.exp_zero, mul_one]
    rw [hps]
    unfold p_v eps M_v M_d M_H M_OH
    norm_num
  have f1 : E.rhod = 1.1 := by rw [hE]; rfl
  have f2 : E.rv = 10 := by rw [hE]; rfl
  have f3 : E.T = 273.16 := by rw [hE]; unfold airFor; simp only; exact hT
  have f4 : E.RH = RHof exPC.tpr.RH_formula 100000 10 273.16 := by
    rw [hE]; unfold airFor; simp only; rw [hT, hpp, if_neg (show ¬ exPC.turb = true by simp [exPC]), add_zero]
  have f5 : E.eta = visc 273.16 := by rw [hE]; unfold airFor; simp only; rw [hT]
  have f6 : E.rd3 = 1e-24 := by rw [hE]; show a.s.rd3 i = _; rw [A.rd3]; rfl
  have f7 : E.kpa = 0.6 := by rw [hE]; show a.s.kpa i = _; rw [A.kpa]; rfl
  have f8 : E.vt = 0 := by rw [hE]; show a.s.vt i = _; rw [A.vt]; rfl
  have hl := lambda_pos 273.16 100000 (by norm_num) (by norm_num)
  have f9 : E.lamD = lambda_D 273.16 := by rw [hE]; show a.s.lamD _ = _; rw [A.lamD]; rfl
  have f10 : E.lamK = lambda_K 273.16 100000 := by rw [hE]; show a.s.lamK _ = _; rw [A.lamK]; rfl
  have f11 : E.RHmax = 44 := by rw [hE]; rfl
  have hok : E.Ok := by
    constructor
    · rw [f1]; norm_num
    · rw [f2]; norm_num
    · rw [f3]; norm_num
    · rw [f3]; norm_num
    · rw [f4]; linarith
    · rw [f5]; exact visc_pos _ (by norm_num)
    · rw [f8]
    · rw [f9]; exact hl.1.le
    · rw [f10]; exact hl.2.le
    · rw [f11]; norm_num
  have hr : (1e-10 : ℝ) ≤ exPart.s.rw2 i := by
    show (1e-10 : ℝ) ≤ if i = 0 then 1e-6 else 1e-10
    split_ifs <;> norm_num
  have hr0 : 0 < exPart.s.rw2 i := by linarith [show (0 : ℝ) < 1e-10 by norm_num]
  have hcb : cbrt E.rd3 = 1e-8 := by
    rw [f6, show (1e-24 : ℝ) = (1e-8 : ℝ) ^ 3 by norm_num]
    exact cube_cbrt _ (by norm_num)
  refine (advance_grows_partial E hok _ _ (by norm_num [exPC]) hr0 (by rw [hcb]; norm_num at hr ⊢; linarith)).1 ?_
  have hmin : min E.RH E.RHmax = 44 := by rw [f4, f11]; exact min_eq_right (by linarith)
  rw [hmin, f3, f6, f7]
  -- the curve is below e
  have hs : (1e-5 : ℝ) ≤ Real.sqrt (exPart.s.rw2 i) := by
    rw [show (1e-5 : ℝ) = Real.sqrt (1e-10) by rw [show (1e-10 : ℝ) = 1e-5 ^ 2 by norm_num, Real.sqrt_sq (by norm_num)]]
    exact Real.sqrt_le_sqrt hr
  set x := Real.sqrt (exPart.s.rw2 i)
  unfold koehler
  have hx3 : (1e-15 : ℝ) ≤ x ^ 3 := by
    have := pow_le_pow_left₀ (by norm_num) hs 3
    norm_num at this ⊢; linarith
  have h1 : (x ^ 3 - 1e-24) / (x ^ 3 - 1e-24 * (1 - 0.6)) ≤ 1 := by
    rw [div_le_one (by norm_num at hx3 ⊢; linarith)]
    linarith
  have h0 : 0 ≤ (x ^ 3 - 1e-24) / (x ^ 3 - 1e-24 * (1 - 0.6)) := by
    apply div_nonneg <;> (norm_num at hx3 ⊢; linarith)
  have hk : kelvinA 273.16 / x ≤ 1 := by
    rw [div_le_one (by linarith [show (0 : ℝ) < 1e-5 by norm_num])]
    refine le_trans ?_ hs
    unfold kelvinA sg_surf R_v kaBoNA M_v M_H M_OH rho_w
    norm_num
  have hex : Real.exp (kelvinA 273.16 / x) < 3 := lt_of_le_of_lt (Real.exp_le_exp.2 hk) (by linarith [Real.exp_one_lt_d9])
  have hex0 := Real.exp_pos (kelvinA 273.16 / x)
  nlinarith

/-- total water of that cell is not conserved -/
example : ∃ q', condPerPart exPC true true [0, 1] [1, 0] exPart = some q' ∧
    q'.s.rv 0 + liquidMass q'.s 0 / airMass exPart.s (exPart.s.d.rhod 0) 0 ≠ exPart.s.rv 0 + liquidMass exPart.s 0 / airMass exPart.s (exPart.s.d.rhod 0) 0 := by
  obtain ⟨a, e, A⟩ := startP_ok exPC true exPart exPart_sorted
  have G := A.geo.trans (runP_frm exPC true a (A.geo.sorted exPart_sorted) 1).geo
  refine perpart_mix_not_conserved exPC true [0, 1] [1, 0] exPart a exPart_sorted rfl exPart_rw2 (by decide) (by decide) (by norm_num [exPart]) 0
    ⟨0, by norm_num [exPart], rfl⟩ (by norm_num [exPart]) (by norm_num [exPart]) 1.2 (by norm_num) (fun i _ _ => rfl) (by norm_num [exPart]) e
    (ne_of_gt ?_)
  unfold liquidMass
  rw [G.N, G.n, G.ijk]
  have hpi := Real.pi_pos
  have hw := rho_w_pos
  apply Finset.sum_lt_sum_of_nonempty
  · exact ⟨0, by simp [exPart]⟩
  · intro i hi
    have hi2 : i < 2 := by simpa [exPart] using hi
    have h1 := exPart_grows a e i hi2
    have h2 : Real.sqrt (exPart.s.rw2 i) < Real.sqrt ((runP exPC true a 1).s.rw2 i) := Real.sqrt_lt_sqrt (exPart_rw2 i hi2) h1
    have h3 := pow_lt_pow_left₀ h2 (Real.sqrt_nonneg _) three_ne_zero
    have hn : (0 : ℝ) < exPart.s.d.n i := by
      have : 0 < exPart.s.d.n i := by show 0 < 1000 + i; omega
      exact_mod_cast this
    have h4 : 4 / 3 * Real.pi * Real.sqrt (exPart.s.rw2 i) ^ 3 * rho_w < 4 / 3 * Real.pi * Real.sqrt ((runP exPC true a 1).s.rw2 i) ^ 3 * rho_w := by
      apply mul_lt_mul_of_pos_right _ hw
      exact mul_lt_mul_of_pos_left h3 (by positivity)
    exact mul_lt_mul_of_pos_left h4 hn

example : ∃ q', condPerPart exPC false true [] [] exPart = some q' ∧ ∀ i < exPart.s.d.N, 0 ≤ q'.s.rw2 i := by
  obtain ⟨q', e, -, -, -, -, h, -⟩ := perpart_nomix_water exPC true [] [] exPart exPart_sorted exPart_rw2
  exact ⟨q', e, h⟩

/-- a parcel -/
noncomputable def exParcel : PSt := { exPart with s := { exPart.s with d := { exPart.s.d with nDims := 0 } } }

example : ∃ q', condPerPart exPC true true [0, 1] [1, 0] exParcel = some q' ∧
    q'.s.rv 0 + liquidMass q'.s 0 / airMass exParcel.s (exParcel.s.d.rhod 0) 0 = exParcel.s.rv 0 + liquidMass exParcel.s 0 / airMass exParcel.s (exParcel.s.d.rhod 0) 0 := by
  obtain ⟨q', e, h⟩ := perpart_mix_conserved_partial exPC true [0, 1] [1, 0] exParcel ⟨exPart_sorted.sort, exPart_sorted.cell⟩ (by norm_num [exPC]) exPart_rw2
    (by decide) (by decide)
  exact ⟨q', e, h 0 (Or.inl rfl)⟩

end LCP.Cond
