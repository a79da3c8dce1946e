import Verif.Cond.AdaptiveProps

/-!
# C61: the time step with adaptive substepping
-/
namespace LCP.Cond
open LCP.Common LCP.Diag

/-- what super-droplet `i` is given: differences between the values received in its cell and its own, its attributes, the mean free paths
at the temperature and pressure of its cell (the pressure change is read only if pressure is constant in time) -/
noncomputable def given (o : Cfg) (q : PSt) (rc2 : ℕ → ℝ) (i : ℕ) : AIn :=
  let c := q.s.d.ijk i
  { dRv := q.s.rv c - q.s.tRv i, dTh := q.s.th c - q.s.tTh i, dRh := q.s.d.rhod c - q.s.tRh i
    dP := if o.tpr.const_p then q.s.p c - q.tP i else q.dP i
    n := q.s.d.n i, dv := q.s.d.dv c, lamD := lambda_D (q.s.T c), lamK := lambda_K (q.s.T c) (q.s.p c)
    rd3 := q.s.rd3 i, kpa := q.s.kpa i, vt := q.s.vt i, rc2 := rc2 i, dotSsp := q.s.dotSsp i }

/-- all options -/
def optsA (o : Cfg) (eps mx : ℝ) (act : ℕ) (q : PSt) : ACfg := ⟨o, eps, mx, act, q.s.d.nDims⟩

theorem startP_dP (o : Cfg) (q a : PSt) (e : startP o false q = some a) (hc : o.tpr.const_p = false) : a.dP = q.dP := by
  unfold startP at e
  simp only [Bool.false_eq_true, if_false, Option.bind_eq_bind] at e
  obtain ⟨s', -, e⟩ := Option.bind_eq_some_iff.1 e
  rw [Option.some.injEq] at e
  rw [← e]
  unfold calcDelta; simp [hc]

theorem inA_eq (o : Cfg) (q a : PSt) (rc2 : ℕ → ℝ) (e : startP o false q = some a) (h : Start o false q a) (i : ℕ) :
    inA a rc2 i = given o q rc2 i ∧ stA o a i = stA o q i ∧ a.s.d.nDims = q.s.d.nDims := by
  refine ⟨?_, ?_, h.geo.nDims⟩
  · unfold inA given
    simp only
    rw [h.dRv, h.dTh, h.dRh, h.geo.n, h.geo.dv, h.geo.ijk, h.lamD, h.lamK, h.rd3, h.kpa, h.vt, h.dotSsp]
    congr 1
    split_ifs with hc
    · rw [h.dP hc]
    · rw [startP_dP o q a e (by simpa using hc)]
  · unfold stA; rw [h.tRv, h.tTh, h.tRh, h.tP, h.ssp, h.rw2]

theorem adaptiveRun_frm (o : Cfg) (eps mx : ℝ) (act : ℕ) (rc2 : ℕ → ℝ) (junk : ℕ → ℝ × ℝ × ℝ) (q : PSt) : Frm q (adaptiveRun o eps mx act rc2 junk q) :=
  ⟨Geo.refl _, rfl, rfl, rfl, rfl, rfl, rfl, rfl, rfl, rfl, rfl, rfl, rfl, rfl, rfl, rfl⟩

/-- cell fields after the substeps, without mixing -/
theorem finish_ok (o : Cfg) (allow : Bool) (q a b : PSt) (hs : Sorted q.s.d) (h : Start o false q a) (F : Frm a b) :
    ∃ s q', calcChange b.s = some s ∧ q' = saveP o allow { b with s := updateThRv { o with ice := false } s } ∧ Geo q.s.d q'.s.d ∧
      q'.s.rw2 = b.s.rw2 ∧ q'.s.rd3 = q.s.rd3 ∧ q'.s.kpa = q.s.kpa ∧ q'.s.ssp = b.s.ssp ∧ q'.s.p = q.s.p ∧ ∀ c < q.s.d.nCell,
      q'.s.rv c = q.s.rv c - mltW * (Wd q.s.d q'.s.rw2 c - Wd q.s.d q.s.rw2 c) ∧
      q'.s.th c = q.s.th c - mltW * (Wd q.s.d q'.s.rw2 c - Wd q.s.d q.s.rw2 c) * d_th_d_rv (q.s.T c) (q.s.th c) := by
  classical
  have G := h.geo.trans F.geo
  obtain ⟨d, e1, l1, g1⟩ := mom3_ok (G.sorted hs) b.s.rw2
  unfold calcChange
  simp only [e1, Option.bind_eq_bind, Option.bind_some]
  set s1 : St := { b.s with d := d, drw := permMap (fun m x => m + x) d b.s.drw } with hs1
  obtain ⟨p1, p2, p3, p4, p5, p6, p7⟩ := saveP_eq o allow { b with s := updateThRv { o with ice := false } s1 }
  refine ⟨s1, _, rfl, rfl, ?_, ?_, ?_, ?_, ?_, ?_, fun c hc => ?_⟩
  · rw [p1]; exact G.trans g1
  · rw [p2]; rfl
  · rw [p5]; show b.s.rd3 = _; rw [F.rd3, h.rd3]
  · rw [p6]; show b.s.kpa = _; rw [F.kpa, h.kpa]
  · unfold saveP; split_ifs <;> rfl
  · rw [p7]; show b.s.p = _; rw [F.p, h.p]
  · rw [p2, p3, p4]
    have hd : s1.drw c = Wd q.s.d b.s.rw2 c - Wd q.s.d q.s.rw2 c := by
      rw [hs1]
      simp only
      rw [permMap_eq l1, F.drw, h.drw rfl c hc, G.Wd]
      split_ifs with ho
      · ring
      · have : ¬ occ q.s.d c := fun hh => ho ((g1.occ c).2 ((G.occ c).2 hh))
        rw [Wd_unocc _ _ _ this, Wd_unocc _ _ _ this]; ring
    have e2 : (updateThRv { o with ice := false } s1).rw2 = b.s.rw2 := rfl
    have e3 : (updateThRv { o with ice := false } s1).rv c = s1.rv c - s1.drw c * mltW := rfl
    have e4 : (updateThRv { o with ice := false } s1).th c = s1.th c - s1.drw c * mltW * d_th_d_rv (s1.T c) (s1.th c) := rfl
    have e5 : s1.rv = q.s.rv := by show b.s.rv = _; rw [F.rv, h.rv]
    have e6 : s1.th = q.s.th := by show b.s.th = _; rw [F.th, h.th]
    have e7 : s1.T = q.s.T := by show b.s.T = _; rw [F.T, h.T]
    simp only [e2, e3, e4]
    rw [hd, e5, e6, e7]
    constructor <;> ring

/-- the whole step, in terms of what the functor returns -/
theorem condAdaptive_eq (o : Cfg) (eps mx : ℝ) (act : ℕ) (rc2 : ℕ → ℝ) (junk : ℕ → ℝ × ℝ × ℝ) (allow : Bool) (q : PSt) (hs : Sorted q.s.d) :
    ∃ a q', startP o false q = some a ∧ Start o false q a ∧ condAdaptive o eps mx act rc2 junk allow q = some q' ∧ Geo q.s.d q'.s.d ∧
      (∀ i, q'.s.rw2 i = (adaptiveF (optsA o eps mx act q) (given o q rc2 i) (junk i) (stA o q i)).2.rw2) ∧
      (o.turb = true → ∀ i, q'.s.ssp i = (adaptiveF (optsA o eps mx act q) (given o q rc2 i) (junk i) (stA o q i)).2.ssp) ∧
      q'.s.rd3 = q.s.rd3 ∧ q'.s.kpa = q.s.kpa ∧ (∃ r, q' = saveP o allow r) ∧ ∀ c < q.s.d.nCell,
      q'.s.rv c = q.s.rv c - mltW * (Wd q.s.d q'.s.rw2 c - Wd q.s.d q.s.rw2 c) ∧
      q'.s.th c = q.s.th c - mltW * (Wd q.s.d q'.s.rw2 c - Wd q.s.d q.s.rw2 c) * d_th_d_rv (q.s.T c) (q.s.th c) := by
  obtain ⟨a, e, h⟩ := startP_ok o false q hs
  obtain ⟨s, q', e1, e2, g, r, z1, z2, z3, -, w⟩ := finish_ok o allow q a _ hs h (adaptiveRun_frm o eps mx act rc2 junk a)
  refine ⟨a, q', e, h, ?_, g, fun i => ?_, fun ht i => ?_, z1, z2, ⟨_, e2⟩, w⟩
  · unfold condAdaptive; rw [e]; simp only [Option.bind_eq_bind, Option.bind_some]; rw [e1, Option.bind_some, e2]
  · obtain ⟨x1, x2, x3⟩ := inA_eq o q a rc2 e h i
    rw [r]
    show (adaptiveF ⟨o, eps, mx, act, a.s.d.nDims⟩ (inA a rc2 i) (junk i) (stA o a i)).2.rw2 = _
    rw [x1, x2, x3]; rfl
  · obtain ⟨x1, x2, x3⟩ := inA_eq o q a rc2 e h i
    rw [z3]
    show (if o.turb then fun i => (adaptiveF ⟨o, eps, mx, act, a.s.d.nDims⟩ (inA a rc2 i) (junk i) (stA o a i)).2.ssp else _) i = _
    rw [if_pos ht, x1, x2, x3]; rfl

/-- **C61 (substeps).** Every super-droplet's size (and its supersaturation perturbation) at the end of the step is that at the end of a
history of `m` equal substeps in its own air, where `m` is: `2^(j-1)` for the first `j` such that a first substep of `dt/2^j` gives
half of what one of `dt/2^(j-1)` does, within the tolerance, if the squared radius would not change too much; `sstp_cond` if there is none;
`sstp_cond_act` instead if the droplet is found to cross its critical radius.  Exactly the ambient change of the time step is
applied (`off = 0`), except that `1 + 1/2^j` times it is if both the tolerance was met and the droplet is found to cross its critical radius. -/
theorem adaptive_history (o : Cfg) (eps mx : ℝ) (act : ℕ) (rc2 : ℕ → ℝ) (junk : ℕ → ℝ × ℝ × ℝ) (allow : Bool) (q q' : PSt) (hs : Sorted q.s.d)
    (hc : o.tpr.th_dry = true ∨ o.tpr.const_p = true) (hm : 1 ≤ o.sstp) (e : condAdaptive o eps mx act rc2 junk allow q = some q') (i : ℕ) (hr : 0 ≤ q.s.rw2 i) :
    ∃ m off half r v h, Chosen (optsA o eps mx act q) (given o q rc2 i) (stA o q i) m off half ∧ 1 ≤ m ∧
      History (optsA o eps mx act q) (given o q rc2 i) (stA o q i) m off half r v h ∧ q'.s.rw2 i = r m ∧
      (o.turb = true → q'.s.ssp i = q.s.ssp i + (1 + off) * (o.dt * q.s.dotSsp i)) := by
  obtain ⟨a, q1, -, -, e', -, h1, h2, -⟩ := condAdaptive_eq o eps mx act rc2 junk allow q hs
  rw [e] at e'
  obtain rfl : q' = q1 := by simpa using e'
  obtain ⟨off, half, r, v, h, c1, c2, c3, c4, -, -, c7⟩ := adaptiveF_ok (optsA o eps mx act q) (given o q rc2 i) hc hm (junk i) (stA o q i) hr
  refine ⟨_, off, half, r, v, h, c1, c2, c3, ?_, fun ht => ?_⟩
  · rw [h1 i]; exact c4
  · rw [h2 ht i, c7.ssp, if_pos (show (optsA o eps mx act q).cfg.turb = true from ht)]
    show (if o.turb then q.s.ssp i else 0) + _ * (o.dt * q.s.dotSsp i) = _
    rw [if_pos ht]; ring

theorem adaptiveF_nonneg (c : ACfg) (x : AIn) (hc : c.cfg.tpr.th_dry = true ∨ c.cfg.tpr.const_p = true) (hs : 1 ≤ c.cfg.sstp) (junk : ℝ × ℝ × ℝ) (s : ASt)
    (hr : 0 ≤ s.rw2) : 0 ≤ (adaptiveF c x junk s).2.rw2 := by
  obtain ⟨_, _, _, _, _, _, _, _, _, _, _, c7⟩ := adaptiveF_ok c x hc hs junk s hr
  exact c7.rw2

/-- **C61 (budgets).** Whatever number of substeps each super-droplet takes, total water of every cell is conserved exactly, and potential
temperature changes by the latent heat of what has condensed, at the temperature that the cell had before the step. -/
theorem adaptive_water (o : Cfg) (eps mx : ℝ) (act : ℕ) (rc2 : ℕ → ℝ) (junk : ℕ → ℝ × ℝ × ℝ) (allow : Bool) (q : PSt) (hs : Sorted q.s.d)
    (hc : o.tpr.th_dry = true ∨ o.tpr.const_p = true) (hm : 1 ≤ o.sstp) (hr : ∀ i < q.s.d.N, 0 ≤ q.s.rw2 i) :
    ∃ q', condAdaptive o eps mx act rc2 junk allow q = some q' ∧ q'.s.d.N = q.s.d.N ∧ q'.s.d.n = q.s.d.n ∧ q'.s.d.ijk = q.s.d.ijk ∧
      q'.s.d.rhod = q.s.d.rhod ∧ ∀ c < q.s.d.nCell,
      let dq := (liquidMass q'.s c - liquidMass q.s c) / airMass q.s (q.s.d.rhod c) c
      q'.s.rv c = q.s.rv c - dq ∧ q'.s.th c = q.s.th c + dq * (q.s.th c / q.s.T c * l_v (q.s.T c) / c_pd) := by
  obtain ⟨a, q', -, -, e', g, h1, -, -, -, -, w⟩ := condAdaptive_eq o eps mx act rc2 junk allow q hs
  have hr' : ∀ i < q.s.d.N, 0 ≤ q'.s.rw2 i := fun i hi => by
    rw [h1 i]; exact adaptiveF_nonneg _ _ hc hm _ _ (hr i hi)
  refine ⟨q', e', g.N, g.n, g.ijk, g.rhod, fun c hcc => ?_⟩
  obtain ⟨w1, w2⟩ := w c hcc
  have m0 := Wd_mass q.s hr c
  have m1 := Wd_mass q'.s (by rw [g.N]; exact hr') c
  have hair : airMass q'.s (q'.s.d.rhod c) c = airMass q.s (q.s.d.rhod c) c := by unfold airMass; rw [g.nDims, g.dv, g.rhod]
  rw [g.Wd, hair] at m1
  rw [mul_sub, m0, m1] at w1 w2
  constructor
  · rw [w1]; ring
  · rw [w2]; unfold d_th_d_rv; ring

/-- histories keep radii above the dry one -/
theorem History.radii {c : ACfg} {x : AIn} {s : ASt} {m : ℕ} {off : ℝ} {half : Prop} {r v h : ℕ → ℝ} (H : History c x s m off half r v h)
    (hN : c.cfg.num.Ok) (hd : 0 < x.rd3) (hr : cbrt x.rd3 ^ 2 ≤ s.rw2) (k : ℕ) (hk : k ≤ m) : cbrt x.rd3 ^ 2 ≤ r k := by
  have hp := cbrt_pos x.rd3 hd
  induction k with
  | zero => rw [H.r0]; exact hr
  | succ k ih =>
    have i1 := ih (by omega)
    obtain ⟨e, -⟩ := H.step k (by omega)
    rw [e]
    have h0 : 0 < r k := lt_of_lt_of_le (by positivity) i1
    exact ((advance_inv c.cfg.num hN (airA c x _ _ _ _ _) (c.cfg.dt / m) (r k) (Or.inr ⟨h0, i1⟩) hd).2 h0).2

/-- **C61 (particles).** Droplets never become smaller than their dry radius. -/
theorem adaptive_radii (o : Cfg) (hN : o.num.Ok) (eps mx : ℝ) (act : ℕ) (rc2 : ℕ → ℝ) (junk : ℕ → ℝ × ℝ × ℝ) (allow : Bool) (q q' : PSt) (hs : Sorted q.s.d)
    (hc : o.tpr.th_dry = true ∨ o.tpr.const_p = true) (hm : 1 ≤ o.sstp) (e : condAdaptive o eps mx act rc2 junk allow q = some q') :
    q'.s.rd3 = q.s.rd3 ∧ q'.s.kpa = q.s.kpa ∧ ∀ i, 0 < q.s.rd3 i → cbrt (q.s.rd3 i) ^ 2 ≤ q.s.rw2 i → cbrt (q.s.rd3 i) ^ 2 ≤ q'.s.rw2 i := by
  obtain ⟨a, q1, -, -, e', -, -, -, z1, z2, -⟩ := condAdaptive_eq o eps mx act rc2 junk allow q hs
  rw [e] at e'
  obtain rfl : q' = q1 := by simpa using e'
  refine ⟨z1, z2, fun i hd h => ?_⟩
  have hp := cbrt_pos _ hd
  obtain ⟨m, off, half, r, v, hh, -, -, H, hw, -⟩ := adaptive_history o eps mx act rc2 junk allow q q' hs hc hm e i (le_trans (by positivity) h)
  rw [hw]
  exact H.radii hN hd h m le_rfl

/-- **C61 (between steps).** With substeps allowed, every super-droplet's air is that of its cell at the end of the step. -/
theorem adaptive_saved (o : Cfg) (eps mx : ℝ) (act : ℕ) (rc2 : ℕ → ℝ) (junk : ℕ → ℝ × ℝ × ℝ) (q q' : PSt) (hs : Sorted q.s.d)
    (e : condAdaptive o eps mx act rc2 junk true q = some q') :
    (∀ i, q'.s.tRv i = q'.s.rv (q'.s.d.ijk i) ∧ q'.s.tTh i = q'.s.th (q'.s.d.ijk i) ∧ q'.s.tRh i = q'.s.d.rhod (q'.s.d.ijk i)) ∧
    (o.tpr.const_p = true → ∀ i, q'.tP i = q'.s.p (q'.s.d.ijk i)) := by
  obtain ⟨a, q1, -, -, e', -, -, -, -, -, ⟨r, hr⟩, -⟩ := condAdaptive_eq o eps mx act rc2 junk true q hs
  rw [e] at e'
  obtain rfl : q' = q1 := by simpa using e'
  rw [hr]
  unfold saveP
  simp only [if_true]
  exact ⟨fun i => ⟨trivial, trivial, trivial⟩, fun hc i => by rw [if_pos hc]⟩

/-- a history is determined by what it starts from -/
theorem History.unique {c : ACfg} {x : AIn} {s : ASt} {m : ℕ} {off : ℝ} {half : Prop} {r v h r' v' h' : ℕ → ℝ} (H : History c x s m off half r v h)
    (H' : History c x s m off half r' v' h') (k : ℕ) (hk : k ≤ m) : r k = r' k ∧ v k = v' k ∧ h k = h' k := by
  classical
  induction k with
  | zero => exact ⟨H.r0.trans H'.r0.symm, H.v0.trans H'.v0.symm, H.h0.trans H'.h0.symm⟩
  | succ k ih =>
    obtain ⟨i1, i2, i3⟩ := ih (by omega)
    obtain ⟨a1, a2, T, a3, a4, a5⟩ := H.step k (by omega)
    obtain ⟨b1, b2, T', b3, b4, b5⟩ := H'.step k (by omega)
    have e1 : r (k + 1) = r' (k + 1) := by rw [a1, b1, i1, i2, i3]
    have eT : T = T' := by
      by_cases hh : half ∧ k = 0
      · rw [a3 hh, b3 hh]
      · rw [a4 hh, b4 hh, i2, i3]
    refine ⟨e1, ?_, ?_⟩
    · rw [a2, b2, e1, i1, i2]
    · rw [a5, b5, eT, e1, i1, i3]

/-- the choice is unique -/
theorem Chosen.unique {c : ACfg} {x : AIn} {s : ASt} {m m' : ℕ} {off off' : ℝ} {half half' : Prop} (H : Chosen c x s m off half) (H' : Chosen c x s m' off' half') :
    m = m' ∧ off = off' ∧ (half ↔ half') := by
  have hj : ∀ j j', FirstConverged c x s j → FirstConverged c x s j' → j = j' := by
    intro j j' a b
    rcases lt_trichotomy j j' with h | h | h
    · exact absurd a.2.2.1 (b.2.2.2 j a.1 h)
    · exact h
    · exact absurd b.2.2.1 (a.2.2.2 j' b.1 h)
  have hJ : ∀ J J', NeverConverged c x s J → NeverConverged c x s J' → J = J' := by
    intro J J' a b
    by_contra hne
    rcases lt_or_gt_of_ne hne with h | h
    · have := Nat.pow_le_pow_right (show 0 < 2 by norm_num) (Nat.succ_le_of_lt h)
      have h1 := a.2.1; have h2 := b.1
      change 2 ^ (J + 1) ≤ _ at this
      omega
    · have := Nat.pow_le_pow_right (show 0 < 2 by norm_num) (Nat.succ_le_of_lt h)
      have h1 := b.2.1; have h2 := a.1
      change 2 ^ (J' + 1) ≤ _ at this
      omega
  have hjJ : ∀ j J, FirstConverged c x s j → NeverConverged c x s J → False := by
    intro j J a b
    by_cases h : j ≤ J
    · exact b.2.2 j a.1 h a.2.2.1
    · have := Nat.pow_le_pow_right (show 0 < 2 by norm_num) (show J + 1 ≤ j by omega)
      have h1 := b.2.1; have h2 := a.2.1
      omega
  rcases H with ⟨j, a, b⟩ | ⟨j, a, b⟩ | ⟨j, a, b⟩ | ⟨j, a, b⟩ <;> rcases H' with ⟨j', a', b'⟩ | ⟨j', a', b'⟩ | ⟨j', a', b'⟩ | ⟨j', a', b'⟩
  all_goals first
    | (exfalso; exact hjJ _ _ a a')
    | (exfalso; exact hjJ _ _ a' a)
    | (obtain rfl := hj _ _ a a'; first | exact ⟨rfl, rfl, Iff.rfl⟩ | exact absurd b' b | exact absurd b b')
    | (obtain rfl := hJ _ _ a a'; first | exact ⟨rfl, rfl, Iff.rfl⟩ | exact absurd b' b | exact absurd b b')

/-- the scheme with a fixed number of substeps gives such a history, with the whole ambient change -/
theorem fixed_history (o : Cfg) (eps mx : ℝ) (act : ℕ) (rc2 : ℕ → ℝ) (q a : PSt) (hs : Sorted q.s.d) (hc : o.tpr.th_dry = true ∨ o.tpr.const_p = true)
    (hr : ∀ i < q.s.d.N, 0 ≤ q.s.rw2 i) (m : ℕ) (ha : startP { o with sstp := m } false q = some a) (i : ℕ) (hi : i < q.s.d.N) :
    History (optsA o eps mx act q) (given o q rc2 i) (stA o q i) m 0 False (fun k => (runP { o with sstp := m } false a k).s.rw2 i)
      (fun k => (runP { o with sstp := m } false a k).s.tRv i) (fun k => (runP { o with sstp := m } false a k).s.tTh i) := by
  obtain ⟨a', e, A⟩ := startP_ok { o with sstp := m } false q hs
  rw [ha] at e
  obtain rfl : a = a' := by simpa using e
  have hs' := A.geo.sorted hs
  refine ⟨?_, ?_, ?_, fun k hk => ?_⟩
  · show a.s.rw2 i = _; rw [A.rw2]; rfl
  · show a.s.tRv i = _; rw [A.tRv, zero_mul, add_zero]; rfl
  · show a.s.tTh i = _; rw [A.tTh, zero_mul, add_zero]; rfl
  · obtain ⟨h1, h2, h3, h4, h5, -, h7, h8⟩ := perpart_substep { o with sstp := m } false q a hs hr ha k hk i hi
    obtain ⟨-, -, -, j4⟩ := runP_ok { o with sstp := m } false a hs' k hk.le
    have F := runP_frm { o with sstp := m } false a hs' k
    simp only [Bool.false_eq_true, if_false] at h7 h8
    have jm : (m : ℝ) ≠ 0 := by
      have : (0 : ℝ) < m := by exact_mod_cast (lt_of_le_of_lt (Nat.zero_le _) hk)
      exact this.ne'
    set b := runP { o with sstp := m } false a k with hb
    intro f rv th rho e dq
    have erho : q.s.tRh i + ((k : ℝ) + 1) * ((q.s.d.rhod (q.s.d.ijk i) - q.s.tRh i) / m) = rho := by
      show _ = q.s.tRh i + (0 + ((k : ℝ) + 1) / m) * (q.s.d.rhod (q.s.d.ijk i) - q.s.tRh i); ring
    simp only [erho] at h1 h7 h8
    set P : ℝ := if o.tpr.const_p = true then q.tP i + ((k : ℝ) + 1) * ((q.s.p (q.s.d.ijk i) - q.tP i) / m) else b.tP i with hP
    have ep : o.tpr.const_p = true → P = (stA o q i).p + f * (given o q rc2 i).dP := by
      intro h
      rw [hP, if_pos h]
      show _ = (if o.tpr.const_p then q.tP i else 0) + (0 + ((k : ℝ) + 1) / m) * (if o.tpr.const_p then q.s.p (q.s.d.ijk i) - q.tP i else q.dP i)
      rw [if_pos h, if_pos h]; ring
    have eT : TofCell o.tpr th rho P = e.T := TofCell_congr _ hc _ _ _ _ ep
    have eE : airFor { o with sstp := m } b i rv th rho P = e := by
      unfold airFor
      simp only
      rw [eT]
      show _ = airA (optsA o eps mx act q) (given o q rc2 i) rv th rho _ _
      unfold airA
      simp only
      rw [pOfCell_congr _ _ _ _ _ _ ep, h2, h3, h4, h5, F.lamD, F.lamK, A.lamD, A.lamK]
      congr 1
      show _ + (if o.turb = true then b.s.ssp i + o.dt / m * b.s.dotSsp i else 0) = _ + (if o.turb = true then _ else 0)
      congr 1
      have := j4 i
      split_ifs at this ⊢ with ht
      · rw [this, F.dotSsp, A.dotSsp, A.ssp]
        show _ = (if o.turb then q.s.ssp i else 0) + (0 + ((k : ℝ) + 1) / m) * (o.dt * q.s.dotSsp i)
        rw [if_pos ht]; ring
      · rfl
    have edq : ∀ r r', dqOf q.s i r r' rho = dqA (optsA o eps mx act q) (given o q rc2 i) rho r r' := by
      intro r r'
      unfold dqOf dqA airMass
      show _ = (q.s.d.n i : ℝ) * _ / (if 0 < q.s.d.nDims then rho * q.s.d.dv (q.s.d.ijk i) else 1)
      rcases Nat.eq_zero_or_pos q.s.d.nDims with h | h
      · simp [h]
      · rw [if_neg h.ne', if_pos h, mul_comm rho]
    refine ⟨?_, ?_, _, fun h => h.1.elim, fun _ => rfl, ?_⟩
    · rw [← eE]; exact h1
    · show _ = rv - dq
      rw [h7, edq]
      rfl
    · show _ = th + dq * (th / e.T * l_v e.T / c_pd)
      rw [h8, edq, ← eT]
      rfl

/-- the size is that of the scheme with `m` substeps for all, if the history is like that -/
theorem adaptive_of_chosen (o : Cfg) (eps mx : ℝ) (act : ℕ) (rc2 : ℕ → ℝ) (junk : ℕ → ℝ × ℝ × ℝ) (al1 al2 : Bool) (l1 l2 : List ℕ) (q q' r' : PSt) (hs : Sorted q.s.d)
    (hc : o.tpr.th_dry = true ∨ o.tpr.const_p = true) (hm : 1 ≤ o.sstp) (hr : ∀ i < q.s.d.N, 0 ≤ q.s.rw2 i)
    (e : condAdaptive o eps mx act rc2 junk al1 q = some q') (m : ℕ) (e' : condPerPart { o with sstp := m } false al2 l1 l2 q = some r') (i : ℕ) (hi : i < q.s.d.N)
    (half : Prop) (hch : Chosen (optsA o eps mx act q) (given o q rc2 i) (stA o q i) m 0 half) (hh : half → m = 1) : q'.s.rw2 i = r'.s.rw2 i := by
  obtain ⟨m1, off, half1, r, v, h, c1, c2, H, w, -⟩ := adaptive_history o eps mx act rc2 junk al1 q q' hs hc hm e i (hr i hi)
  obtain ⟨rfl, rfl, hiff⟩ := c1.unique hch
  obtain ⟨a, ea, A⟩ := startP_ok { o with sstp := m1 } false q hs
  obtain ⟨r1, x1, -, y1, -⟩ := nomix_end { o with sstp := m1 } al2 l1 l2 q a hs ea A
  rw [e'] at x1
  obtain rfl : r' = r1 := by simpa using x1
  rw [w, y1]
  have H' := fixed_history o eps mx act rc2 q a hs hc hr m1 ea i hi
  by_cases hf : half
  · -- a single substep: temperature does not matter for the size
    have hm1 := hh hf
    obtain ⟨b1, -⟩ := H.step 0 (by omega)
    obtain ⟨b2, -⟩ := H'.step 0 (by omega)
    show r m1 = (runP { o with sstp := m1 } false a m1).s.rw2 i
    have : m1 = 0 + 1 := hm1
    rw [show (runP { o with sstp := m1 } false a m1).s.rw2 i = (runP { o with sstp := m1 } false a (0 + 1)).s.rw2 i by rw [← this], show r m1 = r (0 + 1) by rw [← this], b1, b2,
      H.r0, H.v0, H.h0, H'.r0, H'.v0, H'.h0]
  · have hf1 : ¬ half1 := fun h => hf (hiff.1 h)
    have hF : half1 = False := propext ⟨hf1, False.elim⟩
    rw [hF] at H
    exact (H.unique H' m1 le_rfl).1

/-- **C61 (as many substeps as allowed).** A droplet for which no number of substeps is found sufficient, and that does not cross its critical radius,
grows as with `sstp_cond` substeps for all droplets. -/
theorem adaptive_as_max (o : Cfg) (eps mx : ℝ) (act : ℕ) (rc2 : ℕ → ℝ) (junk : ℕ → ℝ × ℝ × ℝ) (al1 al2 : Bool) (l1 l2 : List ℕ) (q q' r' : PSt) (hs : Sorted q.s.d)
    (hc : o.tpr.th_dry = true ∨ o.tpr.const_p = true) (hm : 1 ≤ o.sstp) (hr : ∀ i < q.s.d.N, 0 ≤ q.s.rw2 i)
    (e : condAdaptive o eps mx act rc2 junk al1 q = some q') (e' : condPerPart o false al2 l1 l2 q = some r') (i : ℕ) (hi : i < q.s.d.N) (J : ℕ)
    (hJ : NeverConverged (optsA o eps mx act q) (given o q rc2 i) (stA o q i) J)
    (hX : ¬ Crosses (optsA o eps mx act q) (given o q rc2 i) (stA o q i) o.sstp (firstOf (optsA o eps mx act q) (given o q rc2 i) (stA o q i) (2 ^ J))) :
    q'.s.rw2 i = r'.s.rw2 i :=
  adaptive_of_chosen o eps mx act rc2 junk al1 al2 l1 l2 q q' r' hs hc hm hr e o.sstp e' i hi False (Chosen.max J hJ hX) False.elim

/-- **C61 (activation).** A droplet for which no number of substeps is found sufficient, and that crosses its critical radius, grows as with
`sstp_cond_act` substeps for all droplets. -/
theorem adaptive_as_act (o : Cfg) (eps mx : ℝ) (act : ℕ) (rc2 : ℕ → ℝ) (junk : ℕ → ℝ × ℝ × ℝ) (al1 al2 : Bool) (l1 l2 : List ℕ) (q q' r' : PSt) (hs : Sorted q.s.d)
    (hc : o.tpr.th_dry = true ∨ o.tpr.const_p = true) (hm : 1 ≤ o.sstp) (hr : ∀ i < q.s.d.N, 0 ≤ q.s.rw2 i)
    (e : condAdaptive o eps mx act rc2 junk al1 q = some q') (e' : condPerPart { o with sstp := act } false al2 l1 l2 q = some r') (i : ℕ) (hi : i < q.s.d.N) (J : ℕ)
    (hJ : NeverConverged (optsA o eps mx act q) (given o q rc2 i) (stA o q i) J)
    (hX : Crosses (optsA o eps mx act q) (given o q rc2 i) (stA o q i) o.sstp (firstOf (optsA o eps mx act q) (given o q rc2 i) (stA o q i) (2 ^ J))) :
    q'.s.rw2 i = r'.s.rw2 i :=
  adaptive_of_chosen o eps mx act rc2 junk al1 al2 l1 l2 q q' r' hs hc hm hr e act e' i hi False (Chosen.act J hJ hX) False.elim

/-- **C61 (one substep is enough).** A droplet for which one substep is found sufficient, and that does not cross its critical radius, grows as
without substeps. -/
theorem adaptive_as_one (o : Cfg) (eps mx : ℝ) (act : ℕ) (rc2 : ℕ → ℝ) (junk : ℕ → ℝ × ℝ × ℝ) (al1 al2 : Bool) (l1 l2 : List ℕ) (q q' r' : PSt) (hs : Sorted q.s.d)
    (hc : o.tpr.th_dry = true ∨ o.tpr.const_p = true) (hm : 2 ≤ o.sstp) (hr : ∀ i < q.s.d.N, 0 ≤ q.s.rw2 i)
    (e : condAdaptive o eps mx act rc2 junk al1 q = some q') (e' : condPerPart { o with sstp := 1 } false al2 l1 l2 q = some r') (i : ℕ) (hi : i < q.s.d.N)
    (hC : Converged (optsA o eps mx act q) (given o q rc2 i) (stA o q i) 1)
    (hX : ¬ Crosses (optsA o eps mx act q) (given o q rc2 i) (stA o q i) 1 (firstOf (optsA o eps mx act q) (given o q rc2 i) (stA o q i) 1)) :
    q'.s.rw2 i = r'.s.rw2 i := by
  have hF : FirstConverged (optsA o eps mx act q) (given o q rc2 i) (stA o q i) 1 := ⟨le_rfl, by show 2 ^ 1 ≤ o.sstp; simpa using hm, hC, fun i h1 h2 => by omega⟩
  have := Chosen.conv 1 hF (by simpa using hX)
  exact adaptive_of_chosen o eps mx act rc2 junk al1 al2 l1 l2 q q' r' hs hc (by omega) hr e 1 e' i hi True this (fun _ => rfl)

/-- **C61 (ambient change).** Unless a droplet both meets the tolerance and is found to cross its critical radius, exactly the
ambient change of the time step is applied: e.g. the supersaturation perturbation is integrated over `dt`. -/
theorem adaptive_ambient_partial (o : Cfg) (eps mx : ℝ) (act : ℕ) (rc2 : ℕ → ℝ) (junk : ℕ → ℝ × ℝ × ℝ) (allow : Bool) (q q' : PSt) (hs : Sorted q.s.d)
    (hc : o.tpr.th_dry = true ∨ o.tpr.const_p = true) (hm : 1 ≤ o.sstp) (e : condAdaptive o eps mx act rc2 junk allow q = some q') (i : ℕ) (hr : 0 ≤ q.s.rw2 i)
    (hno : ∀ j, FirstConverged (optsA o eps mx act q) (given o q rc2 i) (stA o q i) j →
      ¬ Crosses (optsA o eps mx act q) (given o q rc2 i) (stA o q i) (2 ^ (j - 1)) (firstOf (optsA o eps mx act q) (given o q rc2 i) (stA o q i) (2 ^ (j - 1)))) :
    (∃ m half r v h, 1 ≤ m ∧ History (optsA o eps mx act q) (given o q rc2 i) (stA o q i) m 0 half r v h ∧ q'.s.rw2 i = r m) ∧
    (o.turb = true → q'.s.ssp i = q.s.ssp i + o.dt * q.s.dotSsp i) := by
  obtain ⟨m, off, half, r, v, h, c1, c2, H, w, hss⟩ := adaptive_history o eps mx act rc2 junk allow q q' hs hc hm e i hr
  have h0 : off = 0 := by
    rcases c1 with ⟨j, a, b⟩ | ⟨j, a, b⟩ | ⟨j, a, b⟩ | ⟨j, a, b⟩
    · rfl
    · exact absurd b (hno j a)
    · rfl
    · rfl
  subst h0
  refine ⟨⟨m, half, r, v, h, c2, H, w⟩, fun ht => ?_⟩
  rw [hss ht]; ring

/-- **C61 (overshoot).** If both happen, too much is applied: the substeps begin after `1/2^j` of the ambient change, and all of it is applied again. -/
theorem adaptive_overshoot (o : Cfg) (eps mx : ℝ) (act : ℕ) (rc2 : ℕ → ℝ) (junk : ℕ → ℝ × ℝ × ℝ) (allow : Bool) (q q' : PSt) (hs : Sorted q.s.d)
    (hc : o.tpr.th_dry = true ∨ o.tpr.const_p = true) (hm : 1 ≤ o.sstp) (e : condAdaptive o eps mx act rc2 junk allow q = some q') (i : ℕ) (hr : 0 ≤ q.s.rw2 i) (j : ℕ)
    (hj : FirstConverged (optsA o eps mx act q) (given o q rc2 i) (stA o q i) j)
    (hX : Crosses (optsA o eps mx act q) (given o q rc2 i) (stA o q i) (2 ^ (j - 1)) (firstOf (optsA o eps mx act q) (given o q rc2 i) (stA o q i) (2 ^ (j - 1)))) :
    (∃ r v h, History (optsA o eps mx act q) (given o q rc2 i) (stA o q i) act (1 / 2 ^ j) False r v h ∧ q'.s.rw2 i = r act) ∧
    (o.turb = true → q'.s.ssp i = q.s.ssp i + (1 + 1 / 2 ^ j) * (o.dt * q.s.dotSsp i)) := by
  obtain ⟨m, off, half, r, v, h, c1, c2, H, w, hss⟩ := adaptive_history o eps mx act rc2 junk allow q q' hs hc hm e i hr
  obtain ⟨rfl, rfl, hiff⟩ := c1.unique (Chosen.convAct j hj hX)
  have hF : half = False := propext ⟨hiff.1, False.elim⟩
  rw [hF] at H
  exact ⟨⟨r, v, h, H, w⟩, hss⟩

/-- for every droplet that grows or shrinks there are options and a critical radius for which that happens -/
theorem overshoot_reachable (c : ACfg) (x : AIn) (s : ASt) (hr : 0 < s.rw2) (hm : 2 ≤ c.cfg.sstp) (ha : 1 < c.act) (hd : firstOf c x s 1 ≠ 0) :
    ∃ eps mx rc2, 0 < eps ∧ 0 < mx ∧ FirstConverged { c with eps := eps, mx := mx } { x with rc2 := rc2 } s 1 ∧
      Crosses { c with eps := eps, mx := mx } { x with rc2 := rc2 } s (2 ^ (1 - 1)) (firstOf { c with eps := eps, mx := mx } { x with rc2 := rc2 } s (2 ^ (1 - 1))) := by
  refine ⟨(|2 * firstOf c x s 2 - firstOf c x s 1| + 1) / s.rw2, (|firstOf c x s 1| + 1) / s.rw2, s.rw2 + firstOf c x s 1 / 2, by positivity, by positivity, ⟨le_rfl, by simpa using hm, ⟨?_, ?_⟩, fun i h1 h2 => by omega⟩, ha, ?_⟩
  · show |2 * firstOf c x s 2 - firstOf c x s 1| ≤ (|2 * firstOf c x s 2 - firstOf c x s 1| + 1) / s.rw2 * s.rw2
    rw [div_mul_cancel₀ _ hr.ne']; linarith
  · show |firstOf c x s 1| < (|firstOf c x s 1| + 1) / s.rw2 * s.rw2
    rw [div_mul_cancel₀ _ hr.ne']; linarith
  · show (s.rw2 < s.rw2 + firstOf c x s 1 / 2 ∧ s.rw2 + firstOf c x s 1 / 2 < s.rw2 + ((1 : ℕ) : ℝ) * firstOf c x s 1) ∨
      (s.rw2 + firstOf c x s 1 / 2 < s.rw2 ∧ s.rw2 + ((1 : ℕ) : ℝ) * firstOf c x s 1 < s.rw2 + firstOf c x s 1 / 2)
    push_cast
    rcases lt_or_gt_of_ne hd with h | h
    · right; constructor <;> linarith
    · left; constructor <;> linarith

/-! ## Non-vacuity -/

/-- the two super-droplets of `exPart`, with supersaturation perturbations increasing in time -/
noncomputable def exAd : PSt := { exPart with s := { exPart.s with dotSsp := fun _ => 1e-3 } }

/-- at most two substeps in 1 s, constant pressure, supersaturation perturbations -/
noncomputable def exAC : Cfg := { exPC with turb := true }

theorem exAd_sorted : Sorted exAd.s.d := exPart_sorted

theorem exAd_rw2 (i : ℕ) : 1e-10 ≤ exAd.s.rw2 i := by
  show (1e-10 : ℝ) ≤ if i = 0 then 1e-6 else 1e-10
  split_ifs <;> norm_num

theorem exAd_pos (i : ℕ) : 0 < exAd.s.rw2 i := by linarith [exAd_rw2 i, show (0 : ℝ) < 1e-10 by norm_num]

/-- both grow in whatever substep is tried -/
theorem exAd_grows (eps mx : ℝ) (act : ℕ) (rc2 : ℕ → ℝ) (i t : ℕ) (ht : 1 ≤ t) : 0 < firstOf (optsA exAC eps mx act exAd) (given exAC exAd rc2 i) (stA exAC exAd i) t := by
  have ht' : (1 : ℝ) ≤ t := by exact_mod_cast ht
  have hf0 : (0 : ℝ) < 1 / t := by positivity
  have hf1 : (1 : ℝ) / t ≤ 1 := by rw [div_le_one (by linarith)]; exact ht'
  unfold firstOf
  set f : ℝ := 1 / t
  set E := airAfter (optsA exAC eps mx act exAd) (given exAC exAd rc2 i) (stA exAC exAd i) f with hE
  have hT0 : ∀ rho, TofCell exAC.tpr 273.16 rho 100000 = 273.16 := by
    intro rho
    unfold TofCell
    rw [if_neg (show ¬ exAC.tpr.th_dry = true by simp [exAC, exPC])]
    unfold exner p_1000
    rw [div_self (by norm_num), Real.one_rpow, mul_one]
  have hE' : E = airA (optsA exAC eps mx act exAd) (given exAC exAd rc2 i) 10 273.16 (1.2 + f * (1 - 1.2)) 100000 (0 + f * (1 * 1e-3)) := by
    rw [hE]; unfold airAfter
    have a1 : (stA exAC exAd i).rv + f * (given exAC exAd rc2 i).dRv = 10 := by
      show (10 : ℝ) + f * (10 - 10) = 10; ring
    have a2 : (stA exAC exAd i).th + f * (given exAC exAd rc2 i).dTh = 273.16 := by
      show (273.16 : ℝ) + f * (273.16 - 273.16) = 273.16; ring
    have a3 : (stA exAC exAd i).p + f * (given exAC exAd rc2 i).dP = 100000 := by
      show (100000 : ℝ) + f * (100000 - 100000) = 100000; ring
    rw [a1, a2, a3]
    rfl
  have hRH : (50 : ℝ) < RHof exAC.tpr.RH_formula 100000 10 273.16 := by
    show 50 < p_v 100000 10 / p_vs 273.16
    have hps : p_vs 273.16 = 611.73 := by
      unfold p_vs p_tri
      rw [show T_tri = 273.16 from rfl, sub_self, mul_zero, div_self (by norm_num), Real.log_one, mul_zero, sub_self, Real.exp_zero, mul_one]
    rw [hps]
    unfold p_v Common.eps M_v M_d M_H M_OH
    norm_num
  have f1 : E.rhod = 1.2 + f * (1 - 1.2) := by rw [hE']; rfl
  have f2 : E.rv = 10 := by rw [hE']; rfl
  have f3 : E.T = 273.16 := by rw [hE']; exact hT0 (1.2 + f * (1 - 1.2))
  have f4 : 50 < E.RH := by
    rw [hE']
    show 50 < RHof exAC.tpr.RH_formula 100000 10 (TofCell exAC.tpr 273.16 (1.2 + f * (1 - 1.2)) 100000) + (0 + f * (1 * 1e-3))
    rw [hT0]
    have : 0 ≤ 0 + f * (1 * 1e-3) := by positivity
    linarith
  have f5 : E.eta = visc 273.16 := by rw [hE']; show visc (TofCell exAC.tpr 273.16 (1.2 + f * (1 - 1.2)) 100000) = _; rw [hT0]
  have f6 : E.rd3 = 1e-24 := by rw [hE']; rfl
  have f7 : E.kpa = 0.6 := by rw [hE']; rfl
  have f8 : E.vt = 0 := by rw [hE']; rfl
  have hl := lambda_pos 273.16 100000 (by norm_num) (by norm_num)
  have f9 : E.lamD = lambda_D 273.16 := by rw [hE']; rfl
  have f10 : E.lamK = lambda_K 273.16 100000 := by rw [hE']; rfl
  have f11 : E.RHmax = 44 := by rw [hE']; rfl
  have hok : E.Ok := by
    constructor
    · rw [f1]; nlinarith
    · rw [f2]; norm_num
    · rw [f3]; norm_num
    · rw [f3]; norm_num
    · linarith
    · rw [f5]; exact visc_pos _ (by norm_num)
    · rw [f8]
    · rw [f9]; exact hl.1.le
    · rw [f10]; exact hl.2.le
    · rw [f11]; norm_num
  have hr := exAd_rw2 i
  have hr0 := exAd_pos i
  have hcb : cbrt E.rd3 = 1e-8 := by
    rw [f6, show (1e-24 : ℝ) = (1e-8 : ℝ) ^ 3 by norm_num]
    exact cube_cbrt _ (by norm_num)
  rw [sub_pos]
  show exAd.s.rw2 i < advance numDbl E (1 / t) (exAd.s.rw2 i)
  refine (advance_grows_partial E hok _ _ hf0 hr0 (by rw [hcb]; norm_num at hr ⊢; linarith)).1 ?_
  have hmin : min E.RH E.RHmax = 44 := by rw [f11]; exact min_eq_right (by linarith)
  rw [hmin, f3, f6, f7]
  have hs : (1e-5 : ℝ) ≤ Real.sqrt (exAd.s.rw2 i) := by
    rw [show (1e-5 : ℝ) = Real.sqrt (1e-10) by rw [show (1e-10 : ℝ) = 1e-5 ^ 2 by norm_num, Real.sqrt_sq (by norm_num)]]
    exact Real.sqrt_le_sqrt hr
  set x := Real.sqrt (exAd.s.rw2 i)
  unfold koehler
  have hx3 : (1e-15 : ℝ) ≤ x ^ 3 := by
    have := pow_le_pow_left₀ (by norm_num) hs 3
    norm_num at this ⊢; linarith
  have h1 : (x ^ 3 - 1e-24) / (x ^ 3 - 1e-24 * (1 - 0.6)) ≤ 1 := by
    rw [div_le_one (by norm_num at hx3 ⊢; linarith)]
    linarith
  have h0 : 0 ≤ (x ^ 3 - 1e-24) / (x ^ 3 - 1e-24 * (1 - 0.6)) := by
    apply div_nonneg <;> (norm_num at hx3 ⊢; linarith)
  have hk : kelvinA 273.16 / x ≤ 1 := by
    rw [div_le_one (by linarith [show (0 : ℝ) < 1e-5 by norm_num])]
    refine le_trans ?_ hs
    unfold kelvinA sg_surf R_v kaBoNA M_v M_H M_OH rho_w
    norm_num
  have hex : Real.exp (kelvinA 273.16 / x) < 3 := lt_of_le_of_lt (Real.exp_le_exp.2 hk) (by linarith [Real.exp_one_lt_d9])
  have hex0 := Real.exp_pos (kelvinA 273.16 / x)
  nlinarith

theorem exAd_run (eps mx : ℝ) (act : ℕ) (rc2 : ℕ → ℝ) (junk : ℕ → ℝ × ℝ × ℝ) (allow : Bool) : ∃ q', condAdaptive exAC eps mx act rc2 junk allow exAd = some q' := by
  obtain ⟨q', e, -⟩ := adaptive_water exAC eps mx act rc2 junk allow exAd exAd_sorted (Or.inr rfl) (by norm_num [exAC, exPC]) (fun i _ => (exAd_pos i).le)
  exact ⟨q', e⟩

/-- a critical radius for which the first droplet's supersaturation perturbation is integrated over 1.5 s in a step of 1 s -/
example : ∃ eps mx rc2 q', 0 < eps ∧ 0 < mx ∧ condAdaptive exAC eps mx 8 (fun _ => rc2) (fun _ => (0, 0, 0)) true exAd = some q' ∧ q'.s.ssp 0 = 1.5 * 1e-3 := by
  obtain ⟨eps, mx, rc2, h1, h2, h3, h4⟩ := overshoot_reachable (optsA exAC 1 1 8 exAd) (given exAC exAd (fun _ => 0) 0) (stA exAC exAd 0) (exAd_pos 0)
    (by show 2 ≤ 2; norm_num) (by show 1 < 8; norm_num) (exAd_grows 1 1 8 _ 0 1 le_rfl).ne'
  obtain ⟨q', e⟩ := exAd_run eps mx 8 (fun _ => rc2) (fun _ => (0, 0, 0)) true
  refine ⟨eps, mx, rc2, q', h1, h2, e, ?_⟩
  rw [(adaptive_overshoot exAC eps mx 8 (fun _ => rc2) (fun _ => (0, 0, 0)) true exAd q' exAd_sorted (Or.inr rfl) (by norm_num [exAC, exPC]) e 0 (exAd_pos 0).le 1 h3 h4).2 rfl]
  show (0 : ℝ) + (1 + 1 / 2 ^ 1) * (1 * 1e-3) = _
  norm_num

/-- with no activation substeps and nothing ever close enough: two substeps -/
example : ∃ q' r', condAdaptive exAC 1e-4 0 1 (fun _ => 0) (fun _ => (0, 0, 0)) true exAd = some q' ∧ condPerPart exAC false true [] [] exAd = some r' ∧
    q'.s.rw2 0 = r'.s.rw2 0 ∧ q'.s.ssp 0 = 1e-3 := by
  obtain ⟨q', e⟩ := exAd_run 1e-4 0 1 (fun _ => 0) (fun _ => (0, 0, 0)) true
  obtain ⟨r', e', -⟩ := perpart_nomix_water exAC true [] [] exAd exAd_sorted (fun i _ => (exAd_pos i).le)
  have hnc : ∀ i, ¬ Converged (optsA exAC 1e-4 0 1 exAd) (given exAC exAd (fun _ => 0) 0) (stA exAC exAd 0) i := by
    rintro i ⟨-, h⟩
    have : (optsA exAC 1e-4 0 1 exAd).mx * (stA exAC exAd 0).rw2 = 0 := by show (0 : ℝ) * _ = 0; ring
    rw [this] at h
    exact absurd h (not_lt.2 (abs_nonneg _))
  refine ⟨q', r', e, e', adaptive_as_max exAC 1e-4 0 1 (fun _ => 0) _ true true [] [] exAd q' r' exAd_sorted (Or.inr rfl) (by norm_num [exAC, exPC]) (fun i _ => (exAd_pos i).le) e e' 0
    (by show 0 < 2; norm_num) 1 ⟨by show 2 ^ 1 ≤ 2; norm_num, by show 2 < 2 ^ 2; norm_num, fun i _ _ => hnc i⟩ ?_, ?_⟩
  · rintro ⟨h, -⟩; exact absurd h (by show ¬ 1 < 1; norm_num)
  · rw [(adaptive_ambient_partial exAC 1e-4 0 1 (fun _ => 0) _ true exAd q' exAd_sorted (Or.inr rfl) (by norm_num [exAC, exPC]) e 0 (exAd_pos 0).le (fun j h => absurd h.2.2.1 (hnc j))).2 rfl]
    show (0 : ℝ) + 1 * 1e-3 = _
    norm_num

/-- crossing, with nothing ever close enough -/
example : ∃ rc2 q' r', condAdaptive exAC 1e-4 0 8 (fun _ => rc2) (fun _ => (0, 0, 0)) true exAd = some q' ∧ condPerPart { exAC with sstp := 8 } false true [] [] exAd = some r' ∧
    q'.s.rw2 0 = r'.s.rw2 0 := by
  have hg := exAd_grows 1e-4 0 8 (fun _ => 0) 0 2 (by norm_num)
  set d := firstOf (optsA exAC 1e-4 0 8 exAd) (given exAC exAd (fun _ => 0) 0) (stA exAC exAd 0) 2 with hd
  set rc2 := exAd.s.rw2 0 + d with hrc
  obtain ⟨q', e⟩ := exAd_run 1e-4 0 8 (fun _ => rc2) (fun _ => (0, 0, 0)) true
  obtain ⟨r', e', -⟩ := perpart_nomix_water { exAC with sstp := 8 } true [] [] exAd exAd_sorted (fun i _ => (exAd_pos i).le)
  refine ⟨rc2, q', r', e, e', adaptive_as_act exAC 1e-4 0 8 (fun _ => rc2) _ true true [] [] exAd q' r' exAd_sorted (Or.inr rfl) (by norm_num [exAC, exPC]) (fun i _ => (exAd_pos i).le) e e' 0
    (by show 0 < 2; norm_num) 1 ⟨by show 2 ^ 1 ≤ 2; norm_num, by show 2 < 2 ^ 2; norm_num, ?_⟩ ⟨by show 1 < 8; norm_num, Or.inl ⟨?_, ?_⟩⟩⟩
  · rintro i _ _ ⟨-, h⟩
    have : (optsA exAC 1e-4 0 8 exAd).mx * (stA exAC exAd 0).rw2 = 0 := by show (0 : ℝ) * _ = 0; ring
    rw [this] at h
    exact absurd h (not_lt.2 (abs_nonneg _))
  · show exAd.s.rw2 0 < rc2; linarith
  · show rc2 < exAd.s.rw2 0 + ((2 : ℕ) : ℝ) * d; push_cast; linarith

/-- one substep enough -/
example : ∃ eps mx q' r', condAdaptive exAC eps mx 1 (fun _ => 0) (fun _ => (0, 0, 0)) true exAd = some q' ∧ condPerPart { exAC with sstp := 1 } false true [] [] exAd = some r' ∧
    q'.s.rw2 0 = r'.s.rw2 0 := by
  obtain ⟨eps, mx, rc2, h1, h2, h3, h4⟩ := overshoot_reachable (optsA exAC 1 1 8 exAd) (given exAC exAd (fun _ => 0) 0) (stA exAC exAd 0) (exAd_pos 0)
    (by show 2 ≤ 2; norm_num) (by show 1 < 8; norm_num) (exAd_grows 1 1 8 _ 0 1 le_rfl).ne'
  obtain ⟨q', e⟩ := exAd_run eps mx 1 (fun _ => 0) (fun _ => (0, 0, 0)) true
  obtain ⟨r', e', -⟩ := perpart_nomix_water { exAC with sstp := 1 } true [] [] exAd exAd_sorted (fun i _ => (exAd_pos i).le)
  refine ⟨eps, mx, q', r', e, e', adaptive_as_one exAC eps mx 1 (fun _ => 0) _ true true [] [] exAd q' r' exAd_sorted (Or.inr rfl) (by norm_num [exAC, exPC]) (fun i _ => (exAd_pos i).le) e e' 0
    (by show 0 < 2; norm_num) h3.2.2.1 ?_⟩
  rintro ⟨h, -⟩; exact absurd h (by show ¬ 1 < 1; norm_num)

end LCP.Cond
