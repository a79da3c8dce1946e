import Verif.Cond.PerCellLemmas
import Mathlib.Tactic.Ring
import Mathlib.Tactic.FieldSimp
import Mathlib.Tactic.Linarith

/-!
# The substep loop of per-cell condensation (helper lemmas for C58)
-/
namespace LCP.Cond
open LCP.Common LCP.Diag

/-- state in which the droplets of a substep grow: after the ambient change and the update of T, p, RH -/
noncomputable def prep (o : Cfg) (step : ℕ) (s : St) : St :=
  hskpngTpr o (if o.turb then sgsSupersat o (sstpStep o step s) else sstpStep o step s)

theorem Geo.perMass {a b : Diag.St} (h : Geo a b) (c : ℕ) : perMass b c = perMass a c := by
  unfold Diag.perMass; rw [h.nDims, h.dv, h.rhod]

theorem acAfter_congr (o : Cfg) (s : St) (d : Diag.St) (h : Geo s.d d) (r dr rm : ℕ → ℝ) :
    acAfter o { s with d := d, rw2 := r, drw := dr, rwM := rm } = acAfter o s := by
  funext i; unfold acAfter envOf; simp only [h.ijk, h.rhod]

theorem rw2After_congr (o : Cfg) (s : St) (d : Diag.St) (h : Geo s.d d) (dr di : ℕ → ℝ) :
    rw2After o { s with d := d, drw := dr, dIce := di } = rw2After o s := by
  funext i; unfold rw2After envOf RHseen; simp only [h.ijk, h.rhod]

theorem acAfter_congr' (o : Cfg) (s : St) (d : Diag.St) (h : Geo s.d d) (dr di : ℕ → ℝ) :
    acAfter o { s with d := d, drw := dr, dIce := di } = acAfter o s := by
  funext i; unfold acAfter envOf; simp only [h.ijk, h.rhod]

/-- condensation, deposition and the update of rv and theta in a prepared state -/
theorem growth_ok (o : Cfg) (step : ℕ) (p : St) (hs : Sorted p.d) (A B : ℕ → ℝ) (h0 : step = 0 → ∃ M, Lists p.d M)
    (hA : ∀ c, ¬ occ p.d c → A c = 0) (hB : ∀ c, ¬ occ p.d c → B c = 0)
    (k0 : step = 0 → ∀ c < p.d.nCell, p.drw c = -A c ∧ (o.ice = true → p.dIce c = -B c))
    (k1 : step ≠ 0 → ∀ c < p.d.nCell, p.rwM c = A c ∧ (o.ice = true → p.iceM c = B c)) :
    ∃ s', ((cond o step p).bind fun s => (if o.ice then iceDep o step s else some s).bind fun s => some (updateThRv o s)) = some s' ∧
      Geo p.d s'.d ∧
      s' = { p with d := s'.d, rw2 := rw2After o p, drw := s'.drw, rwM := s'.rwM, dIce := s'.dIce, iceM := s'.iceM, rv := s'.rv, th := s'.th
                    iceA := if o.ice then fun i => (acAfter o p i).1 else p.iceA
                    iceC := if o.ice then fun i => (acAfter o p i).2 else p.iceC } ∧
      ∀ c < p.d.nCell,
        s'.rv c = p.rv c - mltW * (Wd p.d s'.rw2 c - A c) - (if o.ice then Id p.d s'.iceA s'.iceC p.iceRho c - B c else 0) ∧
        (let t1 := p.th c - mltW * (Wd p.d s'.rw2 c - A c) * d_th_d_rv (p.T c) (p.th c)
         s'.th c = if o.ice then t1 - (Id p.d s'.iceA s'.iceC p.iceRho c - B c) * d_th_d_rv_dep (p.T c) t1 else t1) ∧
        (step < o.sstp - 1 → s'.rwM c = Wd p.d s'.rw2 c ∧ (o.ice = true → s'.iceM c = Id p.d s'.iceA s'.iceC p.iceRho c)) := by
  obtain ⟨s1, e1, g1, q1, l1, r1⟩ := cond_ok o step p hs A h0 hA (fun h c hc => (k0 h c hc).1) (fun h c hc => (k1 h c hc).1)
  rw [e1, Option.bind_some]
  cases hi : o.ice with
  | false =>
    simp only [Bool.false_eq_true, if_false, Option.bind_some]
    refine ⟨_, rfl, ?_, ?_, ?_⟩
    · exact g1
    · unfold updateThRv; rw [q1]
    · intro c hc
      obtain ⟨a1, a2⟩ := r1 c hc
      have hrw : (updateThRv o s1).rw2 = rw2After o p := by rw [q1]; rfl
      have hrwM : (updateThRv o s1).rwM = s1.rwM := rfl
      refine ⟨?_, ?_, fun h => ⟨?_, fun h => absurd h (by simp)⟩⟩
      · have hv : s1.rv = p.rv := by rw [q1]
        rw [hrw]
        unfold updateThRv
        simp only [hi, Bool.false_eq_true, if_false]
        rw [a1, hv]; ring
      · have hv : s1.th = p.th := by rw [q1]
        have hT : s1.T = p.T := by rw [q1]
        rw [hrw]
        unfold updateThRv
        simp only [hi, Bool.false_eq_true, if_false]
        rw [a1, hv, hT]; ring
      · rw [hrwM, hrw]; exact a2 h
  | true =>
    simp only [if_true]
    have hs1 := g1.sorted hs
    have f1 : s1.dIce = p.dIce := by rw [q1]
    have f2 : s1.iceM = p.iceM := by rw [q1]
    have f3 : s1.iceRho = p.iceRho := by rw [q1]
    have f4 : acAfter o s1 = acAfter o p := by rw [q1]; exact acAfter_congr o p _ g1 _ _ _
    obtain ⟨s2, e2, g2, q2, r2⟩ := iceDep_ok o step s1 hs1 B l1 (fun c h => hB c (fun hh => h ((g1.occ c).2 hh)))
      (fun h c hc => by rw [f1]; exact (k0 h c (by rw [← g1.nCell]; exact hc)).2 hi)
      (fun h c hc => by rw [f2]; exact (k1 h c (by rw [← g1.nCell]; exact hc)).2 hi)
    rw [f4] at q2 r2
    rw [e2, Option.bind_some]
    refine ⟨_, rfl, ?_, ?_, ?_⟩
    · exact g1.trans g2
    · unfold updateThRv; rw [q2, q1]
    · intro c hc
      obtain ⟨a1, a2⟩ := r1 c hc
      obtain ⟨b1, b2⟩ := r2 c (by rw [g1.nCell]; exact hc)
      rw [f3, g1.Id] at b1 b2
      have hrw : (updateThRv o s2).rw2 = rw2After o p := by rw [q2, q1]; rfl
      have hA' : (updateThRv o s2).iceA = fun i => (acAfter o p i).1 := by rw [q2, q1]; rfl
      have hC' : (updateThRv o s2).iceC = fun i => (acAfter o p i).2 := by rw [q2, q1]; rfl
      have hrwM : (updateThRv o s2).rwM = s1.rwM := by rw [q2]; rfl
      have hiM : (updateThRv o s2).iceM = s2.iceM := rfl
      have hd : s2.drw = s1.drw := by rw [q2]
      have hv : s2.rv = p.rv := by rw [q2, q1]
      have ht : s2.th = p.th := by rw [q2, q1]
      have hT : s2.T = p.T := by rw [q2, q1]
      refine ⟨?_, ?_, fun h => ⟨?_, fun _ => ?_⟩⟩
      · rw [hrw, hA', hC']
        unfold updateThRv
        simp only [hi, if_true]
        rw [hd, a1, hv, b1]; ring
      · rw [hrw, hA', hC']
        unfold updateThRv
        simp only [hi, if_true]
        rw [hd, a1, ht, hT, b1, mul_comm (Wd p.d (rw2After o p) c - A c) mltW]
      · rw [hrwM, hrw]; exact a2 h
      · rw [hiM, hA', hC']; exact b2 h

/-- one whole substep -/
theorem substep_ok (o : Cfg) (step : ℕ) (s : St) (hs : Sorted (prep o step s).d) (A B : ℕ → ℝ)
    (hA : ∀ c, ¬ occ (prep o step s).d c → A c = 0) (hB : ∀ c, ¬ occ (prep o step s).d c → B c = 0)
    (k0 : step = 0 → A = Wd (prep o step s).d s.rw2 ∧ B = Id (prep o step s).d s.iceA s.iceC s.iceRho)
    (k1 : step ≠ 0 → ∀ c < (prep o step s).d.nCell, s.rwM c = A c ∧ (o.ice = true → s.iceM c = B c)) :
    ∃ s', substep o step s = some s' ∧ Geo (prep o step s).d s'.d ∧
      s' = { prep o step s with d := s'.d, rw2 := rw2After o (prep o step s), drw := s'.drw, rwM := s'.rwM, dIce := s'.dIce, iceM := s'.iceM
                                rv := s'.rv, th := s'.th
                                iceA := if o.ice then fun i => (acAfter o (prep o step s) i).1 else s.iceA
                                iceC := if o.ice then fun i => (acAfter o (prep o step s) i).2 else s.iceC } ∧
      ∀ c < (prep o step s).d.nCell,
        s'.rv c = (prep o step s).rv c - mltW * (Wd (prep o step s).d s'.rw2 c - A c) -
          (if o.ice then Id (prep o step s).d s'.iceA s'.iceC s.iceRho c - B c else 0) ∧
        (let t1 := (prep o step s).th c - mltW * (Wd (prep o step s).d s'.rw2 c - A c) * d_th_d_rv ((prep o step s).T c) ((prep o step s).th c)
         s'.th c = if o.ice then t1 - (Id (prep o step s).d s'.iceA s'.iceC s.iceRho c - B c) * d_th_d_rv_dep ((prep o step s).T c) t1
                   else t1) ∧
        (step < o.sstp - 1 → s'.rwM c = Wd (prep o step s).d s'.rw2 c ∧
          (o.ice = true → s'.iceM c = Id (prep o step s).d s'.iceA s'.iceC s.iceRho c)) := by
  have pr : ∀ f : St → ℕ → ℝ, (∀ s, f (sstpStep o step s) = f s) → (∀ s, f (sgsSupersat o s) = f s) → (∀ s, f (hskpngTpr o s) = f s) →
      f (prep o step s) = f s := by
    intro f h1 h2 h3
    unfold prep; rw [h3]; split_ifs
    · rw [h2, h1]
    · rw [h1]
  have ss : ∀ f : St → ℕ → ℝ, (∀ s rv th d trv tth trh, f { s with rv := rv, tRv := trv, th := th, tTh := tth, d := d, tRh := trh } = f s) →
      ∀ s, f (sstpStep o step s) = f s := by
    intro f h s; unfold sstpStep; split_ifs
    · rfl
    all_goals exact h _ _ _ _ _ _ _
  have p1 : (prep o step s).rw2 = s.rw2 := pr (·.rw2) (ss _ (fun _ _ _ _ _ _ _ => rfl)) (fun _ => rfl) (fun _ => rfl)
  have p2 : (prep o step s).iceA = s.iceA := pr (·.iceA) (ss _ (fun _ _ _ _ _ _ _ => rfl)) (fun _ => rfl) (fun _ => rfl)
  have p3 : (prep o step s).iceC = s.iceC := pr (·.iceC) (ss _ (fun _ _ _ _ _ _ _ => rfl)) (fun _ => rfl) (fun _ => rfl)
  have p4 : (prep o step s).iceRho = s.iceRho := pr (·.iceRho) (ss _ (fun _ _ _ _ _ _ _ => rfl)) (fun _ => rfl) (fun _ => rfl)
  have p5 : (prep o step s).rwM = s.rwM := pr (·.rwM) (ss _ (fun _ _ _ _ _ _ _ => rfl)) (fun _ => rfl) (fun _ => rfl)
  have p6 : (prep o step s).iceM = s.iceM := pr (·.iceM) (ss _ (fun _ _ _ _ _ _ _ => rfl)) (fun _ => rfl) (fun _ => rfl)
  have hsub : substep o step s = (if step = 0 then saveContent o (prep o step s) else some (prep o step s)).bind fun s =>
      (cond o step s).bind fun s => (if o.ice then iceDep o step s else some s).bind fun s => some (updateThRv o s) := by
    unfold substep prep; rfl
  rw [hsub]
  by_cases h : step = 0
  · rw [if_pos h]
    obtain ⟨s1, e1, g1, q1, l1, r1⟩ := saveContent_ok o (prep o step s) hs
    rw [e1, Option.bind_some]
    have w1 : rw2After o s1 = rw2After o (prep o step s) := by rw [q1]; exact rw2After_congr _ _ _ g1 _ _
    have w2 : acAfter o s1 = acAfter o (prep o step s) := by rw [q1]; exact acAfter_congr' _ _ _ g1 _ _
    have w3 : s1.rv = (prep o step s).rv := by rw [q1]
    have w4 : s1.th = (prep o step s).th := by rw [q1]
    have w5 : s1.T = (prep o step s).T := by rw [q1]
    have w6 : s1.iceRho = (prep o step s).iceRho := by rw [q1]
    obtain ⟨s2, e2, g2, q2, r2⟩ := growth_ok o step s1 (g1.sorted hs) A B (fun _ => l1)
      (fun c hc => hA c (fun hh => hc ((g1.occ c).2 hh))) (fun c hc => hB c (fun hh => hc ((g1.occ c).2 hh)))
      (fun _ c hc => by
        obtain ⟨x1, x2⟩ := r1 c (by rw [← g1.nCell]; exact hc)
        obtain ⟨y1, y2⟩ := k0 h
        rw [y1, y2, ← p1, ← p2, ← p3, ← p4]
        exact ⟨x1, x2⟩)
      (fun hh => absurd h hh)
    rw [w1, w2] at q2
    refine ⟨s2, e2, g1.trans g2, ?_, ?_⟩
    · rw [q2, q1, p2, p3]
    · intro c hc
      have := r2 c (by rw [g1.nCell]; exact hc)
      simp only [g1.Wd, g1.Id, w3, w4, w5, w6, p4] at this
      exact this
  · rw [if_neg h, Option.bind_some]
    obtain ⟨s2, e2, g2, q2, r2⟩ := growth_ok o step (prep o step s) hs A B (fun hh => absurd hh h) hA hB (fun hh => absurd hh h)
      (fun _ c hc => by rw [p5, p6]; exact k1 h c hc)
    refine ⟨s2, e2, g2, ?_, ?_⟩
    · rw [p2, p3] at q2; exact q2
    · intro c hc
      have := r2 c hc
      rw [p4] at this
      exact this

/-- ambient value of a field after the changes of the first `k` of `n` substeps -/
noncomputable def fieldK (n k : ℕ) (f t : ℕ → ℝ) (c : ℕ) : ℝ :=
  if k = 0 ∨ n = 1 then f c else f c - ((n : ℝ) - k) / n * (f c - t c)

/-- density in substep `k` (counted from 1) -/
noncomputable def rhoK (o : Cfg) (s : St) (k : ℕ) (c : ℕ) : ℝ := if o.varRho then fieldK o.sstp k s.d.rhod s.tRh c else s.d.rhod c

theorem sstpField_ok (n k : ℕ) (hn : 0 < n) (h1 : n ≠ 1) (f0 t0 f t : ℕ → ℝ) (h0 : k = 0 → f = f0 ∧ t = t0)
    (ht : k ≠ 0 → t = fun c => f0 c - t0 c) :
    (sstpField n k f t).2 = (fun c => f0 c - t0 c) ∧
    ∀ c, (sstpField n k f t).1 c = (if k = 0 then fieldK n 1 f0 t0 c else f c + (f0 c - t0 c) / n) ∧
      fieldK n (k + 1) f0 t0 c = (if k = 0 then fieldK n 1 f0 t0 c else fieldK n k f0 t0 c + (f0 c - t0 c) / n) := by
  have hn' : (n : ℝ) ≠ 0 := by exact_mod_cast hn.ne'
  unfold sstpField
  by_cases hk : k = 0
  · obtain ⟨e1, e2⟩ := h0 hk
    subst hk; rw [e1, e2]
    refine ⟨rfl, fun c => ⟨?_, ?_⟩⟩
    · simp only [if_true]
      unfold fieldK
      rw [if_neg (by rintro (h | h); exact absurd h one_ne_zero; exact h1 h)]
      push_cast; field_simp
    · simp
  · simp only [if_neg hk]
    rw [ht hk]
    refine ⟨rfl, fun c => ⟨rfl, ?_⟩⟩
    unfold fieldK
    rw [if_neg (by rintro (h | h); exact absurd h (Nat.succ_ne_zero k); exact h1 h), if_neg (by rintro (h | h); exact hk h; exact h1 h)]
    push_cast; field_simp; ring

/-- sum over the cell to which the third moment refers -/
noncomputable def S3 (d : Diag.St) (rw2 : ℕ → ℝ) (c : ℕ) : ℝ := cellSum d c fun i => momentCounter (3 / 2) (d.n i) (rw2 i)
/-- ice mass in the cell -/
noncomputable def SI (d : Diag.St) (a c rho : ℕ → ℝ) (k : ℕ) : ℝ :=
  cellSum d k fun i => momentCounter 1 ((d.n i : ℝ) * b2r (a i > 0)) (iceMass (a i) (c i) (rho i))
/-- water on particles in the cell -/
noncomputable def massIn (o : Cfg) (d : Diag.St) (s : St) (c : ℕ) : ℝ :=
  mltW * S3 d s.rw2 c + if o.ice then SI d s.iceA s.iceC s.iceRho c else 0

/-- mass of dry air to which mixing ratios refer, for density `rho` -/
noncomputable def airOf (d : Diag.St) (rho : ℝ) (c : ℕ) : ℝ := if 0 < d.nDims then d.dv c * rho else 1

/-- what a substep leaves in place -/
structure Same (s0 s : St) : Prop where
  N : s.d.N = s0.d.N
  n : s.d.n = s0.d.n
  ijk : s.d.ijk = s0.d.ijk
  sid : s.d.sid = s0.d.sid
  nCell : s.d.nCell = s0.d.nCell
  nDims : s.d.nDims = s0.d.nDims
  dv : 0 < s0.d.nDims → s.d.dv = s0.d.dv
  rd3 : s.rd3 = s0.rd3
  kpa : s.kpa = s0.kpa
  vt : s.vt = s0.vt
  iceRho : s.iceRho = s0.iceRho
  lamD : s.lamD = s0.lamD
  lamK : s.lamK = s0.lamK
  dotSsp : s.dotSsp = s0.dotSsp

theorem Same.refl (s : St) : Same s s := ⟨rfl, rfl, rfl, rfl, rfl, rfl, fun _ => rfl, rfl, rfl, rfl, rfl, rfl, rfl, rfl⟩

theorem Same.trans {a b c : St} (h : Same a b) (g : Same b c) : Same a c :=
  ⟨g.N.trans h.N, g.n.trans h.n, g.ijk.trans h.ijk, g.sid.trans h.sid, g.nCell.trans h.nCell, g.nDims.trans h.nDims,
    fun hd => (g.dv (by rw [h.nDims]; exact hd)).trans (h.dv hd), g.rd3.trans h.rd3, g.kpa.trans h.kpa, g.vt.trans h.vt,
    g.iceRho.trans h.iceRho, g.lamD.trans h.lamD, g.lamK.trans h.lamK, g.dotSsp.trans h.dotSsp⟩

theorem Same.sorted {a b : St} (h : Same a b) (g : Sorted a.d) : Sorted b.d := by
  constructor
  · rw [h.N, h.ijk, h.sid]; exact g.sort
  · rw [h.N, h.ijk, h.nCell]; exact g.cell

theorem Same.Wd {a b : St} (h : Same a b) (rw2 : ℕ → ℝ) (c : ℕ) : Wd b.d rw2 c = S3 a.d rw2 c / airOf a.d (b.d.rhod c) c := by
  unfold Cond.Wd S3 airOf cellSum perMass
  rw [h.N, h.ijk, h.n, h.nDims]
  split_ifs with hd
  · rw [h.dv hd]; rfl
  · rw [mul_one, div_one]

theorem Same.Id {a b : St} (h : Same a b) (x y z : ℕ → ℝ) (c : ℕ) : Id b.d x y z c = SI a.d x y z c / airOf a.d (b.d.rhod c) c := by
  unfold Cond.Id SI airOf cellSum perMass
  rw [h.N, h.ijk, h.n, h.nDims]
  split_ifs with hd
  · rw [h.dv hd]; rfl
  · rw [mul_one, div_one]

theorem sstpStep_same (o : Cfg) (k : ℕ) (s : St) : Same s (sstpStep o k s) := by
  unfold sstpStep
  split_ifs
  · exact Same.refl s
  · exact ⟨rfl, rfl, rfl, rfl, rfl, rfl, fun _ => rfl, rfl, rfl, rfl, rfl, rfl, rfl, rfl⟩
  · exact ⟨rfl, rfl, rfl, rfl, rfl, rfl, fun _ => rfl, rfl, rfl, rfl, rfl, rfl, rfl, rfl⟩

theorem hskpngTpr_same (o : Cfg) (s : St) : Same s (hskpngTpr o s) := by
  unfold hskpngTpr
  constructor <;> try rfl
  all_goals (try (simp only []; split_ifs <;> rfl))
  intro h
  simp only []
  rw [if_neg h.ne']

theorem prep_same (o : Cfg) (k : ℕ) (s : St) : Same s (prep o k s) := by
  unfold prep
  refine Same.trans ?_ (hskpngTpr_same o _)
  split_ifs
  · exact (sstpStep_same o k s).trans ⟨rfl, rfl, rfl, rfl, rfl, rfl, fun _ => rfl, rfl, rfl, rfl, rfl, rfl, rfl, rfl⟩
  · exact sstpStep_same o k s

theorem Geo.same {p s : St} (h : Geo p.d s.d) (q : s.rd3 = p.rd3 ∧ s.kpa = p.kpa ∧ s.vt = p.vt ∧ s.iceRho = p.iceRho ∧ s.lamD = p.lamD ∧
    s.lamK = p.lamK ∧ s.dotSsp = p.dotSsp) : Same p s :=
  ⟨h.N, h.n, h.ijk, h.sid, h.nCell, h.nDims, fun _ => h.dv, q.1, q.2.1, q.2.2.1, q.2.2.2.1, q.2.2.2.2.1, q.2.2.2.2.2.1, q.2.2.2.2.2.2⟩

theorem prep_fields (o : Cfg) (k : ℕ) (s : St) : (prep o k s).rv = (sstpStep o k s).rv ∧ (prep o k s).th = (sstpStep o k s).th ∧
    (prep o k s).d.rhod = (sstpStep o k s).d.rhod ∧ (prep o k s).tRv = (sstpStep o k s).tRv ∧ (prep o k s).tTh = (sstpStep o k s).tTh ∧
    (prep o k s).tRh = (sstpStep o k s).tRh := by
  unfold prep
  have hh : ∀ s, (hskpngTpr o s).d.rhod = s.d.rhod := by intro s; unfold hskpngTpr; simp only []; split_ifs <;> rfl
  split_ifs
  · exact ⟨rfl, rfl, by rw [hh]; rfl, rfl, rfl, rfl⟩
  · exact ⟨rfl, rfl, by rw [hh], rfl, rfl, rfl⟩

/-- state after `k` substeps -/
structure Inv (o : Cfg) (s0 : St) (k : ℕ) (s : St) : Prop where
  start : k = 0 → s = s0
  same : Same s0 s
  rhod : s.d.rhod = rhoK o s0 k
  tRv : k ≠ 0 → o.sstp ≠ 1 → s.tRv = fun c => s0.rv c - s0.tRv c
  tTh : k ≠ 0 → o.sstp ≠ 1 → s.tTh = fun c => s0.th c - s0.tTh c
  tRh : k ≠ 0 → o.sstp ≠ 1 → o.varRho = true → s.tRh = fun c => s0.d.rhod c - s0.tRh c
  mem : k ≠ 0 → k < o.sstp → ∀ c < s0.d.nCell, s.rwM c = Wd s.d s.rw2 c ∧ (o.ice = true → s.iceM c = Id s.d s.iceA s.iceC s.iceRho c)

/-- the prepared state and what follows from it, for the substep from `s` to `s'` -/
structure Trace (o : Cfg) (s0 : St) (k : ℕ) (s p s' : St) : Prop where
  same : Same s0 p
  rhod : p.d.rhod = rhoK o s0 (k + 1)
  rv : ∀ c, p.rv c = if k = 0 ∨ o.sstp = 1 then fieldK o.sstp 1 s0.rv s0.tRv c else s.rv c + (s0.rv c - s0.tRv c) / o.sstp
  th : ∀ c, p.th c = if k = 0 ∨ o.sstp = 1 then fieldK o.sstp 1 s0.th s0.tTh c else s.th c + (s0.th c - s0.tTh c) / o.sstp
  rhod' : s'.d.rhod = p.d.rhod
  rw2 : s'.rw2 = rw2After o p
  iceA : s'.iceA = if o.ice then fun i => (acAfter o p i).1 else s.iceA
  iceC : s'.iceC = if o.ice then fun i => (acAfter o p i).2 else s.iceC
  rv' : ∀ c < s0.d.nCell, s'.rv c = p.rv c - (massIn o s0.d s' c / airOf s0.d (rhoK o s0 (k + 1) c) c -
    massIn o s0.d s c / airOf s0.d (rhoK o s0 (if k = 0 then 1 else k) c) c)
  th' : ∀ c < s0.d.nCell,
    let dl := mltW * (S3 s0.d s'.rw2 c / airOf s0.d (rhoK o s0 (k + 1) c) c - S3 s0.d s.rw2 c / airOf s0.d (rhoK o s0 (if k = 0 then 1 else k) c) c)
    let di := SI s0.d s'.iceA s'.iceC s0.iceRho c / airOf s0.d (rhoK o s0 (k + 1) c) c -
      SI s0.d s.iceA s.iceC s0.iceRho c / airOf s0.d (rhoK o s0 (if k = 0 then 1 else k) c) c
    let t1 := p.th c - dl * d_th_d_rv (p.T c) (p.th c)
    s'.th c = if o.ice then t1 - di * d_th_d_rv_dep (p.T c) t1 else t1

theorem inv_step (o : Cfg) (s0 : St) (h0 : Sorted s0.d) (k : ℕ) (hk : k < o.sstp) (s : St) (h : Inv o s0 k s) :
    ∃ s', substep o k s = some s' ∧ Inv o s0 (k + 1) s' ∧ Trace o s0 k s (prep o k s) s' := by
  have hn : 0 < o.sstp := lt_of_le_of_lt (Nat.zero_le _) hk
  have sp : Same s0 (prep o k s) := h.same.trans (prep_same o k s)
  obtain ⟨f1, f2, f3, f4, f5, f6⟩ := prep_fields o k s
  have k1z : o.sstp = 1 → k = 0 := by omega
  -- ambient changes
  have amb : (o.sstp = 1 → sstpStep o k s = s) ∧ (o.sstp ≠ 1 →
      (sstpStep o k s).rv = (sstpField o.sstp k s.rv s.tRv).1 ∧ (sstpStep o k s).tRv = (sstpField o.sstp k s.rv s.tRv).2 ∧
      (sstpStep o k s).th = (sstpField o.sstp k s.th s.tTh).1 ∧ (sstpStep o k s).tTh = (sstpField o.sstp k s.th s.tTh).2 ∧
      (o.varRho = true → (sstpStep o k s).d.rhod = (sstpField o.sstp k s.d.rhod s.tRh).1 ∧
        (sstpStep o k s).tRh = (sstpField o.sstp k s.d.rhod s.tRh).2) ∧
      (o.varRho = false → (sstpStep o k s).d.rhod = s.d.rhod)) := by
    constructor
    · intro h1; unfold sstpStep; rw [if_pos h1]
    · intro h1; unfold sstpStep; rw [if_neg h1]
      refine ⟨rfl, rfl, rfl, rfl, fun hv => ?_, fun hv => ?_⟩
      · simp [hv]
      · simp [hv]
  have qrv : ∀ c, (prep o k s).rv c = if k = 0 ∨ o.sstp = 1 then fieldK o.sstp 1 s0.rv s0.tRv c else s.rv c + (s0.rv c - s0.tRv c) / o.sstp := by
    intro c
    rw [f1]
    by_cases h1 : o.sstp = 1
    · rw [amb.1 h1, if_pos (Or.inr h1), h.start (k1z h1)]
      unfold fieldK; rw [if_pos (Or.inr h1)]
    · rw [(amb.2 h1).1, ((sstpField_ok o.sstp k hn h1 s0.rv s0.tRv s.rv s.tRv (fun hh => by rw [h.start hh]; exact ⟨rfl, rfl⟩)
        (fun hh => h.tRv hh h1)).2 c).1]
      simp only [h1, or_false]
  have qth : ∀ c, (prep o k s).th c = if k = 0 ∨ o.sstp = 1 then fieldK o.sstp 1 s0.th s0.tTh c else s.th c + (s0.th c - s0.tTh c) / o.sstp := by
    intro c
    rw [f2]
    by_cases h1 : o.sstp = 1
    · rw [amb.1 h1, if_pos (Or.inr h1), h.start (k1z h1)]
      unfold fieldK; rw [if_pos (Or.inr h1)]
    · rw [(amb.2 h1).2.2.1, ((sstpField_ok o.sstp k hn h1 s0.th s0.tTh s.th s.tTh (fun hh => by rw [h.start hh]; exact ⟨rfl, rfl⟩)
        (fun hh => h.tTh hh h1)).2 c).1]
      simp only [h1, or_false]
  have qrh : (prep o k s).d.rhod = rhoK o s0 (k + 1) := by
    funext c
    rw [f3]
    unfold rhoK
    by_cases h1 : o.sstp = 1
    · rw [amb.1 h1, h.start (k1z h1)]
      unfold fieldK; rw [if_pos (Or.inr h1)]; split_ifs <;> rfl
    · cases hv : o.varRho with
      | false =>
        rw [(amb.2 h1).2.2.2.2.2 hv, h.rhod]; unfold rhoK; simp [hv]
      | true =>
        have q := (sstpField_ok o.sstp k hn h1 s0.d.rhod s0.tRh s.d.rhod s.tRh (fun hh => by rw [h.start hh]; exact ⟨rfl, rfl⟩)
          (fun hh => h.tRh hh h1 hv)).2 c
        rw [((amb.2 h1).2.2.2.2.1 hv).1, q.1, if_pos rfl, q.2]
        split_ifs
        · rfl
        · rw [h.rhod]; unfold rhoK; rw [hv, if_pos rfl]
  have qt : o.sstp ≠ 1 → (prep o k s).tRv = (fun c => s0.rv c - s0.tRv c) ∧ (prep o k s).tTh = (fun c => s0.th c - s0.tTh c) ∧
      (o.varRho = true → (prep o k s).tRh = fun c => s0.d.rhod c - s0.tRh c) := by
    intro h1
    rw [f4, f5, f6]
    refine ⟨?_, ?_, fun hv => ?_⟩
    · rw [(amb.2 h1).2.1]
      exact (sstpField_ok o.sstp k hn h1 s0.rv s0.tRv s.rv s.tRv (fun hh => by rw [h.start hh]; exact ⟨rfl, rfl⟩) (fun hh => h.tRv hh h1)).1
    · rw [(amb.2 h1).2.2.2.1]
      exact (sstpField_ok o.sstp k hn h1 s0.th s0.tTh s.th s.tTh (fun hh => by rw [h.start hh]; exact ⟨rfl, rfl⟩) (fun hh => h.tTh hh h1)).1
    · rw [((amb.2 h1).2.2.2.2.1 hv).2]
      exact (sstpField_ok o.sstp k hn h1 s0.d.rhod s0.tRh s.d.rhod s.tRh (fun hh => by rw [h.start hh]; exact ⟨rfl, rfl⟩)
        (fun hh => h.tRh hh h1 hv)).1
  -- the substep
  let A : ℕ → ℝ := fun c => if k = 0 then Wd (prep o k s).d s.rw2 c else Wd s.d s.rw2 c
  let B : ℕ → ℝ := fun c => if k = 0 then Id (prep o k s).d s.iceA s.iceC s.iceRho c else Id s.d s.iceA s.iceC s.iceRho c
  have hoc : ∀ c, occ s.d c ↔ occ (prep o k s).d c := by
    intro c; unfold occ; rw [sp.N, sp.ijk, h.same.N, h.same.ijk]
  have eA : ∀ c, A c = S3 s0.d s.rw2 c / airOf s0.d (rhoK o s0 (if k = 0 then 1 else k) c) c := by
    intro c
    show (if k = 0 then Wd (prep o k s).d s.rw2 c else Wd s.d s.rw2 c) = _
    rw [sp.Wd, h.same.Wd, qrh, h.rhod]
    split_ifs with hk0
    · rw [hk0]
    · rfl
  have eB : ∀ c, B c = SI s0.d s.iceA s.iceC s0.iceRho c / airOf s0.d (rhoK o s0 (if k = 0 then 1 else k) c) c := by
    intro c
    show (if k = 0 then Id (prep o k s).d s.iceA s.iceC s.iceRho c else Id s.d s.iceA s.iceC s.iceRho c) = _
    rw [sp.Id, h.same.Id, qrh, h.rhod, h.same.iceRho]
    split_ifs with hk0
    · rw [hk0]
    · rfl
  obtain ⟨s', e, g, q, r⟩ := substep_ok o k s (sp.sorted h0) A B
    (fun c hc => by
      show (if k = 0 then _ else _) = _
      rw [Wd_unocc _ _ _ hc, Wd_unocc _ _ _ (fun hh => hc ((hoc c).1 hh))]; simp)
    (fun c hc => by
      show (if k = 0 then _ else _) = _
      rw [Id_unocc _ _ _ _ _ hc, Id_unocc _ _ _ _ _ (fun hh => hc ((hoc c).1 hh))]; simp)
    (fun hk0 => ⟨by funext c; exact if_pos hk0, by funext c; exact if_pos hk0⟩)
    (fun hk0 c hc => by
      have hm := h.mem hk0 hk c (by rw [← sp.nCell]; exact hc)
      refine ⟨?_, fun hi => ?_⟩
      · rw [hm.1]; exact (if_neg hk0).symm
      · rw [hm.2 hi]; exact (if_neg hk0).symm)
  have irho : s'.iceRho = s0.iceRho := by rw [q]; exact sp.iceRho
  have rrh : s'.d.rhod = (prep o k s).d.rhod := g.rhod
  have sm : Same (prep o k s) s' := g.same (by rw [q]; exact ⟨rfl, rfl, rfl, rfl, rfl, rfl, rfl⟩)
  refine ⟨s', e, ?_, ?_⟩
  · refine ⟨fun h => absurd h (Nat.succ_ne_zero k), sp.trans sm, rrh.trans qrh, fun _ h1 => ?_, fun _ h1 => ?_, fun _ h1 hv => ?_, fun _ hlt c hc => ?_⟩
    · have : s'.tRv = (prep o k s).tRv := by rw [q]
      rw [this]; exact (qt h1).1
    · have : s'.tTh = (prep o k s).tTh := by rw [q]
      rw [this]; exact (qt h1).2.1
    · have : s'.tRh = (prep o k s).tRh := by rw [q]
      rw [this]; exact (qt h1).2.2 hv
    · have := (r c (by rw [sp.nCell]; exact hc)).2.2 (by omega)
      rw [g.Wd, g.Id, irho]
      rw [h.same.iceRho] at this
      exact this
  · refine ⟨sp, qrh, qrv, qth, rrh, ?_, ?_, ?_, ?_, ?_⟩
    · rw [q]
    · rw [q]
    · rw [q]
    · intro c hc
      have := (r c (by rw [sp.nCell]; exact hc)).1
      rw [this, eA, eB, sp.Wd, sp.Id, qrh, h.same.iceRho]
      unfold massIn
      rw [irho, h.same.iceRho]
      split_ifs <;> ring
    · intro c hc
      have := (r c (by rw [sp.nCell]; exact hc)).2.1
      rw [eA, eB, sp.Wd, sp.Id, qrh, h.same.iceRho] at this
      exact this

theorem run_inv (o : Cfg) (s0 : St) (h0 : Sorted s0.d) (k : ℕ) (hk : k ≤ o.sstp) : ∃ s, run o s0 k = some s ∧ Inv o s0 k s := by
  induction k with
  | zero =>
    refine ⟨s0, rfl, fun _ => rfl, Same.refl _, ?_, fun h => absurd rfl h, fun h => absurd rfl h, fun h => absurd rfl h, fun h => absurd rfl h⟩
    funext c
    unfold rhoK fieldK
    simp
  | succ k ih =>
    obtain ⟨s, e, i⟩ := ih (by omega)
    obtain ⟨s', e', i', -⟩ := inv_step o s0 h0 k (by omega) s i
    exact ⟨s', by show (run o s0 k).bind _ = _; rw [e, Option.bind_some, e'], i'⟩

/-- induction over the substeps -/
theorem run_induct (o : Cfg) (s0 : St) (h0 : Sorted s0.d) (P : ℕ → St → Prop) (hz : P 0 s0)
    (hst : ∀ k < o.sstp, ∀ s s', run o s0 k = some s → P k s → Trace o s0 k s (prep o k s) s' → P (k + 1) s') (k : ℕ) (hk : k ≤ o.sstp) :
    ∃ s, run o s0 k = some s ∧ Inv o s0 k s ∧ P k s := by
  induction k with
  | zero =>
    obtain ⟨s, e, i⟩ := run_inv o s0 h0 0 hk
    refine ⟨s, e, i, ?_⟩
    rw [i.start rfl]; exact hz
  | succ k ih =>
    obtain ⟨s, e, i, p⟩ := ih (by omega)
    obtain ⟨s', e', i', t⟩ := inv_step o s0 h0 k (by omega) s i
    exact ⟨s', by show (run o s0 k).bind _ = _; rw [e, Option.bind_some, e'], i', hst k (by omega) s s' e p t⟩

end LCP.Cond
