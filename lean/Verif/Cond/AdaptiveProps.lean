import Verif.Cond.Adaptive
import Verif.Cond.PerPartProps

/-!
# C61: condensation with a number of substeps chosen for each super-droplet
-/
namespace LCP.Cond
open LCP.Common LCP.Diag

/-! ## Specification -/

/-- a super-droplet's air, given its own vapour, potential temperature, density, pressure and supersaturation perturbation -/
noncomputable def airA (c : ACfg) (x : AIn) (rv th rho p ssp : ℝ) : Env :=
  let T := TofCell c.cfg.tpr th rho p
  let p' := pOfCell c.cfg.tpr rho rv T p
  { rhod := rho, rv := rv, T := T, p := p', RH := RHof c.cfg.tpr.RH_formula p' rv T + (if c.cfg.turb then ssp else 0), eta := visc T
    rd3 := x.rd3, kpa := x.kpa, vt := x.vt, lamD := x.lamD, lamK := x.lamK, RHmax := c.cfg.RHmax }

/-- air after a fraction `f` of the ambient change of the time step, without condensation -/
noncomputable def airAfter (c : ACfg) (x : AIn) (s : ASt) (f : ℝ) : Env :=
  airA c x (s.rv + f * x.dRv) (s.th + f * x.dTh) (s.rh + f * x.dRh) (s.p + f * x.dP) (s.ssp + f * (c.cfg.dt * x.dotSsp))

/-- change of the squared radius in the first of `t` equal substeps -/
noncomputable def firstOf (c : ACfg) (x : AIn) (s : ASt) (t : ℕ) : ℝ := advance c.cfg.num (airAfter c x s (1 / t)) (c.cfg.dt / t) s.rw2 - s.rw2

/-- halving the substep (to `2 ^ j` of them) makes little difference, and the droplet does not change too much -/
def Converged (c : ACfg) (x : AIn) (s : ASt) (j : ℕ) : Prop :=
  |2 * firstOf c x s (2 ^ j) - firstOf c x s (2 ^ (j - 1))| ≤ c.eps * s.rw2 ∧ |firstOf c x s (2 ^ (j - 1))| < c.mx * s.rw2

/-- `j` is the first number of halvings for which that is so -/
def FirstConverged (c : ACfg) (x : AIn) (s : ASt) (j : ℕ) : Prop :=
  1 ≤ j ∧ 2 ^ j ≤ c.cfg.sstp ∧ Converged c x s j ∧ ∀ i, 1 ≤ i → i < j → ¬ Converged c x s i

/-- none, for at most `sstp_cond` substeps; the largest power of two not exceeding it is `2 ^ J` -/
def NeverConverged (c : ACfg) (x : AIn) (s : ASt) (J : ℕ) : Prop :=
  2 ^ J ≤ c.cfg.sstp ∧ c.cfg.sstp < 2 ^ (J + 1) ∧ ∀ i, 1 ≤ i → i ≤ J → ¬ Converged c x s i

/-- the droplet would cross its critical radius in `m` substeps with a change `d` of the squared radius each -/
def Crosses (c : ACfg) (x : AIn) (s : ASt) (m : ℕ) (d : ℝ) : Prop :=
  1 < c.act ∧ ((s.rw2 < x.rc2 ∧ x.rc2 < s.rw2 + m * d) ∨ (x.rc2 < s.rw2 ∧ s.rw2 + m * d < x.rc2))

/-- number of substeps, ambient change (as a fraction of that of the time step) already applied when they begin, and whether the first
one's latent heat is that at half of its ambient change -/
inductive Chosen (c : ACfg) (x : AIn) (s : ASt) : ℕ → ℝ → Prop → Prop
  | conv (j : ℕ) : FirstConverged c x s j → ¬ Crosses c x s (2 ^ (j - 1)) (firstOf c x s (2 ^ (j - 1))) → Chosen c x s (2 ^ (j - 1)) 0 True
  | convAct (j : ℕ) : FirstConverged c x s j → Crosses c x s (2 ^ (j - 1)) (firstOf c x s (2 ^ (j - 1))) → Chosen c x s c.act (1 / 2 ^ j) False
  | max (J : ℕ) : NeverConverged c x s J → ¬ Crosses c x s c.cfg.sstp (firstOf c x s (2 ^ J)) → Chosen c x s c.cfg.sstp 0 False
  | act (J : ℕ) : NeverConverged c x s J → Crosses c x s c.cfg.sstp (firstOf c x s (2 ^ J)) → Chosen c x s c.act 0 False

/-- condensed mixing ratio -/
noncomputable def dqA (c : ACfg) (x : AIn) (rho r r' : ℝ) : ℝ := x.n * (dropMass r' - dropMass r) / (if 0 < c.nDims then rho * x.dv else 1)

/-- squared radius `r k`, vapour mixing ratio `v k` and potential temperature `h k` after `k` of `m` equal substeps -/
structure History (c : ACfg) (x : AIn) (s : ASt) (m : ℕ) (off : ℝ) (half : Prop) (r v h : ℕ → ℝ) : Prop where
  r0 : r 0 = s.rw2
  v0 : v 0 = s.rv + off * x.dRv
  h0 : h 0 = s.th + off * x.dTh
  step : ∀ k < m,
    let f := off + (k + 1) / m
    let rv := v k + x.dRv / m
    let th := h k + x.dTh / m
    let rho := s.rh + f * x.dRh
    let e := airA c x rv th rho (s.p + f * x.dP) (s.ssp + f * (c.cfg.dt * x.dotSsp))
    let dq := dqA c x rho (r k) (r (k + 1))
    r (k + 1) = advance c.cfg.num e (c.cfg.dt / m) (r k) ∧ v (k + 1) = rv - dq ∧
    ∃ T, (half ∧ k = 0 → T = (airAfter c x s (1 / (2 * m))).T) ∧ (¬ (half ∧ k = 0) → T = e.T) ∧ h (k + 1) = th + dq * (th / T * l_v T / c_pd)

/-! ## Proofs -/

/-- local variables after a fraction of the ambient change -/
structure At (c : ACfg) (x : AIn) (s0 : ASt) (f : ℝ) (s : ASt) : Prop where
  rv : s.rv = s0.rv + f * x.dRv
  th : s.th = s0.th + f * x.dTh
  rh : s.rh = s0.rh + f * x.dRh
  p : c.cfg.tpr.const_p = true → s.p = s0.p + f * x.dP
  ssp : s.ssp = if c.cfg.turb then s0.ssp + f * (c.cfg.dt * x.dotSsp) else s0.ssp
  rw2 : s.rw2 = s0.rw2

theorem At.apply {c x s0 f s} (h : At c x s0 f s) (m : ℝ) : At c x s0 (f + m) (applyF c x m s) := by
  constructor
  · show s.rv + _ = _; rw [h.rv]; ring
  · show s.th + _ = _; rw [h.th]; ring
  · show s.rh + _ = _; rw [h.rh]; ring
  · intro hc; show (if _ then _ else _) = _; rw [if_pos hc, h.p hc]; ring
  · show (if _ then _ else _) = _
    have := h.ssp
    split_ifs at this ⊢
    · rw [this]; ring
    · exact this
  · exact h.rw2

theorem At.calc {c x s0 f s} (h : At c x s0 f s) : At c x s0 f (calcP c s) := by
  refine ⟨h.rv, h.th, h.rh, ?_, h.ssp, h.rw2⟩
  intro hc; show pOfCell _ _ _ _ _ = _; unfold pOfCell; rw [if_pos hc, h.p hc]

theorem TofCell_congr (o : TprOpts) (ho : o.th_dry = true ∨ o.const_p = true) (th rho p p' : ℝ) (h : o.const_p = true → p = p') :
    TofCell o th rho p = TofCell o th rho p' := by
  unfold TofCell
  split_ifs with hd
  · rfl
  · rw [h (ho.resolve_left hd)]

theorem pOfCell_congr (o : TprOpts) (rho rv T p p' : ℝ) (h : o.const_p = true → p = p') : pOfCell o rho rv T p = pOfCell o rho rv T p' := by
  unfold pOfCell
  split_ifs with hd
  · exact h hd
  · rfl

/-- the air of the local variables -/
theorem envA_eq (c : ACfg) (x : AIn) (hc : c.cfg.tpr.th_dry = true ∨ c.cfg.tpr.const_p = true) (s : ASt) (p ssp : ℝ)
    (hp : c.cfg.tpr.const_p = true → s.p = p) (hss : c.cfg.turb = true → s.ssp = ssp) :
    envA c x (TpA c s) (calcP c s) = airA c x s.rv s.th s.rh p ssp ∧ TpA c s = (airA c x s.rv s.th s.rh p ssp).T := by
  have hT : TpA c s = TofCell c.cfg.tpr s.th s.rh p := TofCell_congr _ hc _ _ _ _ hp
  constructor
  · unfold envA airA calcP
    simp only
    rw [hT, pOfCell_congr _ _ _ _ _ _ hp]
    congr 1
    split_ifs with ht
    · rw [hss ht]
    · rw [add_zero]
  · exact hT

theorem At.env {c x s0 f s} (h : At c x s0 f s) (hc : c.cfg.tpr.th_dry = true ∨ c.cfg.tpr.const_p = true) :
    envA c x (TpA c s) (calcP c s) = airAfter c x s0 f ∧ TpA c s = (airAfter c x s0 f).T := by
  have := envA_eq c x hc s (s0.p + f * x.dP) (s0.ssp + f * (c.cfg.dt * x.dotSsp)) h.p (fun ht => by rw [h.ssp, if_pos ht])
  rw [h.rv, h.th, h.rh] at this
  exact this

/-- outcome of the search -/
inductive Found (c : ACfg) (x : AIn) (s : ASt) (r : Try) : Prop
  | conv (j : ℕ) : FirstConverged c x s j → At c x s (2 / 2 ^ j) r.st → r.drw2 = firstOf c x s (2 ^ (j - 1)) → r.Tp = (airAfter c x s (1 / 2 ^ j)).T →
      r.frac = -1 / 2 ^ j → r.sstp = 2 ^ (j - 1) → r.first = true → Found c x s r
  | none (J : ℕ) : NeverConverged c x s J → At c x s (1 / 2 ^ J) r.st → r.drw2 = firstOf c x s (2 ^ J) → r.Tp = (airAfter c x s (1 / 2 ^ J)).T →
      r.frac = (if J = 0 then 1 else -1 / 2 ^ J) → r.sstp = c.cfg.sstp → r.first = (c.cfg.sstp == 1) → Found c x s r

theorem tryLoop_ok (c : ACfg) (x : AIn) (hc : c.cfg.tpr.th_dry = true ∨ c.cfg.tpr.const_p = true) (s : ASt) (hr : 0 ≤ s.rw2) :
    ∀ (n j : ℕ) (r : Try), c.cfg.sstp + 1 - 2 ^ (j + 1) = n → 2 ^ j ≤ c.cfg.sstp → (∀ i, 1 ≤ i → i ≤ j → ¬ Converged c x s i) →
    At c x s (1 / 2 ^ j) r.st → r.drw2 = firstOf c x s (2 ^ j) → r.Tp = (airAfter c x s (1 / 2 ^ j)).T →
    r.frac = (if j = 0 then 1 else -1 / 2 ^ j) → r.sstp = c.cfg.sstp → r.first = (c.cfg.sstp == 1) → Found c x s (tryLoop c x (2 ^ (j + 1)) r) := by
  intro n
  induction n using Nat.strong_induction_on with
  | _ n ih =>
    intro j r hn hj hno hat hd hT hf hs h1
    have h2 : (2 : ℕ) ^ (j + 1) = 2 ^ j * 2 := pow_succ 2 j
    have hpos : 0 < (2 : ℕ) ^ j := by positivity
    rw [tryLoop]
    by_cases hle : 2 ^ (j + 1) ≤ c.cfg.sstp
    · rw [dif_pos ⟨by positivity, hle⟩]
      have hne : ¬ (2 : ℕ) ^ (j + 1) = 1 := by omega
      have h2r : (2 : ℝ) ^ (j + 1) = 2 ^ j * 2 := pow_succ 2 j
      have hpr : (0 : ℝ) < 2 ^ j := by positivity
      simp only [if_neg hne]
      have A : At c x s (1 / 2 ^ (j + 1)) (applyF c x (-1 / ((2 ^ (j + 1) : ℕ) : ℝ)) r.st) := by
        have := hat.apply (-1 / ((2 ^ (j + 1) : ℕ) : ℝ))
        convert this using 1
        push_cast
        rw [h2r]; field_simp; norm_num
      obtain ⟨e1, e2⟩ := A.env hc
      have hnew : advanceD c.cfg.num (drw2dt (envA c x (TpA c (applyF c x (-1 / ((2 ^ (j + 1) : ℕ) : ℝ)) r.st))
          (calcP c (applyF c x (-1 / ((2 ^ (j + 1) : ℕ) : ℝ)) r.st)))) x.rd3 (c.cfg.dt / ((2 ^ (j + 1) : ℕ) : ℝ))
          (calcP c (applyF c x (-1 / ((2 ^ (j + 1) : ℕ) : ℝ)) r.st)).rw2 = firstOf c x s (2 ^ (j + 1)) := by
        rw [A.calc.rw2, advanceD_eq _ _ _ _ _ hr, e1]
        unfold firstOf
        push_cast
        rfl
      rw [hnew, hd, A.calc.rw2]
      have hcv : (|firstOf c x s (2 ^ (j + 1)) * 2 - firstOf c x s (2 ^ j)| ≤ c.eps * s.rw2 ∧ |firstOf c x s (2 ^ j)| < c.mx * s.rw2) ↔
          Converged c x s (j + 1) := by
        unfold Converged; rw [mul_comm (firstOf c x s (2 ^ (j + 1))) 2]; rfl
      by_cases hC : Converged c x s (j + 1)
      · rw [if_pos (hcv.2 hC)]
        refine Found.conv (j + 1) ⟨by omega, hle, hC, fun i h3 h4 => hno i h3 (by omega)⟩ ?_ rfl ?_ ?_ ?_ rfl
        · have := A.calc.apply (-(-1 / ((2 ^ (j + 1) : ℕ) : ℝ)))
          convert this using 1
          push_cast; ring
        · exact e2
        · push_cast; rfl
        · show 2 ^ (j + 1) / 2 = _
          rw [h2]; simp
      · rw [if_neg (fun h => hC (hcv.1 h)), show 2 ^ (j + 1) * 2 = 2 ^ (j + 1 + 1) from (pow_succ 2 (j + 1)).symm]
        refine ih _ ?_ (j + 1) _ rfl hle ?_ A.calc rfl e2 ?_ hs h1
        · rw [← hn, pow_succ 2 (j + 1)]; omega
        · intro i h3 h4
          rcases Nat.lt_or_ge i (j + 1) with h5 | h5
          · exact hno i h3 (by omega)
          · obtain rfl : i = j + 1 := by omega
            exact hC
        · rw [if_neg (by omega)]; push_cast; rfl
    · rw [dif_neg (fun h => hle h.2)]
      exact Found.none j ⟨hj, by omega, hno⟩ hat hd hT hf hs h1

theorem tries_ok (c : ACfg) (x : AIn) (hc : c.cfg.tpr.th_dry = true ∨ c.cfg.tpr.const_p = true) (hs : 1 ≤ c.cfg.sstp) (junk : ℝ × ℝ × ℝ) (s : ASt)
    (hr : 0 ≤ s.rw2) : Found c x s (tries c x junk s) := by
  unfold tries
  rw [tryLoop, dif_pos ⟨by norm_num, hs⟩]
  simp only [if_true]
  have A0 : At c x s 0 s := by
    constructor <;> simp
  have A : At c x s (1 / 2 ^ 0) (applyF c x 1 s) := by
    have := A0.apply 1; simpa using this
  obtain ⟨e1, e2⟩ := A.env hc
  refine tryLoop_ok c x hc s hr _ 0 _ rfl (by simpa using hs) (fun i h1 h2 => by omega) A.calc ?_ e2 (by simp) rfl rfl
  show advanceD _ _ _ _ _ = _
  rw [A.calc.rw2, advanceD_eq _ _ _ _ _ hr, e1]
  unfold firstOf
  norm_num
  rfl

/-- state when the substeps begin: `off` before them, or (`first`) `off + 1/m` and the first substep's growth known -/
theorem override_ok (c : ACfg) (x : AIn) (s : ASt) (hs : 1 ≤ c.cfg.sstp) (r : Try) (F : Found c x s r) : ∃ off half, Chosen c x s (override c x r).sstp off half ∧
    1 ≤ (override c x r).sstp ∧
    ((override c x r).first = false → ¬ half ∧ At c x s off (override c x r).st) ∧
    ((override c x r).first = true → off = 0 ∧ At c x s (1 / (override c x r).sstp) (override c x r).st ∧
      (override c x r).drw2 = firstOf c x s (override c x r).sstp ∧
      (half → (override c x r).Tp = (airAfter c x s (1 / (2 * (override c x r).sstp))).T) ∧
      (¬ half → (override c x r).Tp = (airAfter c x s (1 / (override c x r).sstp)).T)) := by
  classical
  have hcr : ∀ m d, r.st.rw2 = s.rw2 → r.sstp = m → r.drw2 = d → ((1 < c.act ∧ ((r.st.rw2 < x.rc2 ∧ r.st.rw2 + r.sstp * r.drw2 > x.rc2) ∨
      (r.st.rw2 > x.rc2 ∧ r.st.rw2 + r.sstp * r.drw2 < x.rc2))) ↔ Crosses c x s m d) := by
    intro m d h1 h2 h3; unfold Crosses; rw [h1, h2, h3]
  cases F with
  | conv j hj hat hd hT hf hm h1 =>
    have hj1 : j = (j - 1) + 1 := by have := hj.1; omega
    have hpw : (2 : ℝ) ^ j = 2 * 2 ^ (j - 1) := by rw [hj1, pow_succ]; simp [mul_comm]
    have hpp : (0 : ℝ) < 2 ^ (j - 1) := by positivity
    have hX := hcr _ _ hat.rw2 hm hd
    by_cases hC : Crosses c x s (2 ^ (j - 1)) (firstOf c x s (2 ^ (j - 1)))
    · have hsst : c.cfg.sstp ≠ 1 := by
        have h3 := hj.2.1
        have h4 : (2 : ℕ) ^ j = 2 * 2 ^ (j - 1) := by conv_lhs => rw [hj1, pow_succ]
                                                      ring
        have h5 : 0 < (2 : ℕ) ^ (j - 1) := by positivity
        omega
      have he : override c x r = { r with sstp := c.act, first := false, st := applyF c x r.frac r.st } := by
        unfold override
        rw [if_pos (hX.2 hC)]
        simp [hsst]
      rw [he]
      refine ⟨1 / 2 ^ j, False, Chosen.convAct j hj hC, hC.1.le, fun _ => ⟨id, ?_⟩, fun h => absurd h (by simp)⟩
      have := hat.apply r.frac
      convert this using 1
      rw [hf]; ring
    · have he : override c x r = r := by
        unfold override
        rw [if_neg (fun h => hC (hX.1 h))]
        simp [h1]
      rw [he, hm]
      refine ⟨0, True, Chosen.conv j hj hC, Nat.one_le_two_pow, fun h => absurd (h1.symm.trans h) (by simp), fun _ => ⟨rfl, ?_, hd, fun _ => ?_, fun h => absurd trivial h⟩⟩
      · convert hat using 1
        push_cast; rw [hpw]; field_simp
      · rw [hT]; push_cast; rw [hpw]
  | none J hJ hat hd hT hf hm h1 =>
    have hX := hcr _ _ hat.rw2 hm hd
    have hJ0 : c.cfg.sstp = 1 ↔ J = 0 := by
      constructor
      · intro h
        have h3 := hJ.1
        rw [h] at h3
        by_contra hne
        have : 2 ^ 1 ≤ 2 ^ J := Nat.pow_le_pow_right (by norm_num) (Nat.one_le_iff_ne_zero.2 hne)
        omega
      · rintro rfl
        have h3 := hJ.2.1
        have : 1 ≤ c.cfg.sstp := hs
        norm_num at h3
        omega
    have hback : At c x s 0 (applyF c x (if c.cfg.sstp = 1 then -r.frac else r.frac) r.st) := by
      have := hat.apply (if c.cfg.sstp = 1 then -r.frac else r.frac)
      convert this using 1
      rw [hf]
      by_cases h0 : J = 0
      · rw [if_pos (hJ0.2 h0), if_pos h0, h0]; norm_num
      · rw [if_neg (fun h => h0 (hJ0.1 h)), if_neg h0]; ring
    by_cases hC : Crosses c x s c.cfg.sstp (firstOf c x s (2 ^ J))
    · have he : override c x r = { r with sstp := c.act, first := false, st := applyF c x (if c.cfg.sstp = 1 then -r.frac else r.frac) r.st } := by
        unfold override
        rw [if_pos (hX.2 hC)]
        simp
      rw [he]
      exact ⟨0, False, Chosen.act J hJ hC, hC.1.le, fun _ => ⟨id, hback⟩, fun h => absurd h (by simp)⟩
    · by_cases h0 : c.cfg.sstp = 1
      · have he : override c x r = r := by
          unfold override
          rw [if_neg (fun h => hC (hX.1 h))]
          simp [h1, h0]
        rw [he, hm]
        have hJz := hJ0.1 h0
        refine ⟨0, False, Chosen.max J hJ hC, hs, fun h => absurd (h1.symm.trans h) (by simp [h0]), fun _ => ⟨rfl, ?_, ?_, fun h => h.elim, fun _ => ?_⟩⟩
        · rw [hJz] at hat; rw [h0]; simpa using hat
        · rw [hd, hJz, h0]; rfl
        · rw [hT, hJz, h0]; simp
      · have he : override c x r = { r with st := applyF c x (if c.cfg.sstp = 1 then -r.frac else r.frac) r.st } := by
          unfold override
          rw [if_neg (fun h => hC (hX.1 h))]
          simp [h1, h0]
        rw [he]
        refine ⟨0, False, ?_, ?_, fun _ => ⟨id, hback⟩, fun h => absurd (h1.symm.trans h) (by simp [h0])⟩
        · show Chosen c x s r.sstp _ _; rw [hm]; exact Chosen.max J hJ hC
        · show 1 ≤ r.sstp; rw [hm]; exact hs

theorem drvA_eq (c : ACfg) (x : AIn) (rho r r' : ℝ) (h : 0 ≤ r) (h' : 0 ≤ r') : rw3diff2drv c.nDims (-rw3of r + rw3of r') rho x.n x.dv = -dqA c x rho r r' := by
  unfold rw3diff2drv dqA dropMass
  rw [rw3of_eq r h, rw3of_eq r' h']
  split_ifs
  · rw [div_div]; unfold mltW; ring
  · unfold mltW; ring

/-- an ordinary substep -/
theorem body_step (c : ACfg) (x : AIn) (m : ℕ) (first : Bool) (k : ℕ) (l : Loop) (hk : ¬ (first = true ∧ k = 0)) (h3 : 0 < k → l.rw3 = rw3of l.st.rw2)
    (hr : 0 ≤ l.st.rw2) :
    let s1 := applyF c x (1 / m) l.st
    let r' := advance c.cfg.num (envA c x (TpA c s1) (calcP c s1)) (c.cfg.dt / m) l.st.rw2
    let b := bodyA c x m first k l
    let dq := dqA c x s1.rh l.st.rw2 r'
    b.st.rw2 = r' ∧ b.st.rh = s1.rh ∧ b.st.p = (calcP c s1).p ∧ b.st.ssp = s1.ssp ∧ b.st.rv = s1.rv - dq ∧
    b.st.th = s1.th + dq * (s1.th / TpA c s1 * l_v (TpA c s1) / c_pd) ∧ (k < m - 1 → b.rw3 = rw3of b.st.rw2) := by
  intro s1 r' b dq
  have hb : (first && k == 0) = false := by
    rcases Bool.eq_false_or_eq_true first with h | h
    · have : k ≠ 0 := fun h0 => hk ⟨h, h0⟩
      simp [h, this]
    · simp [h]
  have hr' : 0 ≤ r' := advance_nonneg _ _ _ _ hr
  have hante : (if 0 < k then -l.rw3 else -rw3of l.st.rw2) = -rw3of l.st.rw2 := by
    split_ifs with h
    · rw [h3 h]
    · rfl
  have hd : rw3diff2drv c.nDims (-rw3of l.st.rw2 + rw3of r') s1.rh x.n x.dv = -dq := drvA_eq c x s1.rh _ _ hr hr'
  have he : b = bodyA c x m first k l := rfl
  unfold bodyA at he
  simp only [hb, hante, Bool.false_eq_true, if_false] at he
  split_ifs at he with hl
  · rw [he]
    refine ⟨rfl, rfl, rfl, rfl, ?_, ?_, fun _ => rfl⟩
    · show s1.rv + rw3diff2drv c.nDims (-rw3of l.st.rw2 + rw3of r') s1.rh x.n x.dv = _; rw [hd]; ring
    · show s1.th + rw3diff2drv c.nDims (-rw3of l.st.rw2 + rw3of r') s1.rh x.n x.dv * d_th_d_rv (TpA c s1) s1.th = _
      rw [hd]; unfold d_th_d_rv; ring
  · rw [he]
    refine ⟨rfl, rfl, rfl, rfl, ?_, ?_, fun h => absurd h hl⟩
    · show s1.rv + rw3diff2drv c.nDims (-rw3of l.st.rw2 + rw3of r') s1.rh x.n x.dv = _; rw [hd]; ring
    · show s1.th + rw3diff2drv c.nDims (-rw3of l.st.rw2 + rw3of r') s1.rh x.n x.dv * d_th_d_rv (TpA c s1) s1.th = _
      rw [hd]; unfold d_th_d_rv; ring

/-- the first substep when its growth is known -/
theorem body_first (c : ACfg) (x : AIn) (m : ℕ) (l : Loop) (hr : 0 ≤ l.st.rw2) (hr' : 0 ≤ l.st.rw2 + l.rw3) :
    let b := bodyA c x m true 0 l
    let dq := dqA c x l.st.rh l.st.rw2 (l.st.rw2 + l.rw3)
    b.st.rw2 = l.st.rw2 + l.rw3 ∧ b.st.rh = l.st.rh ∧ b.st.p = l.st.p ∧ b.st.ssp = l.st.ssp ∧ b.st.rv = l.st.rv - dq ∧
    b.st.th = l.st.th + dq * (l.st.th / l.Tp * l_v l.Tp / c_pd) ∧ (0 < m - 1 → b.rw3 = rw3of b.st.rw2) := by
  intro b dq
  have hd : rw3diff2drv c.nDims (-rw3of l.st.rw2 + rw3of (l.st.rw2 + l.rw3)) l.st.rh x.n x.dv = -dq := drvA_eq c x l.st.rh _ _ hr hr'
  have he : b = bodyA c x m true 0 l := rfl
  unfold bodyA at he
  simp only [BEq.rfl, Bool.and_self, if_true, lt_irrefl, if_false] at he
  split_ifs at he with hl
  · rw [he]
    refine ⟨rfl, rfl, rfl, rfl, ?_, ?_, fun _ => rfl⟩
    · show l.st.rv + rw3diff2drv c.nDims (-rw3of l.st.rw2 + rw3of (l.st.rw2 + l.rw3)) l.st.rh x.n x.dv = _; rw [hd]; ring
    · show l.st.th + rw3diff2drv c.nDims (-rw3of l.st.rw2 + rw3of (l.st.rw2 + l.rw3)) l.st.rh x.n x.dv * d_th_d_rv l.Tp l.st.th = _
      rw [hd]; unfold d_th_d_rv; ring
  · rw [he]
    refine ⟨rfl, rfl, rfl, rfl, ?_, ?_, fun h => absurd h hl⟩
    · show l.st.rv + rw3diff2drv c.nDims (-rw3of l.st.rw2 + rw3of (l.st.rw2 + l.rw3)) l.st.rh x.n x.dv = _; rw [hd]; ring
    · show l.st.th + rw3diff2drv c.nDims (-rw3of l.st.rw2 + rw3of (l.st.rw2 + l.rw3)) l.st.rh x.n x.dv * d_th_d_rv l.Tp l.st.th = _
      rw [hd]; unfold d_th_d_rv; ring

/-- what the local variables are after `k` substeps, for those that do not depend on condensation -/
structure Amb (c : ACfg) (x : AIn) (s0 : ASt) (f : ℝ) (s : ASt) : Prop where
  rh : s.rh = s0.rh + f * x.dRh
  p : c.cfg.tpr.const_p = true → s.p = s0.p + f * x.dP
  ssp : s.ssp = if c.cfg.turb then s0.ssp + f * (c.cfg.dt * x.dotSsp) else s0.ssp
  rw2 : 0 ≤ s.rw2

theorem At.amb {c x s0 f s} (h : At c x s0 f s) (hr : 0 ≤ s0.rw2) : Amb c x s0 f s := ⟨h.rh, h.p, h.ssp, by rw [h.rw2]; exact hr⟩

theorem calcP_const (c : ACfg) (s : ASt) (hc : c.cfg.tpr.const_p = true) : (calcP c s).p = s.p := by
  unfold calcP pOfCell; simp [hc]

/-- one ordinary substep, from the ambient conditions -/
theorem amb_step (c : ACfg) (x : AIn) (hc : c.cfg.tpr.th_dry = true ∨ c.cfg.tpr.const_p = true) (s0 : ASt) (m : ℕ) (first : Bool) (k : ℕ) (l : Loop) (f f' : ℝ)
    (hk : ¬ (first = true ∧ k = 0)) (h3 : 0 < k → l.rw3 = rw3of l.st.rw2) (A : Amb c x s0 f l.st) (hf : f' = f + 1 / m) :
    let rv := l.st.rv + x.dRv / m
    let th := l.st.th + x.dTh / m
    let rho := s0.rh + f' * x.dRh
    let e := airA c x rv th rho (s0.p + f' * x.dP) (s0.ssp + f' * (c.cfg.dt * x.dotSsp))
    let b := bodyA c x m first k l
    let dq := dqA c x rho l.st.rw2 b.st.rw2
    Amb c x s0 f' b.st ∧ b.st.rw2 = advance c.cfg.num e (c.cfg.dt / m) l.st.rw2 ∧ b.st.rv = rv - dq ∧
    b.st.th = th + dq * (th / e.T * l_v e.T / c_pd) ∧ (k < m - 1 → b.rw3 = rw3of b.st.rw2) := by
  intro rv th rho e b dq
  obtain ⟨b1, b2, b3, b4, b5, b6, b7⟩ := body_step c x m first k l hk h3 A.rw2
  set s1 := applyF c x (1 / m) l.st with hs1
  have erv : s1.rv = rv := by show l.st.rv + x.dRv * (1 / m) = _; ring
  have eth : s1.th = th := by show l.st.th + x.dTh * (1 / m) = _; ring
  have erh : s1.rh = rho := by show l.st.rh + x.dRh * (1 / m) = s0.rh + f' * x.dRh; rw [A.rh, hf]; ring
  have ep : c.cfg.tpr.const_p = true → s1.p = s0.p + f' * x.dP := by
    intro h; show (if _ then _ else _) = _; rw [if_pos h, A.p h, hf]; ring
  have es : s1.ssp = if c.cfg.turb then s0.ssp + f' * (c.cfg.dt * x.dotSsp) else s0.ssp := by
    show (if _ then _ else _) = _
    have := A.ssp
    split_ifs at this ⊢
    · rw [this, hf]; ring
    · exact this
  obtain ⟨e1, e2⟩ := envA_eq c x hc s1 _ _ ep (fun ht => by rw [es, if_pos ht])
  rw [erv, eth, erh] at e1 e2
  change envA c x (TpA c s1) (calcP c s1) = e at e1
  change TpA c s1 = e.T at e2
  rw [e1] at b1 b5 b6
  rw [← b1, erh] at b5 b6
  rw [e2] at b6
  refine ⟨⟨?_, ?_, ?_, ?_⟩, b1, ?_, ?_, b7⟩
  · rw [b2, erh]
  · intro h; rw [b3, calcP_const c s1 h, ep h]
  · rw [b4, es]
  · rw [b1]; exact advance_nonneg _ _ _ _ A.rw2
  · rw [b5, erv]
  · rw [b6, eth]

/-- **C61 (functor).** -/
theorem adaptiveF_ok (c : ACfg) (x : AIn) (hc : c.cfg.tpr.th_dry = true ∨ c.cfg.tpr.const_p = true) (hs : 1 ≤ c.cfg.sstp) (junk : ℝ × ℝ × ℝ) (s : ASt)
    (hr : 0 ≤ s.rw2) : ∃ off half r v h, Chosen c x s (adaptiveF c x junk s).1 off half ∧ 1 ≤ (adaptiveF c x junk s).1 ∧ History c x s (adaptiveF c x junk s).1 off half r v h ∧
      (adaptiveF c x junk s).2.rw2 = r (adaptiveF c x junk s).1 ∧ (adaptiveF c x junk s).2.rv = v (adaptiveF c x junk s).1 ∧
      (adaptiveF c x junk s).2.th = h (adaptiveF c x junk s).1 ∧ Amb c x s (off + 1) (adaptiveF c x junk s).2 := by
  obtain ⟨off, half, hch, hm, hA, hB⟩ := override_ok c x s hs _ (tries_ok c x hc hs junk s hr)
  unfold adaptiveF
  simp only
  set R := override c x (tries c x junk s)
  set m := R.sstp with hmd
  set L := loopA c x m R.first { st := R.st, rw3 := R.drw2, Tp := R.Tp } with hL
  have hL1 : ∀ k, L (k + 1) = bodyA c x m R.first k (L k) := fun k => rfl
  have hL0 : L 0 = { st := R.st, rw3 := R.drw2, Tp := R.Tp } := rfl
  have hm0 : (m : ℝ) ≠ 0 := by
    have : (0 : ℝ) < m := by exact_mod_cast hm
    exact this.ne'
  clear_value L
  -- invariant
  have key : ∀ k, k ≤ m → (0 < k ∨ R.first = false) → Amb c x s (off + k / m) (L k).st ∧ (0 < k → k < m → (L k).rw3 = rw3of (L k).st.rw2) := by
    intro k
    induction k with
    | zero =>
      intro _ hk
      have hf := hk.resolve_left (lt_irrefl 0)
      refine ⟨?_, fun h => absurd h (lt_irrefl 0)⟩
      rw [hL0]
      have := (hA hf).2.amb hr
      simpa using this
    | succ k ih =>
      intro hk _
      by_cases hfk : R.first = true ∧ k = 0
      · obtain ⟨hf, rfl⟩ := hfk
        obtain ⟨h0, h1, h2, h3, h4⟩ := hB hf
        have hr2 : R.st.rw2 = s.rw2 := h1.rw2
        have hn : (0 : ℝ) ≤ R.st.rw2 + R.drw2 := by
          rw [hr2, h2]; unfold firstOf
          have := advance_nonneg c.cfg.num (airAfter c x s (1 / m)) (c.cfg.dt / m) s.rw2 hr
          linarith
        obtain ⟨b1, b2, b3, b4, b5, b6, b7⟩ := body_first c x m { st := R.st, rw3 := R.drw2, Tp := R.Tp } (by rw [hr2]; exact hr) hn
        rw [hL1, hL0, hf]
        refine ⟨⟨?_, ?_, ?_, ?_⟩, fun _ hl => b7 (by omega)⟩
        · rw [b2, h1.rh, h0]; push_cast; ring
        · intro hp; rw [b3, h1.p hp, h0]; push_cast; ring
        · rw [b4, h1.ssp, h0]; push_cast; split_ifs <;> ring
        · rw [b1]; exact hn
      · have hk' : 0 < k ∨ R.first = false := by
          rcases Nat.eq_zero_or_pos k with h | h
          · right; cases hb : R.first
            · rfl
            · exact absurd ⟨hb, h⟩ hfk
          · exact Or.inl h
        obtain ⟨i1, i2⟩ := ih (by omega) hk'
        obtain ⟨a1, -, -, -, a5⟩ := amb_step c x hc s m R.first k (L k) _ (off + ((k + 1 : ℕ) : ℝ) / m) hfk (fun h => i2 h (by omega)) i1
          (by push_cast; field_simp; ring)
        rw [hL1]
        exact ⟨a1, fun _ hl => a5 (by omega)⟩
  refine ⟨off, half, fun k => if k = 0 then s.rw2 else (L k).st.rw2, fun k => if k = 0 then s.rv + off * x.dRv else (L k).st.rv,
    fun k => if k = 0 then s.th + off * x.dTh else (L k).st.th, hch, hm, ⟨by simp, by simp, by simp, ?_⟩, ?_, ?_, ?_, ?_⟩
  · intro k hk
    have hdiv : ∀ a : ℝ, a * (1 / (m : ℝ)) = a / m := fun a => by ring
    by_cases hfk : R.first = true ∧ k = 0
    · obtain ⟨hf, rfl⟩ := hfk
      obtain ⟨h0, h1, h2, h3, h4⟩ := hB hf
      have hr2 : R.st.rw2 = s.rw2 := h1.rw2
      have hfo : R.st.rw2 + R.drw2 = advance c.cfg.num (airAfter c x s (1 / m)) (c.cfg.dt / m) s.rw2 := by
        rw [hr2, h2]; unfold firstOf; ring
      have hn : (0 : ℝ) ≤ R.st.rw2 + R.drw2 := by
        rw [hfo]; exact advance_nonneg _ _ _ _ hr
      obtain ⟨b1, b2, b3, b4, b5, b6, b7⟩ := body_first c x m { st := R.st, rw3 := R.drw2, Tp := R.Tp } (by rw [hr2]; exact hr) hn
      have hair : airAfter c x s (1 / m) = airA c x (s.rv + x.dRv / m) (s.th + x.dTh / m) (s.rh + 1 / m * x.dRh) (s.p + 1 / m * x.dP)
          (s.ssp + 1 / m * (c.cfg.dt * x.dotSsp)) := by
        unfold airAfter; congr 1 <;> ring
      have hL1' : L 1 = bodyA c x m true 0 { st := R.st, rw3 := R.drw2, Tp := R.Tp } := by rw [hL1, hL0, hf]
      simp only [h0, if_true, one_ne_zero, if_false, Nat.cast_zero, zero_add, zero_mul, add_zero]
      rw [hL1', b1, hfo, ← hair]
      refine ⟨rfl, ?_, ?_⟩
      · rw [b5]; simp only; rw [hfo, hr2, h1.rh, h1.rv]; ring
      · refine ⟨R.Tp, fun hh => h3 hh.1, fun hh => h4 (fun h' => hh ⟨h', trivial⟩), ?_⟩
        rw [b6]; simp only; rw [hfo, hr2, h1.rh, h1.th]
        rw [show 1 / (m : ℝ) * x.dTh = x.dTh / m by ring]
    · have hk' : 0 < k ∨ R.first = false := by
        rcases Nat.eq_zero_or_pos k with h | h
        · right; cases hb : R.first
          · rfl
          · exact absurd ⟨hb, h⟩ hfk
        · exact Or.inl h
      obtain ⟨i1, i2⟩ := key k hk.le hk'
      obtain ⟨a1, a2, a3, a4, a5⟩ := amb_step c x hc s m R.first k (L k) _ (off + ((k : ℝ) + 1) / m) hfk (fun h => i2 h hk) i1
          (by field_simp; ring)
      have hz : (if k = 0 then s.rw2 else (L k).st.rw2) = (L k).st.rw2 ∧ (if k = 0 then s.rv + off * x.dRv else (L k).st.rv) = (L k).st.rv ∧
          (if k = 0 then s.th + off * x.dTh else (L k).st.th) = (L k).st.th := by
        by_cases h0 : k = 0
        · have hf := hk'.resolve_left (by omega)
          have hat := (hA hf).2
          subst h0
          rw [hL0]
          simp only [if_true]
          exact ⟨hat.rw2.symm, hat.rv.symm, hat.th.symm⟩
        · simp [h0]
      simp only [hz, Nat.add_eq_zero_iff, one_ne_zero, and_false, if_false]
      rw [hL1]
      refine ⟨a2, a3, _, fun hh => ?_, fun _ => rfl, a4⟩
      rcases hh with ⟨hh, rfl⟩
      have hf := hk'.resolve_left (by omega)
      exact absurd hh (hA hf).1
  · simp only; rw [if_neg (by omega)]
  · simp only; rw [if_neg (by omega)]
  · simp only; rw [if_neg (by omega)]
  · have := (key m le_rfl (Or.inl hm)).1
    rw [div_self hm0] at this
    exact this

end LCP.Cond
