import Verif.Cond.PerPartProps
import Verif.Cond.AdaptiveProps
import Mathlib.Analysis.SpecialFunctions.Pow.Real
import Mathlib.Analysis.Complex.ExponentialBounds

/-!
# C78: super-droplets created during a run, in the first condensation after their creation

Sources: src/impl/housekeeping/particles_impl_hskpng_resize.ipp:7-32, src/impl/particles_impl.ipp:444-492 (vectors and the values of their new entries),
src/impl/sources_and_relaxation_of_SDs/particles_impl_{src,rlx}.ipp (`post_adding_SD`, which would call `init_perparticle_sstp`, is commented out).
-/
namespace LCP.Src
open LCP.Common LCP.Cond

/-- contents of a vector of `N` entries after `resize` to a larger size with the value `v` of new entries (particles_impl_hskpng_resize.ipp:15-21; without a
value given, `resize` value-initialises: 0) -/
def grown (N : ℕ) (v : ℝ) (f : ℕ → ℝ) : ℕ → ℝ := fun i => if i < N then f i else v

/-- contents of a vector after new entries were set -/
def put {α : Type} (N : ℕ) (new f : ℕ → α) : ℕ → α := fun i => if i < N then f i else new i

/-- attributes set by the source or by relaxation for new super-droplets (see `Src.finish`) -/
structure New where
  k : ℕ
  n : ℕ → ℕ
  ijk : ℕ → ℕ
  rw2 : ℕ → ℝ
  rd3 : ℕ → ℝ
  kpa : ℕ → ℝ

/-- the state of condensation after `k` super-droplets were added by `src` or `rlx` (particles_impl_src.ipp:13-24, particles_impl_rlx.ipp:13-21): vectors resized, the
attributes of `New` set.  The flag `complete` tells whether `init_perparticle_sstp` (init_perparticle_sstp.ipp:7-24) is called at the end, as in the unused
`post_adding_SD`; in the code it is not. -/
def addSds (o : Cfg) (complete : Bool) (w : New) (q : PSt) : PSt :=
  let N := q.s.d.N
  let q : PSt := { q with
    s := { q.s with
      d := { q.s.d with N := N + w.k, n := put N w.n q.s.d.n, ijk := put N w.ijk q.s.d.ijk }
      rw2 := put N w.rw2 q.s.rw2, rd3 := put N w.rd3 q.s.rd3, kpa := put N w.kpa q.s.kpa, vt := grown N (-1) q.s.vt
      tRv := grown N 0 q.s.tRv, tTh := grown N 0 q.s.tTh, tRh := grown N 0 q.s.tRh }
    tP := grown N 0 q.tP }
  if complete then
    { q with
      s := { q.s with
        tRv := put N (fun i => q.s.rv (q.s.d.ijk i)) q.s.tRv, tTh := put N (fun i => q.s.th (q.s.d.ijk i)) q.s.tTh
        tRh := put N (fun i => q.s.d.rhod (q.s.d.ijk i)) q.s.tRh }
      tP := if o.tpr.const_p then put N (fun i => q.s.p (q.s.d.ijk i)) q.tP else q.tP }
  else q

/-- the saved surroundings of super-droplet `i` are all zero -/
def Blank (o : Cfg) (q : PSt) (i : ℕ) : Prop := q.s.tRv i = 0 ∧ q.s.tTh i = 0 ∧ q.s.tRh i = 0 ∧ (o.tpr.const_p = true → q.tP i = 0)

/-- **C78** (negation) what source and relaxation leave behind: the new super-droplets have no surroundings saved -/
theorem added_blank (o : Cfg) (w : New) (q : PSt) (i : ℕ) (h1 : q.s.d.N ≤ i) : Blank o (addSds o false w q) i := by
  have h : ¬ i < q.s.d.N := by omega
  simp [Blank, addSds, grown, h]

/-- new super-droplets have the attributes asked for, and an invalid fall speed (so that it is computed before use) -/
theorem added_new (o : Cfg) (c : Bool) (w : New) (q : PSt) (i : ℕ) (h1 : q.s.d.N ≤ i) :
    let r := addSds o c w q
    r.s.d.N = q.s.d.N + w.k ∧ r.s.d.n i = w.n i ∧ r.s.d.ijk i = w.ijk i ∧ r.s.rw2 i = w.rw2 i ∧ r.s.rd3 i = w.rd3 i ∧ r.s.kpa i = w.kpa i ∧ r.s.vt i = -1 := by
  have h : ¬ i < q.s.d.N := by omega
  cases c <;> simp [addSds, grown, put, h]

/-- with `init_perparticle_sstp` called, the surroundings saved for a new super-droplet would be those of its own cell -/
theorem added_complete (o : Cfg) (w : New) (q : PSt) (i : ℕ) (h1 : q.s.d.N ≤ i) :
    let r := addSds o true w q
    r.s.tRv i = q.s.rv (w.ijk i) ∧ r.s.tTh i = q.s.th (w.ijk i) ∧ r.s.tRh i = q.s.d.rhod (w.ijk i) ∧ (o.tpr.const_p = true → r.tP i = q.s.p (w.ijk i)) := by
  have h : ¬ i < q.s.d.N := by omega
  cases hp : o.tpr.const_p <;> simp [addSds, put, h, hp]

/-- existing super-droplets are not affected -/
theorem added_old (o : Cfg) (c : Bool) (w : New) (q : PSt) (i : ℕ) (h : i < q.s.d.N) :
    let r := addSds o c w q
    r.s.tRv i = q.s.tRv i ∧ r.s.tTh i = q.s.tTh i ∧ r.s.tRh i = q.s.tRh i ∧ r.tP i = q.tP i ∧ r.s.rw2 i = q.s.rw2 i ∧ r.s.rd3 i = q.s.rd3 i ∧ r.s.vt i = q.s.vt i := by
  cases c <;> cases hp : o.tpr.const_p <;> simp [addSds, grown, put, h, hp]

/-- **C78** (negation) In the first substep of the next condensation such a super-droplet grows in air that has one `sstp`-th of the vapour mixing ratio, potential temperature,
density and (if prescribed) pressure of its cell. -/
theorem blank_first_substep (o : Cfg) (mix : Bool) (q a : PSt) (hs : Sorted q.s.d) (hr : ∀ i < q.s.d.N, 0 ≤ q.s.rw2 i) (ha : startP o mix q = some a) (hS : 0 < o.sstp)
    (i : ℕ) (hi : i < q.s.d.N) (hb : Blank o q i) :
    let c := q.s.d.ijk i
    (runP o mix a 1).s.rw2 i = advance o.num
      (airFor o a i (q.s.rv c / o.sstp) (q.s.th c / o.sstp) (q.s.d.rhod c / o.sstp) (if o.tpr.const_p then q.s.p c / o.sstp else a.tP i)) (o.dt / o.sstp) (q.s.rw2 i) := by
  obtain ⟨a', e, A⟩ := startP_ok o mix q hs
  rw [ha] at e
  obtain rfl : a = a' := by simpa using e
  obtain ⟨h1, -⟩ := perpart_substep o mix q a hs hr ha 0 hS i hi
  obtain ⟨b1, b2, b3, b4⟩ := hb
  have e0 : (runP o mix a 0).s.rw2 i = q.s.rw2 i := by show a.s.rw2 i = _; rw [A.rw2]
  have e1 : (runP o mix a 0).s.tRv i = 0 := by show a.s.tRv i = _; rw [A.tRv, b1]
  have e2 : (runP o mix a 0).s.tTh i = 0 := by show a.s.tTh i = _; rw [A.tTh, b2]
  intro c
  change (runP o mix a 1).s.rw2 i = _ at h1
  rw [h1, e0]
  beta_reduce
  rw [e1, e2, b1, b2, b3]
  congr 1
  cases hp : o.tpr.const_p
  · simp [runP, c]
  · simp [runP, c, b4 hp]

/-- specification of completeness: with the surroundings of the own cell saved, the first substep is in the air of the cell (if it has not changed since) -/
theorem complete_first_substep (o : Cfg) (mix : Bool) (q a : PSt) (hs : Sorted q.s.d) (hr : ∀ i < q.s.d.N, 0 ≤ q.s.rw2 i) (ha : startP o mix q = some a) (hS : 0 < o.sstp)
    (i : ℕ) (hi : i < q.s.d.N) (hv : q.s.tRv i = q.s.rv (q.s.d.ijk i)) (ht : q.s.tTh i = q.s.th (q.s.d.ijk i)) (hh : q.s.tRh i = q.s.d.rhod (q.s.d.ijk i))
    (hp : q.tP i = q.s.p (q.s.d.ijk i)) :
    let c := q.s.d.ijk i
    (runP o mix a 1).s.rw2 i = advance o.num (airFor o a i (q.s.rv c) (q.s.th c) (q.s.d.rhod c) (if o.tpr.const_p then q.s.p c else a.tP i)) (o.dt / o.sstp) (q.s.rw2 i) := by
  obtain ⟨a', e, A⟩ := startP_ok o mix q hs
  rw [ha] at e
  obtain rfl : a = a' := by simpa using e
  obtain ⟨h1, -⟩ := perpart_substep o mix q a hs hr ha 0 hS i hi
  have e0 : (runP o mix a 0).s.rw2 i = q.s.rw2 i := by show a.s.rw2 i = _; rw [A.rw2]
  have e1 : (runP o mix a 0).s.tRv i = q.s.rv (q.s.d.ijk i) := by show a.s.tRv i = _; rw [A.tRv, hv]
  have e2 : (runP o mix a 0).s.tTh i = q.s.th (q.s.d.ijk i) := by show a.s.tTh i = _; rw [A.tTh, ht]
  intro c
  change (runP o mix a 1).s.rw2 i = _ at h1
  rw [h1, e0]
  beta_reduce
  rw [e1, e2, hv, ht, hh, hp]
  simp [runP, c]

/-! ### How wrong the air is -/

theorem R_d_bounds : 287 < R_d ∧ R_d < 287.1 := by
  unfold R_d kaBoNA M_d; constructor <;> norm_num

/-- **C78** (negation, dry potential temperature) The temperature is that of the cell divided by `sstp` to the power of `(c_pd + R_d) / (c_pd - R_d)`, about 1.8. -/
theorem blank_temperature (th rho : ℝ) (S : ℕ) (hS : 0 < S) (hth : 0 < th) (hrho : 0 < rho) :
    Tdry (th / S) (rho / S) = Tdry th rho / (S : ℝ) ^ ((c_pd + R_d) / (c_pd - R_d)) := by
  have hSr : (0 : ℝ) < S := by exact_mod_cast hS
  obtain ⟨r1, r2⟩ := R_d_bounds
  have hp : (0 : ℝ) < p_1000 := by unfold p_1000; norm_num
  have hR : 0 < R_d := by linarith
  have hc : c_pd = 1005 := rfl
  unfold Tdry
  set k := R_d / c_pd with hk
  set m := c_pd / (c_pd - R_d) with hm
  have h1 : (rho / S * R_d / p_1000) ^ k = (rho * R_d / p_1000) ^ k / (S : ℝ) ^ k := by
    rw [show rho / S * R_d / p_1000 = rho * R_d / p_1000 / S by ring, Real.div_rpow (by positivity) hSr.le]
  have hSk := Real.rpow_pos_of_pos hSr k
  have h2 : th / S * ((rho * R_d / p_1000) ^ k / (S : ℝ) ^ k) = th * (rho * R_d / p_1000) ^ k / (S : ℝ) ^ (1 + k) := by
    rw [Real.rpow_add hSr, Real.rpow_one]; field_simp
  rw [h1, h2, Real.div_rpow (by positivity) (by positivity), ← Real.rpow_mul hSr.le]
  congr 2
  rw [hk, hm]
  have : c_pd - R_d ≠ 0 := by rw [hc]; linarith
  have : c_pd ≠ 0 := by rw [hc]; norm_num
  field_simp

/-- vapour pressure from density, mixing ratio and temperature -/
theorem vapour (rho rv T : ℝ) (hrv : 0 < rv) : p_v (pDry rho rv T) rv = rho * rv * R_v * T := by
  unfold p_v pDry
  have he : eps = R_d / R_v := by
    unfold eps R_d R_v kaBoNA M_d M_v M_H M_OH; norm_num
  have hRv : 0 < R_v := by unfold R_v kaBoNA M_v M_H M_OH; norm_num
  have hRd : 0 < R_d := by linarith [R_d_bounds.1]
  rw [he]
  field_simp
  ring

/-- saturation pressure drops steeply: between a temperature `T ≤ 350 K` and `T / x` -/
theorem p_vs_drop (T x : ℝ) (hT0 : 0 < T) (hT : T ≤ 350) (hx : 1 ≤ x) : p_vs (T / x) * Real.exp (14.3 * (x - 1)) ≤ p_vs T := by
  have hx0 : 0 < x := by linarith
  have hlog : Real.log (T / x / T_tri) = Real.log (T / T_tri) - Real.log x := by
    rw [show T / x / T_tri = T / T_tri / x by ring, Real.log_div (by unfold T_tri; positivity) hx0.ne']
  have hlx : Real.log x ≤ x - 1 := Real.log_le_sub_one_of_pos hx0
  have hlx0 : 0 ≤ Real.log x := Real.log_nonneg hx
  unfold p_vs
  rw [hlog, mul_assoc, ← Real.exp_add]
  have hp : 0 < p_tri := by unfold p_tri; norm_num
  apply mul_le_mul_of_nonneg_left _ hp.le
  apply Real.exp_le_exp.2
  set A := (l_tri + (c_pw - c_pv) * T_tri) / R_v with hA
  set B := (c_pw - c_pv) / R_v with hB
  have hA1 : 6810 ≤ A := by
    rw [hA]; unfold l_tri c_pw c_pv T_tri R_v kaBoNA M_v M_H M_OH; norm_num
  have hB1 : B ≤ 5.14 := by
    rw [hB]; unfold c_pw c_pv R_v kaBoNA M_v M_H M_OH; norm_num
  have hB0 : 0 ≤ B := by
    rw [hB]; unfold c_pw c_pv R_v kaBoNA M_v M_H M_OH; norm_num
  have h1 : 1 / (T / x) = x / T := by field_simp
  rw [h1]
  have hAT : 19.45 ≤ A / T := by
    rw [le_div_iff₀ hT0]; nlinarith
  have e1 : A * (1 / T_tri - 1 / T) - B * Real.log (T / T_tri) - (A * (1 / T_tri - x / T) - B * (Real.log (T / T_tri) - Real.log x)) =
      A / T * (x - 1) - B * Real.log x := by field_simp; ring
  have h2 : B * Real.log x ≤ 5.14 * (x - 1) := by nlinarith
  have h3 : 19.45 * (x - 1) ≤ A / T * (x - 1) := by
    apply mul_le_mul_of_nonneg_right hAT (by linarith)
  linarith

/-- **C78** (negation) With two or more substeps, dry potential temperature, diagnosed pressure and up to 350 K, the relative humidity a new super-droplet is given is more than 1e11 times that
of its cell: practically always the limit `RH_max`. -/
theorem blank_humidity (th rho rv : ℝ) (S : ℕ) (hS : 2 ≤ S) (hth : 0 < th) (hrho : 0 < rho) (hrv : 0 < rv) (hT : Tdry th rho ≤ 350) :
    let T := Tdry th rho
    let T' := Tdry (th / S) (rho / S)
    1e11 * (p_v (pDry rho rv T) rv / p_vs T) ≤ p_v (pDry (rho / S) (rv / S) T') (rv / S) / p_vs T' := by
  intro T T'
  have hSr : (2 : ℝ) ≤ S := by exact_mod_cast hS
  have hS0 : (0 : ℝ) < S := by linarith
  obtain ⟨r1, r2⟩ := R_d_bounds
  have hR : 0 < R_d := by linarith
  have hc : c_pd = 1005 := rfl
  have hT0 : 0 < T := by
    have hp : (0 : ℝ) < p_1000 := by unfold p_1000; norm_num
    show 0 < Tdry th rho
    unfold Tdry; positivity
  set E := (c_pd + R_d) / (c_pd - R_d) with hE
  have hE1 : 7 / 4 ≤ E := by
    rw [hE, le_div_iff₀ (by rw [hc]; linarith), hc]; linarith
  set x := (S : ℝ) ^ E with hx
  have hTx : T' = T / x := blank_temperature th rho S (by omega) hth hrho
  have hx0 : 0 < x := Real.rpow_pos_of_pos hS0 E
  have hSx : (S : ℝ) ≤ x := by
    calc (S : ℝ) = (S : ℝ) ^ (1 : ℝ) := (Real.rpow_one _).symm
      _ ≤ x := Real.rpow_le_rpow_of_exponent_le (by linarith) (by linarith)
  have hx3 : 3.36 ≤ x := by
    have h1 : (3.36 : ℝ) ≤ 2 ^ (7 / 4 : ℝ) := by
      have h4 : ((2 : ℝ) ^ (7 / 4 : ℝ)) ^ 4 = 128 := by
        rw [← Real.rpow_natCast, ← Real.rpow_mul (by norm_num)]; norm_num
      by_contra hlt
      push Not at hlt
      have : ((2 : ℝ) ^ (7 / 4 : ℝ)) ^ 4 < 3.36 ^ 4 := by gcongr
      rw [h4] at this
      norm_num at this
    refine h1.trans ?_
    calc (2 : ℝ) ^ (7 / 4 : ℝ) ≤ 2 ^ E := Real.rpow_le_rpow_of_exponent_le (by norm_num) hE1
      _ ≤ x := Real.rpow_le_rpow (by norm_num) hSr (by linarith)
  have hRv : 0 < R_v := by unfold R_v kaBoNA M_v M_H M_OH; norm_num
  rw [vapour rho rv T hrv, vapour (rho / S) (rv / S) T' (by positivity), hTx]
  have hdrop := p_vs_drop T x hT0 hT (by linarith)
  have hpv : ∀ T, 0 < p_vs T := by intro T; unfold p_vs p_tri; positivity
  have hP := hpv (T / x)
  have hP' := hpv T
  have hbig : 1e11 * (S * S * x) ≤ Real.exp (14.3 * (x - 1)) := by
    have hSl : (S : ℝ) * S * x ≤ x * x * x := by
      have : (S : ℝ) * S ≤ x * x := mul_le_mul hSx hSx hS0.le hx0.le
      exact mul_le_mul_of_nonneg_right this hx0.le
    have hx1 : x ≤ Real.exp (x - 1) := by have := Real.add_one_le_exp (x - 1); linarith
    have h3 : x * x * x ≤ Real.exp (3 * (x - 1)) := by
      calc x * x * x ≤ Real.exp (x - 1) * Real.exp (x - 1) * Real.exp (x - 1) := by gcongr
        _ = Real.exp (3 * (x - 1)) := by rw [← Real.exp_add, ← Real.exp_add]; ring_nf
    have h26 : (1e11 : ℝ) ≤ Real.exp 26 := by
      have h1 : Real.exp 26 = Real.exp 1 ^ 26 := by rw [← Real.exp_nat_mul]; norm_num
      have h2 : (2.7182818283 : ℝ) < Real.exp 1 := Real.exp_one_gt_d9
      rw [h1]
      calc (1e11 : ℝ) ≤ 2.7182818283 ^ 26 := by norm_num
        _ ≤ Real.exp 1 ^ 26 := by gcongr
    have h4 : Real.exp 26 ≤ Real.exp (11.3 * (x - 1)) := Real.exp_le_exp.2 (by linarith)
    calc 1e11 * (S * S * x) ≤ Real.exp (11.3 * (x - 1)) * Real.exp (3 * (x - 1)) :=
          mul_le_mul (h26.trans h4) (hSl.trans h3) (by positivity) (Real.exp_pos _).le
      _ = Real.exp (14.3 * (x - 1)) := by rw [← Real.exp_add]; ring_nf
  have key : p_vs (T / x) * (1e11 * (S * S * x)) ≤ p_vs T :=
    (mul_le_mul_of_nonneg_left hbig hP.le).trans hdrop
  rw [mul_div_assoc', div_le_div_iff₀ hP' hP]
  have e1 : rho / S * (rv / S) * R_v * (T / x) * p_vs T = (rho * rv * R_v * T) * (p_vs T / (S * S * x)) := by field_simp
  rw [e1, show 1e11 * (rho * rv * R_v * T) * p_vs (T / x) = (rho * rv * R_v * T) * (1e11 * p_vs (T / x)) by ring]
  apply mul_le_mul_of_nonneg_left _ (by positivity)
  rw [le_div_iff₀ (by positivity)]
  linarith

/-! ### Critical radius -/

/-- **C78** (negation, adaptive substeps) The critical radius of a new super-droplet is marked as unknown by -1 (particles_impl.ipp:490) and computed only after coalescence (particles_step.ipp:403).
Until then the droplet is never found to activate, whatever it does (unless its squared radius would drop below -1). -/
theorem blank_never_activates (c : ACfg) (x : AIn) (s : ASt) (m : ℕ) (d : ℝ) (hx : x.rc2 = -1) (hs : 0 ≤ s.rw2) (hd : -1 ≤ s.rw2 + m * d) : ¬ Crosses c x s m d := by
  rintro ⟨_, ⟨h1, _⟩ | ⟨_, h2⟩⟩ <;> rw [hx] at * <;> linarith

/-! ### Non-vacuity -/

/-- cell 0 of the example state of C60, two droplets there and one added -/
noncomputable def exNew : New := ⟨1, fun _ => 100, fun _ => 0, fun _ => 1e-14, fun _ => 1e-24, fun _ => 0.6⟩

example : Blank exPC (addSds exPC false exNew exPart) 2 ∧ ¬ Blank exPC (addSds exPC false exNew exPart) 1 := by
  refine ⟨added_blank _ _ _ _ (le_refl 2), ?_⟩
  rintro ⟨h, -⟩
  have := (added_old exPC false exNew exPart 1 (show 1 < 2 by norm_num)).1
  rw [h] at this
  norm_num [exPart] at this

/-- air of 300 K at 1000 hPa: below 350 K -/
example : Tdry 300 (p_1000 / (300 * R_d)) ≤ 350 := by
  obtain ⟨r1, r2⟩ := R_d_bounds
  have hc : c_pd = 1005 := rfl
  have hR : 0 < R_d := by linarith
  have hp : (0 : ℝ) < p_1000 := by unfold p_1000; norm_num
  unfold Tdry
  have e : p_1000 / (300 * R_d) * R_d / p_1000 = (300 : ℝ)⁻¹ := by field_simp
  have h3 : (300 : ℝ) * (300⁻¹ : ℝ) ^ (R_d / c_pd) = 300 ^ (1 - R_d / c_pd) := by
    rw [Real.rpow_sub (by norm_num), Real.rpow_one, Real.inv_rpow (by norm_num)]; rfl
  rw [e, h3, ← Real.rpow_mul (by norm_num), show (1 - R_d / c_pd) * (c_pd / (c_pd - R_d)) = 1 by
    have : c_pd - R_d ≠ 0 := by rw [hc]; linarith
    have : c_pd ≠ 0 := by rw [hc]; norm_num
    field_simp, Real.rpow_one]
  norm_num

end LCP.Src
