import Verif.Turb.Model
import Verif.Cond.PerCellLemmas
import Verif.Common.Koehler
import Mathlib.Probability.Moments.Variance
import Mathlib.Probability.Distributions.Gaussian.Real
import Mathlib.Probability.Independence.InfinitePi
import Mathlib.Analysis.SpecificLimits.Basic
import Mathlib.Tactic.LinearCombination
import Mathlib.Tactic.FieldSimp
import Mathlib.Tactic.Positivity

/-!
# C64: subgrid turbulence - velocities and supersaturation perturbations
-/
namespace LCP.Turb
open LCP.Common LCP.Cond
open LCP.Diag hiding St
open MeasureTheory ProbabilityTheory Filter

/-! ### the random velocity of one super-droplet -/

/-- autocorrelation over one time step -/
noncomputable def corr (tau dt : ℝ) : ℝ := Real.exp (-(dt / tau))

theorem updateTurbVel_eq (w tau dt k r : ℝ) : updateTurbVel w tau dt k r = corr tau dt * w + Real.sqrt ((1 - corr tau dt ^ 2) * (2 / 3 * k)) * r := by
  unfold updateTurbVel corr
  rw [neg_div]
  simp only []
  ring_nf

theorem corr_mem (tau dt : ℝ) (ht : 0 ≤ tau) (hd : 0 ≤ dt) : 0 < corr tau dt ∧ corr tau dt ≤ 1 :=
  ⟨Real.exp_pos _, Real.exp_le_one_iff.2 (by have := div_nonneg hd ht; linarith)⟩

variable {Ω : Type*} [MeasurableSpace Ω] {μ : Measure Ω} [IsProbabilityMeasure μ]

/-- **C64 (one step).** If a super-droplet's turbulent velocity is a random variable `W` and the random number `R` drawn is
independent of it with mean 0 and variance 1, then the new velocity has the mean `e·E W` and the variance
`e²·Var W + (1 - e²)·2k/3`, with `e = exp(-dt/tau)`. -/
theorem turb_moments (W R : Ω → ℝ) (hW : MemLp W 2 μ) (hR : MemLp R 2 μ) (hi : IndepFun W R μ) (hm : ∫ ω, R ω ∂μ = 0) (hv : variance R μ = 1)
    (tau dt k : ℝ) (ht : 0 ≤ tau) (hd : 0 ≤ dt) (hk : 0 ≤ k) :
    let W' := fun ω => updateTurbVel (W ω) tau dt k (R ω)
    MemLp W' 2 μ ∧ ∫ ω, W' ω ∂μ = corr tau dt * ∫ ω, W ω ∂μ ∧
      variance W' μ = corr tau dt ^ 2 * variance W μ + (1 - corr tau dt ^ 2) * (2 / 3 * k) := by
  intro W'
  obtain ⟨e0, e1⟩ := corr_mem tau dt ht hd
  set e := corr tau dt with he
  set σ := Real.sqrt ((1 - e ^ 2) * (2 / 3 * k)) with hσ
  have hs : σ ^ 2 = (1 - e ^ 2) * (2 / 3 * k) := Real.sq_sqrt (mul_nonneg (by nlinarith) (by positivity))
  have hW' : W' = (fun ω => e * W ω) + (fun ω => σ * R ω) := by
    funext ω; exact updateTurbVel_eq _ _ _ _ _
  have m1 : MemLp (fun ω => e * W ω) 2 μ := hW.const_mul e
  have m2 : MemLp (fun ω => σ * R ω) 2 μ := hR.const_mul σ
  have i1 : Integrable W μ := hW.integrable one_le_two
  have i2 : Integrable R μ := hR.integrable one_le_two
  refine ⟨by rw [hW']; exact m1.add m2, ?_, ?_⟩
  · rw [hW']
    simp only [Pi.add_apply]
    rw [integral_add (i1.const_mul e) (i2.const_mul σ), integral_const_mul, integral_const_mul, hm, mul_zero, add_zero]
  · have hind : IndepFun (fun ω => e * W ω) (fun ω => σ * R ω) μ :=
      hi.comp (φ := fun x => e * x) (ψ := fun x => σ * x) (measurable_const_mul e) (measurable_const_mul σ)
    rw [hW', IndepFun.variance_add m1 m2 hind, variance_const_mul, variance_const_mul, hv, hs]
    ring

/-- **C64 (stationary).** Velocity components with the variance `2k/3` of isotropic turbulence of kinetic energy `k` keep it, for
every time step. -/
theorem turb_stationary (W R : Ω → ℝ) (hW : MemLp W 2 μ) (hR : MemLp R 2 μ) (hi : IndepFun W R μ) (hm : ∫ ω, R ω ∂μ = 0) (hv : variance R μ = 1)
    (tau dt k : ℝ) (ht : 0 ≤ tau) (hd : 0 ≤ dt) (hk : 0 ≤ k) (h0 : ∫ ω, W ω ∂μ = 0) (hk0 : variance W μ = 2 / 3 * k) :
    ∫ ω, updateTurbVel (W ω) tau dt k (R ω) ∂μ = 0 ∧ variance (fun ω => updateTurbVel (W ω) tau dt k (R ω)) μ = 2 / 3 * k := by
  obtain ⟨-, h1, h2⟩ := turb_moments W R hW hR hi hm hv tau dt k ht hd hk
  refine ⟨by rw [h1, h0, mul_zero], ?_⟩
  rw [h2, hk0]; ring

omit [IsProbabilityMeasure μ] in
/-- the velocity before each step is independent of that step's random number if the initial velocity and all random numbers are
mutually independent -/
theorem indep_of_mutual (W R : ℕ → Ω → ℝ) (X : ℕ → Ω → ℝ) (hX : iIndepFun X μ) (hXm : ∀ n, Measurable (X n)) (h0 : X 0 = W 0) (h1 : ∀ n, X (n + 1) = R n)
    (g : ℝ → ℝ → ℝ) (hg : Measurable (fun p : ℝ × ℝ => g p.1 p.2)) (hW : ∀ n, W (n + 1) = fun ω => g (W n ω) (R n ω)) (n : ℕ) :
    IndepFun (W n) (R n) μ := by
  have key : ∀ n, ∃ φ : ((i : Finset.range (n + 1)) → ℝ) → ℝ, Measurable φ ∧ W n = fun ω => φ (fun i => X i ω) := by
    intro n
    induction n with
    | zero => exact ⟨fun v => v ⟨0, by simp⟩, measurable_pi_apply _, by rw [← h0]⟩
    | succ n ih =>
      obtain ⟨φ, hφ, e⟩ := ih
      refine ⟨fun v => g (φ (fun i => v ⟨i.1, by have := Finset.mem_range.1 i.2; simp; omega⟩)) (v ⟨n + 1, by simp⟩), ?_, ?_⟩
      · refine hg.comp (Measurable.prodMk (hφ.comp (measurable_pi_lambda _ fun i => measurable_pi_apply _)) (measurable_pi_apply _))
      · rw [hW n, e, ← h1 n]
  obtain ⟨φ, hφ, e⟩ := key n
  have hind := hX.indepFun_finset (Finset.range (n + 1)) {n + 1} (by simp) hXm
  rw [e, ← h1 n]
  exact hind.comp (φ := φ) (ψ := fun v : ((i : ({n + 1} : Finset ℕ)) → ℝ) => v ⟨n + 1, by simp⟩) hφ
    (measurable_pi_apply (⟨n + 1, by simp⟩ : ({n + 1} : Finset ℕ)))

theorem measurable_updateTurbVel (tau dt k : ℝ) : Measurable (fun p : ℝ × ℝ => updateTurbVel p.1 tau dt k p.2) := by
  unfold updateTurbVel
  simp only []
  exact (measurable_fst.mul_const _).add (measurable_const.mul measurable_snd)

/-- **C64 (relaxation).** Over any number of steps in steady turbulence the variance approaches `2k/3` geometrically from any initial
value, and the mean velocity dies out. -/
theorem turb_relaxes (W R : ℕ → Ω → ℝ) (hW0 : MemLp (W 0) 2 μ) (hR : ∀ n, MemLp (R n) 2 μ) (X : ℕ → Ω → ℝ)
    (hX : iIndepFun X μ) (hXm : ∀ n, Measurable (X n)) (hX0 : X 0 = W 0) (hX1 : ∀ n, X (n + 1) = R n)
    (hm : ∀ n, ∫ ω, R n ω ∂μ = 0) (hv : ∀ n, variance (R n) μ = 1) (tau dt k : ℝ) (ht : 0 ≤ tau) (hd : 0 ≤ dt) (hk : 0 ≤ k)
    (hW : ∀ n, W (n + 1) = fun ω => updateTurbVel (W n ω) tau dt k (R n ω)) (n : ℕ) :
    ∫ ω, W n ω ∂μ = corr tau (n * dt) * ∫ ω, W 0 ω ∂μ ∧
    variance (W n) μ - 2 / 3 * k = corr tau (n * dt) ^ 2 * (variance (W 0) μ - 2 / 3 * k) := by
  have hi := indep_of_mutual W R X hX hXm hX0 hX1 (fun w r => updateTurbVel w tau dt k r) (measurable_updateTurbVel tau dt k) hW
  suffices h : MemLp (W n) 2 μ ∧ ∫ ω, W n ω ∂μ = corr tau (n * dt) * ∫ ω, W 0 ω ∂μ ∧
      variance (W n) μ - 2 / 3 * k = corr tau (n * dt) ^ 2 * (variance (W 0) μ - 2 / 3 * k) from h.2
  induction n with
  | zero => simp [corr, hW0]
  | succ n ih =>
    obtain ⟨h1, h2, h3⟩ := ih
    obtain ⟨g1, g2, g3⟩ := turb_moments (W n) (R n) h1 (hR n) (hi n) (hm n) (hv n) tau dt k ht hd hk
    have ec : corr tau ((n + 1 : ℕ) * dt) = corr tau dt * corr tau (n * dt) := by
      unfold corr; rw [← Real.exp_add]; congr 1; push_cast; ring
    rw [hW n]
    refine ⟨g1, ?_, ?_⟩
    · rw [g2, h2, ec]; ring
    · rw [g3, ec]; linear_combination (corr tau dt ^ 2) * h3

/-- the variance tends to `2k/3` -/
theorem turb_limit (W R : ℕ → Ω → ℝ) (hW0 : MemLp (W 0) 2 μ) (hR : ∀ n, MemLp (R n) 2 μ) (X : ℕ → Ω → ℝ)
    (hX : iIndepFun X μ) (hXm : ∀ n, Measurable (X n)) (hX0 : X 0 = W 0) (hX1 : ∀ n, X (n + 1) = R n)
    (hm : ∀ n, ∫ ω, R n ω ∂μ = 0) (hv : ∀ n, variance (R n) μ = 1) (tau dt k : ℝ) (ht : 0 < tau) (hd : 0 < dt) (hk : 0 ≤ k)
    (hW : ∀ n, W (n + 1) = fun ω => updateTurbVel (W n ω) tau dt k (R n ω)) :
    Tendsto (fun n => variance (W n) μ) atTop (nhds (2 / 3 * k)) := by
  have hc : ∀ n : ℕ, corr tau (n * dt) ^ 2 = (corr tau dt ^ 2) ^ n := by
    intro n
    have : corr tau (n * dt) = corr tau dt ^ n := by unfold corr; rw [← Real.exp_nat_mul]; congr 1; ring
    rw [this]; ring
  have h := fun n => (turb_relaxes W R hW0 hR X hX hXm hX0 hX1 hm hv tau dt k ht.le hd.le hk hW n).2
  have e1 : corr tau dt < 1 := Real.exp_lt_one_iff.2 (by have := div_pos hd ht; linarith)
  have e0 := (corr_mem tau dt ht.le hd.le).1
  have ht : Tendsto (fun n : ℕ => (corr tau dt ^ 2) ^ n * (variance (W 0) μ - 2 / 3 * k) + 2 / 3 * k) atTop (nhds (0 * (variance (W 0) μ - 2 / 3 * k) + 2 / 3 * k)) :=
    ((tendsto_pow_atTop_nhds_zero_of_lt_one (by positivity) (by nlinarith)).mul_const _).add_const _
  rw [zero_mul, zero_add] at ht
  refine ht.congr fun n => ?_
  have := h n
  rw [hc] at this
  linarith

/-- two steps are statistically the same as one of their total length (same factor, same added variance) -/
theorem turb_step_length (tau dt dt' k V m : ℝ) :
    corr tau dt' * (corr tau dt * m) = corr tau (dt + dt') * m ∧
    corr tau dt' ^ 2 * (corr tau dt ^ 2 * V + (1 - corr tau dt ^ 2) * (2 / 3 * k)) + (1 - corr tau dt' ^ 2) * (2 / 3 * k) =
      corr tau (dt + dt') ^ 2 * V + (1 - corr tau (dt + dt') ^ 2) * (2 / 3 * k) := by
  have e : corr tau (dt + dt') = corr tau dt * corr tau dt' := by unfold corr; rw [← Real.exp_add]; congr 1; ring
  rw [e]
  constructor <;> ring

/-! ### kinetic energy and time scale -/

/-- **C64 (kinetic energy).** `k^(3/2) = ε L / C_E`, the dissipation law of Grabowski & Abade (2017). -/
theorem tke_law (diss L : ℝ) (h1 : 0 ≤ diss) (h2 : 0 ≤ L) : 0 ≤ tke diss L ∧ tke diss L ^ (3 / 2 : ℝ) = diss * L / 0.845 := by
  have hx : 0 ≤ L * diss / C_E := div_nonneg (mul_nonneg h2 h1) (by norm_num [C_E])
  have hc : 0 ≤ cbrt (L * diss / C_E) := by unfold cbrt; exact Real.rpow_nonneg hx _
  unfold tke
  simp only []
  refine ⟨mul_self_nonneg _, ?_⟩
  rw [← pow_two, ← Real.rpow_natCast, ← Real.rpow_mul hc]
  have e : ((2 : ℕ) : ℝ) * (3 / 2) = ((3 : ℕ) : ℝ) := by norm_num
  rw [e, Real.rpow_natCast, cbrt_cube _ hx]
  unfold C_E; ring

/-- **C64 (time scale).** `tau² k (2π)^(2/3) = 1.5 L²`. -/
theorem tau_law (k L : ℝ) (hk : 0 < k) (hL : 0 < L) : 0 < tau k L ∧ tau k L ^ 2 * k * (2 * Real.pi) ^ (2 / 3 : ℝ) = 1.5 * L ^ 2 := by
  have hp : (0 : ℝ) < 2 * Real.pi := by have := Real.pi_pos; positivity
  have hc : 0 < cubeRootOfTwoPi := Real.rpow_pos_of_pos hp _
  have hq : 0 < C_tau / k := div_pos (by norm_num [C_tau]) hk
  have hs := Real.sqrt_pos.2 hq
  unfold tau
  refine ⟨by positivity, ?_⟩
  have e : (2 * Real.pi) ^ (2 / 3 : ℝ) = cubeRootOfTwoPi ^ 2 := by
    unfold cubeRootOfTwoPi
    rw [← Real.rpow_natCast, ← Real.rpow_mul hp.le]; norm_num
  rw [e, mul_pow, Real.sq_sqrt hq.le]
  unfold C_tau
  field_simp

/-- no dissipation, no change of the velocity -/
theorem calm (w L dt r : ℝ) : updateTurbVel w (tau (tke 0 L) L) dt (tke 0 L) r = w := by
  have h : tke 0 L = 0 := by unfold tke cbrt; simp
  rw [h]
  unfold updateTurbVel tau
  simp

/-! ### the whole step -/

/-- mixing length of the level of a cell -/
def lenOf (o : TCfg) (c : ℕ) : ℝ := o.mixLen (c % o.nz)

/-- new velocity of a super-droplet in cell `c`: Ornstein-Uhlenbeck step with the cell's kinetic energy and time scale -/
noncomputable def newVel (o : TCfg) (x : TSt) (c : ℕ) (w r : ℝ) : ℝ :=
  let k := tke (x.diss c) (lenOf o c)
  let e := corr (tau k (lenOf o c)) o.dt
  e * w + Real.sqrt ((1 - e ^ 2) * (2 / 3 * k)) * r

/-- `moms_calc` without division by the mass of air -/
theorem momsCalc_lists_raw {s : Diag.St} (h : IsCellSort s.N s.ijk s.sid) {nf : ℕ → ℝ} (hnf : s.nf = some nf) (v : ℕ → ℝ) (power : ℝ) :
    ∃ t, momsCalc s v power false = some t ∧ Lists t (fun c => cellSum s c (fun i => momentCounter power (nf i) (v i))) ∧
      t = { s with countN := t.countN, countIjk := t.countIjk, countMom := t.countMom } := by
  have h0 : IsCellSort ({ s with nDims := 0 } : Diag.St).N s.ijk s.sid := h
  obtain ⟨t, ht, hl, he⟩ := momsCalc_lists (s := { s with nDims := 0 }) h0 hnf v power
  unfold momsCalc at ht ⊢
  simp only [hnf, Option.map_some, Option.some.injEq] at ht ⊢
  simp only [Bool.false_and, Bool.false_eq_true, if_false]
  refine ⟨_, rfl, ?_, by cases s; simp only at hnf; subst hnf; rfl⟩
  rw [if_neg (by simp [reduceToCount])] at ht
  subst ht
  have hM : (fun c => cellSum ({ s with nDims := 0 } : Diag.St) c (fun i => momentCounter power (nf i) (v i)) * perMass ({ s with nDims := 0 } : Diag.St) c) =
      fun c => cellSum s c (fun i => momentCounter power (nf i) (v i)) := by
    funext c; unfold perMass cellSum; simp
  rw [hM] at hl
  exact ⟨hl.nodup, hl.mem, hl.val⟩

/-- sum of the radii of the droplets in a cell -/
noncomputable def radiiIn (s : St) (c : ℕ) : ℝ := ∑ i ∈ (Finset.range s.d.N).filter (fun i => s.d.ijk i = c), s.d.n i * Real.sqrt (s.rw2 i)

theorem dotSs_ok (junk : ℕ → ℝ) (x : TSt) (hs : Sorted x.s.d) (hr : ∀ i < x.s.d.N, 0 ≤ x.s.rw2 i) :
    ∃ x', hskpngTurbDotSs junk x = some x' ∧ Geo x.s.d x'.s.d ∧ x'.up = x.up ∧ x'.wp = x.wp ∧ x'.vp = x.vp ∧ x'.diss = x.diss ∧
      x'.s = { x.s with d := x'.s.d, dotSsp := x'.s.dotSsp } ∧
      ∀ i < x.s.d.N, x'.s.dotSsp i = 3e-4 * x.wp i - x.s.ssp i * (2.8e-4 * (radiiIn x.s (x.s.d.ijk i) / x.s.d.dv (x.s.d.ijk i))) := by
  classical
  unfold hskpngTurbDotSs
  simp only [Diag.select, Option.bind_some]
  obtain ⟨t, h1, h2, h3⟩ := momsCalc_lists_raw (s := { x.s.d with nf := some (fun i => (x.s.d.n i : ℝ)) }) hs.sort rfl x.s.rw2 (1 / 2)
  simp only [h1, Option.bind_eq_bind, Option.bind_some]
  have hdv : t.dv = x.s.d.dv := by rw [h3]
  have hN : t.N = x.s.d.N := by rw [h3]
  have hijk : t.ijk = x.s.d.ijk := by rw [h3]
  refine ⟨_, rfl, ?_, rfl, rfl, rfl, rfl, rfl, ?_⟩
  · show Geo x.s.d { t with countMom := _, nf := none }
    rw [h3]; exact ⟨rfl, rfl, rfl, rfl, rfl, rfl, rfl, rfl⟩
  · intro i hi
    set d' : Diag.St := { t with countMom := fun p => if p < t.countN then tauRelax (t.countMom p / t.dv (t.countIjk p)) else t.countMom p } with hd'
    have hent : entries d' = (entries t).map fun kv => (kv.1, tauRelax (kv.2 / t.dv kv.1)) := by
      unfold entries
      rw [List.map_map]
      apply List.map_congr_left
      intro p hp
      have hp' : p < t.countN := by simpa using hp
      simp [hd', hp']
    set M := fun c => cellSum ({ x.s.d with nf := some (fun i => (x.s.d.n i : ℝ)) } : Diag.St) c (fun i => momentCounter (1 / 2) (x.s.d.n i : ℝ) (x.s.rw2 i)) with hM
    have hL : Lists d' (fun c => tauRelax (M c / t.dv c)) := by
      have hk : (entries d').map Prod.fst = (entries t).map Prod.fst := by rw [hent, List.map_map]; rfl
      refine ⟨by rw [hk]; exact h2.nodup, fun c => by rw [hk]; exact h2.mem c, ?_⟩
      intro kv hkv
      rw [hent] at hkv
      obtain ⟨kv', hm, rfl⟩ := List.mem_map.1 hkv
      simp only []
      rw [h2.val kv' hm]
    show dotTurbSs (x.s.ssp i) (x.wp i) (permMap (fun m _ => m) d' junk (x.s.d.ijk i)) = _
    have hocc : occ d' (x.s.d.ijk i) := ⟨i, by show i < t.N; rw [hN]; exact hi, by show t.ijk i = _; rw [hijk]⟩
    rw [permMap_eq hL, if_pos hocc]
    have hMr : M (x.s.d.ijk i) = radiiIn x.s (x.s.d.ijk i) := by
      rw [hM]
      unfold radiiIn cellSum
      apply Finset.sum_congr rfl
      intro j hj
      have hj' : j < x.s.d.N := by simpa using (Finset.mem_filter.1 hj).1
      have hh := momentCounter_root (m := 2) two_ne_zero 1 (n := (x.s.d.n j : ℝ)) (r := Real.sqrt (x.s.rw2 j)) (Real.sqrt_nonneg _)
      rw [Real.sq_sqrt (hr j hj'), pow_one] at hh
      rw [← hh]; norm_num
    rw [hMr, hdv]
    unfold dotTurbSs tauRelax a_1 a_2
    rw [div_div_eq_mul_div, div_one]

/-- **C64 (step).** The turbulence part of `step_async`: with turbulent advection every super-droplet's velocity components (one, two
or three, as the number of dimensions) take one step with the kinetic energy `(ε L/C_E)^(2/3)` of its cell and the mixing length of its
level; with turbulent condensation only, the vertical one does; nothing else moves. The supersaturation tendency is the source
by the new vertical velocity minus relaxation by the droplets of the super-droplet's cell. -/
theorem turb_step (o : TCfg) (rn : ℕ → ℕ → ℝ) (junk : ℕ → ℝ) (x : TSt) (hs : Sorted x.s.d) (hr : ∀ i < x.s.d.N, 0 ≤ x.s.rw2 i) :
    ∃ x', turbAsync o rn junk x = some x' ∧ Geo x.s.d x'.s.d ∧ x'.s.ssp = x.s.ssp ∧ x'.s.rw2 = x.s.rw2 ∧
      ∀ i < x.s.d.N, let c := x.s.d.ijk i
        x'.up i = (if o.adve = true ∧ 1 ≤ x.s.d.nDims then newVel o x c (x.up i) (rn 0 i) else x.up i) ∧
        x'.wp i = (if (o.adve = true ∧ 2 ≤ x.s.d.nDims) ∨ (o.adve = false ∧ o.cond = true) then newVel o x c (x.wp i) (rn 1 i) else x.wp i) ∧
        x'.vp i = (if o.adve = true ∧ 3 ≤ x.s.d.nDims then newVel o x c (x.vp i) (rn 2 i) else x.vp i) ∧
        x'.s.dotSsp i = (if o.cond then 3e-4 * x'.wp i - x.s.ssp i * (2.8e-4 * (radiiIn x.s c / x.s.d.dv c)) else x.s.dotSsp i) := by
  set y : TSt := (if o.adve then hskpngTurbVel o false rn (hskpngTke o x) else if o.cond then hskpngTurbVel o true rn (hskpngTke o x) else x) with hy
  have e1 : turbAsync o rn junk x = if o.cond then hskpngTurbDotSs junk y else some y := by
    unfold turbAsync
    rw [hy]
    cases o.adve <;> cases o.cond <;> simp
  have hys : y.s = x.s := by
    rw [hy]; unfold hskpngTurbVel hskpngTke
    simp only []
    split_ifs <;> rfl
  have hvel : ∀ i, let c := x.s.d.ijk i
      y.up i = (if o.adve = true ∧ 1 ≤ x.s.d.nDims then newVel o x c (x.up i) (rn 0 i) else x.up i) ∧
      y.wp i = (if (o.adve = true ∧ 2 ≤ x.s.d.nDims) ∨ (o.adve = false ∧ o.cond = true) then newVel o x c (x.wp i) (rn 1 i) else x.wp i) ∧
      y.vp i = (if o.adve = true ∧ 3 ≤ x.s.d.nDims then newVel o x c (x.vp i) (rn 2 i) else x.vp i) := by
    intro i c
    have hc : ∀ z : TSt, z.s = x.s → z.diss = (hskpngTke o x).diss → ∀ v r, turbVelComp o z v r i = newVel o x c (v i) (r i) := by
      intro z hz hd v r
      unfold turbVelComp newVel
      rw [hz, hd]
      simp only []
      rw [updateTurbVel_eq]; rfl
    rw [hy]
    unfold hskpngTurbVel
    cases ha : o.adve with
    | true =>
      have hnd : (hskpngTke o x).s.d.nDims = x.s.d.nDims := rfl
      simp only [if_true, Bool.false_eq_true, if_false, hnd, true_and, false_and, or_false, zero_le, Bool.true_eq_false]
      by_cases d1 : 1 ≤ x.s.d.nDims
      · by_cases d2 : 2 ≤ x.s.d.nDims
        · by_cases d3 : 3 ≤ x.s.d.nDims
          · simp only [show 0 < x.s.d.nDims by omega, show 1 < x.s.d.nDims by omega, show 2 < x.s.d.nDims by omega, d1, d2, d3, if_true]
            exact ⟨(by apply hc <;> rfl), (by apply hc <;> rfl), (by apply hc <;> rfl)⟩
          · simp only [show 0 < x.s.d.nDims by omega, show 1 < x.s.d.nDims by omega, show ¬ 2 < x.s.d.nDims by omega, d1, d2, d3, if_true, if_false]
            exact ⟨(by apply hc <;> rfl), (by apply hc <;> rfl), rfl⟩
        · simp only [show 0 < x.s.d.nDims by omega, show ¬ 1 < x.s.d.nDims by omega, show ¬ 2 < x.s.d.nDims by omega, d1, d2,
            show ¬ 3 ≤ x.s.d.nDims by omega, if_true, if_false]
          exact ⟨(by apply hc <;> rfl), rfl, rfl⟩
      · simp only [show ¬ 0 < x.s.d.nDims by omega, show ¬ 1 < x.s.d.nDims by omega, show ¬ 2 < x.s.d.nDims by omega, d1,
            show ¬ 2 ≤ x.s.d.nDims by omega, show ¬ 3 ≤ x.s.d.nDims by omega, if_false]
        exact ⟨rfl, rfl, rfl⟩
    | false =>
      cases hcd : o.cond with
      | true =>
        simp only [Bool.false_eq_true, if_false, if_true, false_and, false_or, and_self]
        norm_num
        exact ⟨rfl, (by apply hc <;> rfl), rfl⟩
      | false =>
        simp only [Bool.false_eq_true, if_false, false_and, false_or, and_false]
        exact ⟨trivial, trivial, trivial⟩
  rw [e1]
  cases hcd : o.cond with
  | false =>
    simp only [Bool.false_eq_true, if_false]
    refine ⟨y, rfl, by rw [hys]; exact Geo.refl _, by rw [hys], by rw [hys], fun i _ => ?_⟩
    obtain ⟨v1, v2, v3⟩ := hvel i
    rw [hcd] at v2
    simp only [Bool.false_eq_true] at v2
    exact ⟨v1, v2, v3, by rw [hys]⟩
  | true =>
    simp only [if_true]
    obtain ⟨x', hx, hg, u1, u2, u3, u4, u5, hdot⟩ := dotSs_ok junk y (by rw [hys]; exact hs) (by rw [hys]; exact hr)
    rw [hys] at hg u5 hdot
    refine ⟨x', hx, hg, by rw [u5], by rw [u5], fun i hi => ?_⟩
    obtain ⟨v1, v2, v3⟩ := hvel i
    rw [hcd] at v2
    rw [u1, u2, u3]
    exact ⟨v1, by simpa using v2, v3, hdot i hi⟩

/-! ### relaxation of the supersaturation perturbation -/

/-- **C64 (supersaturation).** Over one time step (the tendency is applied in equal parts in the substeps of condensation) the distance from the
equilibrium `a₁ w/(a₂ I)` is multiplied by `1 - dt a₂ I`, `I` being the sum of radii per volume. -/
theorem ss_relax (S w I dt : ℝ) (hI : 0 < I) :
    let eq := 3e-4 * w / (2.8e-4 * I)
    (S + dt * dotTurbSs S w (tauRelax I)) - eq = (1 - dt * (2.8e-4 * I)) * (S - eq) := by
  intro eq
  have : (2.8e-4 * I : ℝ) ≠ 0 := by positivity
  simp only [dotTurbSs, tauRelax, a_1, a_2, eq, div_div_eq_mul_div, div_one]
  field_simp
  ring

/-- partial: it is approached if the time step is shorter than twice the relaxation time -/
theorem ss_relax_partial (S w I dt : ℝ) (hI : 0 < I) (hd : 0 < dt) (h : dt < 2 * tauRelax I) :
    |S + dt * dotTurbSs S w (tauRelax I) - 3e-4 * w / (2.8e-4 * I)| ≤ |S - 3e-4 * w / (2.8e-4 * I)| := by
  have h1 := ss_relax S w I dt hI
  simp only [] at h1
  rw [h1, abs_mul]
  have h2 : dt * (2.8e-4 * I) < 2 := by
    unfold tauRelax a_2 at h
    rw [mul_one_div, lt_div_iff₀ (by positivity)] at h
    exact h
  have h3 : 0 < dt * (2.8e-4 * I) := by positivity
  have h4 : |1 - dt * (2.8e-4 * I)| ≤ 1 := abs_le.2 ⟨by linarith, by linarith⟩
  exact mul_le_of_le_one_left (abs_nonneg _) h4

/-- **C64 (finding).** With a time step longer than twice the relaxation time the perturbation is driven away from its equilibrium. -/
theorem ss_diverges (S w I dt : ℝ) (hI : 0 < I) (h : 2 * tauRelax I < dt) (hne : S ≠ 3e-4 * w / (2.8e-4 * I)) :
    |S - 3e-4 * w / (2.8e-4 * I)| < |S + dt * dotTurbSs S w (tauRelax I) - 3e-4 * w / (2.8e-4 * I)| := by
  have h1 := ss_relax S w I dt hI
  simp only [] at h1
  rw [h1, abs_mul]
  have h2 : 2 < dt * (2.8e-4 * I) := by
    unfold tauRelax a_2 at h
    rw [mul_one_div, div_lt_iff₀ (by positivity)] at h
    exact h
  have h4 : 1 < |1 - dt * (2.8e-4 * I)| := by rw [abs_of_neg (by linarith)]; linarith
  have h5 : 0 < |S - 3e-4 * w / (2.8e-4 * I)| := abs_pos.2 (sub_ne_zero.2 hne)
  nlinarith

/-! ### Non-vacuity -/

/-- standard normal random numbers, one after another, meet the hypotheses of `turb_limit`, starting at rest -/
example (tau dt k : ℝ) (ht : 0 < tau) (hd : 0 < dt) (hk : 0 ≤ k) : ∃ (Ω : Type) (_ : MeasurableSpace Ω) (μ : Measure Ω) (_ : IsProbabilityMeasure μ)
    (W : ℕ → Ω → ℝ), W 0 = (fun _ => 0) ∧ Tendsto (fun n => variance (W n) μ) atTop (nhds (2 / 3 * k)) := by
  let ν : ℕ → Measure ℝ := fun n => if n = 0 then Measure.dirac 0 else gaussianReal 0 1
  have hν : ∀ n, IsProbabilityMeasure (ν n) := by intro n; unfold ν; split_ifs <;> infer_instance
  let μ : Measure (ℕ → ℝ) := Measure.infinitePi ν
  let R : ℕ → (ℕ → ℝ) → ℝ := fun n ω => ω (n + 1)
  let W : ℕ → (ℕ → ℝ) → ℝ := fun n => Nat.rec (fun _ => 0) (fun n w ω => updateTurbVel (w ω) tau dt k (R n ω)) n
  let X : ℕ → (ℕ → ℝ) → ℝ := fun n => if n = 0 then (fun _ => 0) else fun ω => ω n
  refine ⟨ℕ → ℝ, inferInstance, μ, inferInstance, W, rfl, ?_⟩
  have hmp : ∀ n, MeasurePreserving (R n) μ (gaussianReal 0 1) := by
    intro n
    have := measurePreserving_eval_infinitePi ν (n + 1)
    simpa [ν] using this
  have hXm : ∀ n, Measurable (X n) := by
    intro n; unfold X; split_ifs
    · exact measurable_const
    · exact measurable_pi_apply _
  have hX : iIndepFun X μ := by
    have := iIndepFun_infinitePi (Ω := fun _ => ℝ) (𝓧 := fun _ => ℝ) (P := ν) (X := fun (n : ℕ) (x : ℝ) => if n = 0 then 0 else x)
      (by
        intro n
        by_cases h : n = 0
        · simp only [h, if_true]; exact measurable_const
        · simp only [h, if_false]; exact measurable_id)
    convert this using 2 with n
    unfold X
    by_cases h : n = 0 <;> simp [h]
  refine turb_limit W R (by show MemLp (fun _ => (0 : ℝ)) 2 μ; exact memLp_const 0) (fun n => ?_) X hX hXm rfl (fun n => by simp [X, R]) (fun n => ?_)
    (fun n => ?_) tau dt k ht hd hk (fun n => rfl)
  · exact (memLp_id_gaussianReal 2).comp_measurePreserving (hmp n)
  · rw [← integral_id_gaussianReal (μ := 0) (v := 1), ← (hmp n).map_eq, integral_map (hmp n).aemeasurable (by fun_prop)]
  · rw [← NNReal.coe_one, ← variance_id_gaussianReal (μ := 0) (v := 1), ← (hmp n).map_eq, variance_map (by fun_prop) (hmp n).aemeasurable]
    rfl

/-- the step succeeds for a population in three dimensions -/
noncomputable def exTurb : TSt :=
  { s := { d := { N := 2, n := fun _ => 100, ijk := fun i => i, sid := [0, 1], nf := none, nCell := 2, nDims := 3, dv := fun _ => 8,
                  rhod := fun _ => 1, countN := 0, countIjk := fun _ => 0, countMom := fun _ => 0 }
           rv := fun _ => 0.01, th := fun _ => 290, p := fun _ => 1e5, T := fun _ => 280, RH := fun _ => 1, RHi := fun _ => 1, eta := fun _ => 0
           lamD := fun _ => 0, lamK := fun _ => 0, tRv := fun _ => 0, tTh := fun _ => 0, tRh := fun _ => 0, rw2 := fun _ => 1e-10
           rd3 := fun _ => 1e-24, kpa := fun _ => 0.6, vt := fun _ => 0, iceA := fun _ => 0, iceC := fun _ => 0, iceRho := fun _ => 0
           ssp := fun _ => 0.01, dotSsp := fun _ => 0, drw := fun _ => 0, rwM := fun _ => 0, dIce := fun _ => 0, iceM := fun _ => 0 }
    diss := fun _ => 1e-3, up := fun _ => 0.1, wp := fun _ => 0.2, vp := fun _ => 0.3 }

theorem exTurb_sorted : Sorted exTurb.s.d := by
  refine ⟨⟨by show [0, 1].Perm (List.range 2); decide, ?_⟩, fun i hi => hi⟩
  show ([0, 1].map fun i => i).Pairwise (· ≤ ·)
  decide

example : ∃ x', turbAsync { adve := true, cond := true, nz := 2, mixLen := fun _ => 10, dt := 1 } (fun _ _ => 1) (fun _ => 7) exTurb = some x' := by
  obtain ⟨x', h, -⟩ := turb_step { adve := true, cond := true, nz := 2, mixLen := fun _ => 10, dt := 1 } (fun _ _ => 1) (fun _ => 7) exTurb
    exTurb_sorted (fun i _ => by norm_num [exTurb])
  exact ⟨x', h⟩

end LCP.Turb
