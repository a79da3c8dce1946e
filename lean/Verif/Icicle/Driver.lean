import Verif.Icicle.AsyncProps
import Verif.Icicle.SpinupProps

/-!
# The whole driver: background steps with the options of the spin-up (C108, C109)
-/
namespace LCP.Icicle
open LCP.Step Relation

/-- options as time step number `t` uses them, `t0` being the number `hook_post_step` sees in the first one -/
noncomputable def stepOpts (μ : Micro LOpts) (N : ℤ) (r : Bool) (u : LOpts) (t0 t : ℕ) : Opts :=
  (during μ (ctor N r u) (t - t0)).opts.sw

theorem stepOk_lgrngn {c : Cfg} {a : SyncArgs} {u : LOpts} (h : StepOk c a u.sw) (N : ℤ) (r : Bool) (t0 t : ℕ) :
    StepOk c a (stepOpts (lgrngn u.sw.coal u.sw.sedi) N r u t0 t) := by
  obtain ⟨x, y, he, hx, hy⟩ := spinup_opts_sub N r u (t - t0)
  have he : stepOpts (lgrngn u.sw.coal u.sw.sedi) N r u t0 t = { u.sw with coal := x, sedi := y } := he
  rw [he]
  exact ⟨h.args, ⟨h.opts.chem, fun hc => h.opts.coal (hx hc), fun hs => h.opts.sedi (hy hs), h.opts.subs, h.opts.turbAdve, h.opts.dt,
    h.opts.src, h.opts.rlx⟩, h.turbCond⟩

/-- with chemistry the end of the spin-up may add reactions; the library accepts them since chemistry is on -/
theorem stepOk_chem {c : Cfg} {a : SyncArgs} {u : LOpts} (h : StepOk c a u.sw) (hc : c.chem = true) (N : ℤ) (r : Bool) (t0 t : ℕ) :
    StepOk c a (stepOpts (lgrngnChem u.sw.coal u.sw.sedi c.chem) N r u t0 t) := by
  have key : ∃ x y k, stepOpts (lgrngnChem u.sw.coal u.sw.sedi c.chem) N r u t0 t = { u.sw with coal := x, sedi := y, chemRct := k } ∧
      (x = true → u.sw.coal = true) ∧ (y = true → u.sw.sedi = true) := by
    unfold stepOpts
    rw [during_eq]
    split
    · exact ⟨u.sw.coal, u.sw.sedi, u.sw.chemRct, rfl, id, id⟩
    · by_cases h1 : N ≤ 0
      · simp only [h1, if_true]
        exact ⟨u.sw.coal, u.sw.sedi, u.sw.chemRct, rfl, id, id⟩
      · by_cases h2 : ((t - t0 : ℕ) : ℤ) < N
        · simp only [h1, h2, if_true, if_false]
          exact ⟨false, false, u.sw.chemRct, by simp [lgrngnChem, lgrngn], by simp, by simp⟩
        · simp only [h1, h2, if_false]
          exact ⟨u.sw.coal, u.sw.sedi, true, by simp [lgrngnChem, lgrngn, hc], id, id⟩
  obtain ⟨x, y, k, he, hx, hy⟩ := key
  rw [he]
  exact ⟨h.args, ⟨fun _ => hc, fun hc => h.opts.coal (hx hc), fun hs => h.opts.sedi (hy hs), h.opts.subs, h.opts.turbAdve, h.opts.dt,
    h.opts.src, h.opts.rlx⟩, h.turbCond⟩

/-- **C108, C109.** With or without chemistry, for any spin-up, output frequency, number of steps and background switch: if the
options the user asked for are acceptable to the library, the whole run is free of races, failed assertions and exceptions, and
it gets to its end with the diagnostics it ought to make -/
theorem whole_driver {c : Cfg} {a : SyncArgs} {u : LOpts} (hd : c.nDims ≤ 3) (h : StepOk c a u.sw) (chemVariant futureWorks option : Bool)
    (b : Backend) (hc : chemVariant = true → c.chem = true) (N : ℤ) (r : Bool) {freq t0 : ℕ} (hf : 0 < freq) (h0 : t0 ≤ 1) (n : ℕ) {m : M}
    (hr : ReflTransGen (Tr c) (start (asyncOn chemVariant futureWorks option b) freq (fun _ => a)
      (stepOpts (if chemVariant then lgrngnChem u.sw.coal u.sw.sedi c.chem else lgrngn u.sw.coal u.sw.sedi) N r u t0) t0 n) m) :
    ¬ Trouble c m ∧ (m.todo ≠ [] → ∃ m', Tr c m m') ∧ (m.todo = [] → m.log = expected freq t0 n ∧ m.lib = done n) := by
  have hs : ∀ t, StepOk c a (stepOpts (if chemVariant then lgrngnChem u.sw.coal u.sw.sedi c.chem else lgrngn u.sw.coal u.sw.sedi) N r u t0 t) := by
    intro t
    cases chemVariant
    · exact stepOk_lgrngn h N r t0 t
    · exact stepOk_chem h (hc rfl) N r t0 t
  have h1 := driver_safe hd hs _ hf h0 n hr
  exact ⟨h1.1, h1.2, fun he => ⟨(driver_output hd hs _ hf h0 n hr he).1, (driver_output hd hs _ hf h0 n hr he).2.1⟩⟩

/-- background steps are only used on GPU backends -/
theorem async_only_gpu (v f o : Bool) (b : Backend) (h : asyncOn v f o b = true) : o = true ∧ (b = .cuda ∨ b = .multiCuda) := by
  cases v <;> cases f <;> cases o <;> cases b <;> simp_all [asyncOn]

end LCP.Icicle
