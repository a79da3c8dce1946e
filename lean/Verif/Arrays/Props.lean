import Verif.Arrays.Model
import Verif.Sanity.Props
import Mathlib.Algebra.Order.Archimedean.Real.Basic
import Mathlib.Algebra.Order.Floor.Ring

/-!
# Optional arrays are there when they are used (C132)
-/
namespace LCP.Arrays
open LCP.Sanity

/-! ### Specification -/

/-- every array access of the call is within the array, no integer division by zero -/
def Safe (c : Conf) (np : ℕ) (l : List Acc) : Prop := ∀ q ∈ l, Ok c np q

/-- a number of substeps in force: the configured one if that is at most one, otherwise at least one -/
def Count (init cur : ℤ) : Prop := (init ≤ 1 → cur = init) ∧ (1 < init → 1 ≤ cur)

/-- a population and substep numbers that a run with this configuration can have -/
structure Fits (c : Conf) (s : Pop) : Prop where
  cell : ∀ i, s.cell = some i → i < nCell c
  pair : ∀ i, s.pair = some i → i < nCell c
  sc : Count c.o.sstpCond s.sc
  sAct : Count c.o.sstpCondAct s.sAct
  sChem : Count c.sstpChem s.sChem

/-- no droplets at initialisation in a run with chemistry -/
def NoCcnChem (c : Conf) : Prop := c.o.chem = true ∧ c.noCcn = true

/-- a configured number of activation substeps below one, with condensation substepping on -/
def ActBelowOne (c : Conf) : Prop := c.o.sstpCondAct < 1 ∧ 1 < c.o.sstpCond

/-- the option combinations for which `step_async` runs although an array it needs is missing -/
inductive Hole (c : Conf) (o : Opt) (s : Pop) : Prop where
  /-- turbulent coalescence requested, no turbulence switch set (so no dissipation rate) -/
  | turbCoal (h1 : o.coal = true) (h2 : o.turbCoal = true) (h3 : c.o.turbCond = false ∧ c.o.turbAdve = false ∧ c.turbCoal = false) (h4 : 0 < s.sCoal) (h5 : s.pair ≠ none)
  /-- turbulent condensation requested, not switched on -/
  | turbCond (h1 : o.turbCond = true) (h2 : c.o.turbCond = false)
  /-- chemistry in a run without initial droplets -/
  | chem (h : NoCcnChem c)
  /-- two-dimensional grid in x and y -/
  | plane (h1 : 2 ≤ dims c.o) (h2 : c.o.nz = 0) (h3 : c.periodicTopBot = false)
  /-- turbulent advection on a grid without x direction -/
  | noX (h1 : o.turbAdve = true) (h2 : c.o.nx = 0)
  /-- activation substeps below one -/
  | act (h1 : o.coal = true) (h2 : ActBelowOne c)

/-! ### Lemmas -/

theorem safe_append (c : Conf) (np : ℕ) (a b : List Acc) : Safe c np (a ++ b) ↔ Safe c np a ∧ Safe c np b := by
  simp only [Safe, List.mem_append]
  constructor
  · intro h; exact ⟨fun q hq => h q (Or.inl hq), fun q hq => h q (Or.inr hq)⟩
  · rintro ⟨h1, h2⟩ q (hq | hq)
    · exact h1 q hq
    · exact h2 q hq

theorem safe_nil (c : Conf) (np : ℕ) : Safe c np [] ↔ True := by simp [Safe]
theorem safe_cons (c : Conf) (np : ℕ) (a : Acc) (l : List Acc) : Safe c np (a :: l) ↔ Ok c np a ∧ Safe c np l := by simp [Safe]
theorem safe_when (c : Conf) (np : ℕ) (b : Bool) (l : List Acc) : Safe c np (when_ b l) ↔ (b = true → Safe c np l) := by
  cases b <;> simp [when_, Safe]
theorem safe_ite (c : Conf) (np : ℕ) (b : Prop) [Decidable b] (l m : List Acc) :
    Safe c np (if b then l else m) ↔ (b → Safe c np l) ∧ (¬ b → Safe c np m) := by
  by_cases h : b <;> simp [h]
theorem safe_all (c : Conf) (np : ℕ) (l : List Arr) (k : ℕ) : Safe c np (all_ l k) ↔ ∀ a ∈ l, k ≤ size c np a := by
  simp [Safe, all_, Ok]
theorem safe_at (c : Conf) (np : ℕ) (a : Arr) (i : Option ℕ) : Safe c np (at_ a i) ↔ ∀ j, i = some j → j < size c np a := by
  cases i <;> simp [at_, Safe, Ok, Nat.lt_iff_add_one_le]

theorem iff_true (k : ℕ) : iff_ true k = k := rfl
theorem iff_false (k : ℕ) : iff_ false k = 0 := rfl
theorem le_iff_ {b : Bool} {k m : ℕ} (h : b = true) (hk : k ≤ m) : k ≤ iff_ b m := by simp [iff_, h, hk]

theorem dims_pos {o : Opts} (h : o.nz ≠ 0) : 1 ≤ dims o := by
  simp only [dims, if_neg h]; omega

theorem given {o : Opts} (h : AerosolOk o) : decide (0 < o.nDistros + o.nSizes) = true := by
  have := h.given
  simp; omega

section
variable {c : Conf} {called : Bool} {a : Args}

theorem tpr_safe (c : Conf) (np : ℕ) : Safe c np (tpr c) := by
  rw [tpr, safe_when]
  intro h
  simp [safe_cons, safe_nil, Ok, size, h, iff_]

theorem vterm_safe (c : Conf) (np : ℕ) : Safe c np (vterm c np) := by
  rw [vterm, safe_when]
  intro h
  simp [safe_all, size, h, iff_]

theorem newSd_safe (c : Conf) (np : ℕ) : Safe c np (newSd c np) := by
  simp only [newSd, safe_append, safe_when, safe_all]
  refine ⟨⟨⟨⟨?_, ?_⟩, ?_⟩, fun h => ⟨?_, fun h' => ?_⟩⟩, fun h => ?_⟩ <;> simp_all [size, iff_]

theorem initPerPart_safe (c : Conf) (np : ℕ) : Safe c np (initPerPart c np) := by
  simp only [initPerPart, safe_append, safe_when, safe_all]
  intro h
  rw [Bool.and_eq_true] at h
  refine ⟨?_, fun h' => ?_⟩ <;> simp_all [size, iff_]

theorem sstpSave_safe (c : Conf) (np : ℕ) : Safe c np (sstpSave c np) := by
  simp only [sstpSave, safe_append, safe_when, safe_all]
  intro h
  refine ⟨?_, fun h' => ?_⟩
  · simp [size, h]
  · rw [Bool.and_eq_true] at h'
    simp [size, h, h', iff_]

theorem rc2_iff {s : Pop} (hf : Fits c s) : Safe c s.nPart (rc2Invalid c s) ↔ ¬ (ActBelowOne c ∧ 0 < s.nPart) := by
  have hA := hf.sAct
  simp only [Count] at hA
  unfold rc2Invalid
  split
  · rename_i q
    simp only [safe_nil, true_iff, ActBelowOne]
    rintro ⟨⟨h1, h2⟩, -⟩
    rcases q with q | q
    · have := hA.1 (by omega); omega
    · simp [allowCond, h2] at q
  · rename_i q
    push Not at q
    have hal : allowCond c = true := by simpa using q.2
    simp only [safe_cons, safe_nil, Ok, size, hal, Bool.and_true, and_true, ActBelowOne]
    by_cases h1 : 1 < c.o.sstpCondAct
    · simp only [h1, decide_true, iff_true, le_refl, true_iff]; omega
    · have h0 := hA.1 (by omega)
      have h2 : 1 < c.o.sstpCond := by simpa [allowCond, h1] using hal
      simp only [h1, decide_false, iff_false]
      omega

theorem sgs_safe (c : Conf) (np : ℕ) (h : c.o.turbCond = true) : Safe c np (sgs c np) := by
  simp [sgs, safe_cons, safe_nil, Ok, size, h, iff_]

theorem mix_safe (c : Conf) (np : ℕ) (h1 : c.o.nz ≠ 0) (h2 : c.o.nz = c.o.mixLen.length) : Safe c np (mixAcc c np) := by
  have h3 : c.o.nz.toNat = c.o.mixLen.length := by omega
  simp only [mixAcc, safe_ite, safe_nil, safe_cons, Ok, h3]
  refine ⟨fun _ => trivial, fun _ => ⟨h1, ?_, trivial⟩⟩
  exact le_trans (Nat.min_le_right _ _) (by simp [size])

/-! ### The calls -/

/-- **C132 (init).** An accepted initialisation stays within its arrays, unless the number of activation substeps was set below one while condensation is substepped. -/
theorem init_safe_iff (h : Accepted called c.o a) (s : Pop) (hf : Fits c s) :
    Safe c s.nPart (init c s) ↔ ¬ (ActBelowOne c ∧ 0 < s.nPart) := by
  obtain ⟨_, _, hS, hB, hA, _⟩ := (accepted_iff called c.o a).1 h
  simp only [init, safe_append, safe_when]
  rw [rc2_iff hf]
  constructor
  · intro h; exact h.1.2
  · intro h
    refine ⟨⟨⟨⟨⟨?_, tpr_safe _ _⟩, fun h1 => ⟨⟨newSd_safe _ _, initPerPart_safe _ _⟩, fun h2 => ?_⟩⟩, vterm_safe _ _⟩, h⟩, sstpSave_safe _ _⟩
    · intro hc; simp [safe_cons, safe_nil, Ok, size, hc, iff_]
    · rw [Bool.and_eq_true] at h2
      refine ⟨?_, fun h3 => ?_⟩ <;> simp_all [safe_cons, safe_nil, Ok, size, iff_]

/-- **C132 (sync_in).** Fields are copied only into arrays of the size of the grid. -/
theorem syncIn_safe (c : Conf) (np : ℕ) (diss gases : Bool) (l : List Acc) (h : syncIn c diss gases = some l) : Safe c np l := by
  unfold syncIn at h
  split at h
  · simp at h
  · rename_i hn
    push Not at hn
    simp only [Option.some.injEq] at h
    rw [← h, safe_append, safe_when, safe_when]
    refine ⟨fun h1 => ?_, fun h1 => ?_⟩
    · have := hn.2; rw [h1] at this
      simp [safe_cons, safe_nil, Ok, size, this, iff_]
    · simp [safe_cons, safe_nil, Ok, size, h1, iff_]

theorem cond_safe (h : Accepted called c.o a) (o : Opt) (s : Pop) (hf : Fits c s) (ht : o.turbCond = true → c.o.turbCond = true) : Safe c s.nPart (condAcc c o s) := by
  obtain ⟨_, _, hS, hB, hA, _⟩ := (accepted_iff called c.o a).1 h
  have h1 := hf.sc
  have h2 := hf.sAct
  simp only [Count] at h1 h2
  have hpos := hB.pos
  simp only [condAcc, safe_append, safe_ite, safe_when, safe_nil]
  refine ⟨⟨fun ⟨he, hm⟩ => ?_, fun hne => ⟨fun _ => trivial, fun hsc => ?_⟩⟩, sstpSave_safe _ _⟩
  · have hal : allowCond c = true := by
      simp only [allowCond, Bool.or_eq_true, decide_eq_true_eq]
      rcases hm with hm | hm
      · left; by_contra hh; have := h1.1 (by omega); omega
      · right; by_contra hh; have := h2.1 (by omega); omega
    refine ⟨⟨⟨⟨?_, fun h3 => ?_⟩, fun h3 => ?_⟩, fun h3 => sgs_safe _ _ (ht h3)⟩, fun h3 => ?_⟩
    · simp [safe_all, size, hal, he]
    · simp [safe_all, size, hal, he, h3, iff_]
    · rw [Bool.and_eq_true] at h3
      simp [safe_all, size, h3.2, iff_]
    · rw [Bool.and_eq_true, decide_eq_true_eq] at h3
      have : 1 < c.o.sstpCondAct := by by_contra hh; have := h2.1 (by omega); omega
      simp [safe_all, size, hal, this, iff_]
  · refine ⟨⟨⟨⟨fun _ => trivial, fun h3 => ?_⟩, fun h3 => sgs_safe _ _ (ht h3)⟩, tpr_safe _ _⟩, fun h3 => ?_⟩
    · have h4 : 1 < c.o.sstpCond := by by_contra hh; have := h1.1 (by omega); omega
      have he : c.o.exact = false := by
        cases hx : c.o.exact
        · rfl
        · exfalso; apply hne; exact ⟨hx, Or.inl (by omega)⟩
      have hal : allowCond c = true := by simp [allowCond, h4]
      refine ⟨?_, fun h5 => ?_⟩ <;> simp [safe_all, size, hal, he]
    · refine ⟨?_, ?_⟩
      · simp [safe_all, size, h3, iff_]
      · simp [safe_cons, safe_nil, Ok, size, h3, iff_]

/-- **C132 (step_cond).** Whenever `step_cond` does not throw, it stays within its arrays, except that chemistry in a run initialised without droplets uses arrays that were never allocated. -/
theorem stepCond_safe_iff (h : Accepted called c.o a) (o : Opt) (s : Pop) (hf : Fits c s) (l : List Acc) (hl : stepCond c o s = some l) :
    Safe c s.nPart l ↔ ¬ (NoCcnChem c ∧ (o.dsl || o.dsc || o.rct) = true ∧ 0 < s.sChem) := by
  obtain ⟨_, _, hS, hB, hA, _⟩ := (accepted_iff called c.o a).1 h
  have hg := given hA
  unfold stepCond at hl
  split at hl
  · simp at hl
  rename_i ht
  split at hl
  · simp at hl
  rename_i hc
  simp only [Option.some.injEq] at hl
  have ht' : o.turbCond = true → c.o.turbCond = true := by
    intro q; cases hq : c.o.turbCond
    · simp [q, hq] at ht
    · rfl
  have hc' : (o.dsl || o.dsc || o.rct) = true → c.o.chem = true := by
    intro q; cases hq : c.o.chem
    · rw [q, hq] at hc; simp at hc
    · rfl
  rw [← hl]
  simp only [safe_append, safe_when]
  constructor
  · rintro hh ⟨⟨q1, q2⟩, q3, q4⟩
    have := hh.1.2 q3
    simp only [chemAcc, safe_ite, safe_append, safe_cons] at this
    have := (this.2 (by omega)).2.1
    simp [Ok, size, q2, iff_] at this
  · intro hn
    refine ⟨⟨⟨⟨fun q => ?_, fun q => ⟨?_, ?_⟩⟩, fun _ => cond_safe h o s hf ht'⟩, fun q => ?_⟩, fun q => ?_⟩
    · simp [safe_all, size, q, iff_]
    · rw [Bool.and_eq_true] at q
      simp [safe_all, size, q.1, iff_]
    · rw [Bool.and_eq_true] at q
      cases ht : c.timeDepIce <;> simp [safe_all, size, q.1, ht, iff_]
    · have hch := hc' q
      simp only [chemAcc, safe_ite, safe_append, safe_cons, safe_nil, safe_when]
      refine ⟨fun _ => trivial, fun h0 => ?_⟩
      have hcc : c.noCcn = false := by
        cases hq : c.noCcn
        · rfl
        · exact absurd ⟨⟨hch, hq⟩, q, by omega⟩ hn
      refine ⟨fun hd => ⟨fun hal => ?_, ?_⟩, ?_⟩ <;> simp_all [Ok, size, iff_]
    · have hch := hc' (by simp [q])
      simp [safe_cons, safe_nil, Ok, size, hch, iff_]

/-- **C132 (sources and relaxation).** The attributes of added super-droplets are stored within the arrays. -/
theorem addSd_safe (c : Conf) (np : ℕ) : Safe c np (addSd c np) := by
  simp only [addSd, safe_append]
  exact ⟨⟨⟨newSd_safe _ _, vterm_safe _ _⟩, vterm_safe _ _⟩, initPerPart_safe _ _⟩

theorem coal_safe {s : Pop} (hf : Fits c s) (hA : AerosolOk c.o) (o : Opt) (h1 : o.turbCoal = true → 0 < s.sCoal → s.pair ≠ none → (c.o.turbCond || c.o.turbAdve || c.turbCoal) = true)
    (h2 : ¬ NoCcnChem c) (h3 : ¬ ActBelowOne c) : Safe c s.nPart (coalAcc c o s) := by
  have hg := given hA
  simp only [coalAcc, safe_append, safe_ite, safe_when, safe_nil, safe_at]
  refine ⟨⟨fun _ => trivial, fun h0 => ⟨⟨⟨fun q j hj => ?_, fun q => ?_⟩, fun q => ?_⟩, fun q => ?_⟩⟩, ?_⟩
  · have := h1 q (by omega) (by simp [hj])
    rw [size, this, iff_true]
    exact hf.pair j hj
  · have hcc : c.noCcn = false := by
      cases hq : c.noCcn
      · rfl
      · exact absurd ⟨q, hq⟩ h2
    simp_all [safe_cons, safe_nil, Ok, size, iff_]
  · simp [safe_all, size, q, iff_]
  · rw [Bool.and_eq_true, decide_eq_true_eq] at q
    simp [safe_all, size, q.1, q.2, iff_]
  · rw [rc2_iff hf]; tauto

/-- **C132 (step_async).** Whenever `step_async` does not throw in a run with at least one super-droplet, it stays within its arrays exactly if the options are none of the six combinations
listed in `Hole`. -/
theorem stepAsync_safe_iff (h : Accepted called c.o a) (o : Opt) (s : Pop) (hf : Fits c s) (hn : 0 < s.nPart) (l : List Acc) (hl : stepAsync c o s = some l) :
    Safe c s.nPart l ↔ ¬ Hole c o s := by
  obtain ⟨_, _, hS, hB, hA, _⟩ := (accepted_iff called c.o a).1 h
  have hg := given hA
  unfold stepAsync at hl
  split at hl
  · simp at hl
  rename_i ht
  simp only [Option.some.injEq] at hl
  simp only [Bool.or_eq_true, Bool.and_eq_true, Bool.not_eq_true', decide_eq_true_eq, not_or, not_and, Bool.not_eq_false] at ht
  obtain ⟨⟨⟨⟨⟨t1, t2⟩, t3⟩, t4⟩, t5⟩, t6⟩ := ht
  have hd := nDims_eq c.o
  rw [← hl]
  simp only [safe_append, safe_when]
  constructor
  · rintro ⟨⟨⟨⟨⟨⟨⟨⟨⟨⟨q1, q2⟩, q3⟩, q4⟩, q5⟩, q6⟩, q7⟩, q8⟩, q9⟩, q10⟩, q11⟩ hole
    rcases hole with ⟨a1, a2, a3, a4, a5⟩ | ⟨a1, a2⟩ | ⟨a1, a2⟩ | ⟨a1, a2, a3⟩ | ⟨a1, a2⟩ | ⟨a1, a2⟩
    · have := q4 a1
      simp only [coalAcc, safe_append, safe_ite, safe_when, safe_at] at this
      obtain ⟨j, hj⟩ := Option.ne_none_iff_exists'.1 a5
      have := (this.1.2 (by omega)).1.1.1 a2 j hj
      simp [size, a3, iff_] at this
    · have := q7 a1
      rw [safe_all] at this
      have := this .ssp (by simp)
      simp [size, a2, iff_] at this
      omega
    · have := q11 a1
      simp [safe_cons, Ok, size, a2, iff_] at this
    · simp only [bcnd, safe_when, safe_append, safe_all] at q10
      have := (q10 (by simp [hd, a3]; omega)).1.1 .z (by simp)
      simp [size, a2, iff_] at this
      omega
    · rw [if_pos a1] at q6
      simp only [turbVel, safe_append, safe_ite, safe_all] at q6
      have h0 : 1 ≤ (nDims c.o).toNat := by
        have := t6 a1; rw [hd] at this ⊢; omega
      have := q6.1.2.2 (by simp) .up (by
        obtain ⟨k, hk⟩ : ∃ k, (nDims c.o).toNat = k + 1 := ⟨_, (Nat.sub_add_cancel h0).symm⟩
        rw [hk, velList, List.take_succ_cons]; simp)
      simp [size, a2, iff_] at this
      omega
    · have := q4 a1
      simp only [coalAcc, safe_append] at this
      exact (rc2_iff hf).1 this.2 ⟨a2, hn⟩
  · intro hole
    have n2 : o.turbCond = true → c.o.turbCond = true := by
      intro q; by_contra hh; exact hole (.turbCond q (by simpa using hh))
    have n3 : ¬ NoCcnChem c := fun q => hole (.chem q)
    have ncc : c.o.chem = true → c.noCcn = false := by
      intro q; by_contra hh; exact n3 ⟨q, by simpa using hh⟩
    have n5 : o.turbAdve = true → c.o.nx ≠ 0 := fun q1 q2 => hole (.noX q1 q2)
    have hmix : (o.turbAdve || o.turbCond) = true → Safe c s.nPart (mixAcc c s.nPart) := by
      intro q
      rw [Bool.or_eq_true] at q
      obtain ⟨m1, m2⟩ := hS.turb (q.imp t5 n2)
      exact mix_safe c s.nPart m1 m2
    refine ⟨⟨⟨⟨⟨⟨⟨⟨⟨⟨fun q => ?_, tpr_safe _ _⟩, fun _ => vterm_safe _ _⟩, fun q => ?_⟩, hmix⟩, ?_⟩, fun q => ?_⟩, fun q => ?_⟩, fun q => ?_⟩, ?_⟩, fun q => ?_⟩
    · rw [Bool.and_eq_true] at q
      have hch : c.o.chem = true := t1 (Or.inl (Or.inl q.1))
      have hcn := ncc hch
      simp_all [safe_cons, safe_nil, Ok, size, iff_]
    · refine coal_safe hf hA o (fun r1 r2 r3 => ?_) n3 (fun r => hole (.act q r))
      by_contra hh
      simp only [Bool.or_eq_true, not_or, Bool.not_eq_true] at hh
      exact hole (.turbCoal q r1 ⟨hh.1.1, hh.1.2, hh.2⟩ r2 r3)
    · rw [safe_ite]
      refine ⟨fun q => ?_, fun q => ?_⟩
      · have hsw := t5 q
        have hnz := (hS.turb (Or.inl hsw)).1
        have hnx := n5 q
        simp only [turbVel, safe_append, safe_ite, safe_all, safe_at, safe_nil]
        refine ⟨⟨hmix (by simp [q]), fun hf => by simp at hf, fun _ a ha => ?_⟩, fun _ j hj => ?_, fun _ => trivial⟩
        · have hle : (nDims c.o).toNat = dims c.o := by rw [hd]; simp
          rw [hle] at ha
          by_cases hy : c.o.ny = 0
          · have h2 : dims c.o = 2 := by simp [dims, hnx, hy, hnz]
            rw [h2] at ha
            simp only [velList, List.take_succ_cons, List.take_zero, List.mem_cons, List.not_mem_nil, or_false] at ha
            rcases ha with rfl | rfl <;> simp [size, hsw, hnx, hnz, iff_]
          · have h3 : dims c.o = 3 := by simp [dims, hnx, hy, hnz]
            rw [h3] at ha
            simp only [velList, List.take_succ_cons, List.take_zero, List.mem_cons, List.not_mem_nil, or_false] at ha
            rcases ha with rfl | rfl | rfl <;> simp [size, hsw, hnx, hnz, hy, iff_]
        · rw [size, show (c.o.turbCond || c.o.turbAdve || c.turbCoal) = true by simp [hsw], iff_true]
          exact hf.cell j hj
      · rw [safe_when]
        intro r
        have hsw := n2 r
        simp only [turbVel, safe_append, safe_ite, safe_all, safe_at, safe_nil]
        refine ⟨⟨hmix (by simp [r]), fun _ a ha => ?_, fun h => absurd trivial h⟩, fun _ j hj => ?_, fun _ => trivial⟩
        · simp only [List.mem_cons, List.not_mem_nil, or_false] at ha
          subst ha
          simp [size, hsw, iff_]
        · rw [size, show (c.o.turbCond || c.o.turbAdve || c.turbCoal) = true by simp [hsw], iff_true]
          exact hf.cell j hj
    · simp [safe_all, size, n2 q, iff_]
    · have hsw := t5 q
      intro b hb
      simp only [turbAdveAcc, List.mem_map] at hb
      obtain ⟨e, he, rfl⟩ := hb
      have := List.mem_of_mem_take he
      simp only [posList, velList, List.zip_cons_cons, List.zip_nil_right, List.mem_cons, List.not_mem_nil, or_false] at this
      rcases this with rfl | rfl | rfl
      · by_cases hx : c.o.nx = 0 <;> simp [Ok, size, hsw, hx, iff_]
      · by_cases hx : c.o.nz = 0 <;> simp [Ok, size, hsw, hx, iff_]
      · by_cases hx : c.o.ny = 0 <;> simp [Ok, size, hsw, hx, iff_]
    · rw [Bool.and_eq_true] at q
      have := (hS.subs (t4 q.1)).2
      simp only [safe_cons, safe_nil, Ok, size, and_true]
      omega
    · simp only [bcnd, safe_when, safe_append, safe_all]
      intro q
      rw [Bool.and_eq_true, decide_eq_true_eq, hd, Bool.not_eq_true'] at q
      have hnz : c.o.nz ≠ 0 := fun r => hole (.plane (by have := q.1; omega) r q.2)
      refine ⟨⟨?_, fun r => ?_⟩, fun r => ?_⟩
      · simp [size, hnz, iff_]
      · simp [size, r, iff_]
      · have := ncc r
        simp_all [safe_cons, safe_nil, Ok, size, iff_]
    · have := ncc q
      simp_all [safe_cons, safe_nil, Ok, size, iff_]
end
/-! ### Witnesses -/

/-- the number of substeps for a step of length `dt` (adjust_timesteps.ipp:14-40) is one of those assumed above -/
theorem count_adjust (init : ℤ) (dt dt0 : ℝ) (h0 : 0 < dt0) : Count init (if 0 < dt ∧ 1 < init then ⌈(init : ℝ) * dt / dt0⌉ else init) := by
  constructor
  · intro h; rw [if_neg (by omega)]
  · intro h
    split_ifs with q
    · have hi : (0 : ℝ) < init := by exact_mod_cast (by omega : 0 < init)
      have := Int.ceil_pos.2 (div_pos (mul_pos hi q.1) h0)
      omega
    · omega

/-- two super-droplets meeting in cell 0 -/
def two (c : Conf) : Pop := ⟨2, some 0, some 0, c.o.sstpCond, c.o.sstpCondAct, c.sstpChem, c.sstpCoal, false⟩

theorem two_fits (c : Conf) (h : 0 < nCell c) : Fits c (two c) := by
  refine ⟨fun i hi => ?_, fun i hi => ?_, ⟨fun _ => rfl, fun h => le_of_lt h⟩, ⟨fun _ => rfl, fun h => le_of_lt h⟩, ⟨fun _ => rfl, fun h => le_of_lt h⟩⟩ <;>
  · simp only [two, Option.some.injEq] at hi; omega

/-- a two-dimensional set-up with no turbulence, chemistry or ice -/
noncomputable def base : Opts :=
  { nx := 2, nz := 3, dx := 10, dz := 10, dt := 1, x1 := 20, z1 := 30, nDistros := 1, sdConc := 64, vtDefined := true, kernelDefined := true }

/-- **C132, negation 1.** Requesting turbulent coalescence without any turbulence switch is not rejected, and coalescence then reads the dissipation rate from an empty array. -/
theorem turbCoal_hole : ∃ (c : Conf) (a : Args) (l : List Acc), Accepted false c.o a ∧ stepAsync c { turbCoal := true } (two c) = some l ∧ Fits c (two c) ∧ ¬ Safe c 2 l := by
  have hA : Accepted false base {} := by
    rw [accepted_iff]
    refine ⟨rfl, ⟨by simp, by simp, by simp [base], rfl⟩, ⟨?_, ?_, ?_, ?_, ?_, ?_, ?_, ?_, ?_⟩, ⟨?_, ?_, ?_⟩,
      ⟨?_, ?_, ?_, ?_, ?_, ?_⟩, ?_, ?_⟩ <;> simp [base, dims, extent] <;> norm_num
  have hf : Fits ⟨base, false, false, false, false, false, 1, 1⟩ (two ⟨base, false, false, false, false, false, 1, 1⟩) := two_fits _ (by simp [nCell, base, m1])
  refine ⟨⟨base, false, false, false, false, false, 1, 1⟩, {}, _, hA, by simp [stepAsync, base, nDims, m1]; try rfl, hf, ?_⟩
  intro hs
  refine (stepAsync_safe_iff hA { turbCoal := true } _ hf (by simp [two]) _ (by simp [stepAsync, base, nDims, m1]; try rfl)).1 hs ?_
  exact .turbCoal rfl rfl ⟨rfl, rfl, rfl⟩ (by simp [two]) (by simp [two])

/-- **C132, negation 2.** `step_async` (unlike `step_cond`) does not reject turbulent condensation that was not switched on. -/
theorem turbCond_hole : ∃ (c : Conf) (a : Args) (l : List Acc), Accepted false c.o a ∧ stepAsync c { turbCond := true } (two c) = some l ∧ Fits c (two c) ∧ ¬ Safe c 2 l ∧
    stepCond c { turbCond := true } (two c) = none := by
  have hA : Accepted false base {} := by
    rw [accepted_iff]
    refine ⟨rfl, ⟨by simp, by simp, by simp [base], rfl⟩, ⟨?_, ?_, ?_, ?_, ?_, ?_, ?_, ?_, ?_⟩, ⟨?_, ?_, ?_⟩,
      ⟨?_, ?_, ?_, ?_, ?_, ?_⟩, ?_, ?_⟩ <;> simp [base, dims, extent] <;> norm_num
  have hf : Fits ⟨base, false, false, false, false, false, 1, 1⟩ (two ⟨base, false, false, false, false, false, 1, 1⟩) := two_fits _ (by simp [nCell, base, m1])
  refine ⟨⟨base, false, false, false, false, false, 1, 1⟩, {}, _, hA, by simp [stepAsync, base, nDims, m1]; try rfl, hf, ?_, by simp [stepCond, base]⟩
  intro hs
  exact (stepAsync_safe_iff hA { turbCond := true } _ hf (by simp [two]) _ (by simp [stepAsync, base, nDims, m1]; try rfl)).1 hs (.turbCond rfl rfl)

/-- **C132, negation 3.** Chemistry together with `no_ccn_at_init` is accepted, and every `step_async` then uses the unallocated arrays of dissolved chemicals. -/
theorem noCcn_chem_hole : ∃ (c : Conf) (a : Args) (l : List Acc), Accepted false c.o a ∧ stepAsync c {} (two c) = some l ∧ Fits c (two c) ∧ ¬ Safe c 2 l := by
  have hA : Accepted false { base with chem := true } { nChem := 6 } := by
    rw [accepted_iff]
    refine ⟨rfl, ⟨by simp, by simp, by simp [base], rfl⟩, ⟨?_, ?_, ?_, ?_, ?_, ?_, ?_, ?_, ?_⟩, ⟨?_, ?_, ?_⟩,
      ⟨?_, ?_, ?_, ?_, ?_, ?_⟩, ?_, ?_⟩ <;> simp [base, dims, extent] <;> norm_num
  have hf : Fits ⟨{ base with chem := true }, false, false, false, true, false, 1, 1⟩ (two ⟨{ base with chem := true }, false, false, false, true, false, 1, 1⟩) :=
    two_fits _ (by simp [nCell, base, m1])
  refine ⟨⟨{ base with chem := true }, false, false, false, true, false, 1, 1⟩, { nChem := 6 }, _, hA, by simp [stepAsync, base, nDims, m1]; try rfl, hf, ?_⟩
  intro hs
  exact (stepAsync_safe_iff hA {} _ hf (by simp [two]) _ (by simp [stepAsync, base, nDims, m1]; try rfl)).1 hs (.chem ⟨rfl, rfl⟩)

/-- **C132, negation 4.** A two-dimensional grid in x and y is accepted (without sedimentation), and the boundary conditions then read vertical positions that do not exist. -/
theorem plane_hole : ∃ (c : Conf) (a : Args) (l : List Acc), Accepted false c.o a ∧ stepAsync c { sedi := false } (two c) = some l ∧ Fits c (two c) ∧ ¬ Safe c 2 l := by
  have hA : Accepted false { base with ny := 3, nz := 0, y1 := 1, z1 := 10, sedi := false } {} := by
    rw [accepted_iff]
    refine ⟨rfl, ⟨by simp, by simp, by simp [base], rfl⟩, ⟨?_, ?_, ?_, ?_, ?_, ?_, ?_, ?_, ?_⟩, ⟨?_, ?_, ?_⟩,
      ⟨?_, ?_, ?_, ?_, ?_, ?_⟩, ?_, ?_⟩ <;> simp [base, dims, extent] <;> norm_num
  obtain ⟨c, hc⟩ : ∃ c : Conf, c = ⟨{ base with ny := 3, nz := 0, y1 := 1, z1 := 10, sedi := false }, false, false, false, false, false, 1, 1⟩ := ⟨_, rfl⟩
  have hA' : Accepted false c.o {} := by rw [hc]; exact hA
  have hf : Fits c (two c) := two_fits _ (by rw [hc]; simp [nCell, base, m1])
  have he : ∃ l, stepAsync c { sedi := false } (two c) = some l := by rw [hc]; simp [stepAsync, base, nDims, m1]
  obtain ⟨l, hl⟩ := he
  refine ⟨c, {}, l, hA', hl, hf, fun hs => ?_⟩
  exact (stepAsync_safe_iff hA' _ _ hf (by simp [two]) l hl).1 hs (.plane (by rw [hc]; simp [dims, base]) (by rw [hc]) (by rw [hc]))

/-- **C132, negation 5.** Turbulent advection on a grid with vertical cells only is accepted, and uses the non-existent horizontal velocity fluctuations. -/
theorem noX_hole : ∃ (c : Conf) (a : Args) (l : List Acc), Accepted false c.o a ∧ stepAsync c { turbAdve := true } (two c) = some l ∧ Fits c (two c) ∧ ¬ Safe c 2 l := by
  have hA : Accepted false { good with nx := 0, x1 := 10 } {} := by
    rw [accepted_iff]
    refine ⟨rfl, ⟨by simp, by simp, by simp [good], rfl⟩, ⟨?_, ?_, ?_, ?_, ?_, ?_, ?_, ?_, ?_⟩, ⟨?_, ?_, ?_⟩,
      ⟨?_, ?_, ?_, ?_, ?_, ?_⟩, ?_, ?_⟩ <;> simp [good, dims, extent] <;> norm_num
  obtain ⟨c, hc⟩ : ∃ c : Conf, c = ⟨{ good with nx := 0, x1 := 10 }, false, false, false, false, false, 1, 1⟩ := ⟨_, rfl⟩
  have hA' : Accepted false c.o {} := by rw [hc]; exact hA
  have hf : Fits c (two c) := two_fits _ (by rw [hc]; simp [nCell, good, m1])
  have he : ∃ l, stepAsync c { turbAdve := true } (two c) = some l := by rw [hc]; simp [stepAsync, good, nDims, m1]
  obtain ⟨l, hl⟩ := he
  refine ⟨c, {}, l, hA', hl, hf, fun hs => ?_⟩
  exact (stepAsync_safe_iff hA' _ _ hf (by simp [two]) l hl).1 hs (.noX rfl (by rw [hc]))

/-- **C132, negation 6.** `sstp_cond_act` below one is accepted; with condensation substeps, already `init` writes critical radii into an empty array. -/
theorem act_hole : ∃ (c : Conf) (a : Args), Accepted false c.o a ∧ Fits c (two c) ∧ ¬ Safe c 2 (init c (two c)) := by
  have hA : Accepted false { base with sstpCond := 10, sstpCondAct := 0 } {} := by
    rw [accepted_iff]
    refine ⟨rfl, ⟨by simp, by simp, by simp [base], rfl⟩, ⟨?_, ?_, ?_, ?_, ?_, ?_, ?_, ?_, ?_⟩, ⟨?_, ?_, ?_⟩,
      ⟨?_, ?_, ?_, ?_, ?_, ?_⟩, ?_, ?_⟩ <;> simp [base, dims, extent] <;> norm_num
  obtain ⟨c, hc⟩ : ∃ c : Conf, c = ⟨{ base with sstpCond := 10, sstpCondAct := 0 }, false, false, false, false, false, 1, 1⟩ := ⟨_, rfl⟩
  have hA' : Accepted false c.o {} := by rw [hc]; exact hA
  have hf : Fits c (two c) := two_fits _ (by rw [hc]; simp [nCell, base, m1])
  refine ⟨c, {}, hA', hf, fun hs => ?_⟩
  exact (init_safe_iff hA' _ hf).1 hs ⟨by rw [hc]; simp [ActBelowOne], by simp [two]⟩

/-- non-vacuity: a set-up with turbulent advection, substepping and the time-in-cloud diagnostics runs within its arrays -/
example : ∃ (c : Conf) (a : Args) (l : List Acc), Accepted false c.o a ∧ stepAsync c { turbAdve := true, turbCoal := true } (two c) = some l ∧ Fits c (two c) ∧ Safe c 2 l ∧ 10 < l.length := by
  obtain ⟨c, hc⟩ : ∃ c : Conf, c = ⟨good, false, false, true, false, false, 1, 1⟩ := ⟨_, rfl⟩
  have hA' : Accepted false c.o { cx := true, cz := true } := by rw [hc]; exact good_accepted
  have hf : Fits c (two c) := two_fits _ (by rw [hc]; simp [nCell, good, m1])
  have he : ∃ l, stepAsync c { turbAdve := true, turbCoal := true } (two c) = some l := by rw [hc]; simp [stepAsync, good, nDims, m1]
  obtain ⟨l, hl⟩ := he
  refine ⟨c, _, l, hA', hl, hf, (stepAsync_safe_iff hA' _ _ hf (by simp [two]) l hl).2 ?_, ?_⟩
  · rintro (⟨_, _, ⟨_, h, _⟩, _, _⟩ | ⟨h, _⟩ | ⟨h, _⟩ | ⟨_, h, _⟩ | ⟨_, h⟩ | ⟨_, h, _⟩) <;> rw [hc] at * <;> simp [good] at h
  · rw [hc] at hl
    simp only [stepAsync, good, nDims, m1] at hl
    simp at hl
    rw [← hl]
    simp [bcnd, coalAcc, tpr, vterm, when_, all_, at_, two, rc2Invalid, allowCond, mixAcc, turbVel, turbAdveAcc, size, iff_, nCell, m1, nDims, velList, posList]

end LCP.Arrays
