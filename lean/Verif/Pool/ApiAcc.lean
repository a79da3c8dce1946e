import Verif.Pool.ApiEnumCond
import Verif.Pool.ApiEnumAsync
import Verif.Pool.ApiEnumRest
/-!
# Every safe call is accepted
-/
namespace LCP.PoolApi

/-- the analysis accepts a call -/
def Acc (f : Flags) (g : G) (c : Call) : Prop :=
  ∃ a n t, (ain f g).le a = true ∧ an (poolSize f) (prog f g c) a = some (n, t) ∧ ole n (ain f (next f g c false)) = true ∧
    (usable f g c true = true → ole t (ain f (next f g c true)) = true)

theorem le_refl' (a : A) : a.le a = true := by simp [A.le]

theorem acc_of_check {sz : PoolId → ℕ} {f f' : Flags} {g g' : G} {c : Call} (hc : checkS sz f' g' c = true)
    (hs : ∀ p, sz p ≤ poolSize f p) (hp : prog f' g' c = prog f g c) (ha : (ain f g).le (ain f' g') = true)
    (h0 : ain f' (next f' g' c false) = ain f (next f g c false))
    (h1 : ain f' (next f' g' c true) = ain f (next f g c true))
    (hu : usable f' g' c true = usable f g c true) : Acc f g c := by
  unfold checkS at hc
  cases h : an sz (prog f' g' c) (ain f' g') with
  | none => rw [h] at hc; simp at hc
  | some r =>
    obtain ⟨n, t⟩ := r
    rw [h] at hc
    simp only [Bool.and_eq_true, Bool.or_eq_true, Bool.not_eq_true'] at hc
    refine ⟨ain f' g', n, t, ha, ?_, by rw [← h0]; exact hc.1, ?_⟩
    · rw [← hp]; exact an_mono hs _ h
    · intro hut
      rw [← h1]
      rcases hc.2 with h2 | h2
      · rw [hu, hut] at h2; simp at h2
      · exact h2

theorem bool_le {m b : Bool} {n n' j : ℕ} (hm : n ≤ n') (hb : m = true → b = true) :
    (if m = true then max n j else n) ≤ (if b = true then max n' j else n') := by
  cases hm' : m <;> cases hb' : b
  · simpa using hm
  · simpa using Or.inl hm
  · exact absurd (hb hm') (by simp [hb'])
  · simp only [if_true]; exact max_le_max hm (le_refl j)

/-- switching options off does not enlarge the pool -/
theorem drpNo_mono (c c' : Pool.Cfg) (h1 : c'.nDims = c.nDims) (h2 : c'.allowSstp = false) (h3 : (c'.ice && c'.timeDepIceNucl) = true → (c.ice && c.timeDepIceNucl) = true)
    (h4 : c'.chem = true → c.chem = true) (h5 : c'.turbCond = true → c.turbCond = true) (h6 : c'.distmem = true → c.distmem = true) :
    Pool.drpNo c' ≤ Pool.drpNo c := by
  unfold Pool.drpNo
  simp only [h1, h2, Bool.false_and]
  have keep : ∀ {b : Prop} [Decidable b] {m n j : ℕ}, m ≤ n → m ≤ if b then max n j else n := by
    intro b _ m n j h; split_ifs; exact h.trans (le_max_left _ _); exact h
  simp only [Bool.false_eq_true, if_false]
  apply keep
  apply keep
  apply bool_le _ h6
  apply bool_le _ h5
  have e : ∀ {m n : ℕ}, m ≤ n → (if c.nDims = 3 then max m 3 else m) ≤ (if c.nDims = 3 then max n 3 else n) := by
    intro m n h; split_ifs; exact max_le_max h (le_refl _); exact h
  apply e
  apply bool_le _ h4
  apply bool_le _ h3
  apply keep
  exact le_refl _

theorem sane_split {f : Flags} (h : f.sane = true) :
    (f.chem = true → f.src = false) ∧ (f.src = true → f.d2 = true) ∧ (f.matching = true → f.src = true) ∧
    (f.turbCond = true → f.d2 = true) ∧ (f.distmem = true → f.chem = false ∧ f.d1 = true) ∧ (f.rlx = true → f.d2 = true) ∧
    (f.rlx = true → f.chem = false) ∧ (f.adaptive = true → f.exact = true) ∧ (f.mix = true ∨ f.exact = true) ∧
    ¬(f.mix = true ∧ f.adaptive = true ∧ f.exact = true) ∧
    (f.ice = true → f.rlx = false ∧ f.matching = false ∧ f.turbCond = false ∧ f.exact = false) := by
  unfold Flags.sane at h
  simp only [Bool.and_eq_true, Bool.or_eq_true, Bool.not_eq_true', Bool.and_eq_false_iff] at h
  obtain ⟨⟨⟨⟨⟨⟨⟨⟨⟨⟨a1, a2⟩, a3⟩, a4⟩, a5⟩, a6⟩, a7⟩, a8⟩, a9⟩, a10⟩, a11⟩ := h
  refine ⟨?_, ?_, ?_, ?_, ?_, ?_, ?_, ?_, a9, ?_, ?_⟩
  · intro h; simpa [h] using a1
  · intro h; simpa [h] using a2
  · intro h; simpa [h] using a3
  · intro h; simpa [h] using a4
  · intro h; simpa [h] using a5
  · intro h; simpa [h] using a6
  · intro h; simpa [h] using a7
  · intro h; simpa [h] using a8
  · rintro ⟨h1, h2, h3⟩; simp [h1, h2, h3] at a10
  · intro h; simpa [h, and_assoc] using a11

theorem ain_le_nf (f : Flags) (g : G) (nf : Bool) (h : g.nf = true → nf = true) :
    (ain f g).le (ain f { g with nf := nf, sel := false }) = true := by
  unfold A.le ain
  rw [Bool.and_eq_true, beq_iff_eq, beq_iff_eq]
  constructor
  · apply Nat.eq_of_testBit_eq; intro i
    simp only [Nat.testBit_or]
    cases hn : g.nf
    · simp [bitIf]; grind
    · rw [h hn]; simp
  · apply Nat.eq_of_testBit_eq; intro i
    simp only [Nat.testBit_or, Nat.testBit_and]
    simp [bitIf]; grind

theorem acc_cond {f : Flags} {g : G} (hs : f.sane = true) (hc : g.cond = true) (hsafe : safe f g .stepCond = true) : Acc f g .stepCond := by
  obtain ⟨_, _, _, _, s5, _, _, s8, s9, s10, s11⟩ := sane_split hs
  have hup : g.up = true := by
    simp only [safe, Bool.and_eq_true] at hsafe; exact hsafe.1
  -- the reduced configuration
  set f' := fCond f.nDims f.allow f.exact f.adaptive f.mix f.ice (f.timeDep && f.ice) f.chem f.turbCond f.distmem f.incloud with hf'
  have hN : poolSize f' .realPart = poolSize f .realPart := by
    obtain ⟨nd, b1, b2, b3, b4, ice, td, b7, b8, b9, b10, b11, b12, b13, b14, b15, b16⟩ := f
    cases ice <;> cases td <;> rfl
  have hsz : ∀ p, poolSize f' p ≤ poolSize f p := by
    intro p
    cases p
    case realPart => exact le_of_eq hN
    all_goals exact le_refl _
  have hprog : stepCond f' = stepCond f := by
    obtain ⟨nd, b1, b2, b3, b4, ice, td, b7, b8, b9, b10, b11, b12, b13, b14, b15, b16⟩ := f
    cases ice <;> cases td <;> rfl
  have hsafe' : ∀ nf, safe f' (gCond nf true) .stepCond = safe f { g with nf := nf } .stepCond := by
    intro nf
    simp only [safe, gCond, hN, hup, hc]
    rfl
  -- the description used: nf weakened to true where allowed
  have key : ∀ nf, (g.nf = true → nf = true) → safe f { g with nf := nf } .stepCond = true →
      (nf = true ∨ safe f { g with nf := true } .stepCond = false) → Acc f g .stepCond := by
    intro nf hnf h1 h2
    have h := cond_all
    have h := allB_spec h f.exact
    have h := allB_spec h f.adaptive
    have h := allB_spec h f.mix
    have h := or_spec h (by
      rcases f with ⟨nd, b1, ex, ad, mx, ice, td, b7, b8, b9, b10, b11, b12, b13, b14, b15, b16⟩
      revert s8 s9 s10
      cases ex <;> cases ad <;> cases mx <;> simp)
    have h := allB_spec h f.ice
    have h := allB_spec h f.turbCond
    have h := or_spec h (by
      revert s11
      cases f.ice <;> cases f.turbCond <;> cases f.exact <;> simp)
    have h := allD_spec h f.nDims
    have h := allB_spec h f.chem
    have h := allB_spec h f.distmem
    have h := or_spec h (by
      cases hd : f.distmem
      · simp
      · obtain ⟨h1, h2⟩ := s5 hd
        rw [h1]
        simpa [Flags.d1] using h2)
    have h := allB_spec h f.allow
    have h := allB_spec h (f.timeDep && f.ice)
    have h := or_spec h (by cases f.timeDep <;> cases f.ice <;> rfl)
    have h := allB_spec h f.incloud
    have h := allB_spec h nf
    have h := or_spec h (by
      show (safe f' (gCond nf true) .stepCond && (nf || !safe f' (gCond true true) .stepCond)) = true
      rw [hsafe', hsafe', h1]
      rcases h2 with h2 | h2
      · rw [h2]; rfl
      · rw [h2]; simp)
    have h := allB_spec h g.ijk
    refine acc_of_check h hsz ?_ ?_ ?_ ?_ ?_
    · show stepCond f' = prog f g .stepCond
      rw [hprog]; simp only [prog, hc, if_true]
    · have := ain_le_nf f g nf hnf
      rcases g with ⟨gu, gc, ga, gs, gn, gi⟩
      subst hup
      exact this
    · rcases g with ⟨gu, gc, ga, gs, gn, gi⟩
      subst hup; subst hc
      rfl
    · rcases g with ⟨gu, gc, ga, gs, gn, gi⟩
      subst hup; subst hc
      rfl
    · rfl
  cases ht : safe f { g with nf := true } .stepCond with
  | true => exact key true (fun _ => rfl) ht (Or.inl rfl)
  | false => exact key g.nf id hsafe (Or.inr ht)

theorem ain_ijk (f : Flags) (g' : G) (b : Bool) (hb : b = true ∨ f.d1 = false) (hg : g'.ijk = true ∨ f.d1 = false) :
    ain f { g' with ijk := b } = ain f g' := by
  by_cases hd : f.d1 = false
  · have h2 : f.d2 = false := by simp only [Flags.d1, Flags.d2, decide_eq_false_iff_not] at hd ⊢; omega
    have h3 : f.d3 = false := by simp only [Flags.d1, Flags.d3, decide_eq_false_iff_not] at hd ⊢; omega
    simp [ain, hd, h2, h3]
  · have e1 : b = true := hb.resolve_right hd
    have e2 : g'.ijk = true := hg.resolve_right hd
    rw [e1, ← e2]

theorem needsSel_of_safe {f : Flags} {g : G} {c : Call} (hsafe : safe f g c = true) : (!needsSel c || g.sel) = true := by
  cases c <;> simp [needsSel] <;> simp only [safe, Bool.and_eq_true] at hsafe
  all_goals first | exact hsafe.2 | exact hsafe.1.2

theorem async_spec {f : Flags} (hs : f.sane = true) :
    checkS (withN (nAsync (fAsync f.nDims f.ice (f.timeDep && f.ice && f.src) f.chem f.distmem f.predCorr f.vtFast f.rlx f.src f.matching))
          (fAsync f.nDims f.ice (f.timeDep && f.ice && f.src) f.chem f.distmem f.predCorr f.vtFast f.rlx f.src f.matching))
        (fAsync f.nDims f.ice (f.timeDep && f.ice && f.src) f.chem f.distmem f.predCorr f.vtFast f.rlx f.src f.matching) gAsync .stepAsync = true := by
  obtain ⟨s1, s2, s3, s4, s5, s6, s7, _, _, _, s11⟩ := sane_split hs
  have h := async_all
  have h := allD_spec h f.nDims
  have h := allB_spec h f.chem
  have h := allB_spec h f.src
  have h := allB_spec h f.rlx
  have h := or_spec h (by
    have t1 : ∀ b : Bool, (b = true → f.d2 = true) → (!b || decide (2 ≤ f.nDims.val)) = true := by
      intro b hb
      cases b
      · rfl
      · exact hb rfl
    rw [t1 _ s2, t1 _ s6]
    revert s1 s7
    cases f.chem <;> cases f.src <;> cases f.rlx <;> simp)
  have h := allB_spec h f.ice
  have h := allB_spec h f.matching
  have h := or_spec h (by
    revert s3 s11
    cases f.matching <;> cases f.src <;> cases f.ice <;> cases f.rlx <;> simp)
  have h := allB_spec h f.distmem
  have h := or_spec h (by
    cases hd : f.distmem
    · simp
    · obtain ⟨h1, h2⟩ := s5 hd
      rw [h1]
      simpa [Flags.d1] using h2)
  have h := allB_spec h (f.timeDep && f.ice && f.src)
  have h := or_spec h (by cases f.timeDep <;> cases f.ice <;> cases f.src <;> rfl)
  have h := allB_spec h f.predCorr
  have h := allB_spec h f.vtFast
  exact h

theorem acc_async {f : Flags} {g : G} (hs : f.sane = true) (hc : g.async = true) (hsafe : safe f g .stepAsync = true) : Acc f g .stepAsync := by
  obtain ⟨s1, s2, s3, s4, s5, s6, s7, _, _, _, s11⟩ := sane_split hs
  simp only [safe, hc, Bool.and_eq_true, Bool.not_true, Bool.false_or] at hsafe
  obtain ⟨hup, hpc, hijk⟩ := hsafe
  set f' := fAsync f.nDims f.ice (f.timeDep && f.ice && f.src) f.chem f.distmem f.predCorr f.vtFast f.rlx f.src f.matching with hf'
  have hle : poolSize f' .realPart ≤ poolSize f .realPart := by
    show Pool.drpNo f'.cfg ≤ Pool.drpNo f.cfg
    apply drpNo_mono
    · rfl
    · rfl
    · show (f.ice && (f.timeDep && f.ice && f.src)) = true → (f.ice && f.timeDep) = true
      cases f.ice <;> cases f.timeDep <;> simp
    · exact id
    · intro h; exact absurd h Bool.false_ne_true
    · exact id
  have hsz : ∀ p, withN (nAsync f') f' p ≤ poolSize f p := by
    intro p
    cases p
    case realPart =>
      show nAsync f' ≤ poolSize f .realPart
      unfold nAsync
      split_ifs with h
      · have h' : (f.predCorr && f.d1) = true := h
        simp only [h', Bool.not_true, Bool.false_or, decide_eq_true_eq] at hpc
        rename_i h2
        have h2' : f.chem = true := h2
        simpa [h2'] using hpc
      · have h' : (f.predCorr && f.d1) = true := h
        simp only [h', Bool.not_true, Bool.false_or, decide_eq_true_eq] at hpc
        rename_i h2
        have h2' : ¬ f.chem = true := h2
        simpa [h2'] using hpc
      · exact hle
    case nPart =>
      show (1 : ℕ) ≤ if f.exact && f.adaptive then 3 else 1
      split_ifs <;> omega
    all_goals exact le_refl _
  have hprog : stepAsync f' = stepAsync f := by
    obtain ⟨nd, b1, b2, b3, b4, ice, td, b7, b8, b9, b10, b11, b12, b13, b14, src, b16⟩ := f
    cases ice <;> cases td <;> cases src <;> rfl
  -- cell indices: irrelevant without dimensions
  have hai := ain_ijk f
  have hij : g.ijk = true ∨ f.d1 = false := by
    rw [Bool.or_eq_true, Bool.not_eq_true'] at hijk; exact hijk
  have hain : ∀ g', ain f' g' = ain f g' := fun _ => rfl
  clear_value f'
  have e2 : ∀ b : Bool, ain f ⟨true, g.cond, false, false, true, true⟩ = ain f ⟨true, g.cond, false, false, true, g.ijk || b⟩ := by
    intro b
    have h2 := hai ⟨true, g.cond, false, false, true, g.ijk || b⟩ true (Or.inl rfl) (by
      rcases hij with h | h
      · left; simp [h]
      · exact Or.inr h)
    exact h2
  have hgc : ain f ⟨true, false, false, false, true, true⟩ = ain f ⟨true, g.cond, false, false, true, true⟩ := rfl
  refine acc_of_check (hf' ▸ async_spec hs) hsz ?_ ?_ ?_ ?_ ?_
  · show stepAsync f' = prog f g .stepAsync
    rw [hprog]; simp only [prog, hc, if_true]
  · have h1 := ain_le_nf f g true (fun _ => rfl)
    have h2 := hai { g with nf := true, sel := false } true (Or.inl rfl) hij
    rw [← h2] at h1
    rw [hain]
    rcases g with ⟨gu, gc, ga, gs, gn, gi⟩
    simp only at hup
    subst hup
    exact h1
  · rw [hain]
    have e : next f g .stepAsync false = ⟨true, g.cond, false, false, true, g.ijk || true⟩ := by
      simp [next, hc, hup]
    rw [e, ← e2]
    exact hgc
  · rw [hain]
    have e : next f g .stepAsync true = ⟨true, g.cond, false, false, true, g.ijk || false⟩ := by
      simp [next, hc, hup]
    rw [e, ← e2]
    exact hgc
  · show (!(true && f'.distmem && true)) = (!(true && f.distmem && g.async))
    rw [hc, hf']
    rfl

theorem acc_init {f : Flags} {g : G} (hg : g.ok = true) (hsafe : safe f g .init = true) : Acc f g .init := by
  have hup : g.up = false := by simpa [safe] using hsafe
  have hg0 : g = g0 := by
    rcases g with ⟨gu, gc, ga, gs, gn, gi⟩
    simp only [G.ok] at hg hup
    subst hup
    revert hg
    cases gc <;> cases ga <;> cases gs <;> cases gn <;> cases gi <;> simp [g0]
  subst hg0
  set f' := fInit f.nDims f.ice f.timeDep f.chem f.vtFast f.noCcn with hf'
  have hsz : ∀ p, poolSize f' p ≤ poolSize f p := by
    intro p
    cases p
    case realPart =>
      show Pool.drpNo f'.cfg ≤ Pool.drpNo f.cfg
      apply drpNo_mono
      · rfl
      · rfl
      · exact id
      · exact id
      · intro h; exact absurd h Bool.false_ne_true
      · intro h; exact absurd h Bool.false_ne_true
    case nPart =>
      show (1 : ℕ) ≤ if f.exact && f.adaptive then 3 else 1
      split_ifs <;> omega
    case sizePart =>
      show (1 + (if f.d2 || false then 1 else 0) + (if f.d3 then 1 else 0) : ℕ) ≤ 1 + (if f.d2 || f.distmem then 1 else 0) + (if f.d3 then 1 else 0)
      cases f.d2 <;> cases f.distmem <;> simp
    all_goals exact le_refl _
  have h := init_all
  have h := allD_spec h f.nDims
  have h := allB_spec h f.ice
  have h := allB_spec h f.timeDep
  have h := allB_spec h f.chem
  have h := allB_spec h f.vtFast
  have h := allB_spec h f.noCcn
  refine acc_of_check h hsz rfl (le_refl' _) rfl rfl rfl

theorem diag_spec {f : Flags} {g : G} {c : Call} (hc : c ∈ diagCalls) (hg : g.ok = true) (hsafe : safe f g c = true) :
    checkS (withN (nDiag (fDiag f.nDims f.ice f.chem f.vtFast) ⟨true, false, false, g.sel, g.nf, g.ijk⟩ c) (fDiag f.nDims f.ice f.chem f.vtFast))
      (fDiag f.nDims f.ice f.chem f.vtFast) ⟨true, false, false, g.sel, g.nf, g.ijk⟩ c = true := by
  have h := diag_all
  have h := allD_spec h f.nDims
  have h := allB_spec h f.ice
  have h := allB_spec h f.chem
  have h := allB_spec h f.vtFast
  have h := allB_spec h g.sel
  have h := allB_spec h g.nf
  have h := or_spec h (by
    simp only [G.ok, Bool.and_eq_true] at hg; exact hg.1)
  have h := allB_spec h g.ijk
  have h := or_spec (List.all_eq_true.1 h c hc) (needsSel_of_safe hsafe)
  exact h

theorem acc_diag {f : Flags} {g : G} {c : Call} (hc : c ∈ diagCalls) (hg : g.ok = true) (hsafe : safe f g c = true) : Acc f g c := by
  set f' := fDiag f.nDims f.ice f.chem f.vtFast with hf'
  have hle : poolSize f' .realPart ≤ poolSize f .realPart := by
    show Pool.drpNo f'.cfg ≤ Pool.drpNo f.cfg
    apply drpNo_mono
    · rfl
    · rfl
    · intro h; simp [f', fDiag, Flags.cfg] at h
    · exact id
    · intro h; exact absurd h Bool.false_ne_true
    · intro h; exact absurd h Bool.false_ne_true
  have hup : g.up = true := by
    cases c <;> simp [diagCalls] at hc <;> simp [safe] at hsafe <;> tauto
  have hsz : ∀ p, withN (nDiag f' ⟨true, false, false, g.sel, g.nf, g.ijk⟩ c) f' p ≤ poolSize f p := by
    intro p
    cases p
    case realPart =>
      show nDiag f' ⟨true, false, false, g.sel, g.nf, g.ijk⟩ c ≤ poolSize f .realPart
      have h2 : 2 ≤ poolSize f .realPart → max 2 (poolSize f' .realPart) ≤ poolSize f .realPart := fun h => max_le h hle
      cases c <;> simp only [nDiag] <;> try exact hle
      · apply h2; simp [safe] at hsafe; exact hsafe.2
      · apply h2; simp [safe] at hsafe; exact hsafe.2
      · split_ifs with h
        · apply h2
          have h' : (f.ice && f.vtFast && g.nf) = true := h
          simp only [safe, h', Bool.and_eq_true, Bool.not_true, Bool.false_or, decide_eq_true_eq] at hsafe
          exact hsafe.2
        · exact hle
    case nPart =>
      show (1 : ℕ) ≤ if f.exact && f.adaptive then 3 else 1
      split_ifs <;> omega
    case sizePart =>
      show (1 + (if f.d2 || false then 1 else 0) + (if f.d3 then 1 else 0) : ℕ) ≤ 1 + (if f.d2 || f.distmem then 1 else 0) + (if f.d3 then 1 else 0)
      cases f.d2 <;> cases f.distmem <;> simp
    all_goals exact le_refl _
  rcases g with ⟨gu, gc, ga, gs, gn, gi⟩
  simp only at hup
  subst hup
  refine acc_of_check (diag_spec hc hg hsafe) hsz ?_ (le_refl' _) ?_ ?_ ?_
  · cases c <;> simp [diagCalls] at hc <;> rfl
  · cases c <;> simp [diagCalls] at hc <;> rfl
  · cases c <;> simp [diagCalls] at hc <;> rfl
  · cases c <;> simp [diagCalls] at hc <;> rfl

/-- a call out of order throws at once -/
theorem acc_throw {f : Flags} {g : G} {c : Call} (hp : prog f g c = .throw) (hn : next f g c true = g) : Acc f g c :=
  ⟨ain f g, none, some (ain f g), le_refl' _, by rw [hp]; rfl, rfl, fun _ => by rw [hn]; exact le_refl' _⟩

theorem acc {f : Flags} {g : G} {c : Call} (hs : f.sane = true) (hg : g.ok = true) (hsafe : safe f g c = true) : Acc f g c := by
  by_cases h1 : c = .init
  · subst h1; exact acc_init hg hsafe
  by_cases h2 : c = .stepCond
  · subst h2
    cases hc : g.cond with
    | true => exact acc_cond hs hc hsafe
    | false => exact acc_throw (by simp [prog, hc]) (by simp [next, hc])
  by_cases h3 : c = .stepAsync
  · subst h3
    cases hc : g.async with
    | true => exact acc_async hs hc hsafe
    | false => exact acc_throw (by simp [prog, hc]) (by simp [next, hc])
  exact acc_diag (by cases c <;> simp_all [diagCalls]) hg hsafe

/-- the flags that occur -/
theorem next_ok {f : Flags} {g : G} {c : Call} {t : Bool} (hg : g.ok = true) (hs : safe f g c = true) (hu : usable f g c t = true) :
    (next f g c t).ok = true := by
  rcases g with ⟨gu, gc, ga, gs, gn, gi⟩
  cases gu
  · cases c <;> simp [safe] at hs
    cases t
    · simp [G.ok] at hg
      simp [next, G.ok]
    · simp [usable] at hu
  · cases c <;> cases t <;> cases gc <;> cases ga <;> simp [next, G.ok, usable] at hg hu ⊢ <;> assumption

end LCP.PoolApi
