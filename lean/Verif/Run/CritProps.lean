import Verif.Run.Crit
import Verif.Cond.AdaptiveStep

/-! # C111: the critical radii that activation substepping relies on, over whole runs -/
namespace LCP.Run
open LCP

/-! ## Specification -/

/-- the stored value is the square of the critical radius (where the Koehler curve of the droplet's own dry volume and hygroscopicity is largest, at temperature `T`), up to the
accuracy of the search -/
def HasCritical (T : ℝ) (d : Drop) : Prop :=
  0 ≤ d.rc2 ∧ ∃ v, Activ.IsCritical d.rd3 d.kpa T v ∧ |√d.rc2 ^ 3 - v| ≤ max (2 ^ (-16 : ℤ) * v) ((1e8 * d.rd3 - d.rd3) / 2 ^ 25)

/-- super-droplets that stand for any droplets and whose size and composition are within the range of the search -/
def Counts (T : ℝ) (d : Drop) : Prop := d.n ≠ 0 ∧ Activ.Ok d.rd3 d.kpa T

/-- the marker of a value to be computed -/
def Blank (d : Drop) : Prop := d.rc2 = -1

/-! ## What processes do -/

/-- a predicate on dry volume, hygroscopicity and stored value, of all live super-droplets -/
def All (Q : ℝ → ℝ → ℝ → Prop) (s : St) : Prop := ∀ i < s.N, (s.sd i).n ≠ 0 → Q (s.sd i).rd3 (s.sd i).kpa (s.sd i).rc2

theorem all_moved {Q : ℝ → ℝ → ℝ → Prop} {m : MoveIn} {s t : St} (h : Moved m s t) (hs : All Q s) : All Q t := by
  obtain ⟨h1, -, h3⟩ := moved_ok h
  intro i hi hn
  rw [h1] at hi
  rw [h3 i hi] at hn ⊢
  exact hs i hi hn

theorem all_addNew {Q : ℝ → ℝ → ℝ → Prop} {w : New} {s : St} (hs : All Q s) (hw : ∀ i < w.k, Q (w.sd i).rd3 (w.sd i).kpa (w.sd i).rc2) : All Q (addNew w s) := by
  intro i hi
  have hi : i < s.N + w.k := hi
  show (if i < s.N then s.sd i else w.sd (i - s.N)).n ≠ 0 → Q (if i < s.N then s.sd i else w.sd (i - s.N)).rd3 (if i < s.N then s.sd i else w.sd (i - s.N)).kpa
    (if i < s.N then s.sd i else w.sd (i - s.N)).rc2
  split_ifs with h
  · exact hs i h
  · exact fun _ => hw _ (by omega)

theorem all_bcnd {Q : ℝ → ℝ → ℝ → Prop} {o : Bcnd.Opts} {s : St} (hs : All Q s) : All Q (bcndRun o s) := by
  intro i hi hn
  obtain ⟨e1, e2⟩ := bcnd_n_le o (toBcnd s) i
  have hi : i < (Bcnd.bcnd o (toBcnd s)).N := hi
  rw [e2] at hi
  have hn : (Bcnd.bcnd o (toBcnd s)).n i ≠ 0 := hn
  have e1 : (Bcnd.bcnd o (toBcnd s)).n i ≤ (s.sd i).n := e1
  exact hs i hi (by omega)

/-- a live super-droplet after recycling has all attributes of one live before -/
theorem rcyc_live (pcm : Bool) {s : Rcyc.State Attr} {sid : List ℕ} (h : IsCellSort s.N s.n sid) {σ : Rcyc.Scheds Attr} (hσ : σ.Valid (Rcyc.nRcyc s sid))
    (i : ℕ) (hi : i < (Rcyc.rcyc pcm s sid σ).1.N) (hn : (Rcyc.rcyc pcm s sid σ).1.n i ≠ 0) :
    ∃ j < s.N, s.n j ≠ 0 ∧ (Rcyc.rcyc pcm s sid σ).1.attr i = s.attr j := by
  have hspl : ∀ j < s.N, (Rcyc.split s sid σ).n j ≠ 0 → ∃ k < s.N, s.n k ≠ 0 ∧ (Rcyc.split s sid σ).attr j = s.attr k := by
    intro j hj hn
    obtain ⟨p, hp, rfl⟩ := h.exists_pos hj
    rcases Rcyc.split_pos h hσ p hp with ⟨-, -, e, e2⟩ | ⟨-, -, e, e2⟩ | ⟨-, -, e, e2⟩ | ⟨-, -, e⟩
    · exact ⟨_, h.id_lt (show s.N - 1 - p < s.N by omega), by rw [e] at hn; omega, e2⟩
    · exact ⟨_, h.id_lt hp, by rw [e] at hn; omega, e2⟩
    · exact ⟨_, h.id_lt hp, by rw [e] at hn; exact hn, e2⟩
    · exact absurd e hn
  have hrem : ∀ (q : Rcyc.State Attr), (∀ j < q.N, q.n j ≠ 0 → ∃ k < s.N, s.n k ≠ 0 ∧ q.attr j = s.attr k) → ∀ i < (Rcyc.removeN0 q).N,
      ∃ k < s.N, s.n k ≠ 0 ∧ (Rcyc.removeN0 q).attr i = s.attr k := by
    intro q hq i hi
    obtain ⟨j, hj, e1, -, e3⟩ := removeN0_mem q i hi
    rw [e1]
    exact hq j hj e3
  revert hi hn
  unfold Rcyc.rcyc
  split_ifs
  · exact fun hi hn => ⟨i, hi, hn, rfl⟩
  · exact fun hi _ => hrem s (fun j hj hn => ⟨j, hj, hn, rfl⟩) i hi
  · exact fun hi _ => hrem s (fun j hj hn => ⟨j, hj, hn, rfl⟩) i hi
  · exact fun hi _ => hrem (Rcyc.split s sid σ) hspl i hi
  · exact fun hi hn => hspl i hi hn

theorem all_postCopy {Q : ℝ → ℝ → ℝ → Prop} {r : Option RcycIn} {s : St} (hr : RcycOk r s) (hs : All Q s) : All Q (postCopy r s) := by
  cases r with
  | none =>
    intro i hi _
    obtain ⟨j, hj, e1, -, e3⟩ := removeN0_mem (toRcyc s) i hi
    show Q ((Rcyc.removeN0 (toRcyc s)).attr i .rd3) ((Rcyc.removeN0 (toRcyc s)).attr i .kpa) ((Rcyc.removeN0 (toRcyc s)).attr i .rc2)
    rw [e1]
    exact hs j hj e3
  | some a =>
    intro i hi hn
    obtain ⟨h1, h2⟩ := hr a rfl
    obtain ⟨j, hj, e1, e2⟩ := rcyc_live a.pcm (s := toRcyc s) h1 h2 i hi hn
    show Q ((Rcyc.rcyc a.pcm (toRcyc s) a.sid a.σ).1.attr i .rd3) ((Rcyc.rcyc a.pcm (toRcyc s) a.sid a.σ).1.attr i .kpa) ((Rcyc.rcyc a.pcm (toRcyc s) a.sid a.σ).1.attr i .rc2)
    rw [e2]
    exact hs j hj e1

theorem all_coal {Q : ℝ → ℝ → ℝ → Prop} (hQ : ∀ d k, Q d k (-1)) {o : Coal.Opts} (ho : o.rc2 = true) {s t : St} (h : CoalKeepSteps o s t) (hs : All Q s) : All Q t := by
  induction h with
  | done => exact hs
  | @step s u v a ha h _ ih =>
    apply ih
    unfold coalKeep at h
    rw [Option.map_eq_some_iff] at h
    obtain ⟨r, hr, rfl⟩ := h
    intro i hi hn
    have hi : i < s.N := hi
    have hn : (r.sd i).n ≠ 0 := hn
    show Q (r.sd i).rd3 (r.sd i).kpa (r.sd i).rc2
    rcases Coal.coal_each ha.1 ha.2 hr i hi with e | ⟨j, hj, -, -, k, hk, ⟨hle, e, -⟩ | ⟨hle, e, -⟩⟩
    · rw [e] at hn ⊢; exact hs i hi hn
    · rw [e] at hn ⊢
      refine hs i hi (fun h0 => hn ?_)
      have hle : k * (s.sd j).n ≤ (s.sd i).n := hle
      show Coal.subU64 (s.sd i).n (k * (s.sd j).n) = 0
      rw [h0] at hle ⊢
      rw [Nat.le_zero.1 hle]
      rfl
    · rw [e]
      show Q _ _ (if o.rc2 then Coal.invalid else _)
      rw [if_pos ho]
      exact hQ _ _

/-! ## Invariants -/

/-- stored value is blank or right -/
def BlankOr (T : ℝ) (d k r : ℝ) : Prop := r = -1 ∨ r = Activ.rc2 d k T

theorem refresh_N (act : ℕ) (allow : Bool) (T : ℝ) (s : St) : (refreshRc2 act allow T s).N = s.N := by
  unfold refreshRc2; split_ifs <;> rfl

theorem refresh_keeps {act : ℕ} {allow : Bool} {T : ℝ} {s : St} (h : All (BlankOr (critT T)) s) : All (BlankOr (critT T)) (refreshRc2 act allow T s) := by
  unfold refreshRc2
  split_ifs
  · exact h
  · intro i hi hn
    show BlankOr (critT T) (s.sd i).rd3 (s.sd i).kpa (if (s.sd i).rc2 = Coal.invalid then _ else (s.sd i).rc2)
    split_ifs
    · exact Or.inr rfl
    · exact h i hi hn

theorem refresh_fills {act : ℕ} {allow : Bool} {T : ℝ} {s : St} (ha : act ≠ 1) (hw : allow = true) (h : All (BlankOr (critT T)) s) :
    All (fun d k r => r = Activ.rc2 d k (critT T)) (refreshRc2 act allow T s) := by
  unfold refreshRc2
  rw [if_neg (by simp [ha, hw])]
  intro i hi hn
  show (if (s.sd i).rc2 = Coal.invalid then _ else (s.sd i).rc2) = Activ.rc2 (s.sd i).rd3 (s.sd i).kpa (critT T)
  split_ifs with h1
  · rfl
  · exact (h i hi hn).resolve_left h1

theorem critical_of {T : ℝ} {d : Drop} (h : d.rc2 = Activ.rc2 d.rd3 d.kpa T) (hok : Activ.Ok d.rd3 d.kpa T) : HasCritical T d := by
  have hge := Activ.rw3_cr_ge _ _ _ hok.hd hok.hk hok.hb
  obtain ⟨v, hv, hacc⟩ := Activ.critical_exists hok
  have hr : 0 ≤ Toms.rw3_cr d.rd3 d.kpa T := hok.hd.le.trans hge
  have e : √d.rc2 ^ 3 = Toms.rw3_cr d.rd3 d.kpa T := by
    rw [h]
    unfold Activ.rc2
    rw [Real.sqrt_eq_rpow, ← Real.rpow_mul hr, ← Real.rpow_natCast, ← Real.rpow_mul hr]
    norm_num
  refine ⟨?_, v, hv, ?_⟩
  · rw [h]; unfold Activ.rc2; positivity
  · rw [e]; exact hacc

section run
variable {k : CritCfg}

theorem coalOpts_rc2 (ha : 1 < k.init.sstpCondAct) : k.allow = true ∧ k.coalOpts.rc2 = true := by
  have : k.allow = true := by unfold CritCfg.allow; simp [ha]
  exact ⟨this, by unfold CritCfg.coalOpts; simp [ha, this]⟩

/-- condensation and no chemistry: nothing of this changes -/
theorem all_cond {Q : ℝ → ℝ → ℝ → Prop} {o : StepOpts} {t : CritTrace} (h : CritStep k o t) (hc : o.chem = false) (hs : All Q t.a) : All Q t.h := by
  have e := h.chem
  rw [hc] at e
  rw [show t.h = t.b from e]
  obtain ⟨h1, -, h3⟩ := h.cond
  intro i hi hn
  obtain ⟨a, b, c, e⟩ := h3 i
  rw [h1] at hi
  rw [e] at hn ⊢
  exact hs i hi hn

theorem step_blankOr (ha : 1 < k.init.sstpCondAct) {o : StepOpts} {t : CritTrace} (h : CritStep k o t) (hc : o.chem = false)
    (hs : All (BlankOr (critT k.rc2_T)) t.a) : All (BlankOr (critT k.rc2_T)) (t.r k o) ∧ All (BlankOr (critT k.rc2_T)) (t.fin k) := by
  have h1 := all_cond h hc hs
  have hr : All (BlankOr (critT k.rc2_T)) (t.r k o) := by
    have e := h.coal
    unfold CritTrace.r
    cases hco : o.coal with
    | false =>
      rw [hco] at e
      have e : t.c = t.h := e
      show All _ t.c
      rw [e]; exact h1
    | true =>
      rw [hco] at e
      exact refresh_keeps (all_coal (fun _ _ => Or.inl rfl) (coalOpts_rc2 ha).2 e h1)
  obtain ⟨m, hm⟩ := h.move
  exact ⟨hr, all_postCopy h.rcyc (all_bcnd (all_addNew (all_moved hm hr) fun i hi => Or.inl (h.fresh i hi)))⟩

theorem step_right (ha : 1 < k.init.sstpCondAct) {o : StepOpts} {t : CritTrace} (h : CritStep k o t) (hc : o.chem = false) (hn : t.new.k = 0) (hco : o.coal = true)
    (hact : Step.adjustOne k.init.dt o.dt k.init.sstpCondAct ≠ 1) (hs : All (BlankOr (critT k.rc2_T)) t.a) :
    All (fun d κ r => r = Activ.rc2 d κ (critT k.rc2_T)) (t.fin k) := by
  have h1 := all_cond h hc hs
  have e := h.coal
  rw [hco] at e
  have hr : All (fun d κ r => r = Activ.rc2 d κ (critT k.rc2_T)) (t.r k o) := by
    unfold CritTrace.r
    rw [hco]
    exact refresh_fills hact (coalOpts_rc2 ha).1 (all_coal (fun _ _ => Or.inl rfl) (coalOpts_rc2 ha).2 e h1)
  obtain ⟨m, hm⟩ := h.move
  exact all_postCopy h.rcyc (all_bcnd (all_addNew (all_moved hm hr) fun i hi => by omega))

theorem step_right_nocoal {o : StepOpts} {t : CritTrace} (h : CritStep k o t) (hc : o.chem = false) (hn : t.new.k = 0) (hco : o.coal = false)
    (hs : All (fun d κ r => r = Activ.rc2 d κ (critT k.rc2_T)) t.a) :
    All (fun d κ r => r = Activ.rc2 d κ (critT k.rc2_T)) (t.fin k) := by
  have h1 := all_cond h hc hs
  have e := h.coal
  rw [hco] at e
  have hr : All (fun d κ r => r = Activ.rc2 d κ (critT k.rc2_T)) (t.r k o) := by
    unfold CritTrace.r
    rw [hco]
    have e : t.c = t.h := e
    show All _ t.c
    rw [e]; exact h1
  obtain ⟨m, hm⟩ := h.move
  exact all_postCopy h.rcyc (all_bcnd (all_addNew (all_moved hm hr) fun i hi => by omega))

theorem run_inv (ha : 1 < k.init.sstpCondAct) {T : ℕ} {o : ℕ → StepOpts} {s : ℕ → St} {t : ℕ → CritTrace} (H : CritRun k T o s t)
    (hc : ∀ j < T, (o j).chem = false) : ∀ j ≤ T, All (BlankOr (critT k.rc2_T)) (s j) := by
  intro j
  induction j with
  | zero =>
    intro _
    obtain ⟨p, hp, e⟩ := H.init
    rw [e]
    exact refresh_keeps fun i hi _ => Or.inl (hp i hi)
  | succ j ih =>
    intro hj
    rw [← H.fin j hj]
    exact (step_blankOr ha (H.step j hj) (hc j hj) (by rw [H.beg j hj]; exact ih (by omega))).2

/-- **C111 (never a wrong one).** In every run without chemical reactions, whatever sources, time steps and collisions: at the beginning of every step (when condensation is called)
every super-droplet's stored value is its own critical radius squared, or marked as not known. -/
theorem critical_never_wrong (ha : 1 < k.init.sstpCondAct) {T : ℕ} {o : ℕ → StepOpts} {s : ℕ → St} {t : ℕ → CritTrace} (H : CritRun k T o s t)
    (hc : ∀ j < T, (o j).chem = false) (j : ℕ) (hj : j ≤ T) (i : ℕ) (hi : i < (s j).N) (hd : Counts (k.rc2_T + 273.15) ((s j).sd i)) :
    Blank ((s j).sd i) ∨ HasCritical (k.rc2_T + 273.15) ((s j).sd i) := by
  rcases run_inv ha H hc j hj i hi hd.1 with h | h
  · exact Or.inl h
  · exact Or.inr (critical_of h hd.2)

/-- **C111 (repaired by coalescence).** After a step with coalescence (at the default time step, or any at which activation substeps remain in use), in which no super-droplets were
added, every stored value is right. -/
theorem critical_after_coalescence (ha : 1 < k.init.sstpCondAct) {T : ℕ} {o : ℕ → StepOpts} {s : ℕ → St} {t : ℕ → CritTrace} (H : CritRun k T o s t)
    (hc : ∀ j < T, (o j).chem = false) (j : ℕ) (hj : j < T) (hco : (o j).coal = true) (hn : (t j).new.k = 0)
    (hdt : 0 < (o j).dt → k.init.dt < k.init.sstpCondAct * (o j).dt) (h0 : 0 < k.init.dt)
    (i : ℕ) (hi : i < (s (j + 1)).N) (hd : Counts (k.rc2_T + 273.15) ((s (j + 1)).sd i)) :
    HasCritical (k.rc2_T + 273.15) ((s (j + 1)).sd i) := by
  have hact : Step.adjustOne k.init.dt (o j).dt k.init.sstpCondAct ≠ 1 := by
    unfold Step.adjustOne
    split_ifs with h
    · have h1 := hdt h.1
      have : 1 < ⌈(k.init.sstpCondAct : ℝ) * (o j).dt / k.init.dt⌉₊ := by
        rw [Nat.lt_ceil, Nat.cast_one, lt_div_iff₀ h0]
        linarith
      omega
    · omega
  have := step_right ha (H.step j hj) (hc j hj) hn hco hact (by rw [H.beg j hj]; exact run_inv ha H hc j (by omega))
  rw [H.fin j hj] at this
  exact critical_of (this i hi hd.1) hd.2

theorem run_right (ha : 1 < k.init.sstpCondAct) (h0 : 0 < k.init.dt) {T : ℕ} {o : ℕ → StepOpts} {s : ℕ → St} {t : ℕ → CritTrace} (H : CritRun k T o s t)
    (hc : ∀ j < T, (o j).chem = false) (hn : ∀ j < T, (t j).new.k = 0) (hdt : ∀ j < T, 0 < (o j).dt → k.init.dt < k.init.sstpCondAct * (o j).dt) :
    ∀ j ≤ T, All (fun d κ r => r = Activ.rc2 d κ (critT k.rc2_T)) (s j) := by
  intro j
  induction j with
  | zero =>
    intro _
    obtain ⟨p, hp, e⟩ := H.init
    rw [e]
    exact refresh_fills (by omega) (coalOpts_rc2 ha).1 fun i hi _ => Or.inl (hp i hi)
  | succ j ih =>
    intro hj
    have b := ih (by omega)
    rw [← H.fin j hj]
    rw [← H.beg j hj] at b
    cases hco : (o j).coal with
    | false => exact step_right_nocoal (H.step j hj) (hc j hj) (hn j hj) hco b
    | true =>
      refine step_right ha (H.step j hj) (hc j hj) (hn j hj) hco ?_ fun i hi hn => Or.inr (b i hi hn)
      unfold Step.adjustOne
      split_ifs with h
      · have h1 := hdt j hj h.1
        have : 1 < ⌈(k.init.sstpCondAct : ℝ) * (o j).dt / k.init.dt⌉₊ := by
          rw [Nat.lt_ceil, Nat.cast_one, lt_div_iff₀ h0]
          linarith
        omega
      · omega

/-- **C111, partial.** In every run without chemical reactions, sources and relaxation, and with time steps at which activation substeps remain in use: at the beginning of every step,
every super-droplet's stored value is its own critical radius squared.  (Missing: sources, chemistry, shorter steps; there it is false, see below.) -/
theorem critical_current_partial (ha : 1 < k.init.sstpCondAct) (h0 : 0 < k.init.dt) {T : ℕ} {o : ℕ → StepOpts} {s : ℕ → St} {t : ℕ → CritTrace} (H : CritRun k T o s t)
    (hc : ∀ j < T, (o j).chem = false) (hn : ∀ j < T, (t j).new.k = 0) (hdt : ∀ j < T, 0 < (o j).dt → k.init.dt < k.init.sstpCondAct * (o j).dt)
    (j : ℕ) (hj : j ≤ T) (i : ℕ) (hi : i < (s j).N) (hd : Counts (k.rc2_T + 273.15) ((s j).sd i)) :
    HasCritical (k.rc2_T + 273.15) ((s j).sd i) :=
  critical_of (run_right ha h0 H hc hn hdt j hj i hi hd.1) hd.2

/-- **C111 (effect).** Hence in such a run the number of condensation substeps of every droplet is the one chosen by comparing its size with its true critical radius: the radius after
condensation is unchanged if every stored value is replaced by the result of a fresh search. -/
theorem condensation_uses_critical_partial (ha : 1 < k.init.sstpCondAct) (h0 : 0 < k.init.dt) {T : ℕ} {o : ℕ → StepOpts} {s : ℕ → St} {t : ℕ → CritTrace} (H : CritRun k T o s t)
    (hc : ∀ j < T, (o j).chem = false) (hn : ∀ j < T, (t j).new.k = 0) (hdt : ∀ j < T, 0 < (o j).dt → k.init.dt < k.init.sstpCondAct * (o j).dt)
    (j : ℕ) (hj : j ≤ T) (c : Cond.Cfg) (eps mx : ℝ) (act : ℕ) (junk : ℕ → ℝ × ℝ × ℝ) (allow : Bool) (q q1 q2 : Cond.PSt) (hs : Cond.Sorted q.s.d)
    (e1 : Cond.condAdaptive c eps mx act (fun i => ((s j).sd i).rc2) junk allow q = some q1)
    (e2 : Cond.condAdaptive c eps mx act (fun i => Activ.rc2 ((s j).sd i).rd3 ((s j).sd i).kpa (critT k.rc2_T)) junk allow q = some q2)
    (i : ℕ) (hi : i < (s j).N) (hl : ((s j).sd i).n ≠ 0) : q1.s.rw2 i = q2.s.rw2 i := by
  have e := run_right ha h0 H hc hn hdt j hj i hi hl
  obtain ⟨a, r1, -, -, f1, -, g1, -⟩ := Cond.condAdaptive_eq c eps mx act (fun i => ((s j).sd i).rc2) junk allow q hs
  obtain ⟨b, r2, -, -, f2, -, g2, -⟩ := Cond.condAdaptive_eq c eps mx act (fun i => Activ.rc2 ((s j).sd i).rd3 ((s j).sd i).kpa (critT k.rc2_T)) junk allow q hs
  rw [e1] at f1
  rw [e2] at f2
  rw [Option.some.inj f1, Option.some.inj f2, g1 i, g2 i]
  have : Cond.given c q (fun i => ((s j).sd i).rc2) i = Cond.given c q (fun i => Activ.rc2 ((s j).sd i).rd3 ((s j).sd i).kpa (critT k.rc2_T)) i := by
    unfold Cond.given
    beta_reduce
    rw [e]
  rw [this]

/-! ## Where it fails -/

/-- **C111 (negation, sources).** In a run that starts without super-droplets and in which coalescence is off, none of the super-droplets brought in by the source or by relaxation ever gets its
critical radius, however long the run. -/
theorem source_never_critical {T : ℕ} {o : ℕ → StepOpts} {s : ℕ → St} {t : ℕ → CritTrace} (H : CritRun k T o s t) (hempty : (s 0).N = 0)
    (hco : ∀ j < T, (o j).coal = false) (j : ℕ) (hj : j ≤ T) (i : ℕ) (hi : i < (s j).N) (hl : ((s j).sd i).n ≠ 0) : Blank ((s j).sd i) ∧
      ¬ HasCritical (k.rc2_T + 273.15) ((s j).sd i) := by
  have key : ∀ j ≤ T, All (fun _ _ r => r = -1) (s j) := by
    intro j
    induction j with
    | zero => intro _ i hi; omega
    | succ j ih =>
      intro hj
      have b := ih (by omega)
      have h := H.step j hj
      rw [← H.fin j hj]
      rw [← H.beg j hj] at b
      have hr : All (fun _ _ r => r = -1) ((t j).r k (o j)) := by
        have e := h.coal
        rw [hco j hj] at e
        unfold CritTrace.r
        rw [hco j hj]
        have e : (t j).c = (t j).h := e
        show All _ (t j).c
        rw [e]
        obtain ⟨c1, -, c3⟩ := h.cond
        have d : All (fun _ _ r => r = -1) (t j).b := by
          intro i hi hn
          obtain ⟨a, b', c, e⟩ := c3 i
          rw [c1] at hi
          rw [e] at hn ⊢
          exact b i hi hn
        have f := h.chem
        cases hch : (o j).chem with
        | false =>
          rw [hch] at f
          rw [show (t j).h = (t j).b from f]; exact d
        | true =>
          rw [hch] at f
          obtain ⟨f1, -, f3⟩ := f
          intro i hi hn
          obtain ⟨a, b', e⟩ := f3 i
          rw [f1] at hi
          rw [e] at hn ⊢
          exact d i hi hn
      obtain ⟨m, hm⟩ := h.move
      exact all_postCopy h.rcyc (all_bcnd (all_addNew (all_moved hm hr) fun i hi => h.fresh i hi))
  have e := key j hj i hi hl
  refine ⟨e, fun h => ?_⟩
  have := h.1
  rw [e] at this
  norm_num at this

/-- **C111 (negation, consequence).** A droplet without a stored critical radius that does not shrink is never given activation substeps, wherever its critical radius is. -/
theorem blank_never_activates (c : Cond.ACfg) (x : Cond.AIn) (s : Cond.ASt) (hb : x.rc2 = -1) (hs : 0 ≤ s.rw2) (m : ℕ) (d : ℝ) (hd : 0 ≤ d) : ¬ Cond.Crosses c x s m d := by
  rintro ⟨-, ⟨h, -⟩ | ⟨-, h⟩⟩
  · rw [hb] at h; linarith
  · rw [hb] at h
    have : 0 ≤ (m : ℝ) * d := by positivity
    linarith

/-- **C111 (negation, time steps).** With a time step so short that activation substeps are switched off for it, the stored values of droplets that have collided are marked as unknown and left so. -/
theorem short_step_leaves_blank (h0 : 0 < k.init.dt) {o : StepOpts} {t : CritTrace} (hco : o.coal = true) (hdt : 0 < o.dt) (ha : 1 < k.init.sstpCondAct)
    (hs : k.init.sstpCondAct * o.dt ≤ k.init.dt) : t.r k o = t.c := by
  unfold CritTrace.r
  rw [hco]
  have : Step.adjustOne k.init.dt o.dt k.init.sstpCondAct = 1 := by
    unfold Step.adjustOne
    rw [if_pos ⟨hdt, ha⟩]
    have hle : (k.init.sstpCondAct : ℝ) * o.dt / k.init.dt ≤ 1 := by rw [div_le_one h0]; exact hs
    have hpos : 0 < (k.init.sstpCondAct : ℝ) * o.dt / k.init.dt := by
      have : (0:ℝ) < k.init.sstpCondAct := by exact_mod_cast (by omega : 0 < k.init.sstpCondAct)
      positivity
    apply le_antisymm
    · exact Nat.ceil_le.2 (by simpa using hle)
    · exact Nat.ceil_pos.2 hpos
  rw [this]
  unfold refreshRc2
  simp

end run
end LCP.Run
