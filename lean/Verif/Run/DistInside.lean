import Verif.Run.DistProps

/-! # Runs with distributed memory: every super-droplet is inside its subdomain (C107) -/
namespace LCP.Run
open LCP

variable {m : ℕ}

/-- inside subdomain `r` -/
def InsideD (D : DCfg m) (r : Fin (m + 1)) (d : Drop) : Prop :=
  (D.x0 r ≤ d.x ∧ d.x < D.x1 r) ∧ (D.base.bcnd.nDims = 3 → D.base.bcnd.y0 ≤ d.y ∧ d.y < D.base.bcnd.y1) ∧
  (1 < D.base.bcnd.nDims → D.base.bcnd.z0 ≤ d.z ∧ d.z < D.base.bcnd.z1)

/-- width of a subdomain -/
def DCfg.width (D : DCfg m) (r : Fin (m + 1)) : ℝ := D.x1 r - D.x0 r

/-- when the boundary conditions are applied, a droplet is at most one neighbouring subdomain away, and within ten domain lengths to the left of periodic walls in y and z -/
def NearD (D : DCfg m) (r : Fin (m + 1)) (d : Drop) : Prop :=
  (D.x0 r - D.width (Distmem.lftRank r) ≤ d.x ∧ d.x < D.x1 r + D.width (Distmem.rgtRank r)) ∧
  (D.base.bcnd.nDims = 3 → D.base.bcnd.openSide = false → D.base.bcnd.y0 - 10 * (D.base.bcnd.y1 - D.base.bcnd.y0) ≤ d.y) ∧
  (1 < D.base.bcnd.nDims → D.base.bcnd.periodicTopBot = true → D.base.bcnd.z0 - 10 * (D.base.bcnd.z1 - D.base.bcnd.z0) ≤ d.z)

/-- the domain has a positive extent in y and z -/
def ExtentYZ (o : Bcnd.Opts) : Prop := (o.nDims = 3 → o.y0 < o.y1) ∧ (1 < o.nDims → o.z0 < o.z1)

theorem bcnd_dist_y {o : Bcnd.Opts} (hd : o.nDims = 3) (s : Bcnd.St) (i : ℕ) :
    (Bcnd.bcnd o s).y i = if o.openSide = false then Bcnd.periodic o.y0 o.y1 (s.y i) else s.y i := by
  have hZ : ∀ t : Bcnd.St, (Bcnd.bcndZ o t).y = t.y := by
    intro t; unfold Bcnd.bcndZ; split_ifs <;> rfl
  unfold Bcnd.bcnd
  rw [if_neg (by omega), hZ]
  unfold Bcnd.bcndY
  rw [if_pos hd]
  cases o.openSide with
  | false => simp [Bcnd.bcndX_y]
  | true => simp [Bcnd.flagIf, Bcnd.bcndX_y]

theorem bcndRun_yz {D : DCfg m} (hd : D.base.bcnd.nDims ≠ 0) (he : ExtentYZ D.base.bcnd) (r : Fin (m + 1)) {s : St} (hn : ∀ i < s.N, NearD D r (s.sd i)) (i : ℕ) (hi : i < s.N)
    (hl : ((bcndRun (D.cfg r).bcnd s).sd i).n ≠ 0) :
    (D.base.bcnd.nDims = 3 → D.base.bcnd.y0 ≤ ((bcndRun (D.cfg r).bcnd s).sd i).y ∧ ((bcndRun (D.cfg r).bcnd s).sd i).y < D.base.bcnd.y1) ∧
    (1 < D.base.bcnd.nDims → D.base.bcnd.z0 ≤ ((bcndRun (D.cfg r).bcnd s).sd i).z ∧ ((bcndRun (D.cfg r).bcnd s).sd i).z < D.base.bcnd.z1) := by
  classical
  have hl : (Bcnd.bcnd (D.cfg r).bcnd (toBcnd s)).n i ≠ 0 := hl
  rw [(Bcnd.bcnd_removes_leavers (D.cfg r).bcnd (toBcnd s) hd i).1] at hl
  have hno : ¬ (Bcnd.leftSide (D.cfg r).bcnd (toBcnd s) i ∨ Bcnd.leftTop (D.cfg r).bcnd (toBcnd s) i ∨ Bcnd.leftBottom (D.cfg r).bcnd (toBcnd s) i) := by
    intro h; rw [if_pos h] at hl; exact hl rfl
  push Not at hno
  obtain ⟨hs, ht, hb⟩ := hno
  refine ⟨fun h3 => ?_, fun h1 => ?_⟩
  · show D.base.bcnd.y0 ≤ (Bcnd.bcnd (D.cfg r).bcnd (toBcnd s)).y i ∧ (Bcnd.bcnd (D.cfg r).bcnd (toBcnd s)).y i < D.base.bcnd.y1
    rw [bcnd_dist_y (o := (D.cfg r).bcnd) h3]
    split_ifs with ho
    · exact (Bcnd.periodic_partial (he.1 h3) ((hn i hi).2.1 h3 ho)).1
    · by_contra hc
      exact hs (Or.inr (Or.inr ⟨h3, by simpa using ho, hc⟩))
  · show D.base.bcnd.z0 ≤ (Bcnd.bcnd (D.cfg r).bcnd (toBcnd s)).z i ∧ (Bcnd.bcnd (D.cfg r).bcnd (toBcnd s)).z i < D.base.bcnd.z1
    cases hp : D.base.bcnd.periodicTopBot with
    | true =>
      have := (Bcnd.bcnd_periodic_topbot (o := (D.cfg r).bcnd) (s := toBcnd s) h1 hp (he.2 h1) (fun i hi => (hn i hi).2.2 h1 hp)).1 i hi
      exact ⟨this.1, this.2.1⟩
    | false =>
      rw [(Bcnd.bcnd_open_positions (D.cfg r).bcnd (toBcnd s)).2 hp]
      refine ⟨?_, ?_⟩
      · by_contra hc; exact hb ⟨h1, hp, not_le.1 hc⟩
      · by_contra hc; exact ht ⟨h1, hp, not_lt.1 hc⟩

/-- after the exchange -/
theorem dstep_inside {D : DCfg m} {s s' : Fin (m + 1) → St} {cap cap' : Fin (m + 1) → ℕ} {t : Fin (m + 1) → Trace} (h : DStep D s cap t s' cap')
    (hd : D.base.bcnd.nDims ≠ 0) (he : ExtentYZ D.base.bcnd) (hnear : ∀ r, ∀ i < (t r).atWalls.N, NearD D r ((t r).atWalls.sd i)) :
    ∀ r, ∀ i < (s' r).N, 1 ≤ ((s' r).sd i).n ∧ InsideD D r ((s' r).sd i) := by
  intro r i hi
  obtain ⟨R, hR, e⟩ := h.exch
  rw [(e r).1] at hi ⊢
  have hN : ∀ q, (bcndRun (D.cfg q).bcnd (t q).atWalls).N = (t q).atWalls.N := fun q => (bcnd_n_le (D.cfg q).bcnd (toBcnd (t q).atWalls) 0).2
  have hmv : Distmem.Moved (atExchange D cap t) := by
    intro q u hu
    unfold atExchange toRank at hu
    obtain ⟨j, hj, rfl⟩ := List.mem_map.1 hu
    rw [List.mem_range, hN] at hj
    have hx : ((bcndRun (D.cfg q).bcnd (t q).atWalls).sd j).toSd.x = ((t q).atWalls.sd j).x := by
      show (Bcnd.bcnd (D.cfg q).bcnd (toBcnd (t q).atWalls)).x j = _
      rw [bcnd_dist_x (l := (D.edges q).1) (r := (D.edges q).2) rfl]; rfl
    rw [hx]
    exact (hnear q j hj).1
  obtain ⟨hn0, q, j, hj, x, ed⟩ := exchange_drops hR _ r i hi
  obtain ⟨u, hu, eu⟩ := ofRank_mem hi
  have hx := Distmem.exchange_inside_partial _ R hR hmv r u hu
  have hRx : (R r).x0 = D.x0 r ∧ (R r).x1 = D.x1 r := by
    have hR' := hR
    unfold Distmem.exchange at hR'
    split at hR'
    swap
    · cases hR'
    have := Option.some.inj hR'
    rw [← this]
    exact ⟨rfl, rfl⟩
  rw [hRx.1, hRx.2] at hx
  refine ⟨Nat.one_le_iff_ne_zero.2 hn0, ?_, ?_⟩
  · rw [eu]; exact ⟨hx.1, hx.2.1⟩
  · have hl : ((bcndRun (D.cfg q).bcnd (t q).atWalls).sd j).n ≠ 0 := by rw [ed] at hn0; exact hn0
    rw [hN] at hj
    have := bcndRun_yz hd he q (hnear q) j hj hl
    rw [ed]
    exact this

section run
variable {D : DCfg m} {T : ℕ} {s : ℕ → Fin (m + 1) → St} {cap : ℕ → Fin (m + 1) → ℕ} {t : ℕ → Fin (m + 1) → Trace}

/-- **C107 (inside).** After every step each super-droplet stands for at least one particle and is inside the subdomain that holds it, provided no droplet crosses more than one
neighbouring subdomain in a step. -/
theorem drun_inside_partial (H : DHistory D T s cap t) (hd : D.base.bcnd.nDims ≠ 0) (he : ExtentYZ D.base.bcnd)
    (hnear : ∀ k < T, ∀ r, ∀ i < (t k r).atWalls.N, NearD D r ((t k r).atWalls.sd i)) :
    ∀ k, 0 < k → k ≤ T → ∀ r, ∀ i < (s k r).N, 1 ≤ ((s k r).sd i).n ∧ InsideD D r ((s k r).sd i) := by
  intro k h0 hT
  obtain ⟨k, rfl⟩ : ∃ j, k = j + 1 := ⟨k - 1, by omega⟩
  exact dstep_inside (H k (by omega)) hd he (hnear k (by omega))

/-- transport in a step displaces droplets by at most `δ` in x, and not more than ten domain lengths to the left in y and z; new droplets are inside -/
structure SmallSteps (D : DCfg m) (δ : ℝ) (t : Fin (m + 1) → Trace) : Prop where
  x : ∀ r, ∀ i < (t r).c.N, |((t r).m.sd i).x - ((t r).c.sd i).x| ≤ δ
  y : ∀ r, ∀ i < (t r).c.N, D.base.bcnd.nDims = 3 → ((t r).c.sd i).y - 10 * (D.base.bcnd.y1 - D.base.bcnd.y0) ≤ ((t r).m.sd i).y
  z : ∀ r, ∀ i < (t r).c.N, 1 < D.base.bcnd.nDims → ((t r).c.sd i).z - 10 * (D.base.bcnd.z1 - D.base.bcnd.z0) ≤ ((t r).m.sd i).z
  new : ∀ r, ∀ i < (t r).new.k, InsideD D r ((t r).new.sd i)

/-- **C107 (inside, from displacements).** If displacements in x never exceed the width of the narrowest subdomain, a population that begins inside stays inside, and each droplet is always
held by the subdomain that contains it. -/
theorem drun_inside_of_displacements (H : DHistory D T s cap t) (hd : D.base.bcnd.nDims ≠ 0) (he : ExtentYZ D.base.bcnd) (hn : 0 < D.base.cond.sstp) (hg : ∀ r, AllGood (s 0 r))
    (hw : ∀ k < T, ∀ r, ∀ i < (t k r).new.k, Good ((t k r).new.sd i))
    (δ : ℝ) (hδ : ∀ r, δ ≤ D.width r) (hwid : ∀ r, 0 < D.width r) (hs : ∀ k < T, SmallSteps D δ (t k)) (h0 : ∀ r, ∀ i < (s 0 r).N, InsideD D r ((s 0 r).sd i)) :
    ∀ k ≤ T, ∀ r, ∀ i < (s k r).N, InsideD D r ((s k r).sd i) := by
  have G := drun_good H hn hg hw
  intro k
  induction k with
  | zero => exact fun _ => h0
  | succ k ih =>
    intro hk r i hi
    have ih := ih (by omega)
    refine (dstep_inside (H k hk) hd he ?_ r i hi).2
    intro q j hj
    have hst := (H k hk).step q
    have hb := (H k hk).beg q
    have fr := step_front hst (by rw [hb]; exact G k (by omega) q) (hw k hk q) hn
    obtain ⟨mv, hmv⟩ := hst.move
    obtain ⟨m1, -, -⟩ := moved_ok hmv
    have nb : (t k q).b.N = (s k q).N := by rw [fr.2.2.2.1, hb]
    have co := coalSteps_ok hst.coal fr.1
    have hc : ∀ j < (t k q).c.N, InsideD D q ((t k q).c.sd j) := by
      intro j hj
      have hj' : j < (t k q).b.N := by rw [← co.1]; exact hj
      obtain ⟨-, ex, ey, ez⟩ := co.2.2.2.2.2.2 j hj'
      have h := ih q j (by rw [← nb]; exact hj')
      have eb : ((t k q).b.sd j).x = ((s k q).sd j).x ∧ ((t k q).b.sd j).y = ((s k q).sd j).y ∧ ((t k q).b.sd j).z = ((s k q).sd j).z := by
        rw [← hb]; exact ⟨rfl, rfl, rfl⟩
      unfold InsideD
      rw [ex, ey, ez, eb.1, eb.2.1, eb.2.2]
      exact h
    have hjj : j < (t k q).m.N + (t k q).new.k := hj
    show NearD D q (if j < (t k q).m.N then (t k q).m.sd j else (t k q).new.sd (j - (t k q).m.N))
    have w1 := hwid (Distmem.lftRank q)
    have w2 := hwid (Distmem.rgtRank q)
    split_ifs with hlt
    · rw [m1] at hlt
      have i1 := hc j hlt
      have d1 := abs_le.1 ((hs k hk).x q j hlt)
      have d2 := hδ (Distmem.lftRank q)
      have d3 := hδ (Distmem.rgtRank q)
      refine ⟨⟨by linarith [i1.1.1], by linarith [i1.1.2]⟩, fun h3 _ => ?_, fun h1 _ => ?_⟩
      · linarith [(hs k hk).y q j hlt h3, (i1.2.1 h3).1]
      · linarith [(hs k hk).z q j hlt h1, (i1.2.2 h1).1]
    · have i1 := (hs k hk).new q (j - (t k q).m.N) (by omega)
      refine ⟨⟨by linarith [i1.1.1], by linarith [i1.1.2]⟩, fun h3 _ => ?_, fun h1 _ => ?_⟩
      · linarith [(i1.2.1 h3).1, he.1 h3]
      · linarith [(i1.2.2 h1).1, he.2 h1]

end run

end LCP.Run
