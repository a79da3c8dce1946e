import Verif.Run.CritProps

/-! # C111: concrete runs -/
namespace LCP.Run
open LCP LCP.Common

/-! ### Parcel (0D) runs -/

/-- transport in a parcel -/
noncomputable def parcelMove : MoveIn :=
  { init := .euler, hs := 0, d := ⟨0, 0, 0⟩, b := ⟨1, 1, 1, 0, 1, 0, 1, 0, 1⟩, o := ⟨false, false, false, false⟩, dt := 1
    u := fun _ => ⟨0, 0, 0⟩, wLS := fun _ => 0, st := ⟨.euler, ⟨fun _ => 0, fun _ => 0, fun _ => 0⟩⟩ }

theorem parcel_moved (s : St) : Moved parcelMove s s := by
  refine ⟨rfl, rfl, fun i _ => ⟨parcelMove.st, (s.sd i).pos, ?_, rfl⟩⟩
  simp [Adve.transport, parcelMove, Adve.cellOf, Grid.ravel, Grid.Dims.nDims]

/-- options: `act` activation substeps, default time step 1 s, critical radii at 10 degrees Celsius -/
noncomputable def parcelCfg : CritCfg :=
  { init := { dt := 1, sstpCond := 4, sstpCoal := 1, sstpChem := 1, sstpCondAct := 8, variableDt := true }, rc2_T := 10, nChem := 0, kappa := false, incloud := false
    bcnd := { nDims := 0, x0 := 0, x1 := 1, y0 := 0, y1 := 1, z0 := 0, z1 := 1, openSide := false, periodicTopBot := false, dist := none, ice := false, chem := false } }

theorem parcel_fin (s : St) (hl : ∀ i < s.N, (s.sd i).n ≠ 0) :
    (postCopy none (bcndRun parcelCfg.bcnd s)).N = s.N ∧ ∀ i < s.N, (postCopy none (bcndRun parcelCfg.bcnd s)).sd i = s.sd i := by
  have e : bcndRun parcelCfg.bcnd s = s := by
    unfold bcndRun
    rw [bcnd_zero_dims _ _ rfl]
    rfl
  rw [e]
  have hk : (List.range (toRcyc s).N).filter (fun i => decide ((toRcyc s).n i ≠ 0)) = List.range s.N := by
    apply List.filter_eq_self.2
    intro i hi
    have := hl i (List.mem_range.1 hi)
    exact decide_eq_true this
  refine ⟨?_, fun i hi => ?_⟩
  · show ((List.range (toRcyc s).N).filter _).length = _
    rw [hk, List.length_range]
  · show mkDrop ((toRcyc s).n (((List.range (toRcyc s).N).filter _).getD i 0)) ((toRcyc s).attr (((List.range (toRcyc s).N).filter _).getD i 0)) = _
    rw [hk, List.getD_eq_getElem _ _ (by simpa using hi), List.getElem_range]
    rfl

/-- a humidified particle of dry volume `d` -/
noncomputable def particle (n : ℕ) (d : ℝ) : Drop := { n := n, rw2 := 1e-14, rd3 := d, vt := 0, kpa := 0.6, chem := fun _ => 0, inc := 0, rc2 := -1, x := 0, y := 0, z := 0 }

theorem A283 : 1e-9 < kelvinA (critT 10) ∧ kelvinA (critT 10) < 1.3e-9 := by
  unfold kelvinA sg_surf R_v kaBoNA M_v M_H M_OH rho_w critT
  constructor <;> norm_num

theorem ok283 {d : ℝ} (h0 : 0 < d) (h1 : d ≤ 1e-20) : Activ.Ok d 0.6 (critT 10) where
  hd := h0
  hk := by norm_num
  hk2 := by norm_num
  hT0 := by norm_num [critT]
  hT1 := by norm_num [critT]
  hb := by
    unfold Activ.Bracket
    have : cbrt (1e8 * d) ≤ 1e-4 := by
      unfold cbrt
      calc (1e8 * d : ℝ) ^ (1 / 3 : ℝ) ≤ (1e-12 : ℝ) ^ (1 / 3 : ℝ) := Real.rpow_le_rpow (by positivity) (by linarith) (by norm_num)
        _ = 1e-4 := Activ.cbrt_eq (by norm_num) (by norm_num)
    nlinarith [this, A283.1]

theorem dt_ok (dt : ℝ) : (Step.adjust parcelCfg.init dt).isSome := by
  unfold Step.adjust
  rw [if_neg (by simp [parcelCfg])]
  rfl

/-- **C111 (negation, witness)** a run with a source and without coalescence: the particle that was added is there when the next condensation is called, and has no critical radius -/
theorem source_witness : ∃ (o : ℕ → StepOpts) (s : ℕ → St) (t : ℕ → CritTrace), CritRun parcelCfg 1 o s t ∧ (s 0).N = 0 ∧ (o 0).coal = false ∧ (o 0).chem = false ∧ (s 1).N = 1 ∧
    Counts (10 + 273.15) ((s 1).sd 0) ∧ ¬ HasCritical (10 + 273.15) ((s 1).sd 0) := by
  obtain ⟨e, he⟩ : ∃ e : St, e = { N := 0, sd := fun _ => particle 1 8e-24, puddle := fun _ => 0 } := ⟨_, rfl⟩
  obtain ⟨p, hp⟩ : ∃ p : St, p = refreshRc2 8 true 10 e := ⟨_, rfl⟩
  obtain ⟨tr, htr⟩ : ∃ tr : CritTrace, tr = { a := p, b := p, h := p, c := p, m := p, new := ⟨1, fun _ => particle 1000 8e-24⟩, rcyc := none } := ⟨_, rfl⟩
  have pN : p.N = 0 := by rw [hp, refresh_N, he]
  have hal : parcelCfg.allow = true := rfl
  have aw : (addNew tr.new tr.m).N = 1 ∧ (addNew tr.new tr.m).sd 0 = particle 1000 8e-24 := by
    rw [htr]
    constructor
    · show p.N + 1 = 1; rw [pN]
    · show (if 0 < p.N then p.sd 0 else _) = _
      rw [if_neg (by omega)]
  obtain ⟨f1, f2⟩ := parcel_fin (addNew tr.new tr.m) (fun i hi => by
    rw [aw.1] at hi
    obtain rfl : i = 0 := by omega
    rw [aw.2]; norm_num [particle])
  have hf : tr.fin parcelCfg = postCopy none (bcndRun parcelCfg.bcnd (addNew tr.new tr.m)) := by
    unfold CritTrace.fin
    rw [show tr.rcyc = none by rw [htr]]
  have H : CritRun parcelCfg 1 (fun _ => ⟨-1, false, false⟩) (fun j => if j = 0 then p else tr.fin parcelCfg) (fun _ => tr) := by
    refine ⟨⟨e, fun i hi => ?_, ?_⟩, fun j _ => ?_, fun j hj => ?_, fun j hj => ?_⟩
    · rw [he] at hi; exact absurd hi (by simp)
    · rw [if_pos rfl, hp, hal]; rfl
    · rw [htr]
      refine ⟨dt_ok _, ⟨rfl, rfl, fun i => ⟨_, _, _, rfl⟩⟩, rfl, rfl, ⟨parcelMove, parcel_moved _⟩, fun i _ => rfl, fun a ha => by cases ha⟩
    · rw [if_pos (by omega), htr]
    · rw [if_neg (by omega)]
  have s1N : (tr.fin parcelCfg).N = 1 := by rw [hf, f1, aw.1]
  have s1 : (tr.fin parcelCfg).sd 0 = particle 1000 8e-24 := by rw [hf, f2 0 (by rw [aw.1]; norm_num), aw.2]
  refine ⟨_, _, _, H, by rw [if_pos rfl]; exact pN, rfl, rfl, by rw [if_neg (by norm_num)]; exact s1N, ?_, ?_⟩
  · rw [if_neg (by norm_num), s1]
    exact ⟨by norm_num [particle], ok283 (by norm_num [particle]) (by norm_num [particle])⟩
  · refine (source_never_critical H (by rw [if_pos rfl]; exact pN) (fun _ _ => rfl) 1 le_rfl 0 ?_ ?_).2
    · rw [if_neg (by norm_num), s1N]; norm_num
    · rw [if_neg (by norm_num), s1]; norm_num [particle]

/-- the critical volume for a dry volume of 8e-24 m3 (radius of 20 nm), and for 1e-20 m3 -/
theorem small_critical {v : ℝ} (hv : Activ.IsCritical 8e-24 0.6 (critT 10) v) : v < 8e-21 := by
  have := Activ.below (y := 2e-7) (ok283 (by norm_num) (by norm_num)) hv (by norm_num) (by norm_num) (by
    unfold crF
    have := A283.1
    norm_num at this ⊢
    linarith)
  norm_num at this ⊢; linarith

theorem large_critical {v : ℝ} (hv : Activ.IsCritical 1e-20 0.6 (critT 10) v) : 1e-18 < v := by
  have := Activ.above (y := 1e-6) (ok283 (by norm_num) (by norm_num)) hv (by norm_num) (by
    unfold crF
    have := A283.2
    norm_num at this ⊢
    linarith)
  norm_num at this ⊢; linarith

/-- **C111 (negation, chemistry)** a run with chemical reactions: when the next condensation is called, a droplet still has the critical radius of what was dissolved in it before; it differs from the right one by more than the accuracy
of the search -/
theorem chemistry_witness : ∃ (o : ℕ → StepOpts) (s : ℕ → St) (t : ℕ → CritTrace), CritRun parcelCfg 1 o s t ∧ (t 0).new.k = 0 ∧ (s 1).N = 1 ∧
    Counts (10 + 273.15) ((s 1).sd 0) ∧ ¬ Blank ((s 1).sd 0) ∧ ¬ HasCritical (10 + 273.15) ((s 1).sd 0) := by
  obtain ⟨e, he⟩ : ∃ e : St, e = { N := 1, sd := fun _ => particle 1000 8e-24, puddle := fun _ => 0 } := ⟨_, rfl⟩
  obtain ⟨p, hp⟩ : ∃ p : St, p = refreshRc2 8 true 10 e := ⟨_, rfl⟩
  obtain ⟨q, hq⟩ : ∃ q : St, q = { p with sd := fun i => { p.sd i with rd3 := 1e-20 } } := ⟨_, rfl⟩
  obtain ⟨tr, htr⟩ : ∃ tr : CritTrace, tr = { a := p, b := p, h := q, c := q, m := q, new := ⟨0, fun _ => particle 1000 8e-24⟩, rcyc := none } := ⟨_, rfl⟩
  have pN : p.N = 1 := by rw [hp, refresh_N, he]
  have qN : q.N = 1 := by rw [hq]; exact pN
  have hal : parcelCfg.allow = true := rfl
  have p0 : p.sd 0 = { particle 1000 8e-24 with rc2 := Activ.rc2 8e-24 0.6 (critT 10) } := by
    rw [hp, he]
    simp [refreshRc2, particle, Coal.invalid]
  have q0 : q.sd 0 = { particle 1000 1e-20 with rc2 := Activ.rc2 8e-24 0.6 (critT 10) } := by
    rw [hq]
    show ({ p.sd 0 with rd3 := 1e-20 } : Drop) = _
    rw [p0]; rfl
  have aw : (addNew tr.new tr.m).N = 1 ∧ (addNew tr.new tr.m).sd 0 = q.sd 0 := by
    rw [htr]
    constructor
    · show q.N + 0 = 1; rw [qN]
    · show (if 0 < q.N then q.sd 0 else _) = _
      rw [if_pos (by omega)]
  obtain ⟨f1, f2⟩ := parcel_fin (addNew tr.new tr.m) (fun i hi => by
    rw [aw.1] at hi
    obtain rfl : i = 0 := by omega
    rw [aw.2, q0]; norm_num [particle])
  have hf : tr.fin parcelCfg = postCopy none (bcndRun parcelCfg.bcnd (addNew tr.new tr.m)) := by
    unfold CritTrace.fin
    rw [show tr.rcyc = none by rw [htr]]
  have H : CritRun parcelCfg 1 (fun _ => ⟨-1, false, true⟩) (fun j => if j = 0 then p else tr.fin parcelCfg) (fun _ => tr) := by
    refine ⟨⟨e, fun i hi => ?_, ?_⟩, fun j _ => ?_, fun j hj => ?_, fun j hj => ?_⟩
    · rw [he]; rfl
    · rw [if_pos rfl, hp, hal]; rfl
    · rw [htr]
      refine ⟨dt_ok _, ⟨rfl, rfl, fun i => ⟨_, _, _, rfl⟩⟩, ?_, rfl, ⟨parcelMove, parcel_moved _⟩, fun i hi => absurd hi (by simp), fun a ha => by cases ha⟩
      show q.N = p.N ∧ q.puddle = p.puddle ∧ _
      rw [hq]
      exact ⟨rfl, rfl, fun i => ⟨1e-20, (p.sd i).chem, rfl⟩⟩
    · rw [if_pos (by omega), htr]
    · rw [if_neg (by omega)]
  have s1N : (tr.fin parcelCfg).N = 1 := by rw [hf, f1, aw.1]
  have s1 : (tr.fin parcelCfg).sd 0 = { particle 1000 1e-20 with rc2 := Activ.rc2 8e-24 0.6 (critT 10) } := by rw [hf, f2 0 (by rw [aw.1]; norm_num), aw.2, q0]
  have old : HasCritical (critT 10) (p.sd 0) := critical_of (by rw [p0]; rfl) (by rw [p0]; exact ok283 (d := 8e-24) (by norm_num) (by norm_num))
  rw [p0] at old
  obtain ⟨o1, v, o2, o3⟩ := old
  have o1 : 0 ≤ Activ.rc2 8e-24 0.6 (critT 10) := o1
  have o2 : Activ.IsCritical 8e-24 0.6 (critT 10) v := o2
  have o3 : |√(Activ.rc2 8e-24 0.6 (critT 10)) ^ 3 - v| ≤ max (2 ^ (-16 : ℤ) * v) ((1e8 * 8e-24 - 8e-24) / 2 ^ 25) := o3
  refine ⟨_, _, _, H, by rw [htr], by rw [if_neg (by norm_num)]; exact s1N, ?_, ?_, ?_⟩
  · rw [if_neg (by norm_num), s1]
    exact ⟨by norm_num [particle], ok283 (by norm_num [particle]) (by norm_num [particle])⟩
  · rw [if_neg (by norm_num), s1]
    intro h
    have h : Activ.rc2 8e-24 0.6 (critT 10) = -1 := h
    rw [h] at o1; norm_num at o1
  · rw [if_neg (by norm_num), s1]
    rintro ⟨-, w, w2, w3⟩
    have w2 : Activ.IsCritical 1e-20 0.6 (critT 10) w := w2
    have w3 : |√(Activ.rc2 8e-24 0.6 (critT 10)) ^ 3 - w| ≤ max (2 ^ (-16 : ℤ) * w) ((1e8 * 1e-20 - 1e-20) / 2 ^ 25) := w3
    have a1 := small_critical o2
    have a2 := large_critical w2
    have b1 : max (2 ^ (-16 : ℤ) * v) (((1e8:ℝ) * 8e-24 - 8e-24) / 2 ^ 25) ≤ 1e-22 := by
      apply max_le
      · norm_num at a1 ⊢; linarith
      · norm_num
    have b2 : max (2 ^ (-16 : ℤ) * w) (((1e8:ℝ) * 1e-20 - 1e-20) / 2 ^ 25) ≤ w / 10 := by
      apply max_le
      · norm_num at a2 ⊢; linarith
      · norm_num at a2 ⊢; linarith
    have c1 := (abs_le.1 (o3.trans b1)).2
    have c2 := (abs_le.1 (w3.trans b2)).1
    norm_num at a1 a2 c1 c2
    linarith

/-! ### A collision -/

/-- two super-droplets in one parcel, collisions certain -/
noncomputable def pairIn : CoalIn :=
  { dt := 1, dv := fun _ => 1, ker := fun _ _ _ => 2, ijk := fun _ => 0, sid := [0, 1], constMulti := false, col := fun _ => 1 / 2, inc := false
    σ := { coll := [0], chem := fun _ => [0], kappa := [0], incloud := [0], rc2 := [0] }, vt := fun _ => 0, rc2 := fun _ => 0 }

theorem pairIn_ok : pairIn.Ok 2 := by
  refine ⟨⟨by show [0, 1].Perm (List.range 2); decide, by show ([0, 1].map fun _ => 0).Pairwise (· ≤ ·); decide⟩, ?_⟩
  constructor <;> intros <;> (show [0].Perm (List.range (2 - 1)); decide)

theorem pair_collides (o : Coal.Opts) (s : St) (hN : s.N = 2) (h0 : (s.sd 0).n = 5) (h1 : (s.sd 1).n = 2) :
    ∃ t, coalKeep o pairIn s = some t ∧ t.N = 2 ∧ ∃ k : ℕ, 1 ≤ k ∧ k ≤ 2 ∧ t.sd 0 = { s.sd 0 with n := 5 - k * 2, vt := 0 } ∧
      (t.sd 1).toSD = { Coal.merged o (s.sd 0).toSD (s.sd 1).toSD k with vt := 0 } := by
  obtain ⟨st, hst⟩ : ∃ st : Coal.State, st = { sd := fun i => (s.sd i).toSD, col := pairIn.col, increase := pairIn.inc } := ⟨_, rfl⟩
  obtain ⟨e, he⟩ : ∃ e, e = pairIn.env 2 := ⟨_, rfl⟩
  have eN : e.N = 2 := by rw [he]; rfl
  obtain ⟨r, hr⟩ : ∃ r, Coal.coal o e pairIn.σ st = some r := by
    unfold Coal.coal
    rw [if_neg (by omega)]
    exact ⟨_, rfl⟩
  have hs : e.Sorted := by rw [he]; exact pairIn_ok.1
  have hσ : pairIn.σ.Valid e.N := by rw [eN]; exact pairIn_ok.2
  have hpw := Coal.coal_pointwise hs hσ hr 0
  have hk : Coal.kind e 0 = .pair := by rw [he]; decide
  have hcnt : e.scl 0 = 1 := by
    have : e.cnt 0 = 2 := by rw [he]; decide
    rw [Coal.scl_eq, this]; norm_num [Coal.scaleFactor]
  have hcell : e.cell 0 = 0 := by rw [he]; decide
  have hprob : ∀ a b, Coal.prob e 0 a b = 2 := by
    intro a b; unfold Coal.prob; rw [hcell, hcnt, he]; norm_num [pairIn, CoalIn.env]
  have hc : ∀ a b u, 0 ≤ u → Coal.colNo0 e 0 a b u = 2 := by
    intro a b u hu
    unfold Coal.colNo0; rw [hprob]
    have : ⌊(2:ℝ)⌋₊ = 2 := by norm_num
    rw [this]; simp [hu]
  have hid0 : e.id 0 = 0 := by rw [he]; decide
  have hid1 : e.id 1 = 1 := by rw [he]; decide
  simp only [PairLoop.apply, hk, hid0] at hpw
  have ho := Coal.coalPair_outcome o e 0 (Coal.view e st 0) (Coal.view e st 1)
  obtain ⟨k, hk1, hk2, hx⟩ := ho.hit (by rw [hc _ _ _ (by rw [hst]; norm_num [Coal.view, pairIn])]; norm_num)
    (by simp [Coal.view, hid0, hid1, hst, h0, h1])
  have e0 : r.sd 0 = Coal.donated (s.sd 0).toSD (s.sd 1).toSD k := by
    rw [hpw]
    have := hx
    simp only [Coal.view, hid0, hid1] at this
    rw [hst] at this ⊢
    simpa [Coal.view, hid0, hid1] using this
  have hk2 : k * 2 ≤ 5 := by
    simpa [Coal.view, hid0, hid1, hst, h0, h1] using hk2
  have hn : (r.sd 0).n = 5 - k * 2 := by
    rw [e0]
    show Coal.subU64 (s.sd 0).n (k * (s.sd 1).n) = _
    rw [h0, h1, Coal.subU64_eq (by norm_num) hk2]
  refine ⟨{ s with sd := fun i => { s.sd i with toSD := { r.sd i with vt := 0 } } }, ?_, hN, ?_⟩
  · unfold coalKeep
    rw [← hst, show pairIn.env s.N = e by rw [hN, he], hr]; rfl
  rcases Coal.coal_each hs hσ hr 0 (by omega) with h | ⟨j, hj, hne, -, k', hk1', ⟨hle, ed, em⟩ | ⟨hle, -, -⟩⟩
  · rw [h, hst] at hn
    have hn : (s.sd 0).n = 5 - k * 2 := hn
    omega
  · obtain rfl : j = 1 := by omega
    rw [hst] at hle ed em
    have hle : k' * (s.sd 1).n ≤ (s.sd 0).n := hle
    have ed : r.sd 0 = Coal.donated (s.sd 0).toSD (s.sd 1).toSD k' := ed
    have em : r.sd 1 = Coal.merged o (s.sd 0).toSD (s.sd 1).toSD k' := em
    rw [h0, h1] at hle
    refine ⟨k', hk1', by omega, ?_, ?_⟩
    · show ({ s.sd 0 with toSD := { r.sd 0 with vt := 0 } } : Drop) = _
      rw [ed]
      have : Coal.subU64 (s.sd 0).n (k' * (s.sd 1).n) = 5 - k' * 2 := by rw [h0, h1, Coal.subU64_eq (by norm_num) hle]
      unfold Coal.donated
      rw [this]
    · show ({ r.sd 1 with vt := 0 } : Coal.SD) = _
      rw [em]
  · obtain rfl : j = 1 := by omega
    rw [hst] at hle
    have hle : k' * (s.sd 0).n ≤ (s.sd 1).n := hle
    rw [h0, h1] at hle
    omega

/-- a run of one step of length `dt` in which the two super-droplets collide -/
theorem collision_run (dt : ℝ) : ∃ (s : ℕ → St) (t : ℕ → CritTrace), CritRun parcelCfg 1 (fun _ => ⟨dt, true, false⟩) s t ∧ (t 0).new.k = 0 ∧ (s 1).N = 2 ∧
    ((s 0).sd 1).rd3 = 8e-24 ∧ 16e-24 ≤ ((s 1).sd 1).rd3 ∧ (∀ i < 2, Counts (10 + 273.15) ((s 1).sd i)) ∧
    (0 < dt → 8 * dt ≤ 1 → Blank ((s 1).sd 1)) := by
  obtain ⟨e, he⟩ : ∃ e : St, e = { N := 2, sd := fun i => particle (if i = 0 then 5 else 2) 8e-24, puddle := fun _ => 0 } := ⟨_, rfl⟩
  obtain ⟨p, hp⟩ : ∃ p : St, p = refreshRc2 8 true 10 e := ⟨_, rfl⟩
  have pN : p.N = 2 := by rw [hp, refresh_N, he]
  have psd : ∀ i, p.sd i = { particle (if i = 0 then 5 else 2) 8e-24 with rc2 := Activ.rc2 8e-24 0.6 (critT 10) } := by
    intro i
    rw [hp, he]
    simp [refreshRc2, particle, Coal.invalid]
  obtain ⟨c, hc, cN, k, hk1, hk2, c0, c1⟩ := pair_collides parcelCfg.coalOpts p pN (by rw [psd]; rfl) (by rw [psd]; rfl)
  obtain ⟨o, ho⟩ : ∃ o : StepOpts, o = ⟨dt, true, false⟩ := ⟨_, rfl⟩
  obtain ⟨q, hq⟩ : ∃ q : St, q = refreshRc2 (Step.adjustOne 1 dt 8) true 10 c := ⟨_, rfl⟩
  obtain ⟨tr, htr⟩ : ∃ tr : CritTrace, tr = { a := p, b := p, h := p, c := c, m := q, new := ⟨0, fun _ => particle 1000 8e-24⟩, rcyc := none } := ⟨_, rfl⟩
  have hal : parcelCfg.allow = true := rfl
  have hr : tr.r parcelCfg o = q := by
    rw [htr, ho, hq]
    unfold CritTrace.r
    rw [if_pos rfl, hal]
    rfl
  have qN : q.N = 2 := by rw [hq, refresh_N, cN]
  have qsd : ∀ i, (q.sd i).n = (c.sd i).n ∧ (q.sd i).rd3 = (c.sd i).rd3 ∧ (q.sd i).kpa = (c.sd i).kpa := by
    intro i
    rw [hq]
    unfold refreshRc2
    split_ifs <;> exact ⟨rfl, rfl, rfl⟩
  have cn0 : (c.sd 0).n = 5 - k * 2 ∧ (c.sd 0).rd3 = 8e-24 ∧ (c.sd 0).kpa = 0.6 := by
    rw [c0, psd]; exact ⟨rfl, rfl, rfl⟩
  have cn1 : (c.sd 1).n = 2 ∧ (c.sd 1).rd3 = k * 8e-24 + 8e-24 ∧ (c.sd 1).kpa = 0.6 ∧ (c.sd 1).rc2 = -1 := by
    rw [c1, psd, psd]; exact ⟨rfl, rfl, rfl, rfl⟩
  have hk1r : (1:ℝ) ≤ k := by exact_mod_cast hk1
  have hk2r : (k:ℝ) ≤ 2 := by exact_mod_cast hk2
  have aw : (addNew tr.new tr.m).N = 2 ∧ ∀ i < 2, (addNew tr.new tr.m).sd i = q.sd i := by
    rw [htr]
    refine ⟨?_, fun i hi => ?_⟩
    · show q.N + 0 = 2; rw [qN]
    · show (if i < q.N then q.sd i else _) = _
      rw [if_pos (by omega)]
  have hcnt : ∀ i < 2, Counts (critT 10) (q.sd i) := by
    intro i hi
    obtain ⟨q1, q2, q3⟩ := qsd i
    unfold Counts
    rw [q1, q2, q3]
    obtain rfl | rfl : i = 0 ∨ i = 1 := by omega
    · obtain ⟨a, b, c'⟩ := cn0
      rw [a, b, c']
      exact ⟨by omega, ok283 (by norm_num) (by norm_num)⟩
    · obtain ⟨a, b, c', -⟩ := cn1
      rw [a, b, c']
      exact ⟨by omega, ok283 (by positivity) (by norm_num; linarith)⟩
  obtain ⟨f1, f2⟩ := parcel_fin (addNew tr.new tr.m) (fun i hi => by
    rw [aw.1] at hi
    rw [aw.2 i hi]; exact (hcnt i hi).1)
  have hf : tr.fin parcelCfg = postCopy none (bcndRun parcelCfg.bcnd (addNew tr.new tr.m)) := by
    unfold CritTrace.fin
    rw [show tr.rcyc = none by rw [htr]]
  have s1 : ∀ i < 2, (tr.fin parcelCfg).sd i = q.sd i := fun i hi => by rw [hf, f2 i (by rw [aw.1]; exact hi), aw.2 i hi]
  have H : CritRun parcelCfg 1 (fun _ => o) (fun j => if j = 0 then p else tr.fin parcelCfg) (fun _ => tr) := by
    refine ⟨⟨e, fun i hi => ?_, ?_⟩, fun j _ => ?_, fun j hj => ?_, fun j hj => ?_⟩
    · rw [he]; rfl
    · rw [if_pos rfl, hp, hal]; rfl
    · refine ⟨dt_ok _, ?_, ?_, ?_, ⟨parcelMove, ?_⟩, ?_, ?_⟩
      · rw [htr]; exact ⟨rfl, rfl, fun i => ⟨_, _, _, rfl⟩⟩
      · rw [ho, htr]; rfl
      · rw [ho, htr]
        exact .step pairIn (by show pairIn.Ok p.N; rw [pN]; exact pairIn_ok) hc (.done c)
      · rw [hr, htr]; exact parcel_moved _
      · rw [htr]; exact fun i hi => absurd hi (by simp)
      · rw [htr]; exact fun a ha => by cases ha
    · rw [if_pos (by omega), htr]
    · rw [if_neg (by omega)]
  rw [ho] at H
  refine ⟨_, _, H, by rw [htr], ?_, ?_, ?_, ?_, ?_⟩
  · rw [if_neg (by norm_num), hf, f1, aw.1]
  · rw [if_pos rfl, psd]; rfl
  · rw [if_neg (by norm_num), s1 1 (by norm_num), (qsd 1).2.1, cn1.2.1]
    linarith
  · intro i hi
    rw [if_neg (by norm_num), s1 i hi]
    exact hcnt i hi
  · intro h1 h2
    rw [if_neg (by norm_num), s1 1 (by norm_num), ← hr, short_step_leaves_blank (by norm_num [parcelCfg]) (by rw [ho]) (by rw [ho]; exact h1) (by norm_num [parcelCfg])
      (by rw [ho]; norm_num [parcelCfg]; exact h2)]
    rw [htr]
    exact cn1.2.2.2

/-- **C111 (negation, time steps, witness)** after a step of 0.1 s, with 8 activation substeps per 1 s: the stored critical radius of the droplets that collided is unknown when the next condensation is called -/
theorem short_step_witness : ∃ (s : ℕ → St) (t : ℕ → CritTrace), CritRun parcelCfg 1 (fun _ => ⟨0.1, true, false⟩) s t ∧ (s 1).N = 2 ∧ Counts (critT 10) ((s 1).sd 1) ∧
    ¬ HasCritical (critT 10) ((s 1).sd 1) := by
  obtain ⟨s, t, H, -, h2, -, -, h5, h6⟩ := collision_run 0.1
  refine ⟨s, t, H, h2, h5 1 (by norm_num), fun h => ?_⟩
  have b := h6 (by norm_num) (by norm_num)
  have := h.1
  rw [show ((s 1).sd 1).rc2 = -1 from b] at this
  norm_num at this

/-- the hypotheses of the positive theorems are met by a run with a collision, which multiplies the dissolved volume -/
example : ∃ (s : ℕ → St) (t : ℕ → CritTrace), CritRun parcelCfg 1 (fun _ => ⟨-1, true, false⟩) s t ∧ (s 1).N = 2 ∧ ((s 0).sd 1).rd3 = 8e-24 ∧ 16e-24 ≤ ((s 1).sd 1).rd3 ∧
    HasCritical (critT 10) ((s 1).sd 1) := by
  obtain ⟨s, t, H, h1, h2, h3, h4, h5, -⟩ := collision_run (-1)
  refine ⟨s, t, H, h2, h3, h4, ?_⟩
  refine critical_current_partial (by norm_num [parcelCfg]) (by norm_num [parcelCfg]) H (fun _ _ => rfl) (fun j hj => ?_) (fun j _ h => ?_) 1 le_rfl 1 (by omega) (h5 1 (by norm_num))
  · obtain rfl : j = 0 := by omega
    exact h1
  · norm_num at h

end LCP.Run
