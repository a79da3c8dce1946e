import Verif.E2L.Props
import Mathlib.Tactic.LinearCombination
import Mathlib.Algebra.Order.Ring.Int

/-!
# Courant numbers: interior faces (C25) and halos (C26)
-/
namespace LCP.E2L
open LCP.Grid

/-- the caller's array has no padding and x is the slowest dimension -/
def Dense (nd : ℕ) (s : Strides) (NY NZ : ℕ) : Prop :=
  match nd with
  | 0 => True
  | 1 => True
  | 2 => s.s1 = 1 ∧ s.s0 = NZ
  | _ => s.s2 = 1 ∧ s.s1 = NZ ∧ s.s0 = NY * NZ

theorem tdiv_tdiv_nat (c : ℤ) (a b : ℕ) : (c.tdiv a).tdiv b = c.tdiv ((a : ℤ) * b) := by
  rcases Int.eq_nat_or_neg c with ⟨n, rfl | rfl⟩
  · rw [← Int.natCast_mul, ← Int.ofNat_tdiv, ← Int.ofNat_tdiv, ← Int.ofNat_tdiv, Nat.div_div_eq_div_mul]
  · rw [← Int.natCast_mul, Int.neg_tdiv, Int.neg_tdiv, Int.neg_tdiv, ← Int.ofNat_tdiv, ← Int.ofNat_tdiv, ← Int.ofNat_tdiv,
      Nat.div_div_eq_div_mul]

/-- the map at column `I`, possibly in a halo, of a dense array of `nxTot + ex` columns -/
theorem l2e_dense {D : Dom} (hL : D.d.Layout) (hn : D.d.nDims ≠ 0) {s : Strides} {ex ey ez : ℕ} {offset : ℤ} {q : ℕ} {I : ℤ}
    {j k : ℕ} (hs : Dense D.d.nDims s (effY D.d ey) (effZ D.d ez))
    (hI : -((D.nxTot + ex : ℕ) : ℤ) ≤ I) (hj : j < effY D.d ey) (hk : k < effZ D.d ez)
    (hc : toInt32 (D.nCellBfr + offset + q) = (I * effY D.d ey + j) * effZ D.d ez + k) :
    l2e D s ex ey ez offset q = elem D.d.nDims s
      (if I ≥ ((D.nxTot + ex : ℕ) : ℤ) then I - ((D.nxTot + ex : ℕ) : ℤ)
       else if I < 0 then I + ((D.nxTot + ex : ℕ) : ℤ) else I) j k := by
  have key : l2e D s ex ey ez offset q = periodicCellno (((D.nxTot + ex : ℕ) : ℤ) * (effY D.d ey * effZ D.d ez))
      ((I * effY D.d ey + j) * effZ D.d ez + k) ∧
      (∀ J : ℤ, elem D.d.nDims s J j k = (J * effY D.d ey + j) * effZ D.d ez + k) := by
    rcases hL with h | h | h | h
    · exact absurd (nDims0 h) hn
    · have hn := nDims1 h
      simp only [effY, effZ, hn] at hc hj hk ⊢
      simp only [OfNat.one_ne_ofNat, if_false, or_self, Nat.lt_one_iff] at hj hk
      subst hj hk
      simp only [l2e, hn, elem, hc]
      refine ⟨by simp, by intro J; simp⟩
    · have hn := nDims2 h
      simp only [effY, effZ, hn, Dense] at hc hj hk hs ⊢
      simp only [Nat.reduceEqDiff, if_false, or_false, if_true, Nat.lt_one_iff] at hj hk hs hc ⊢
      subst hj
      obtain ⟨hs1, hs0⟩ := hs
      refine ⟨?_, by intro J; simp only [elem, hs1, hs0]; push_cast; ring⟩
      simp only [l2e, hn, hc, hs1, hs0]
      rw [show ((D.d.nz : ℤ) + ez) = ((D.d.nz + ez : ℕ) : ℤ) by push_cast; ring, one_mul, Int.mul_tdiv_add_tmod]
      congr 1
      push_cast; ring
    · have hn := nDims3 h
      simp only [effY, effZ, hn, Dense] at hc hj hk hs ⊢
      simp only [if_true, or_true] at hj hk hs hc ⊢
      obtain ⟨hs2, hs1, hs0⟩ := hs
      refine ⟨?_, by intro J; simp only [elem, hs2, hs1, hs0]; ring⟩
      have hle : s.s1 ≤ s.s0 := by
        rw [hs1, hs0]
        have : (1 : ℤ) ≤ ((D.d.ny + ey : ℕ) : ℤ) := by exact_mod_cast (by omega)
        nlinarith [show (0 : ℤ) ≤ ((D.d.nz + ez : ℕ) : ℤ) by positivity]
      simp only [l2e, hn, hc]
      rw [max_eq_left hle, if_pos rfl, hs2, hs1, hs0, show ((D.d.nz : ℤ) + ez) = ((D.d.nz + ez : ℕ) : ℤ) by push_cast; ring,
        show ((D.d.ny : ℤ) + ey) = ((D.d.ny + ey : ℕ) : ℤ) by push_cast; ring]
      generalize ((I * ((D.d.ny + ey : ℕ) : ℤ) + j) * ((D.d.nz + ez : ℕ) : ℤ) + k) = c
      have e1 := Int.mul_tdiv_add_tmod c ((D.d.nz + ez : ℕ) : ℤ)
      have e2 := Int.mul_tdiv_add_tmod (c.tdiv ((D.d.nz + ez : ℕ) : ℤ)) ((D.d.ny + ey : ℕ) : ℤ)
      rw [tdiv_tdiv_nat] at e2
      congr 1
      · generalize ((D.d.nz + ez : ℕ) : ℤ) = NZ at *
        generalize ((D.d.ny + ey : ℕ) : ℤ) = NY at *
        linear_combination e1 + NZ * e2
  rw [key.1, key.2]
  have hjz : (j : ℤ) + 1 ≤ effY D.d ey := by exact_mod_cast hj
  have hkz : (k : ℤ) + 1 ≤ effZ D.d ez := by exact_mod_cast hk
  have hj0 : (0 : ℤ) ≤ j := by positivity
  have hk0 : (0 : ℤ) ≤ k := by positivity
  generalize ((D.nxTot + ex : ℕ) : ℤ) = N at *
  generalize (effY D.d ey : ℤ) = NY at *
  generalize (effZ D.d ez : ℤ) = NZ at *
  have hNY : 0 < NY := by linarith
  have hNZ : 0 < NZ := by linarith
  -- bounds: the flat index compares with multiples of NY*NZ as the column does
  have hlow : ∀ a b : ℤ, a ≤ b → (a * NY) * NZ ≤ (b * NY + j) * NZ + k := by
    intro a b hab
    have : a * NY ≤ b * NY + j := by nlinarith
    nlinarith
  have hup : ∀ a b : ℤ, b < a → (b * NY + j) * NZ + k < (a * NY) * NZ := by
    intro a b hab
    have : b * NY + j + 1 ≤ a * NY := by nlinarith
    nlinarith
  unfold periodicCellno
  split_ifs with h1 h2 h3 h4 h5 h6
  · ring
  · exfalso
    have := hup N I (by linarith)
    have e : N * (NY * NZ) = N * NY * NZ := by ring
    linarith
  · exfalso
    have := hup N I (by linarith)
    have e : N * (NY * NZ) = N * NY * NZ := by ring
    linarith
  · exfalso
    have := hlow N I (by linarith)
    have e : N * (NY * NZ) = N * NY * NZ := by ring
    linarith
  · ring
  · exfalso
    have := hlow 0 I (by linarith)
    linarith
  · exfalso
    have := hlow N I (by linarith)
    have e : N * (NY * NZ) = N * NY * NZ := by ring
    linarith
  · exfalso
    have := hup 0 I (by linarith)
    linarith
  · rfl

theorem haloX_eq {d : Dims} (hL : d.Layout) (hn : d.nDims ≠ 0) (h : ℕ) : haloX d h = h * effY d 0 * effZ d 0 := by
  unfold haloX effY effZ
  rcases hL with h | h | h | h
  · exact absurd (nDims0 h) hn
  · simp [nDims1 h]
  · simp [nDims2 h]
  · simp [nDims3 h]; ring

theorem nCellBfr_eq {D : Dom} (hL : D.d.Layout) : D.nCellBfr = D.nxBfr * effY D.d 0 * effZ D.d 0 := by
  rw [effY_eq hL, effZ_eq hL]; unfold Dom.nCellBfr; rw [m1_eq, m1_eq]

/-- integer range needed by the index computation: `cols` columns to either side -/
def FitsInt (NX NY NZ h : ℕ) : Prop := (NX + h) * NY * NZ ≤ 2 ^ 31

theorem fits {NX NY NZ h : ℕ} (hf : FitsInt NX NY NZ h) {I : ℤ} (hI0 : -(h : ℤ) ≤ I) (hI1 : I < NX + h) {j k : ℕ}
    (hj : j < NY) (hk : k < NZ) : -2 ^ 31 ≤ (I * NY + j) * NZ + k ∧ (I * NY + j) * NZ + k < 2 ^ 31 := by
  unfold FitsInt at hf
  have hf' : ((NX : ℤ) + h) * NY * NZ ≤ 2 ^ 31 := by exact_mod_cast hf
  have hjz : (j : ℤ) + 1 ≤ NY := by exact_mod_cast hj
  have hkz : (k : ℤ) + 1 ≤ NZ := by exact_mod_cast hk
  have hj0 : (0 : ℤ) ≤ j := by positivity
  have hk0 : (0 : ℤ) ≤ k := by positivity
  have hX : (0 : ℤ) ≤ NX := by positivity
  generalize (NX : ℤ) = X at *
  generalize (NY : ℤ) = Y at *
  generalize (NZ : ℤ) = Z at *
  generalize (h : ℤ) = H at *
  have hY : 0 < Y := by linarith
  have hZ : 0 < Z := by linarith
  constructor
  · have a : -(X + H) * Y ≤ I * Y + j := by nlinarith
    have b : (-(X + H) * Y) * Z ≤ (I * Y + j) * Z := mul_le_mul_of_nonneg_right a hZ.le
    nlinarith
  · have a : I * Y + j + 1 ≤ (X + H) * Y := by nlinarith
    have b : (I * Y + j + 1) * Z ≤ ((X + H) * Y) * Z := mul_le_mul_of_nonneg_right a hZ.le
    nlinarith

/-- **C25** Interior x faces: face `i` (0 ≤ i ≤ nx) of the device, stored after the halo of `h` columns, is read from face
`nxBfr + i` of the caller's array. -/
theorem courant_x_map {D : Dom} (hL : D.d.Layout) (hn : D.d.nDims ≠ 0) {s : Strides} {h i j k : ℕ}
    (hs : GoodStrides D.d.nDims s (D.nxTot + 1) (effY D.d 0) (effZ D.d 0))
    (hf : FitsInt (D.nxTot + 1) (effY D.d 0) (effZ D.d 0) h) (hi : i ≤ D.d.nx) (hx : D.nxBfr + D.d.nx ≤ D.nxTot)
    (hj : j < effY D.d 0) (hk : k < effZ D.d 0) :
    l2eX D h s (((h + i) * effY D.d 0 + j) * effZ D.d 0 + k) = elem D.d.nDims s ((D.nxBfr + i : ℕ) : ℤ) j k := by
  unfold l2eX
  refine l2e_interior hL hs (by omega) hj hk ?_
  intro _
  have hI1 : (((D.nxBfr + i : ℕ) : ℤ)) < ((D.nxTot + 1 : ℕ) : ℤ) + h := by push_cast; omega
  obtain ⟨f1, f2⟩ := fits hf (I := ((D.nxBfr + i : ℕ) : ℤ)) (by push_cast; omega) hI1 hj hk
  apply toInt32_of _ (by push_cast at *; linarith) (by push_cast at *; linarith)
  refine ⟨0, ?_⟩
  rw [haloX_eq hL hn, nCellBfr_eq hL]
  push_cast; ring

/-- **C25** Interior y faces (3D). -/
theorem courant_y_map {D : Dom} (h3 : 0 < D.d.nx ∧ 0 < D.d.ny ∧ 0 < D.d.nz) {s : Strides} {h i j k : ℕ}
    (hs : GoodStrides 3 s D.nxTot (D.d.ny + 1) D.d.nz)
    (hf : FitsInt D.nxTot (D.d.ny + 1) D.d.nz h) (hi : i < D.d.nx) (hx : D.nxBfr + D.d.nx ≤ D.nxTot)
    (hj : j ≤ D.d.ny) (hk : k < D.d.nz) :
    l2eY D h s (((h + i) * (D.d.ny + 1) + j) * D.d.nz + k) = elem 3 s ((D.nxBfr + i : ℕ) : ℤ) j k := by
  have hn := nDims3 h3
  have hL : D.d.Layout := Or.inr (Or.inr (Or.inr h3))
  have eY : effY D.d 1 = D.d.ny + 1 := by simp [effY, hn]
  have eZ : effZ D.d 0 = D.d.nz := by simp [effZ, hn]
  unfold l2eY
  rw [← hn]
  refine l2e_interior hL (by rw [eY, eZ, hn]; exact hs) (by omega) (by rw [eY]; omega) (by rw [eZ]; exact hk) ?_
  intro _
  rw [eY, eZ]
  have hI1 : (((D.nxBfr + i : ℕ) : ℤ)) < (D.nxTot : ℤ) + h := by push_cast; omega
  obtain ⟨f1, f2⟩ := fits hf (I := ((D.nxBfr + i : ℕ) : ℤ)) (by push_cast; omega) hI1 (show j < D.d.ny + 1 by omega) hk
  apply toInt32_of _ (by push_cast at *; linarith) (by push_cast at *; linarith)
  obtain ⟨m, hm⟩ := toUInt32_diff ((D.nxBfr : ℤ) * D.d.nz - haloY D.d h)
  refine ⟨m, ?_⟩
  rw [hm]
  unfold Dom.nCellBfr haloY
  rw [m1_eq, m1_eq, show max 1 D.d.ny = D.d.ny by omega, show max 1 D.d.nz = D.d.nz by omega]
  push_cast; ring

/-- **C25** Interior z faces (2D and 3D). -/
theorem courant_z_map {D : Dom} (hL : D.d.Layout) (hn : D.d.nDims = 2 ∨ D.d.nDims = 3) {s : Strides} {h i j k : ℕ}
    (hs : GoodStrides D.d.nDims s D.nxTot (effY D.d 0) (D.d.nz + 1))
    (hf : FitsInt D.nxTot (effY D.d 0) (D.d.nz + 1) h) (hi : i < D.d.nx) (hx : D.nxBfr + D.d.nx ≤ D.nxTot)
    (hj : j < effY D.d 0) (hk : k ≤ D.d.nz) :
    l2eZ D h s (((h + i) * effY D.d 0 + j) * (D.d.nz + 1) + k) = elem D.d.nDims s ((D.nxBfr + i : ℕ) : ℤ) j k := by
  have eZ : effZ D.d 1 = D.d.nz + 1 := by simp [effZ, hn]
  have hZ : (haloZ D.d h : ℤ) = h * effY D.d 0 * (D.d.nz + 1) := by
    unfold haloZ effY; rcases hn with hn | hn <;> simp [hn]; ring
  have hB : (D.nCellBfr : ℤ) = D.nxBfr * effY D.d 0 * D.d.nz ∧ max 1 D.d.ny = effY D.d 0 := by
    rw [effY_eq hL]
    unfold Dom.nCellBfr
    rw [m1_eq, m1_eq]
    have : max 1 D.d.nz = D.d.nz := by
      rcases hL with h | h | h | h
      · rw [nDims0 h] at hn; omega
      · rw [nDims1 h] at hn; omega
      all_goals omega
    rw [this]; push_cast; exact ⟨rfl, rfl⟩
  unfold l2eZ
  refine l2e_interior hL (by rw [eZ]; exact hs) (by omega) hj (by rw [eZ]; omega) ?_
  intro _
  rw [eZ]
  have hI1 : (((D.nxBfr + i : ℕ) : ℤ)) < (D.nxTot : ℤ) + h := by push_cast; omega
  obtain ⟨f1, f2⟩ := fits hf (I := ((D.nxBfr + i : ℕ) : ℤ)) (by push_cast; omega) hI1 hj (show k < D.d.nz + 1 by omega)
  apply toInt32_of _ (by push_cast at *; linarith) (by push_cast at *; linarith)
  obtain ⟨m, hm⟩ := toUInt32_diff ((D.nxBfr : ℤ) * max 1 D.d.ny - haloZ D.d h)
  refine ⟨m, ?_⟩
  rw [hm, hZ, hB.1, hB.2]
  push_cast; ring

/-! ### C26 -/

/-- Specification: index of the periodic image, among `N` columns, of column `I` (at most one period away). -/
def image (N : ℕ) (I : ℤ) : ℤ := I % N

theorem wrap_eq_image {N : ℕ} {I : ℤ} (h1 : -(N : ℤ) ≤ I) (h2 : I < 2 * N) :
    (if I ≥ (N : ℤ) then I - N else if I < 0 then I + N else I) = image N I := by
  unfold image
  split_ifs with a b
  · rw [← Int.emod_eq_of_lt (a := I - N) (b := N) (by linarith) (by linarith), Int.sub_emod_right]
  · rw [← Int.emod_eq_of_lt (a := I + N) (b := N) (by linarith) (by linarith), Int.add_emod_right]
  · rw [Int.emod_eq_of_lt (by linarith) (by linarith)]

/-- **C26** (partial) y Courant numbers: every column of a device's array, halo included — local column `col` is global column
`nxBfr + col - h` — is read from its periodic image among the `nxTot` columns of a dense array. -/
theorem halo_y_partial {D : Dom} (h3 : 0 < D.d.nx ∧ 0 < D.d.ny ∧ 0 < D.d.nz) {s : Strides} {h col j k : ℕ}
    (hs : Dense 3 s (D.d.ny + 1) D.d.nz) (hf : FitsInt D.nxTot (D.d.ny + 1) D.d.nz h) (hh : h ≤ D.nxTot)
    (hcol : col < D.d.nx + 2 * h) (hx : D.nxBfr + D.d.nx ≤ D.nxTot) (hj : j ≤ D.d.ny) (hk : k < D.d.nz) :
    l2eY D h s ((col * (D.d.ny + 1) + j) * D.d.nz + k) = elem 3 s (image D.nxTot ((D.nxBfr : ℤ) + col - h)) j k := by
  have hn := nDims3 h3
  have hL : D.d.Layout := Or.inr (Or.inr (Or.inr h3))
  have eY : effY D.d 1 = D.d.ny + 1 := by simp [effY, hn]
  have eZ : effZ D.d 0 = D.d.nz := by simp [effZ, hn]
  unfold l2eY
  obtain ⟨f1, f2⟩ := fits hf (I := (D.nxBfr : ℤ) + col - h) (by omega) (by omega) (show j < D.d.ny + 1 by omega) hk
  rw [l2e_dense (I := (D.nxBfr : ℤ) + col - h) (j := j) (k := k) hL (by omega) (by rw [eY, eZ, hn]; exact hs) (by push_cast; omega)
    (by rw [eY]; omega) (by rw [eZ]; exact hk), hn]
  · rw [← wrap_eq_image (by omega) (by omega)]
    simp
  · rw [eY, eZ]
    apply toInt32_of _ f1 f2
    obtain ⟨m, hm⟩ := toUInt32_diff ((D.nxBfr : ℤ) * D.d.nz - haloY D.d h)
    refine ⟨m, ?_⟩
    rw [hm]
    unfold Dom.nCellBfr haloY
    rw [m1_eq, m1_eq, show max 1 D.d.ny = D.d.ny by omega, show max 1 D.d.nz = D.d.nz by omega]
    push_cast; ring

/-- **C26** (partial) z Courant numbers, likewise. -/
theorem halo_z_partial {D : Dom} (hL : D.d.Layout) (hn : D.d.nDims = 2 ∨ D.d.nDims = 3) {s : Strides} {h col j k : ℕ}
    (hs : Dense D.d.nDims s (effY D.d 0) (D.d.nz + 1)) (hf : FitsInt D.nxTot (effY D.d 0) (D.d.nz + 1) h) (hh : h ≤ D.nxTot)
    (hcol : col < D.d.nx + 2 * h) (hx : D.nxBfr + D.d.nx ≤ D.nxTot) (hj : j < effY D.d 0) (hk : k ≤ D.d.nz) :
    l2eZ D h s ((col * effY D.d 0 + j) * (D.d.nz + 1) + k) =
      elem D.d.nDims s (image D.nxTot ((D.nxBfr : ℤ) + col - h)) j k := by
  have eZ : effZ D.d 1 = D.d.nz + 1 := by simp [effZ, hn]
  have hZ : (haloZ D.d h : ℤ) = h * effY D.d 0 * (D.d.nz + 1) := by
    unfold haloZ effY; rcases hn with hn | hn <;> simp [hn]; ring
  have hB : (D.nCellBfr : ℤ) = D.nxBfr * effY D.d 0 * D.d.nz ∧ max 1 D.d.ny = effY D.d 0 := by
    rw [effY_eq hL]
    unfold Dom.nCellBfr
    rw [m1_eq, m1_eq]
    have : max 1 D.d.nz = D.d.nz := by
      rcases hL with h | h | h | h
      · rw [nDims0 h] at hn; omega
      · rw [nDims1 h] at hn; omega
      all_goals omega
    rw [this]; push_cast; exact ⟨rfl, rfl⟩
  unfold l2eZ
  obtain ⟨f1, f2⟩ := fits hf (I := (D.nxBfr : ℤ) + col - h) (by omega) (by omega) hj (show k < D.d.nz + 1 by omega)
  rw [l2e_dense (I := (D.nxBfr : ℤ) + col - h) (j := j) (k := k) hL (by omega) (by rw [eZ]; exact hs) (by push_cast; omega)
    hj (by rw [eZ]; omega)]
  · rw [← wrap_eq_image (by omega) (by omega)]
    simp
  · rw [eZ]
    apply toInt32_of _ f1 f2
    obtain ⟨m, hm⟩ := toUInt32_diff ((D.nxBfr : ℤ) * max 1 D.d.ny - haloZ D.d h)
    refine ⟨m, ?_⟩
    rw [hm, hZ, hB.1, hB.2]
    push_cast; ring

/-- What the x halo actually contains: the image among the `nxTot + 1` *faces* of the array, the two boundary faces (which are
the same face of a periodic domain) counted separately. -/
theorem halo_x_actual {D : Dom} (hL : D.d.Layout) (hn : D.d.nDims ≠ 0) {s : Strides} {h col j k : ℕ}
    (hs : Dense D.d.nDims s (effY D.d 0) (effZ D.d 0)) (hf : FitsInt (D.nxTot + 1) (effY D.d 0) (effZ D.d 0) h)
    (hh : h ≤ D.nxTot)
    (hcol : col < D.d.nx + 2 * h + 1) (hx : D.nxBfr + D.d.nx ≤ D.nxTot) (hj : j < effY D.d 0) (hk : k < effZ D.d 0) :
    l2eX D h s ((col * effY D.d 0 + j) * effZ D.d 0 + k) =
      elem D.d.nDims s (image (D.nxTot + 1) ((D.nxBfr : ℤ) + col - h)) j k := by
  unfold l2eX
  obtain ⟨f1, f2⟩ := fits hf (I := (D.nxBfr : ℤ) + col - h) (by omega) (by push_cast; omega) hj hk
  rw [l2e_dense (I := (D.nxBfr : ℤ) + col - h) (j := j) (k := k) hL hn hs (by push_cast; omega) hj hk]
  · rw [← wrap_eq_image (by push_cast; omega) (by push_cast; omega)]
  · apply toInt32_of _ f1 f2
    refine ⟨0, ?_⟩
    rw [haloX_eq hL hn, nCellBfr_eq hL]
    push_cast; ring

/-- **C26** (negation) x Courant numbers, single device, at least three columns: the halo face next to the left boundary (face -1)
is read from the right boundary face `nx`, which is the left boundary face again, instead of face `nx - 1`; and the face beyond the
right boundary is read from face 0 instead of face 1. -/
theorem halo_x_wrong {d : Dims} (hL : d.Layout) (hn : d.nDims ≠ 0) (hx : 2 < d.nx) {s : Strides} {j k : ℕ}
    (hs : Dense d.nDims s (effY d 0) (effZ d 0)) (hf : FitsInt (d.nx + 1) (effY d 0) (effZ d 0) 2)
    (hj : j < effY d 0) (hk : k < effZ d 0) :
    let D : Dom := ⟨d, 0, d.nx⟩
    (l2eX D 2 s ((1 * effY d 0 + j) * effZ d 0 + k) = elem d.nDims s d.nx j k ∧ image d.nx (-1) = (d.nx : ℤ) - 1) ∧
    (l2eX D 2 s (((d.nx + 3) * effY d 0 + j) * effZ d 0 + k) = elem d.nDims s 0 j k ∧ image d.nx ((d.nx : ℤ) + 1) = 1) := by
  intro D
  have e1 := halo_x_actual (D := D) hL hn (h := 2) (col := 1) hs hf (by show 2 ≤ d.nx; omega) (by omega)
    (by show 0 + d.nx ≤ d.nx; omega) hj hk
  have e2 := halo_x_actual (D := D) hL hn (h := 2) (col := d.nx + 3) hs hf (by show 2 ≤ d.nx; omega)
    (by show d.nx + 3 < d.nx + 2 * 2 + 1; omega) (by show 0 + d.nx ≤ d.nx; omega) hj hk
  refine ⟨⟨?_, ?_⟩, ?_, ?_⟩
  · rw [e1]
    congr 1
    show image (d.nx + 1) (((0 : ℕ) : ℤ) + ((1 : ℕ) : ℤ) - ((2 : ℕ) : ℤ)) = d.nx
    rw [← wrap_eq_image (by push_cast; omega) (by push_cast; omega), if_neg (by push_cast; omega), if_pos (by norm_num)]
    push_cast; ring
  · rw [← wrap_eq_image (by omega) (by omega), if_neg (by omega), if_pos (by omega)]; ring
  · rw [e2]
    congr 1
    rw [← wrap_eq_image (by simp [D]; omega) (by simp [D]; omega)]
    rw [if_pos (by simp [D]; omega)]
    simp [D]; ring
  · rw [← wrap_eq_image (by omega) (by omega), if_pos (by omega)]; ring

/-- hypotheses of `halo_x_wrong` met: 2D, 4×3 cells -/
example : l2eX ⟨⟨4, 0, 3⟩, 0, 4⟩ 2 ⟨3, 1, 0⟩ 4 = 13 := by decide

/-- with a profile (zero strides) as x Courant number and the predictor-corrector scheme, elements before the beginning of the
caller's array are read -/
theorem profile_halo_out_of_bounds : l2eX ⟨⟨4, 0, 3⟩, 0, 4⟩ 2 ⟨0, 1, 0⟩ 1 = -2 := by decide

/-! ### MPI exchange -/

theorem blit_in {α : Type} (a src : ℕ → α) {dst from_ len q : ℕ} (h1 : dst ≤ q) (h2 : q < dst + len) :
    blit a dst src from_ len q = src (from_ + (q - dst)) := by unfold blit; rw [if_pos ⟨h1, h2⟩]
theorem blit_out {α : Type} (a src : ℕ → α) {dst from_ len q : ℕ} (h : q < dst ∨ dst + len ≤ q) :
    blit a dst src from_ len q = a q := by unfold blit; rw [if_neg (by omega)]

/-- components that exist in a given dimensionality -/
def Exists (d : Dims) : Comp → Prop
  | .x => d.nDims ≠ 0
  | .y => d.nDims = 3
  | .z => d.nDims = 2 ∨ d.nDims = 3

/-- number of columns (of faces, for x) without halo -/
def ownCols (d : Dims) : Comp → ℕ
  | .x => d.nx + 1
  | _ => d.nx

theorem idx_eqs {d : Dims} (hL : d.Layout) {c : Comp} (hc : Exists d c) (h : ℕ) :
    haloLen d h c = h * colLen d c ∧ rgtInternal d c = d.nx * colLen d c ∧
    lftInternal d h c = (match c with | .x => h + 1 | _ => h) * colLen d c := by
  rcases hL with hL | hL | hL | hL
  · have hn := nDims0 hL
    cases c <;> simp [Exists, hn] at hc
  · have hn := nDims1 hL
    cases c <;> simp [Exists, hn] at hc
    simp [haloLen, haloX, rgtInternal, Dims.nCell, lftInternal, colLen, hn, hL, m1]; omega
  · have hn := nDims2 hL
    cases c <;> simp [Exists, hn] at hc
    · simp [haloLen, haloX, rgtInternal, Dims.nCell, lftInternal, colLen, hn, hL, m1]
      have := hL.1; have := hL.2.2
      rw [if_neg (by omega), if_neg (by omega)]
    · simp [haloLen, haloZ, rgtInternal, lftInternal, colLen, hn]
  · have hn := nDims3 hL
    cases c
    · simp [haloLen, haloX, rgtInternal, Dims.nCell, lftInternal, colLen, hn, m1]
      have := hL.1; have := hL.2.1; have := hL.2.2
      rw [if_neg (by omega), if_neg (by omega), if_neg (by omega)]
      refine ⟨by ring, by ring, by ring⟩
    · simp [haloLen, haloY, rgtInternal, lftInternal, colLen]
      refine ⟨by ring, by ring, by ring⟩
    · simp [haloLen, haloZ, rgtInternal, lftInternal, colLen, hn]
      refine ⟨by ring, by ring, by ring⟩

/-- **C26** (partial; MPI) Let `F col t` be a Courant number field extended periodically in x (`t` runs over one column).  If a
process holds its own columns of `F`, starting at `off`, its left neighbour the columns ending there and its right neighbour the columns
starting after it, each having at least `h` columns, then after the exchange the process holds `F` on its own columns and on the whole halo
of `h` columns on both sides. -/
theorem mpi_halo_partial {α : Type} (F : ℤ → ℕ → α) {d dL dR : Dims} (hL : d.Layout) (hLL : dL.Layout) {c : Comp} (hc : Exists d c)
    (hcL : Exists dL c) (hm : colLen dL c = colLen d c) {h : ℕ} (hxL : h ≤ dL.nx) (hxR : h ≤ dR.nx) (off : ℤ)
    (a L R : ℕ → α)
    (ha : ∀ i < ownCols d c, ∀ t < colLen d c, a ((h + i) * colLen d c + t) = F (off + i) t)
    (hLft : ∀ i < ownCols dL c, ∀ t < colLen d c, L ((h + i) * colLen d c + t) = F (off - dL.nx + i) t)
    (hRgt : ∀ i < ownCols dR c, ∀ t < colLen d c, R ((h + i) * colLen d c + t) = F (off + d.nx + i) t)
    {col t : ℕ} (hcol : col < nCols d h c) (ht : t < colLen d c) :
    xchng d h c dL L R a (col * colLen d c + t) = F (off + col - h) t := by
  obtain ⟨e1, e2, e3⟩ := idx_eqs hL hc h
  obtain ⟨_, e2L, _⟩ := idx_eqs hLL hcL h
  have hnc : nCols d h c = ownCols d c + 2 * h := by cases c <;> simp [nCols, ownCols]; omega
  have hdst : nCols d h c * colLen d c - haloLen d h c = (h + ownCols d c) * colLen d c := by
    rw [e1, hnc, ← Nat.sub_mul]; congr 1; omega
  unfold xchng
  rw [hdst, e1, e3, e2L, hm]
  generalize hmm : colLen d c = m at *
  have cmp : ∀ A : ℕ, A ≤ col → A * m ≤ col * m + t := fun A hA => le_trans (Nat.mul_le_mul_right m hA) (Nat.le_add_right _ _)
  have cmp' : ∀ A : ℕ, col < A → col * m + t < A * m := fun A hA => by
    have := Nat.mul_le_mul_right m hA
    have e : (col + 1) * m = col * m + m := by ring
    have e' : col.succ * m = (col + 1) * m := rfl
    omega
  by_cases hr : h + ownCols d c ≤ col
  · -- right halo
    have hle := cmp _ hr
    rw [blit_in _ _ hle (by
      have := cmp' (h + ownCols d c + h) (by omega)
      have e : (h + ownCols d c + h) * m = (h + ownCols d c) * m + h * m := by ring
      omega)]
    obtain ⟨b, hb⟩ : ∃ b, col = h + ownCols d c + b := ⟨col - (h + ownCols d c), by omega⟩
    have hsub : col * m + t - (h + ownCols d c) * m = b * m + t := by
      rw [hb, Nat.add_mul (h + ownCols d c)]; omega
    rw [hsub]
    have hbh : b < h := by omega
    cases c with
    | x =>
      simp only [ownCols] at hRgt hb
      have := hRgt (1 + b) (by omega) t ht
      rw [show (h + 1) * m + (b * m + t) = (h + (1 + b)) * m + t by ring, this, hb]
      congr 1; push_cast; ring
    | y =>
      simp only [ownCols] at hRgt hb
      have := hRgt b (by omega) t ht
      rw [show h * m + (b * m + t) = (h + b) * m + t by ring, this, hb]
      congr 1; push_cast; ring
    | z =>
      simp only [ownCols] at hRgt hb
      have := hRgt b (by omega) t ht
      rw [show h * m + (b * m + t) = (h + b) * m + t by ring, this, hb]
      congr 1; push_cast; ring
  · rw [blit_out _ _ (Or.inl (cmp' _ (by omega)))]
    by_cases hl : col < h
    · rw [blit_in _ _ (Nat.zero_le _) (by have := cmp' h hl; omega)]
      obtain ⟨b, hb⟩ : ∃ b, dL.nx = h + b := ⟨dL.nx - h, by omega⟩
      have hown : b + col < ownCols dL c := by cases c <;> simp [ownCols] <;> omega
      have := hLft (b + col) hown t ht
      rw [hb, show (h + b) * m + (col * m + t - 0) = (h + (b + col)) * m + t by rw [Nat.sub_zero]; ring, this, hb]
      congr 1; push_cast; ring
    · rw [blit_out _ _ (by
        right
        have := cmp h (by omega)
        omega)]
      obtain ⟨b, hb⟩ : ∃ b, col = h + b := ⟨col - h, by omega⟩
      have := ha b (by omega) t ht
      rw [hb, this]
      congr 1; push_cast; ring

/-- the hypotheses are met: `F col t = col` on three processes of 3, 4 and 5 columns (2D, nz = 2), halo of 2 -/
example : xchng ⟨4, 0, 2⟩ 2 .x ⟨3, 0, 2⟩ (fun q => (((q / 2 : ℕ) : ℤ) - 2 + 7 - 3)) (fun q => ((q / 2 : ℕ) : ℤ) - 2 + 7 + 4)
    (fun q => if q < 4 ∨ 14 ≤ q then 0 else ((q / 2 : ℕ) : ℤ) - 2 + 7) (0 * 2 + 1) = 7 + 0 - 2 := by decide

end LCP.E2L
