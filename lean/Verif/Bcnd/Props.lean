import Verif.Bcnd.Model
import Mathlib.Algebra.Order.BigOperators.Group.Finset
import Mathlib.Tactic.Ring
import Mathlib.Tactic.Linarith
import Mathlib.Tactic.FieldSimp
import Mathlib.Tactic.NormNum
import Mathlib.Tactic.Positivity

/-!
# Boundary conditions: C17, C18, C19
-/
namespace LCP.Bcnd

/-! ### C17 -/

theorem fmod_nonneg {x y : ℝ} (hx : 0 ≤ x) (hy : 0 < y) : 0 ≤ fmod x y ∧ fmod x y < y := by
  unfold fmod trunc
  rw [if_pos (div_nonneg hx hy.le)]
  have h1 := Int.floor_le (x / y)
  have h2 := Int.lt_floor_add_one (x / y)
  rw [le_div_iff₀ hy] at h1
  rw [div_lt_iff₀ hy] at h2
  constructor <;> linarith [h1, h2]

/-- **C17** A position inside the domain is left unchanged. -/
theorem periodic_inside {a b x : ℝ} (h0 : a ≤ x) (h1 : x < b) : periodic a b x = x := by
  have hL : 0 < b - a := by linarith
  unfold periodic fmod trunc
  have hq : (x - a + 10 * (b - a)) / (b - a) = (x - a) / (b - a) + 10 := by field_simp
  have hnn : 0 ≤ (x - a) / (b - a) := div_nonneg (by linarith) hL.le
  rw [hq, if_pos (by linarith)]
  have hf : ⌊(x - a) / (b - a) + 10⌋ = 10 := by
    rw [Int.floor_eq_iff]
    constructor
    · push_cast; linarith
    · have : (x - a) / (b - a) < 1 := by rw [div_lt_one hL]; linarith
      push_cast; linarith
  rw [hf]; push_cast; ring

/-- **C17** (partial) A position that left the domain by at most ten domain lengths to the left (any distance to the
right) is mapped into the domain, to a position differing by a whole number of domain lengths.
Missing: positions further than ten domain lengths to the left, for which the claim is false (`periodic_wrong`). -/
theorem periodic_partial {a b x : ℝ} (hab : a < b) (hx : a - 10 * (b - a) ≤ x) :
    (a ≤ periodic a b x ∧ periodic a b x < b) ∧ ∃ k : ℤ, x = periodic a b x + k * (b - a) := by
  have hL : 0 < b - a := by linarith
  obtain ⟨h1, h2⟩ := fmod_nonneg (x := (x - a) + 10 * (b - a)) (y := b - a) (by linarith) hL
  refine ⟨⟨by unfold periodic; linarith, by unfold periodic; linarith⟩, ?_⟩
  refine ⟨trunc (((x - a) + 10 * (b - a)) / (b - a)) - 10, ?_⟩
  unfold periodic fmod
  push_cast
  ring

/-- **C17** (for every position) the result always differs by a whole number of domain lengths. -/
theorem periodic_whole {a b x : ℝ} : ∃ k : ℤ, x = periodic a b x + k * (b - a) := by
  refine ⟨trunc (((x - a) + 10 * (b - a)) / (b - a)) - 10, ?_⟩
  unfold periodic fmod
  push_cast
  ring

/-- **C17** (negation of the unrestricted claim) a position 10.5 domain lengths to the left is mapped outside. -/
theorem periodic_wrong : periodic 0 1 (-21 / 2) = -1 / 2 := by
  unfold periodic fmod trunc
  norm_num

/-- **C17** for the whole boundary step of a shared-memory run with periodic side walls: afterwards all horizontal
positions are inside the domain, shifted by a whole number of domain lengths; those inside did not move; multiplicities
are not changed by the side walls (1D: not at all). -/
theorem bcnd_periodic_side {o : Opts} {s : St} (hd : o.nDims ≠ 0) (hdist : o.dist = none) (hop : o.openSide = false)
    (hx : o.x0 < o.x1) (hfar : ∀ i < s.N, o.x0 - 10 * (o.x1 - o.x0) ≤ s.x i)
    (hy : o.nDims = 3 → o.y0 < o.y1 ∧ ∀ i < s.N, o.y0 - 10 * (o.y1 - o.y0) ≤ s.y i) :
    ∀ i < s.N,
      (o.x0 ≤ (bcnd o s).x i ∧ (bcnd o s).x i < o.x1 ∧ (∃ k : ℤ, s.x i = (bcnd o s).x i + k * (o.x1 - o.x0)) ∧
        (o.x0 ≤ s.x i → s.x i < o.x1 → (bcnd o s).x i = s.x i)) ∧
      (o.nDims = 3 → o.y0 ≤ (bcnd o s).y i ∧ (bcnd o s).y i < o.y1 ∧
        (∃ k : ℤ, s.y i = (bcnd o s).y i + k * (o.y1 - o.y0)) ∧
        (o.y0 ≤ s.y i → s.y i < o.y1 → (bcnd o s).y i = s.y i)) ∧
      (o.nDims = 1 → (bcnd o s).n i = s.n i) := by
  intro i hi
  have ex : (bcnd o s).x = fun i => periodic o.x0 o.x1 (s.x i) := by
    unfold bcnd bcndZ bcndY bcndX
    simp only [hd, if_false, hdist, hop, if_true]
    split_ifs <;> simp [flagIf]
  have ey : o.nDims = 3 → (bcnd o s).y = fun i => periodic o.y0 o.y1 (s.y i) := by
    intro h3
    unfold bcnd bcndZ bcndY bcndX
    simp only [h3, hdist, hop, if_true]
    norm_num
    split_ifs <;> simp [flagIf]
  refine ⟨?_, ?_, ?_⟩
  · rw [ex]
    obtain ⟨⟨h1, h2⟩, h3⟩ := periodic_partial hx (hfar i hi)
    exact ⟨h1, h2, h3, fun h4 h5 => periodic_inside h4 h5⟩
  · intro h3
    rw [ey h3]
    obtain ⟨⟨h1, h2⟩, h4⟩ := periodic_partial (hy h3).1 ((hy h3).2 i hi)
    exact ⟨h1, h2, h4, fun h5 h6 => periodic_inside h5 h6⟩
  · intro h1
    unfold bcnd bcndZ bcndY bcndX
    simp [h1, hdist, hop]

/-- **C17** periodic top and bottom walls: heights end up inside the domain and, with periodic side walls, no
super-droplet is removed and nothing reaches the puddle. -/
theorem bcnd_periodic_topbot {o : Opts} {s : St} (hd : 1 < o.nDims) (hp : o.periodicTopBot = true)
    (hz : o.z0 < o.z1) (hfar : ∀ i < s.N, o.z0 - 10 * (o.z1 - o.z0) ≤ s.z i) :
    (∀ i < s.N, o.z0 ≤ (bcnd o s).z i ∧ (bcnd o s).z i < o.z1 ∧
        (∃ k : ℤ, s.z i = (bcnd o s).z i + k * (o.z1 - o.z0)) ∧
        (o.z0 ≤ s.z i → s.z i < o.z1 → (bcnd o s).z i = s.z i)) ∧
    (bcnd o s).puddle = s.puddle ∧
    (o.dist = none → o.openSide = false → (bcnd o s).n = s.n) := by
  have hd0 : o.nDims ≠ 0 := by omega
  have zx : (bcndY o (bcndX o s)).z = s.z := by
    unfold bcndY bcndX
    cases o.dist with
    | none => simp only; split_ifs <;> simp [flagIf]
    | some lr => obtain ⟨l, r⟩ := lr; simp only; split_ifs <;> simp [flagIf]
  have px : (bcndY o (bcndX o s)).puddle = s.puddle := by
    unfold bcndY bcndX
    cases o.dist with
    | none => simp only; split_ifs <;> simp [flagIf]
    | some lr => obtain ⟨l, r⟩ := lr; simp only; split_ifs <;> simp [flagIf]
  have ez : (bcnd o s).z = fun i => periodic o.z0 o.z1 (s.z i) := by
    rw [← zx]; unfold bcnd bcndZ; simp only [hd0, if_false, hd, if_true, hp]; simp
  refine ⟨?_, ?_, ?_⟩
  · intro i hi
    rw [ez]
    obtain ⟨⟨h1, h2⟩, h3⟩ := periodic_partial hz (hfar i hi)
    exact ⟨h1, h2, h3, fun h4 h5 => periodic_inside h4 h5⟩
  · rw [← px]; unfold bcnd bcndZ; simp only [hd0, if_false, hd, if_true, hp]; simp
  · intro hdist hop
    unfold bcnd bcndZ bcndY bcndX
    simp only [hd0, hdist, hop, hd, hp, if_true, if_false]
    split_ifs <;> simp_all

/-! ### C18 -/

/-- Specification: the super-droplet left through an open side wall (in a distributed run: through an open outer edge in
x). -/
def leftSide (o : Opts) (s : St) (i : ℕ) : Prop :=
  (o.dist = none ∧ o.openSide = true ∧ ¬ (o.x0 ≤ s.x i ∧ s.x i < o.x1)) ∨
  (∃ l r, o.dist = some (l, r) ∧ ((l = true ∧ s.x i < o.x0) ∨ (r = true ∧ o.x1 ≤ s.x i))) ∨
  (o.nDims = 3 ∧ o.openSide = true ∧ ¬ (o.y0 ≤ s.y i ∧ s.y i < o.y1))

/-- Specification: left through the top or the bottom. -/
def leftTop (o : Opts) (s : St) (i : ℕ) : Prop := 1 < o.nDims ∧ o.periodicTopBot = false ∧ o.z1 ≤ s.z i
def leftBottom (o : Opts) (s : St) (i : ℕ) : Prop := 1 < o.nDims ∧ o.periodicTopBot = false ∧ s.z i < o.z0

open Classical in
theorem bcndX_n (o : Opts) (s : St) (i : ℕ) : (bcndX o s).n i =
    if (o.dist = none ∧ o.openSide = true ∧ ¬ (o.x0 ≤ s.x i ∧ s.x i < o.x1)) ∨
      (∃ l r, o.dist = some (l, r) ∧ ((l = true ∧ s.x i < o.x0) ∨ (r = true ∧ o.x1 ≤ s.x i))) then 0 else s.n i := by
  have hx : ¬ (o.x0 ≤ s.x i ∧ s.x i < o.x1) ↔ (s.x i ≥ o.x1 ∨ s.x i < o.x0) := by
    rw [not_and_or, not_le, not_lt]; exact or_comm
  unfold bcndX
  cases hd : o.dist with
  | none =>
    cases ho : o.openSide with
    | false => simp
    | true =>
      simp only [true_and, hx, flagIf]
      simp
  | some lr =>
    obtain ⟨l, r⟩ := lr
    have he : (∃ l' r', some (l, r) = some (l', r') ∧ ((l' = true ∧ s.x i < o.x0) ∨ (r' = true ∧ o.x1 ≤ s.x i))) ↔
        ((l = true ∧ s.x i < o.x0) ∨ (r = true ∧ o.x1 ≤ s.x i)) := by
      constructor
      · rintro ⟨l', r', h, h2⟩
        simp only [Option.some.injEq, Prod.mk.injEq] at h
        obtain ⟨rfl, rfl⟩ := h
        exact h2
      · intro h; exact ⟨l, r, rfl, h⟩
    simp only [he]
    cases l <;> cases r <;> by_cases h1 : s.x i < o.x0 <;> by_cases h2 : o.x1 ≤ s.x i <;> simp [flagIf, h1, h2]

open Classical in
theorem bcndY_n (o : Opts) (s : St) (i : ℕ) : (bcndY o s).n i =
    if o.nDims = 3 ∧ o.openSide = true ∧ ¬ (o.y0 ≤ s.y i ∧ s.y i < o.y1) then 0 else s.n i := by
  have hy : ¬ (o.y0 ≤ s.y i ∧ s.y i < o.y1) ↔ (s.y i ≥ o.y1 ∨ s.y i < o.y0) := by
    rw [not_and_or, not_le, not_lt]; exact or_comm
  unfold bcndY
  by_cases h3 : o.nDims = 3
  · cases ho : o.openSide with
    | false => simp [h3]
    | true =>
      simp only [h3, true_and, hy, flagIf, if_true]
      simp
  · simp [h3]

theorem bcndX_y (o : Opts) (s : St) : (bcndX o s).y = s.y := by
  unfold bcndX
  cases o.dist with
  | none => simp only; split_ifs <;> rfl
  | some lr => obtain ⟨l, r⟩ := lr; simp only; split_ifs <;> rfl

theorem bcndY_x (o : Opts) (s : St) : (bcndY o s).x = s.x := by
  unfold bcndY; split_ifs <;> rfl

open Classical in
theorem bcndXY_n (o : Opts) (s : St) : (bcndY o (bcndX o s)).n = fun i => if leftSide o s i then 0 else s.n i := by
  funext i
  rw [bcndY_n, bcndX_n, bcndX_y]
  unfold leftSide
  have key : ∀ (a b c : Prop) (m : ℕ), (if c then 0 else if a ∨ b then 0 else m) = if a ∨ b ∨ c then 0 else m := by
    intro a b c m
    by_cases ha : a <;> by_cases hb : b <;> by_cases hc : c <;> simp [ha, hb, hc]
  convert key _ _ _ (s.n i)

theorem bcndXY_frame (o : Opts) (s : St) : (bcndY o (bcndX o s)) =
    { s with n := (bcndY o (bcndX o s)).n, x := (bcndY o (bcndX o s)).x, y := (bcndY o (bcndX o s)).y } := by
  unfold bcndY bcndX
  cases hd : o.dist with
  | none => simp only; split_ifs <;> simp [flagIf]
  | some lr => obtain ⟨l, r⟩ := lr; simp only; split_ifs <;> simp [flagIf]

open Classical in
/-- **C18** Exactly the super-droplets that left the domain through an open wall, the top or the bottom get multiplicity 0;
all others keep their multiplicity; no radius, ice or chemistry attribute changes. -/
theorem bcnd_removes_leavers (o : Opts) (s : St) (hd : o.nDims ≠ 0) (i : ℕ) :
    (bcnd o s).n i = (if leftSide o s i ∨ leftTop o s i ∨ leftBottom o s i then 0 else s.n i) ∧
    (bcnd o s).N = s.N ∧ (bcnd o s).rw2 = s.rw2 ∧ (bcnd o s).rd3 = s.rd3 ∧ (bcnd o s).iceA = s.iceA ∧
    (bcnd o s).iceC = s.iceC ∧ (bcnd o s).iceRho = s.iceRho ∧ (bcnd o s).chem = s.chem := by
  have hfr := bcndXY_frame o s
  have hn := bcndXY_n o s
  set t := bcndY o (bcndX o s) with ht
  have hz : t.z = s.z := by rw [hfr]
  have hb : bcnd o s = bcndZ o t := by unfold bcnd; rw [if_neg hd]
  rw [hb]
  refine ⟨?_, ?_⟩
  · unfold bcndZ leftTop leftBottom
    by_cases h1 : 1 < o.nDims <;> cases hp : o.periodicTopBot <;>
      by_cases hz0 : s.z i < o.z0 <;> by_cases hz1 : o.z1 ≤ s.z i <;>
      by_cases hs : leftSide o s i <;> simp [h1, flagIf, hz, hz0, hz1, hs, hn]
  · have e : bcndZ o t = { t with n := (bcndZ o t).n, z := (bcndZ o t).z, puddle := (bcndZ o t).puddle } := by
      unfold bcndZ; split_ifs <;> simp [flagIf]
    rw [e, hfr]
    simp

/-- **C18** An open wall does not move anything: with open side walls, horizontal positions are unchanged; with open top
and bottom, heights are unchanged. -/
theorem bcnd_open_positions (o : Opts) (s : St) :
    (o.dist = none → o.openSide = true → (bcnd o s).x = s.x ∧ (bcnd o s).y = s.y) ∧
    (o.periodicTopBot = false → (bcnd o s).z = s.z) := by
  constructor
  · intro hd ho
    have hzx : ∀ t : St, (bcndZ o t).x = t.x ∧ (bcndZ o t).y = t.y := by
      intro t; unfold bcndZ; split_ifs <;> exact ⟨rfl, rfl⟩
    have hxx : (bcndX o s).x = s.x := by unfold bcndX; simp [hd, ho, flagIf]
    have hyy : ∀ t : St, (bcndY o t).y = t.y := by
      intro t; unfold bcndY; simp only [ho]; split_ifs <;> first | rfl | contradiction
    unfold bcnd
    split_ifs
    · exact ⟨rfl, rfl⟩
    · rw [(hzx _).1, (hzx _).2, bcndY_x, hyy, hxx, bcndX_y]; exact ⟨rfl, rfl⟩
  · intro hp
    have hz : (bcndY o (bcndX o s)).z = s.z := by rw [bcndXY_frame]
    unfold bcnd bcndZ
    rw [hp]
    split_ifs <;> simp_all [flagIf]

/-- **C18** (with C12) every super-droplet that is still alive after the boundary step of a shared-memory run is inside the
domain. -/
theorem bcnd_survivors_inside {o : Opts} {s : St} (hd : o.nDims ≠ 0) (hdist : o.dist = none)
    (hx : o.x0 < o.x1) (hfarx : o.openSide = false → ∀ i < s.N, o.x0 - 10 * (o.x1 - o.x0) ≤ s.x i)
    (hy : o.nDims = 3 → o.y0 < o.y1) (hfary : o.nDims = 3 → o.openSide = false → ∀ i < s.N, o.y0 - 10 * (o.y1 - o.y0) ≤ s.y i)
    (hz : 1 < o.nDims → o.z0 < o.z1)
    (hfarz : 1 < o.nDims → o.periodicTopBot = true → ∀ i < s.N, o.z0 - 10 * (o.z1 - o.z0) ≤ s.z i)
    {i : ℕ} (hi : i < s.N) (halive : (bcnd o s).n i ≠ 0) :
    (o.x0 ≤ (bcnd o s).x i ∧ (bcnd o s).x i < o.x1) ∧
    (o.nDims = 3 → o.y0 ≤ (bcnd o s).y i ∧ (bcnd o s).y i < o.y1) ∧
    (1 < o.nDims → o.z0 ≤ (bcnd o s).z i ∧ (bcnd o s).z i < o.z1) := by
  classical
  have hrem := (bcnd_removes_leavers o s hd i).1
  have hnot : ¬ (leftSide o s i ∨ leftTop o s i ∨ leftBottom o s i) := by
    intro h; rw [if_pos h] at hrem; exact halive hrem
  obtain ⟨hs, htb⟩ := not_or.1 hnot
  obtain ⟨ht, hb⟩ := not_or.1 htb
  refine ⟨?_, ?_, ?_⟩
  · cases ho : o.openSide with
    | false =>
      have := (bcnd_periodic_side hd hdist ho hx (hfarx ho) (fun h3 => ⟨hy h3, hfary h3 ho⟩) i hi).1
      exact ⟨this.1, this.2.1⟩
    | true =>
      rw [((bcnd_open_positions o s).1 hdist ho).1]
      by_contra hc
      exact hs (Or.inl ⟨hdist, ho, hc⟩)
  · intro h3
    cases ho : o.openSide with
    | false =>
      have := (bcnd_periodic_side hd hdist ho hx (hfarx ho) (fun h3 => ⟨hy h3, hfary h3 ho⟩) i hi).2.1 h3
      exact ⟨this.1, this.2.1⟩
    | true =>
      rw [((bcnd_open_positions o s).1 hdist ho).2]
      by_contra hc
      exact hs (Or.inr (Or.inr ⟨h3, ho, hc⟩))
  · intro h1
    cases hp : o.periodicTopBot with
    | true =>
      have := (bcnd_periodic_topbot h1 hp (hz h1) (hfarz h1 hp)).1 i hi
      exact ⟨this.1, this.2.1⟩
    | false =>
      rw [(bcnd_open_positions o s).2 hp]
      refine ⟨?_, ?_⟩
      · by_contra hc; exact hb ⟨h1, hp, not_le.1 hc⟩
      · by_contra hc; exact ht ⟨h1, hp, not_lt.1 hc⟩

/-! ### C19 -/

open Classical in
/-- Specification: how much of quantity `q` one real droplet represented by super-droplet `i` carries. -/
noncomputable def amount (s : St) (i : ℕ) : Q → ℝ
  | .liqVol => 4 / 3 * Real.pi * (s.rw2 i) ^ (3 / 2 : ℝ)
  | .dryVol => 4 / 3 * Real.pi * s.rd3 i
  | .prtclNum => 1
  | .liqNum => if s.rw2 i = 0 then 0 else 1
  | .iceMass => 4 / 3 * Real.pi * (s.iceA i) ^ 2 * s.iceC i * s.iceRho i
  | .iceNum => if s.rw2 i > 0 then 0 else 1
  | .chem j => s.chem j i

/-- quantities that are tracked for the given options -/
def tracked (o : Opts) : Q → Prop
  | .iceMass => o.ice = true
  | .iceNum => o.ice = true
  | .chem j => o.chem = true ∧ j < 8
  | _ => True

/-- content of the domain -/
noncomputable def content (s : St) (q : Q) : ℝ := ∑ i ∈ Finset.range s.N, (s.n i : ℝ) * amount s i q

theorem puddleAdd_eq {o : Opts} {s : St} {nf : ℕ → ℝ} {q : Q} (hq : tracked o q) :
    puddleAdd o s nf q = ∑ i ∈ Finset.range s.N, nf i * amount s i q := by
  cases q with
  | liqVol => simp only [puddleAdd, amount, countVol]; exact Finset.sum_congr rfl (fun i _ => by ring)
  | dryVol => simp only [puddleAdd, amount, countVol, Real.rpow_one]; exact Finset.sum_congr rfl (fun i _ => by ring)
  | prtclNum => simp [puddleAdd, amount]
  | liqNum =>
    simp only [puddleAdd, amount, countNum]
    refine Finset.sum_congr rfl (fun i _ => ?_)
    by_cases h : s.rw2 i = 0 <;> simp [h]
  | iceNum =>
    simp only [tracked] at hq
    simp only [puddleAdd, amount, countNum, hq, if_true]
    refine Finset.sum_congr rfl (fun i _ => ?_)
    by_cases h : s.rw2 i > 0 <;> simp [h]
  | iceMass =>
    simp only [tracked] at hq
    simp only [puddleAdd, amount, countIceMass, hq, if_true]
    exact Finset.sum_congr rfl (fun i _ => by ring)
  | chem j =>
    simp only [tracked] at hq
    simp only [puddleAdd, amount, hq.1, hq.2, if_true]

theorem amount_congr {s t : St} (h1 : t.rw2 = s.rw2) (h2 : t.rd3 = s.rd3) (h3 : t.iceA = s.iceA) (h4 : t.iceC = s.iceC)
    (h5 : t.iceRho = s.iceRho) (h6 : t.chem = s.chem) (i : ℕ) (q : Q) : amount t i q = amount s i q := by
  cases q <;> simp [amount, h1, h2, h3, h4, h5, h6]

open Classical in
/-- what the puddle gains: exactly what fell through the bottom and had not left through a side wall or the top -/
theorem puddle_gain (o : Opts) (s : St) (hd : o.nDims ≠ 0) (hzz : o.z0 ≤ o.z1) {q : Q} (hq : tracked o q) :
    (bcnd o s).puddle q = s.puddle q +
      ∑ i ∈ (Finset.range s.N).filter (fun i => leftBottom o s i ∧ ¬ leftSide o s i), (s.n i : ℝ) * amount s i q := by
  have hfr := bcndXY_frame o s
  have hn := bcndXY_n o s
  set t := bcndY o (bcndX o s) with ht
  have hz : t.z = s.z := by rw [hfr]
  have hN : t.N = s.N := by rw [hfr]
  have hpu : t.puddle = s.puddle := by rw [hfr]
  have hb : bcnd o s = bcndZ o t := by unfold bcnd; rw [if_neg hd]
  rw [hb]
  by_cases h1 : 1 < o.nDims
  · cases hp : o.periodicTopBot with
    | true =>
      have he : (bcndZ o t).puddle q = t.puddle q := by unfold bcndZ; simp [h1, hp]
      rw [he, hpu]
      have : (Finset.range s.N).filter (fun i => leftBottom o s i ∧ ¬ leftSide o s i) = ∅ := by
        apply Finset.filter_eq_empty_iff.2
        intro i _ h
        have := h.1.2.1
        rw [hp] at this; simp at this
      rw [this]; simp
    | false =>
      have he : (bcndZ o t).puddle q = t.puddle q +
          ∑ i ∈ Finset.range t.N, (if t.z i < o.z0 then ((if t.z i ≥ o.z1 then 0 else t.n i : ℕ) : ℝ) else 0) * amount t i q := by
        unfold bcndZ
        simp only [h1, hp, if_true]
        have := puddleAdd_eq (o := o) (s := flagIf t (fun i => t.z i ≥ o.z1))
          (nf := fun i => if t.z i < o.z0 then ((if t.z i ≥ o.z1 then 0 else t.n i : ℕ) : ℝ) else 0) hq
        have ha : ∀ i, amount (flagIf t (fun i => t.z i ≥ o.z1)) i q = amount t i q :=
          fun i => amount_congr rfl rfl rfl rfl rfl rfl i q
        simp only [ha] at this
        exact congrArg (fun v => t.puddle q + v) this
      rw [he, hpu, hN, hz, hn]
      congr 1
      rw [Finset.sum_filter]
      apply Finset.sum_congr rfl
      intro i _
      have ha : amount t i q = amount s i q := by
        apply amount_congr <;> rw [hfr]
      rw [ha]
      by_cases hz0 : s.z i < o.z0
      · have hz1 : ¬ s.z i ≥ o.z1 := by intro h; linarith
        have hlb : leftBottom o s i := ⟨h1, hp, hz0⟩
        by_cases hs : leftSide o s i <;> simp [hz0, hz1, hs, hlb]
      · have hlb : ¬ leftBottom o s i := fun h => hz0 h.2.2
        simp [hz0, hlb]
  · have he : (bcndZ o t).puddle q = t.puddle q := by unfold bcndZ; simp [h1]
    rw [he, hpu]
    have : (Finset.range s.N).filter (fun i => leftBottom o s i ∧ ¬ leftSide o s i) = ∅ := by
      apply Finset.filter_eq_empty_iff.2
      intro i _ h
      exact h1 h.1.1
    rw [this]; simp

open Classical in
/-- **C19** Budget: content of the domain plus puddle before the boundary step equals content plus puddle after it plus what
left through open side walls and the top — for liquid volume, dry volume, particle and droplet numbers, ice and every
dissolved species. -/
theorem puddle_budget (o : Opts) (s : St) (hd : o.nDims ≠ 0) (hzz : o.z0 ≤ o.z1) {q : Q} (hq : tracked o q) :
    content s q + s.puddle q = content (bcnd o s) q + (bcnd o s).puddle q +
      ∑ i ∈ (Finset.range s.N).filter (fun i => leftSide o s i ∨ leftTop o s i), (s.n i : ℝ) * amount s i q := by
  rw [puddle_gain o s hd hzz hq]
  have hc : content (bcnd o s) q = ∑ i ∈ Finset.range s.N,
      (if leftSide o s i ∨ leftTop o s i ∨ leftBottom o s i then 0 else (s.n i : ℝ) * amount s i q) := by
    unfold content
    obtain ⟨_, hN, h1, h2, h3, h4, h5, h6⟩ := bcnd_removes_leavers o s hd 0
    rw [hN]
    apply Finset.sum_congr rfl
    intro i _
    rw [(bcnd_removes_leavers o s hd i).1, amount_congr h1 h2 h3 h4 h5 h6]
    split_ifs <;> simp
  rw [hc]
  unfold content
  rw [Finset.sum_filter, Finset.sum_filter]
  have key : ∀ i, (s.n i : ℝ) * amount s i q =
      (if leftSide o s i ∨ leftTop o s i ∨ leftBottom o s i then 0 else (s.n i : ℝ) * amount s i q) +
      (if leftBottom o s i ∧ ¬ leftSide o s i then (s.n i : ℝ) * amount s i q else 0) +
      (if leftSide o s i ∨ leftTop o s i then (s.n i : ℝ) * amount s i q else 0) := by
    intro i
    have hexc : leftBottom o s i → leftTop o s i → False := by
      rintro ⟨_, _, h1⟩ ⟨_, _, h2⟩; linarith
    by_cases a : leftSide o s i
    · simp [a]
    · by_cases b : leftTop o s i
      · have c : ¬ leftBottom o s i := fun c => hexc c b
        simp [a, b, c]
      · by_cases c : leftBottom o s i <;> simp [a, b, c]
  have hsum : ∑ i ∈ Finset.range s.N, (s.n i : ℝ) * amount s i q =
      ∑ i ∈ Finset.range s.N, ((if leftSide o s i ∨ leftTop o s i ∨ leftBottom o s i then 0 else (s.n i : ℝ) * amount s i q) +
      (if leftBottom o s i ∧ ¬ leftSide o s i then (s.n i : ℝ) * amount s i q else 0) +
      (if leftSide o s i ∨ leftTop o s i then (s.n i : ℝ) * amount s i q else 0)) :=
    Finset.sum_congr rfl (fun i _ => key i)
  rw [hsum, Finset.sum_add_distrib, Finset.sum_add_distrib]
  ring

/-- physical attributes -/
structure Physical (s : St) : Prop where
  rw2 : ∀ i, 0 ≤ s.rw2 i
  rd3 : ∀ i, 0 ≤ s.rd3 i
  iceA : ∀ i, 0 ≤ s.iceA i
  iceC : ∀ i, 0 ≤ s.iceC i
  iceRho : ∀ i, 0 ≤ s.iceRho i
  chem : ∀ j i, 0 ≤ s.chem j i

theorem amount_nonneg {s : St} (h : Physical s) (i : ℕ) (q : Q) : 0 ≤ amount s i q := by
  have h1 := h.rw2 i; have h2 := h.rd3 i; have h3 := h.iceA i; have h4 := h.iceC i; have h5 := h.iceRho i
  have hpi := Real.pi_pos
  cases q with
  | chem j => exact h.chem j i
  | liqNum => simp only [amount]; split_ifs <;> norm_num
  | iceNum => simp only [amount]; split_ifs <;> norm_num
  | prtclNum => simp [amount]
  | liqVol => simp only [amount]; positivity
  | dryVol => simp only [amount]; positivity
  | iceMass => simp only [amount]; positivity

/-- **C19** No puddle entry ever decreases; entries that are not tracked do not change. -/
theorem puddle_monotone (o : Opts) (s : St) (hd : o.nDims ≠ 0) (hzz : o.z0 ≤ o.z1) (hphys : Physical s) (q : Q) :
    s.puddle q ≤ (bcnd o s).puddle q ∧ (¬ tracked o q → (bcnd o s).puddle q = s.puddle q) := by
  classical
  have hnt : ¬ tracked o q → (bcnd o s).puddle q = s.puddle q := by
    intro hq
    have hpu : (bcndY o (bcndX o s)).puddle = s.puddle := by rw [bcndXY_frame]
    rw [← hpu]
    have hz : ∀ t nf, puddleAdd o t nf q = 0 := by
      intro t nf
      cases q <;> simp_all [tracked, puddleAdd]
    unfold bcnd bcndZ
    rw [if_neg hd]
    split_ifs <;> simp [flagIf, hz]
  refine ⟨?_, hnt⟩
  by_cases hq : tracked o q
  · rw [puddle_gain o s hd hzz hq]
    have : 0 ≤ ∑ i ∈ (Finset.range s.N).filter (fun i => leftBottom o s i ∧ ¬ leftSide o s i), (s.n i : ℝ) * amount s i q :=
      Finset.sum_nonneg (fun i _ => mul_nonneg (Nat.cast_nonneg _) (amount_nonneg hphys i q))
    linarith
  · rw [hnt hq]

/-- over any number of steps (with arbitrary changes of the particles in between) puddle entries never decrease -/
theorem puddle_monotone_history (o : Opts) (hd : o.nDims ≠ 0) (hzz : o.z0 ≤ o.z1) (s : ℕ → St)
    (hphys : ∀ t, Physical (s t)) (hstep : ∀ t, (s (t + 1)).puddle = (bcnd o (s t)).puddle) (q : Q) :
    Monotone (fun t => (s t).puddle q) := by
  apply monotone_nat_of_le_succ
  intro t
  show (s t).puddle q ≤ (s (t+1)).puddle q
  rw [hstep t]
  exact (puddle_monotone o (s t) hd hzz (hphys t) q).1

/-- a 2D open domain with a droplet that fell through the bottom, one inside, one beyond the right wall: hypotheses of the
theorems above are met and the puddle gains 7 droplets -/
noncomputable def exO : Opts := { nDims := 2, x0 := 0, x1 := 1, y0 := 0, y1 := 0, z0 := 0, z1 := 1, openSide := true, periodicTopBot := false, dist := none, ice := false, chem := false }
noncomputable def exS : St := { N := 3, n := fun i => 7 + i, x := fun i => if i = 2 then 2 else 1 / 2, y := fun _ => 0, z := fun i => if i = 0 then -1 else 1 / 2, rw2 := fun _ => 1, rd3 := fun _ => 1, iceA := fun _ => 0, iceC := fun _ => 0, iceRho := fun _ => 0, chem := fun _ _ => 0, puddle := fun _ => 0 }
example : Physical exS ∧ (bcnd exO exS).puddle .prtclNum = 7 ∧ (bcnd exO exS).n 0 = 0 ∧ (bcnd exO exS).n 1 = 8 ∧ (bcnd exO exS).n 2 = 0 := by
  refine ⟨⟨?_, ?_, ?_, ?_, ?_, ?_⟩, ?_, ?_, ?_, ?_⟩
  iterate 6 (intros; simp [exS])
  all_goals
    norm_num [bcnd, bcndZ, bcndY, bcndX, exO, exS, flagIf, puddleAdd, Finset.sum_range_succ]

end LCP.Bcnd
