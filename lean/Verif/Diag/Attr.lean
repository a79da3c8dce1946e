import Verif.Diag.Rates

/-!
# C86: reading attributes of super-droplets

Which arrays exist depends on the options; `get_attr` and the moments read them.

Sources: src/impl/particles_impl.ipp:440-491 (list of arrays resized with the number of super-droplets),
src/impl/housekeeping/particles_impl_hskpng_resize.ipp, src/impl/diagnose_SD_attributes/particles_impl_fill_outbuf.ipp:39-77,
src/particles_diag.ipp, src/particles_ctor.ipp:94-98, src/particles_multi_gpu_ctor.ipp:49-53.
-/
namespace LCP.Attr
open LCP.Rates (Out)

/-! ### Model -/

/-- the options involved (opts_init.hpp) -/
structure Opts where
  nx : ℕ
  ny : ℕ
  nz : ℕ
  ice : Bool
  timeDepNucl : Bool
  turbAdve : Bool
  turbCond : Bool
  incloudTime : Bool
  chem : Bool

/-- arrays with one entry per super-droplet (particles_impl.ipp:80-150) which can be read from outside -/
inductive Arr where
  | rd3 | rw2 | kpa | x | y | z | up | vp | wp | incloud | rd2insol | iceA | iceC | iceRho | tFreeze | chem
  deriving DecidableEq

/-- which of them are resized with the number of super-droplets (particles_impl.ipp:442-486; chemistry: init_chem.ipp:150-170) -/
def resized (o : Opts) : Arr → Bool
  | .rd3 => true
  | .rw2 => true
  | .kpa => true
  | .x => decide (o.nx ≠ 0)
  | .y => decide (o.ny ≠ 0)
  | .z => decide (o.nz ≠ 0)
  | .up => o.turbAdve && decide (o.nx ≠ 0)
  | .vp => o.turbAdve && decide (o.ny ≠ 0)
  | .wp => (o.turbAdve && decide (o.nz ≠ 0)) || o.turbCond
  | .incloud => o.incloudTime
  | .rd2insol => o.ice
  | .iceA => o.ice
  | .iceC => o.ice
  | .iceRho => o.ice
  | .tFreeze => o.ice && !o.timeDepNucl
  | .chem => o.chem

/-- an object: number of super-droplets and contents of the arrays -/
structure St where
  n : ℕ
  a : Arr → List ℝ

/-- before `init`: no super-droplets, all arrays empty -/
def St.empty : St := ⟨0, fun _ => []⟩

/-- events in the life of an object -/
inductive Ev where
  /-- `hskpng_resize_npart` (hskpng_resize.ipp:10-24) with the new number of super-droplets; `v` is the initial value of the entries -/
  | resize (n : ℕ) (v : Arr → ℝ)
  /-- values computed or permuted, sizes kept -/
  | write (f : Arr → List ℝ → List ℝ)

/-- the sizes are kept by `f` -/
def Ev.Ok : Ev → Prop
  | .resize _ _ => True
  | .write f => ∀ r l, (f r l).length = l.length

/-- effect of an event -/
def step (o : Opts) (s : St) : Ev → St
  | .resize n v => ⟨n, fun r => if resized o r then (s.a r).take n ++ List.replicate (n - (s.a r).length) (v r) else s.a r⟩
  | .write f => ⟨s.n, fun r => f r (s.a r)⟩

/-- objects that can occur -/
def Reach (o : Opts) (s : St) : Prop := ∃ evs : List Ev, (∀ e ∈ evs, e.Ok) ∧ s = evs.foldl (step o) St.empty

/-- `attr_names` (fill_outbuf.ipp:42) -/
def attrNames : List String := ["rw2", "rd3", "kappa", "rd2_insol", "T_freeze", "ice_a", "ice_c", "ice_rho", "x", "y", "z"]

/-- the nested conditionals choosing the array (fill_outbuf.ipp:56-66) -/
def chosen (name : String) : Arr :=
  if name = "rw2" then .rw2 else if name = "rd3" then .rd3 else if name = "kappa" then .kpa else if name = "rd2_insol" then .rd2insol
  else if name = "T_freeze" then .tFreeze else if name = "ice_a" then .iceA else if name = "ice_c" then .iceC
  else if name = "ice_rho" then .iceRho else if name = "x" then .x else if name = "y" then .y else .z

/-- `thrust::copy(dv.begin(), dv.end(), out.begin())` into a vector of `n` zeros (fill_outbuf.ipp:70-74) -/
def copyOut (n : ℕ) (l : List ℝ) : Out (List ℝ) :=
  if l.length ≤ n then .ok (l ++ List.replicate (n - l.length) 0) else .ub

/-- `get_attr` (particles_ctor.ipp:94-98, fill_outbuf.ipp:39-77) -/
def getAttr (o : Opts) (s : St) (name : String) : Out (List ℝ) :=
  if name ∉ attrNames then .throw
  else if o.ice = false ∧ (name = "ice_a" ∨ name = "ice_c" ∨ name = "ice_rho" ∨ name = "rd2_insol" ∨ name = "T_freeze") then .throw
  else if o.timeDepNucl = true ∧ name = "T_freeze" then .throw
  else copyOut s.n (s.a (chosen name))

/-- diagnostics reading arrays: selections and moments (particles_diag.ipp:227-490, 643-650) -/
inductive Call where
  | dryRng | wetRng | iceARng | iceCRng | kappaRng | iceSel | waterSel
  | dryMom | wetMom | iceAMom | iceCMom | iceMix | kappaMom | upMom | vpMom | wpMom | incloudMom | chemMass
  deriving DecidableEq

/-- what a call does before reading: throw (`some false`), return without doing anything (`none`), or go on reading the listed arrays -/
inductive Plan where
  | throws
  | nothing
  | reads (l : List Arr)

/-- the checks and the arrays read (particles_diag.ipp:227-300, 409-490, 643-650) -/
def plan (o : Opts) : Call → Plan
  | .dryRng => .reads [.rd3]
  | .wetRng => .reads [.rw2]
  | .kappaRng => .reads [.kpa]
  | .waterSel => .reads [.rw2]
  | .iceARng => if o.ice = false then .throws else .reads [.iceA]
  | .iceCRng => if o.ice = false then .throws else .reads [.iceC]
  | .iceSel => if o.ice = false then .throws else .reads [.iceA]
  | .dryMom => .reads [.rd3]
  | .wetMom => .reads [.rw2]
  | .iceAMom => if o.ice = false then .throws else .reads [.iceA]
  | .iceCMom => if o.ice = false then .throws else .reads [.iceC]
  | .iceMix => if o.ice = false then .throws else .reads [.iceA, .iceC, .iceRho]
  | .kappaMom => .reads [.kpa]
  | .upMom => .reads [.up]
  | .vpMom => .reads [.vp]
  | .wpMom => .reads [.wp]
  | .incloudMom => if o.incloudTime then .reads [.incloud] else .nothing
  | .chemMass => if o.chem = false then .throws else .reads [.chem]

/-- entries `0 .. n - 1` of every array are read (moms.ipp:60-110, 288-308: through `sorted_id`, or from `begin` over all multiplicities) -/
def access (o : Opts) (s : St) (c : Call) : Out Unit :=
  match plan o c with
  | .throws => .throw
  | .nothing => .ok ()
  | .reads l => if ∀ r ∈ l, s.n ≤ (s.a r).length then .ok () else .ub

/-! ### Sizes -/

theorem sizes {o : Opts} {s : St} (h : Reach o s) (r : Arr) : (s.a r).length = if resized o r then s.n else 0 := by
  obtain ⟨evs, hok, rfl⟩ := h
  have key : ∀ (evs : List Ev) (s : St), (∀ e ∈ evs, e.Ok) → (∀ r, (s.a r).length = if resized o r then s.n else 0) →
      ∀ r, ((evs.foldl (step o) s).a r).length = if resized o r then (evs.foldl (step o) s).n else 0 := by
    intro evs
    induction evs with
    | nil => intro s _ hs; exact hs
    | cons e l ih =>
      intro s hok hs
      refine ih _ (fun e he => hok e (List.mem_cons_of_mem _ he)) (fun r => ?_)
      cases e with
      | resize n v =>
        unfold step
        simp only []
        split_ifs with hr
        · rw [List.length_append, List.length_take, List.length_replicate]
          omega
        · rw [hs r, if_neg hr]
      | write f =>
        have := hok (.write f) (List.mem_cons_self ..) r (s.a r)
        unfold step
        simp only []
        rw [this, hs r]
  exact key evs St.empty hok (fun r => by simp [St.empty]) r

/-! ### Specification -/

/-- what is asked for by a name -/
inductive Meaning where
  | attribute (r : Arr)
  | coordinate (r : Arr)

/-- Specification: the documented names -/
def meaning : String → Option Meaning
  | "rw2" => some (.attribute .rw2)
  | "rd3" => some (.attribute .rd3)
  | "kappa" => some (.attribute .kpa)
  | "rd2_insol" => some (.attribute .rd2insol)
  | "T_freeze" => some (.attribute .tFreeze)
  | "ice_a" => some (.attribute .iceA)
  | "ice_c" => some (.attribute .iceC)
  | "ice_rho" => some (.attribute .iceRho)
  | "x" => some (.coordinate .x)
  | "y" => some (.coordinate .y)
  | "z" => some (.coordinate .z)
  | _ => none

/-- Specification: attributes that only exist in some set-ups -/
def Exists (o : Opts) : Arr → Prop
  | .rd2insol | .iceA | .iceC | .iceRho => o.ice = true
  | .tFreeze => o.ice = true ∧ o.timeDepNucl = false
  | .x => 0 < o.nx
  | .y => 0 < o.ny
  | .z => 0 < o.nz
  | _ => True

theorem meaning_none {name : String} (h : name ∉ attrNames) : meaning name = none := by
  unfold meaning
  split <;> first | rfl | (exfalso; apply h; decide)

/-- **C86 (`get_attr`).** In every state an object can reach, `get_attr` throws for unknown names and for attributes which do not exist in the
chosen set-up; otherwise it returns one value per super-droplet, in the order of super-droplets, namely those stored; for the coordinate of a
dimension that is not there, zeros.  It never reads or writes outside of an array. -/
theorem get_attr (o : Opts) (s : St) (h : Reach o s) (name : String) :
    match meaning name with
    | none => getAttr o s name = .throw
    | some (.attribute r) => (Exists o r → getAttr o s name = .ok (s.a r) ∧ (s.a r).length = s.n) ∧ (¬ Exists o r → getAttr o s name = .throw)
    | some (.coordinate r) => (Exists o r → getAttr o s name = .ok (s.a r) ∧ (s.a r).length = s.n) ∧
        (¬ Exists o r → getAttr o s name = .ok (List.replicate s.n 0)) := by
  have hs := sizes h
  have full : ∀ r, resized o r = true → copyOut s.n (s.a r) = .ok (s.a r) ∧ (s.a r).length = s.n := by
    intro r hr
    have := hs r
    rw [if_pos hr] at this
    refine ⟨?_, this⟩
    unfold copyOut
    rw [if_pos this.le, this, Nat.sub_self]
    simp
  have zero : ∀ r, resized o r = false → copyOut s.n (s.a r) = .ok (List.replicate s.n 0) := by
    intro r hr
    have := hs r
    rw [if_neg (by rw [hr]; simp)] at this
    rw [List.length_eq_zero_iff] at this
    rw [this]
    simp [copyOut]
  by_cases hn : name ∈ attrNames
  · simp only [attrNames, List.mem_cons, List.not_mem_nil, or_false] at hn
    rcases hn with rfl | rfl | rfl | rfl | rfl | rfl | rfl | rfl | rfl | rfl | rfl
    · exact ⟨fun _ => by simpa [getAttr, attrNames, chosen] using full .rw2 rfl, fun h => absurd trivial h⟩
    · exact ⟨fun _ => by simpa [getAttr, attrNames, chosen] using full .rd3 rfl, fun h => absurd trivial h⟩
    · exact ⟨fun _ => by simpa [getAttr, attrNames, chosen] using full .kpa rfl, fun h => absurd trivial h⟩
    · refine ⟨fun (he : o.ice = true) => ?_, fun (he : ¬ o.ice = true) => ?_⟩
      · simpa [getAttr, attrNames, chosen, he] using full .rd2insol he
      · simp [getAttr, attrNames, he]
    · refine ⟨fun (he : o.ice = true ∧ o.timeDepNucl = false) => ?_, fun (he : ¬ (o.ice = true ∧ o.timeDepNucl = false)) => ?_⟩
      · have := full .tFreeze (by simp [resized, he.1, he.2])
        simpa [getAttr, attrNames, chosen, he.1, he.2] using this
      · by_cases h1 : o.ice = true
        · have h2 : o.timeDepNucl = true := by
            by_contra h2
            exact he ⟨h1, by simpa using h2⟩
          simp [getAttr, attrNames, h1, h2]
        · simp [getAttr, attrNames, h1]
    · refine ⟨fun (he : o.ice = true) => ?_, fun (he : ¬ o.ice = true) => ?_⟩
      · simpa [getAttr, attrNames, chosen, he] using full .iceA he
      · simp [getAttr, attrNames, he]
    · refine ⟨fun (he : o.ice = true) => ?_, fun (he : ¬ o.ice = true) => ?_⟩
      · simpa [getAttr, attrNames, chosen, he] using full .iceC he
      · simp [getAttr, attrNames, he]
    · refine ⟨fun (he : o.ice = true) => ?_, fun (he : ¬ o.ice = true) => ?_⟩
      · simpa [getAttr, attrNames, chosen, he] using full .iceRho he
      · simp [getAttr, attrNames, he]
    · refine ⟨fun (he : 0 < o.nx) => ?_, fun (he : ¬ 0 < o.nx) => ?_⟩
      · simpa [getAttr, attrNames, chosen] using full .x (by simp [resized]; omega)
      · simpa [getAttr, attrNames, chosen] using zero .x (by simp [resized]; omega)
    · refine ⟨fun (he : 0 < o.ny) => ?_, fun (he : ¬ 0 < o.ny) => ?_⟩
      · simpa [getAttr, attrNames, chosen] using full .y (by simp [resized]; omega)
      · simpa [getAttr, attrNames, chosen] using zero .y (by simp [resized]; omega)
    · refine ⟨fun (he : 0 < o.nz) => ?_, fun (he : ¬ 0 < o.nz) => ?_⟩
      · simpa [getAttr, attrNames, chosen] using full .z (by simp [resized]; omega)
      · simpa [getAttr, attrNames, chosen] using zero .z (by simp [resized]; omega)
  · rw [meaning_none hn]
    simp [getAttr, hn]

/-- Specification: what a diagnostic needs to be meaningful -/
def Needs (o : Opts) : Call → Prop
  | .iceARng | .iceCRng | .iceSel | .iceAMom | .iceCMom | .iceMix => o.ice = true
  | .chemMass => o.chem = true
  | .incloudMom => o.incloudTime = true
  | .upMom => o.turbAdve = true ∧ 0 < o.nx
  | .vpMom => o.turbAdve = true ∧ 0 < o.ny
  | .wpMom => (o.turbAdve = true ∧ 0 < o.nz) ∨ o.turbCond = true
  | _ => True

/-- **C86 (diagnostics, safe where meaningful).** In every state an object can reach, a diagnostic which is meaningful in the chosen set-up reads
nothing outside of its arrays and does not throw. -/
theorem meaningful_ok (o : Opts) (s : St) (h : Reach o s) (c : Call) (hn : Needs o c) : access o s c = .ok () := by
  have hs := sizes h
  have full : ∀ r, resized o r = true → s.n ≤ (s.a r).length := by
    intro r hr; rw [hs r, if_pos hr]
  have one : ∀ r, resized o r = true → (∀ r' ∈ [r], s.n ≤ (s.a r').length) := by
    intro r hr r' h'
    rw [List.mem_singleton] at h'
    rw [h']; exact full r hr
  cases c with
  | dryRng => simp only [access, plan]; rw [if_pos (one _ rfl)]
  | wetRng => simp only [access, plan]; rw [if_pos (one _ rfl)]
  | kappaRng => simp only [access, plan]; rw [if_pos (one _ rfl)]
  | waterSel => simp only [access, plan]; rw [if_pos (one _ rfl)]
  | dryMom => simp only [access, plan]; rw [if_pos (one _ rfl)]
  | wetMom => simp only [access, plan]; rw [if_pos (one _ rfl)]
  | kappaMom => simp only [access, plan]; rw [if_pos (one _ rfl)]
  | iceARng =>
    have hn : o.ice = true := hn
    simp only [access, plan, hn, Bool.true_eq_false, if_false]; rw [if_pos (one .iceA hn)]
  | iceCRng =>
    have hn : o.ice = true := hn
    simp only [access, plan, hn, Bool.true_eq_false, if_false]; rw [if_pos (one .iceC hn)]
  | iceSel =>
    have hn : o.ice = true := hn
    simp only [access, plan, hn, Bool.true_eq_false, if_false]; rw [if_pos (one .iceA hn)]
  | iceAMom =>
    have hn : o.ice = true := hn
    simp only [access, plan, hn, Bool.true_eq_false, if_false]; rw [if_pos (one .iceA hn)]
  | iceCMom =>
    have hn : o.ice = true := hn
    simp only [access, plan, hn, Bool.true_eq_false, if_false]; rw [if_pos (one .iceC hn)]
  | iceMix =>
    have hn : o.ice = true := hn
    simp only [access, plan, hn, Bool.true_eq_false, if_false]
    rw [if_pos]
    intro r hr
    simp only [List.mem_cons, List.not_mem_nil, or_false] at hr
    rcases hr with rfl | rfl | rfl
    · exact full .iceA hn
    · exact full .iceC hn
    · exact full .iceRho hn
  | chemMass =>
    have hn : o.chem = true := hn
    simp only [access, plan, hn, Bool.true_eq_false, if_false]; rw [if_pos (one .chem hn)]
  | incloudMom =>
    have hn : o.incloudTime = true := hn
    simp only [access, plan, hn, if_true]; rw [if_pos (one .incloud hn)]
  | upMom =>
    obtain ⟨h1, h2⟩ : o.turbAdve = true ∧ 0 < o.nx := hn
    simp only [access, plan]; rw [if_pos (one .up (by simp [resized, h1]; omega))]
  | vpMom =>
    obtain ⟨h1, h2⟩ : o.turbAdve = true ∧ 0 < o.ny := hn
    simp only [access, plan]; rw [if_pos (one .vp (by simp [resized, h1]; omega))]
  | wpMom =>
    have hn : (o.turbAdve = true ∧ 0 < o.nz) ∨ o.turbCond = true := hn
    simp only [access, plan]
    rw [if_pos (one .wp (by
      simp only [resized, Bool.or_eq_true, Bool.and_eq_true, decide_eq_true_eq]
      rcases hn with ⟨h1, h2⟩ | h
      · exact Or.inl ⟨h1, by omega⟩
      · exact Or.inr h))]

/-- **C86 (diagnostics without meaning, partial).** A diagnostic which makes no sense in the chosen set-up throws - except moments of the
turbulent velocities and of the in-cloud time, see `turbulent_moments_ub` and `incloud_silent`. -/
theorem meaningless_throws_partial (o : Opts) (s : St) (c : Call) (hn : ¬ Needs o c)
    (hc : c ≠ .upMom ∧ c ≠ .vpMom ∧ c ≠ .wpMom ∧ c ≠ .incloudMom) : access o s c = .throw := by
  cases c <;> simp_all [Needs, access, plan]

/-- **C86 (finding).** Moments of turbulent velocities that are not simulated are computed from an empty array: undefined behaviour as soon as
there is a super-droplet. -/
theorem turbulent_moments_ub (o : Opts) (s : St) (h : Reach o s) (h0 : 0 < s.n) (c : Call) (hc : c = .upMom ∨ c = .vpMom ∨ c = .wpMom)
    (hn : ¬ Needs o c) : access o s c = .ub := by
  have hs := sizes h
  have bad : ∀ r, resized o r = false → ¬ ∀ r' ∈ [r], s.n ≤ (s.a r').length := by
    intro r hr hall
    have := hall r (List.mem_singleton.2 rfl)
    rw [hs r, if_neg (by rw [hr]; simp)] at this
    omega
  rcases hc with rfl | rfl | rfl
  · simp only [access, plan]
    rw [if_neg (bad .up _)]
    simp only [Needs, not_and, not_lt] at hn
    by_cases h1 : o.turbAdve = true
    · simp [resized, h1, Nat.le_zero.1 (hn h1)]
    · simp [resized, h1]
  · simp only [access, plan]
    rw [if_neg (bad .vp _)]
    simp only [Needs, not_and, not_lt] at hn
    by_cases h1 : o.turbAdve = true
    · simp [resized, h1, Nat.le_zero.1 (hn h1)]
    · simp [resized, h1]
  · simp only [access, plan]
    rw [if_neg (bad .wp _)]
    simp only [Needs, not_or, not_and, not_lt] at hn
    by_cases h1 : o.turbAdve = true
    · simp [resized, h1, Nat.le_zero.1 (hn.1 h1), hn.2]
    · simp [resized, h1, hn.2]

/-- **C86 (finding).** In a release build asking for in-cloud times which are not recorded does nothing: `outbuf()` then returns the previous
result once more. -/
theorem incloud_silent (o : Opts) (s : St) (hn : o.incloudTime = false) : access o s .incloudMom = .ok () ∧ plan o .incloudMom = .nothing := by
  simp [access, plan, hn]

/-! ### Examples -/

/-- 2D, liquid water only, no turbulence -/
def exOpts : Opts := ⟨2, 0, 2, false, false, false, false, false, false⟩
/-- two super-droplets -/
def exEvs : List Ev := [.resize 2 (fun _ => 0), .write (fun r l => if r = .rd3 then l.map (fun _ => 7) else l)]

theorem exReach : Reach exOpts (exEvs.foldl (step exOpts) St.empty) := by
  refine ⟨exEvs, ?_, rfl⟩
  intro e he
  simp only [exEvs, List.mem_cons, List.not_mem_nil, or_false] at he
  rcases he with rfl | rfl
  · trivial
  · intro r l; beta_reduce; split_ifs <;> simp

example : getAttr exOpts (exEvs.foldl (step exOpts) St.empty) "rd3" = .ok [7, 7] ∧
    getAttr exOpts (exEvs.foldl (step exOpts) St.empty) "y" = .ok [0, 0] ∧
    getAttr exOpts (exEvs.foldl (step exOpts) St.empty) "ice_a" = .throw ∧
    getAttr exOpts (exEvs.foldl (step exOpts) St.empty) "n" = .throw ∧
    access exOpts (exEvs.foldl (step exOpts) St.empty) .upMom = .ub := by
  refine ⟨?_, ?_, ?_, ?_, ?_⟩
  · simp [getAttr, attrNames, chosen, copyOut, exEvs, step, exOpts, resized, St.empty, List.replicate]
  · simp [getAttr, attrNames, chosen, copyOut, exEvs, step, exOpts, resized, St.empty]
  · simp [getAttr, attrNames, exOpts]
  · simp [getAttr, attrNames]
  · exact turbulent_moments_ub _ _ exReach (by simp [exEvs, step]) _ (Or.inl rfl) (by simp [Needs, exOpts])

end LCP.Attr
