import Verif.Icicle.OutOpts
import Mathlib.Data.Nat.Digits.Defs
import Mathlib.Data.List.Induction

/-! # Which output options are understood, and as what (C122) -/
namespace LCP.Icicle

/-! ### Specification: the documented notation -/

/-- strings joined with a separator -/
def joinWith (c : Char) : List (List Char) → List Char
  | [] => []
  | x :: l => x ++ (l.map (c :: ·)).flatten

/-- a decimal integer with an optional sign, in the range of `int` -/
def IsInt (s : List Char) (v : ℤ) : Prop :=
  ∃ ds, ds ≠ [] ∧ (∀ c ∈ ds, c.isDigit = true) ∧ -2147483648 ≤ v ∧ v ≤ 2147483647 ∧
    ((s = ds ∨ s = '+' :: ds) ∧ v = (Nat.ofDigits 10 (ds.reverse.map fun c => c.toNat - '0'.toNat) : ℕ) ∨
      s = '-' :: ds ∧ v = -(Nat.ofDigits 10 (ds.reverse.map fun c => c.toNat - '0'.toNat) : ℕ))

/-- one range as the user writes it: the two radii and the numbers of moments -/
structure Written where
  r1 : List Char
  r2 : List Char
  ns : List (List Char)

/-- r1:r2|n1,n2,... -/
def Written.str (w : Written) : List Char := w.r1 ++ ':' :: (w.r2 ++ '|' :: joinWith ',' w.ns)

/-- what it means -/
structure Written.Means (lc : List Char → Option ℝ) (w : Written) (e : OutMom) : Prop where
  r1 : lc w.r1 = some e.r1
  r2 : lc w.r2 = some e.r2
  some : w.ns ≠ []
  ns : List.Forall₂ IsInt w.ns e.moms

/-- the ranges joined with ';', with or without a ';' at the end; blanks anywhere -/
def Documented (ws : List Written) (s : List Char) : Prop :=
  s.filter (fun c => !isBlank c) = joinWith ';' (ws.map Written.str) ∨ (ws ≠ [] ∧ s.filter (fun c => !isBlank c) = joinWith ';' (ws.map Written.str) ++ [';'])

/-! ### Integers -/

theorem digitsVal_eq (l : List Char) : digitsVal l = Nat.ofDigits 10 (l.reverse.map fun c => c.toNat - '0'.toNat) := by
  induction l using List.reverseRecOn with
  | nil => rfl
  | append_singleton l c ih =>
    unfold digitsVal at *
    rw [List.foldl_append, List.reverse_append]
    simp only [List.foldl_cons, List.foldl_nil, List.reverse_cons, List.reverse_nil, List.nil_append, List.cons_append, List.map_cons, Nat.ofDigits_cons]
    rw [ih]
    have : '0'.toNat = 48 := rfl
    rw [this]; ring

theorem takeWhile_append_of {p : Char → Bool} {ds r : List Char} (h : ∀ c ∈ ds, p c = true) (hr : ∀ c, r.head? = some c → p c = false) :
    (ds ++ r).takeWhile p = ds ∧ (ds ++ r).dropWhile p = r := by
  induction ds with
  | nil =>
    cases r with
    | nil => simp
    | cons a r => simp [hr a rfl]
  | cons a ds ih =>
    have := ih (fun c hc => h c (by simp [hc]))
    simp [h a (by simp), this]

/-- an integer is read up to the first character that is not a digit -/
theorem intTok_iff (l : List Char) (v : ℤ) (r : List Char) :
    intTok l = some (v, r) ↔ ∃ s, IsInt s v ∧ l = s ++ r ∧ ∀ c, r.head? = some c → c.isDigit = false := by
  constructor
  · intro h
    unfold intTok at h
    dsimp only at h
    obtain ⟨t, ht⟩ : ∃ t, t = if l.head? = some '-' ∨ l.head? = some '+' then l.tail else l := ⟨_, rfl⟩
    rw [← ht] at h
    rw [Option.ite_none_right_eq_some] at h
    obtain ⟨hc, h⟩ := h
    simp only [Option.some.injEq, Prod.mk.injEq] at h
    obtain ⟨hv, hr⟩ := h
    have hh : ∀ c, r.head? = some c → c.isDigit = false := by
      intro c hc
      rw [← hr] at hc
      have := List.head?_dropWhile_not Char.isDigit t
      rw [hc] at this
      simpa using this
    have hd : ∀ c ∈ t.takeWhile Char.isDigit, c.isDigit = true := fun c hc => by
      have := List.mem_takeWhile_imp hc
      simpa using this
    have ht' : t = t.takeWhile Char.isDigit ++ r := by rw [← hr, List.takeWhile_append_dropWhile]
    obtain ⟨hne, h1, h2⟩ := hc
    rw [hv] at h1 h2
    rw [digitsVal_eq] at hv
    by_cases hm : l.head? = some '-'
    · rw [if_pos (Or.inl hm)] at ht
      rw [if_pos hm] at hv
      obtain ⟨l', rfl⟩ : ∃ l', l = '-' :: l' := by
        cases l with
        | nil => simp at hm
        | cons a l' => simp at hm; exact ⟨l', by rw [hm]⟩
      simp only [List.tail_cons] at ht
      subst ht
      exact ⟨'-' :: t.takeWhile Char.isDigit, ⟨_, hne, hd, by omega, by omega, Or.inr ⟨rfl, hv.symm⟩⟩, congrArg _ ht', hh⟩
    · rw [if_neg hm] at hv
      by_cases hp : l.head? = some '+'
      · rw [if_pos (Or.inr hp)] at ht
        obtain ⟨l', rfl⟩ : ∃ l', l = '+' :: l' := by
          cases l with
          | nil => simp at hp
          | cons a l' => simp at hp; exact ⟨l', by rw [hp]⟩
        simp only [List.tail_cons] at ht
        subst ht
        exact ⟨'+' :: t.takeWhile Char.isDigit, ⟨_, hne, hd, by omega, by omega, Or.inl ⟨Or.inr rfl, hv.symm⟩⟩, congrArg _ ht', hh⟩
      · rw [if_neg (by simp [hm, hp])] at ht
        rw [ht] at *
        exact ⟨l.takeWhile Char.isDigit, ⟨_, hne, hd, by omega, by omega, Or.inl ⟨Or.inl rfl, hv.symm⟩⟩, ht', hh⟩
  · rintro ⟨s, ⟨ds, hne, hd, b1, b2, hs⟩, rfl, hr⟩
    rw [← digitsVal_eq] at hs
    obtain ⟨t1, t2⟩ := takeWhile_append_of hd hr
    obtain ⟨a, ds', rfl⟩ := List.exists_cons_of_ne_nil hne
    have ha : a.isDigit = true := hd a (by simp)
    rcases hs with ⟨rfl | rfl, hv⟩ | ⟨rfl, hv⟩
    · have h1 : a ≠ '-' := by rintro rfl; exact absurd ha (by decide)
      have h2 : a ≠ '+' := by rintro rfl; exact absurd ha (by decide)
      have e1 : (a :: ds' ++ r).head? = some a := rfl
      unfold intTok
      dsimp only
      rw [e1]
      simp only [Option.some.injEq, h1, h2, or_self, if_false]
      rw [t1, t2, ← hv, if_pos ⟨by simp, by omega, by omega⟩]
    · have e1 : ('+' :: (a :: ds') ++ r).head? = some '+' := rfl
      have e2 : ('+' :: (a :: ds') ++ r).tail = a :: ds' ++ r := rfl
      unfold intTok
      dsimp only
      rw [e1, e2]
      simp only [Option.some.injEq, show ('+' = '-') = False by simp, or_true, if_true, if_false]
      rw [t1, t2, ← hv, if_pos ⟨by simp, by omega, by omega⟩]
    · have e1 : ('-' :: (a :: ds') ++ r).head? = some '-' := rfl
      have e2 : ('-' :: (a :: ds') ++ r).tail = a :: ds' ++ r := rfl
      unfold intTok
      dsimp only
      rw [e1, e2]
      simp only [true_or, if_true]
      rw [t1, t2, ← hv, if_pos ⟨by simp, by omega, by omega⟩]

/-- characters of an integer -/
theorem IsInt.chars {s : List Char} {v : ℤ} (h : IsInt s v) : s ≠ [] ∧ ∀ c ∈ s, c.isDigit = true ∨ c = '+' ∨ c = '-' := by
  obtain ⟨ds, hne, hd, -, -, (⟨rfl | rfl, -⟩ | ⟨rfl, -⟩)⟩ := h
  · exact ⟨hne, fun c hc => Or.inl (hd c hc)⟩
  · refine ⟨by simp, fun c hc => ?_⟩
    rcases List.mem_cons.1 hc with rfl | hc
    · exact Or.inr (Or.inl rfl)
    · exact Or.inl (hd c hc)
  · refine ⟨by simp, fun c hc => ?_⟩
    rcases List.mem_cons.1 hc with rfl | hc
    · exact Or.inr (Or.inr rfl)
    · exact Or.inl (hd c hc)

theorem moreInts_nil : moreInts [] = ([], []) := by unfold moreInts; rfl

theorem moreInts_comma (t : List Char) : moreInts (',' :: t) = match intTok t with
    | none => ([], ',' :: t)
    | some (v, r) => (v :: (moreInts r).1, (moreInts r).2) := by
  rw [moreInts]
  split <;> next h => simp only [h]

/-- integers, each after a comma -/
theorem moreInts_iff : ∀ (l : List Char) (vs : List ℤ), moreInts l = (vs, []) ↔ ∃ ns, List.Forall₂ IsInt ns vs ∧ l = (ns.map (',' :: ·)).flatten := by
  intro l
  induction hn : l.length using Nat.strong_induction_on generalizing l with
  | _ n ih =>
  intro vs
  constructor
  · intro h
    match l, hn, h with
    | [], _, h =>
      rw [moreInts_nil] at h
      simp only [Prod.mk.injEq, and_true] at h
      rw [← h]
      exact ⟨[], .nil, rfl⟩
    | a :: t, hn, h =>
      by_cases ha : a = ','
      swap
      · unfold moreInts at h
        split at h
        next _ e => simp at e; exact absurd e.1 ha
        · simp at h
      subst ha
      rw [moreInts_comma] at h
      split at h
      · simp at h
      next v r he =>
      simp only [Prod.mk.injEq] at h
      obtain ⟨rfl, h2⟩ := h
      have hl := intTok_le he
      obtain ⟨s, hs, rfl, -⟩ := (intTok_iff _ _ _).1 he
      obtain ⟨ns, f, e⟩ := (ih r.length (by simp at hn hl ⊢; omega) r rfl _).1 (Prod.ext rfl h2 : moreInts r = ((moreInts r).1, []))
      exact ⟨s :: ns, .cons hs f, by simp [← e]⟩
  · rintro ⟨ns, f, rfl⟩
    cases f with
    | nil => simp [moreInts_nil]
    | @cons s v ns vs hs f =>
      simp only [List.map_cons, List.flatten_cons, List.cons_append]
      obtain ⟨r, hr⟩ : ∃ r, r = (ns.map (',' :: ·)).flatten := ⟨_, rfl⟩
      rw [← hr]
      have ht : intTok (s ++ r) = some (v, r) := by
        rw [intTok_iff]
        refine ⟨s, hs, rfl, fun c hc => ?_⟩
        rw [hr] at hc
        cases ns with
        | nil => simp at hc
        | cons a ns => simp at hc; rw [← hc]; decide
      have i := (ih r.length (by rw [← hn]; simp [← hr]; omega) r rfl vs).2 ⟨ns, f, hr⟩
      rw [moreInts_comma, ht]
      simp only [i]

/-- the numbers of moments: integers separated by commas, nothing else -/
theorem nums_iff (l : List Char) (vs : List ℤ) : nums l = some vs ↔ ∃ ns, ns ≠ [] ∧ List.Forall₂ IsInt ns vs ∧ l = joinWith ',' ns := by
  constructor
  · intro h
    unfold nums at h
    split at h
    · cases h
    next v r he =>
    split at h
    swap
    · cases h
    next h2 =>
    simp only [Option.some.injEq] at h
    obtain ⟨s, hs, rfl, -⟩ := (intTok_iff _ _ _).1 he
    obtain ⟨ns, f, e⟩ := (moreInts_iff r _).1 (Prod.ext rfl h2 : moreInts r = ((moreInts r).1, []))
    rw [← h]
    exact ⟨s :: ns, by simp, .cons hs f, by rw [e]; rfl⟩
  · rintro ⟨ns, hne, f, rfl⟩
    cases f with
    | nil => exact absurd rfl hne
    | @cons s v ns vs hs f =>
      have i := (moreInts_iff _ vs).2 ⟨ns, f, rfl⟩
      have ht : intTok (joinWith ',' (s :: ns)) = some (v, (ns.map (',' :: ·)).flatten) := by
        rw [intTok_iff]
        refine ⟨s, hs, rfl, fun c hc => ?_⟩
        cases ns with
        | nil => simp at hc
        | cons a ns => simp at hc; rw [← hc]; decide
      unfold nums
      rw [ht]
      simp [i]

/-! ### Groups -/

/-- pairs of strings separated by ':' -/
def pairStr (p : List Char × List Char) : List Char := p.1 ++ ':' :: p.2

theorem group_some {a b r : List Char} (ha : ':' ∉ a) (hb : ';' ∉ b) (hr : r = [] ∨ r.head? = some ';') : group (pairStr (a, b) ++ r) = some ((a, b), r.tail) := by
  obtain ⟨h1, h2⟩ := takeWhile_append_of (p := fun c => decide (c ≠ ':')) (ds := a) (r := ':' :: (b ++ r)) (fun c hc => by
    simp only [ne_eq, decide_not, Bool.not_eq_eq_eq_not, Bool.not_true, decide_eq_false_iff_not]
    rintro rfl; exact ha hc) (fun c hc => by simp at hc; simp [← hc])
  obtain ⟨h3, h4⟩ := takeWhile_append_of (p := fun c => decide (c ≠ ';')) (ds := b) (r := r) (fun c hc => by
    simp only [ne_eq, decide_not, Bool.not_eq_eq_eq_not, Bool.not_true, decide_eq_false_iff_not]
    rintro rfl; exact hb hc) (fun c hc => by
      rcases hr with rfl | h
      · simp at hc
      · rw [h] at hc; simp at hc; simp [← hc])
  have e : pairStr (a, b) ++ r = a ++ ':' :: (b ++ r) := by simp [pairStr]
  unfold group
  rw [e, h2]
  simp only
  rw [h1, h3, h4]

theorem group_inv {l a b r : List Char} (h : group l = some ((a, b), r)) : ':' ∉ a ∧ ';' ∉ b ∧ (l = pairStr (a, b) ∧ r = [] ∨ l = pairStr (a, b) ++ ';' :: r) := by
  unfold group at h
  split at h
  · cases h
  next c r' e =>
  simp only [Option.some.injEq, Prod.mk.injEq] at h
  obtain ⟨⟨rfl, rfl⟩, rfl⟩ := h
  have hc : c = ':' := by
    have := List.head?_dropWhile_not (fun c => decide (c ≠ ':')) l
    rw [e] at this
    simpa using this
  subst hc
  have h1 : l = l.takeWhile (· ≠ ':') ++ ':' :: r' := by rw [← e, List.takeWhile_append_dropWhile]
  refine ⟨fun hm => ?_, fun hm => ?_, ?_⟩
  · have := List.mem_takeWhile_imp hm; simp at this
  · have := List.mem_takeWhile_imp hm; simp at this
  · have h2 : r' = r'.takeWhile (· ≠ ';') ++ r'.dropWhile (· ≠ ';') := (List.takeWhile_append_dropWhile).symm
    cases hd : r'.dropWhile (· ≠ ';') with
    | nil =>
      left
      rw [hd, List.append_nil] at h2
      refine ⟨?_, rfl⟩
      unfold pairStr
      rw [← h2]; exact h1
    | cons c t =>
      right
      have hc : c = ';' := by
        have := List.head?_dropWhile_not (fun c => decide (c ≠ ';')) r'
        rw [hd] at this
        simpa using this
      subst hc
      rw [hd] at h2
      simp only [List.tail_cons, pairStr, List.append_assoc, List.cons_append]
      rw [← h2]; exact h1

theorem groups_nil : groups [] = ([], []) := by
  unfold groups
  split
  · rfl
  next h => simp [group] at h

/-- pairs joined with ';' -/
def pairsStr (ps : List (List Char × List Char)) : List Char := joinWith ';' (ps.map pairStr)

theorem pairsStr_cons (p : List Char × List Char) (q : List Char × List Char) (ps : List (List Char × List Char)) :
    pairsStr (p :: q :: ps) = pairStr p ++ ';' :: pairsStr (q :: ps) := by
  simp [pairsStr, joinWith]

theorem groups_iff : ∀ (l : List Char) (ps : List (List Char × List Char)),
    groups l = (ps, []) ↔ (∀ p ∈ ps, ':' ∉ p.1 ∧ ';' ∉ p.2) ∧ (l = pairsStr ps ∨ ps ≠ [] ∧ l = pairsStr ps ++ [';']) := by
  intro l
  induction hn : l.length using Nat.strong_induction_on generalizing l with
  | _ n ih =>
  intro ps
  constructor
  · intro h
    unfold groups at h
    split at h
    · simp only [Prod.mk.injEq] at h
      obtain ⟨rfl, rfl⟩ := h
      exact ⟨by simp, Or.inl rfl⟩
    next p r he =>
    simp only [Prod.mk.injEq] at h
    obtain ⟨rfl, h2⟩ := h
    obtain ⟨h3, h4, h5⟩ := group_inv he
    obtain ⟨i1, i2⟩ := (ih r.length (by rw [← hn]; exact group_lt he) r rfl _).1 (Prod.ext rfl h2 : groups r = ((groups r).1, []))
    refine ⟨fun q hq => ?_, ?_⟩
    · rcases List.mem_cons.1 hq with rfl | hq
      · exact ⟨h3, h4⟩
      · exact i1 q hq
    · rcases h5 with ⟨rfl, rfl⟩ | rfl
      · left
        rw [groups_nil]
        simp [pairsStr, joinWith]
      · cases hg : (groups r).1 with
        | nil =>
          rw [hg] at i2
          right
          rcases i2 with rfl | ⟨h, -⟩
          · refine ⟨by simp, ?_⟩
            simp [pairsStr, joinWith]
          · exact absurd rfl h
        | cons q ps =>
          rw [hg] at i2
          rw [pairsStr_cons]
          rcases i2 with e | ⟨-, e⟩
          · left; rw [← e]
          · right; refine ⟨by simp, ?_⟩
            rw [e]; simp
  · rintro ⟨h1, h2⟩
    cases ps with
    | nil =>
      rcases h2 with rfl | ⟨h, -⟩
      · exact groups_nil
      · exact absurd rfl h
    | cons p ps =>
      have hp := h1 p (by simp)
      obtain ⟨r, hr1, hr2, hr3⟩ : ∃ r, l = pairStr p ++ r ∧ (r = [] ∨ r.head? = some ';') ∧ (r.tail = pairsStr ps ∨ ps ≠ [] ∧ r.tail = pairsStr ps ++ [';']) := by
        cases ps with
        | nil =>
          rcases h2 with rfl | ⟨-, rfl⟩
          · exact ⟨[], by simp [pairsStr, joinWith], Or.inl rfl, Or.inl rfl⟩
          · exact ⟨[';'], by simp [pairsStr, joinWith], Or.inr rfl, Or.inl rfl⟩
        | cons q ps =>
          rw [pairsStr_cons] at h2
          rcases h2 with rfl | ⟨-, rfl⟩
          · exact ⟨_, rfl, Or.inr rfl, Or.inl rfl⟩
          · exact ⟨';' :: (pairsStr (q :: ps) ++ [';']), by simp, Or.inr rfl, Or.inr ⟨by simp, rfl⟩⟩
      have hg : group l = some (p, r.tail) := by rw [hr1]; exact group_some hp.1 hp.2 hr2
      have i := (ih r.tail.length (by rw [← hn]; exact group_lt hg) _ rfl ps).2 ⟨fun q hq => h1 q (by simp [hq]), hr3⟩
      unfold groups
      split
      next h => rw [hg] at h; cases h
      next p' r' h =>
      rw [hg] at h
      simp only [Option.some.injEq, Prod.mk.injEq] at h
      obtain ⟨rfl, rfl⟩ := h
      rw [i]

/-! ### Options -/

/-- real numbers are written without the separators -/
def Numeric (lc : List Char → Option ℝ) : Prop := ∀ s x, lc s = some x → ':' ∉ s ∧ ';' ∉ s ∧ '|' ∉ s

theorem mem_joinWith {c d : Char} {l : List (List Char)} (h : d ∈ joinWith c l) : d = c ∨ ∃ s ∈ l, d ∈ s := by
  cases l with
  | nil => simp [joinWith] at h
  | cons a l =>
    unfold joinWith at h
    rcases List.mem_append.1 h with h | h
    · exact Or.inr ⟨a, by simp, h⟩
    · simp only [List.mem_flatten, List.mem_map] at h
      obtain ⟨_, ⟨s, hs, rfl⟩, h⟩ := h
      rcases List.mem_cons.1 h with rfl | h
      · exact Or.inl rfl
      · exact Or.inr ⟨s, by simp [hs], h⟩

theorem forall₂_left {α β : Type} {R : α → β → Prop} {l : List α} {m : List β} (h : List.Forall₂ R l m) {a : α} (ha : a ∈ l) : ∃ b ∈ m, R a b := by
  induction h with
  | nil => simp at ha
  | @cons x y l m hr _ ih =>
    rcases List.mem_cons.1 ha with rfl | ha
    · exact ⟨y, by simp, hr⟩
    · obtain ⟨b, hb, h⟩ := ih ha
      exact ⟨b, by simp [hb], h⟩

theorem ints_chars {ns : List (List Char)} {vs : List ℤ} (h : List.Forall₂ IsInt ns vs) : ':' ∉ joinWith ',' ns ∧ ';' ∉ joinWith ',' ns ∧ '|' ∉ joinWith ',' ns := by
  have H : ∀ c ∈ joinWith ',' ns, c = ',' ∨ c.isDigit = true ∨ c = '+' ∨ c = '-' := by
    intro c hc
    rcases mem_joinWith hc with rfl | ⟨s, hs, hc⟩
    · exact Or.inl rfl
    · obtain ⟨v, -, hv⟩ := forall₂_left h hs
      exact Or.inr (hv.chars.2 c hc)
  refine ⟨fun h => ?_, fun h => ?_, fun h => ?_⟩ <;> rcases H _ h with h | h | h | h <;> revert h <;> decide

/-- a range written as documented -/
theorem entry_written {lc : List Char → Option ℝ} (hlc : Numeric lc) {w : Written} {e : OutMom} (h : w.Means lc e) :
    entry lc (w.r1, w.r2 ++ '|' :: joinWith ',' w.ns) = some e := by
  have hr := (hlc _ _ h.r2).2.2
  obtain ⟨t1, t2⟩ := takeWhile_append_of (p := fun c => decide (c ≠ '|')) (ds := w.r2) (r := '|' :: joinWith ',' w.ns) (fun c hc => by
    simp only [ne_eq, decide_not, Bool.not_eq_eq_eq_not, Bool.not_true, decide_eq_false_iff_not]
    rintro rfl; exact hr hc) (fun c hc => by simp at hc; simp [← hc])
  have hn := (nums_iff _ _).2 ⟨w.ns, h.some, h.ns, rfl⟩
  unfold entry
  dsimp only
  rw [if_pos (by simp), if_pos (by simp), t1, t2, List.tail_cons, h.r1, h.r2, hn]

/-- **C122 (understood).** Every list of ranges written as documented, with blanks anywhere and with or without a final ';', is understood as it was meant. -/
theorem documented_understood {lc : List Char → Option ℝ} (hlc : Numeric lc) {ws : List Written} {es : List OutMom} (h : List.Forall₂ (Written.Means lc) ws es)
    {s : List Char} (hs : Documented ws s) : parseMoms lc s = some es := by
  obtain ⟨ps, hps⟩ : ∃ ps : List (List Char × List Char), ps = ws.map fun w => (w.r1, w.r2 ++ '|' :: joinWith ',' w.ns) := ⟨_, rfl⟩
  have hstr : joinWith ';' (ws.map Written.str) = pairsStr ps := by
    rw [hps, pairsStr, List.map_map]; rfl
  have hg : groups (s.filter fun c => !isBlank c) = (ps, []) := by
    rw [groups_iff]
    refine ⟨fun p hp => ?_, ?_⟩
    · rw [hps, List.mem_map] at hp
      obtain ⟨w, hw, rfl⟩ := hp
      obtain ⟨e, -, he⟩ := forall₂_left h hw
      refine ⟨(hlc _ _ he.r1).1, fun hm => ?_⟩
      rcases List.mem_append.1 hm with hm | hm
      · exact (hlc _ _ he.r2).2.1 hm
      · rcases List.mem_cons.1 hm with hm | hm
        · revert hm; decide
        · exact (ints_chars he.ns).2.1 hm
    · unfold Documented at hs
      rw [hstr] at hs
      rcases hs with hs | ⟨hne, hs⟩
      · exact Or.inl hs
      · exact Or.inr ⟨by rw [hps]; simpa using hne, hs⟩
  unfold parseMoms
  dsimp only
  rw [hg, if_pos rfl]
  dsimp only
  rw [hps]
  clear hg hstr hps hs
  induction h with
  | nil => rfl
  | cons h _ ih =>
    rw [List.map_cons, List.mapM_cons, entry_written hlc h, ih]
    rfl

/-- an accepted pair either is a documented range or lacks the '|' -/
theorem entry_inv {lc : List Char → Option ℝ} (hlc : Numeric lc) {p : List Char × List Char} {e : OutMom} (h : entry lc p = some e) :
    (':' ∉ p.1 ∧ ':' ∉ p.2 ∧ '|' ∉ p.1) ∧
    ((∃ w : Written, w.Means lc e ∧ pairStr p = w.str ∧ p.2.count '|' = 1) ∨ ('|' ∉ p.2 ∧ lc p.2 = some e.r2 ∧ nums p.2 = some e.moms)) := by
  unfold entry at h
  dsimp only at h
  by_cases hm : '|' ∈ p.2
  · rw [if_pos hm, if_pos hm] at h
    split at h
    swap
    · cases h
    next a b m ha hb hn =>
    obtain rfl := Option.some.inj h
    obtain ⟨ns, hne, f, e⟩ := (nums_iff _ _).1 hn
    obtain ⟨t, ht⟩ : ∃ t, p.2.dropWhile (· ≠ '|') = '|' :: t := by
      cases hd : p.2.dropWhile (· ≠ '|') with
      | nil =>
        rw [List.dropWhile_eq_nil_iff] at hd
        have := hd _ hm
        simp at this
      | cons c t =>
        have := List.head?_dropWhile_not (fun c => decide (c ≠ '|')) p.2
        rw [hd] at this
        simp at this
        exact ⟨t, by rw [this]⟩
    rw [ht, List.tail_cons] at e
    have hp : p.2 = p.2.takeWhile (· ≠ '|') ++ '|' :: joinWith ',' ns := by
      rw [← e, ← ht, List.takeWhile_append_dropWhile]
    refine ⟨⟨(hlc _ _ ha).1, fun h => ?_, (hlc _ _ ha).2.2⟩, Or.inl ⟨⟨p.1, p.2.takeWhile (· ≠ '|'), ns⟩, ⟨ha, hb, hne, f⟩, ?_, ?_⟩⟩
    · rw [hp] at h
      rcases List.mem_append.1 h with h | h
      · exact (hlc _ _ hb).1 h
      · rcases List.mem_cons.1 h with h | h
        · revert h; decide
        · exact (ints_chars f).1 h
    · unfold pairStr Written.str
      dsimp only
      rw [← hp]
    · rw [hp, List.count_append, List.count_cons_self, List.count_eq_zero_of_not_mem (hlc _ _ hb).2.2, List.count_eq_zero_of_not_mem (ints_chars f).2.2]
  · rw [if_neg hm, if_neg hm] at h
    split at h
    swap
    · cases h
    next a b m ha hb hn =>
    obtain rfl := Option.some.inj h
    exact ⟨⟨(hlc _ _ ha).1, (hlc _ _ hb).1, (hlc _ _ ha).2.2⟩, Or.inr ⟨hm, hb, hn⟩⟩

theorem joinWith_count (c d : Char) (hd : d ≠ c) (l : List (List Char)) : (joinWith c l).count d = (l.map (·.count d)).sum := by
  cases l with
  | nil => rfl
  | cons a l =>
    unfold joinWith
    rw [List.count_append, List.map_cons, List.sum_cons]
    congr 1
    induction l with
    | nil => rfl
    | cons b l ih =>
      rw [List.map_cons, List.flatten_cons, List.count_append, ih, List.map_cons, List.sum_cons, List.count_cons_of_ne hd.symm]

/-- in an accepted list every pair has one ':' and at most one '|'; if they are equally many, every pair is a documented range -/
theorem entries_inv {lc : List Char → Option ℝ} (hlc : Numeric lc) : ∀ (ps : List (List Char × List Char)) (es : List OutMom), ps.mapM (entry lc) = some es →
    (ps.map fun p => (pairStr p).count '|').sum ≤ (ps.map fun p => (pairStr p).count ':').sum ∧
    ((ps.map fun p => (pairStr p).count '|').sum = (ps.map fun p => (pairStr p).count ':').sum →
      ∃ ws, List.Forall₂ (Written.Means lc) ws es ∧ ps.map pairStr = ws.map Written.str) := by
  intro ps
  induction ps with
  | nil =>
    intro es h
    simp at h
    rw [h]
    exact ⟨le_rfl, fun _ => ⟨[], .nil, rfl⟩⟩
  | cons p ps ih =>
    intro es h
    rw [List.mapM_cons] at h
    cases h1 : entry lc p with
    | none => rw [h1] at h; cases h
    | some e =>
      cases h2 : ps.mapM (entry lc) with
      | none => rw [h1, h2] at h; cases h
      | some es' =>
        rw [h1, h2] at h
        obtain rfl : e :: es' = es := Option.some.inj h
        obtain ⟨i1, i2⟩ := ih es' h2
        obtain ⟨⟨a1, a2, a3⟩, a4⟩ := entry_inv hlc h1
        have c1 : (pairStr p).count ':' = 1 := by
          unfold pairStr
          rw [List.count_append, List.count_cons_self, List.count_eq_zero_of_not_mem a1, List.count_eq_zero_of_not_mem a2]
        have c2 : (pairStr p).count '|' = p.2.count '|' := by
          unfold pairStr
          rw [List.count_append, List.count_cons_of_ne (by decide), List.count_eq_zero_of_not_mem a3, Nat.zero_add]
        simp only [List.map_cons, List.sum_cons, c1, c2]
        rcases a4 with ⟨w, hw, hs, hc⟩ | ⟨hm, -, -⟩
        · rw [hc]
          refine ⟨by omega, fun he => ?_⟩
          obtain ⟨ws, f, e⟩ := i2 (by omega)
          exact ⟨w :: ws, .cons hw f, by rw [e, hs]; rfl⟩
        · rw [List.count_eq_zero_of_not_mem hm]
          exact ⟨by omega, fun he => by omega⟩

/-- **C122 (nothing else).** A string with as many '|' as ':' is accepted only if it is a documented one, and then with the documented meaning. -/
theorem accepted_documented_partial {lc : List Char → Option ℝ} (hlc : Numeric lc) {s : List Char} {es : List OutMom} (h : parseMoms lc s = some es)
    (hbar : s.count '|' = s.count ':') : ∃ ws, List.Forall₂ (Written.Means lc) ws es ∧ Documented ws s := by
  unfold parseMoms at h
  dsimp only at h
  split at h
  swap
  · cases h
  next hr =>
  obtain ⟨l, hl⟩ : ∃ l, l = s.filter fun c => !isBlank c := ⟨_, rfl⟩
  rw [← hl] at h hr
  have cnt : ∀ c, isBlank c = false → l.count c = s.count c := fun c hc => by
    rw [hl, List.count_filter (by simp [hc])]
  obtain ⟨h1, h2⟩ := (groups_iff l (groups l).1).1 (Prod.ext rfl hr)
  obtain ⟨e1, e2⟩ := entries_inv hlc _ _ h
  have cs : ∀ d, d ≠ ';' → l.count d = ((groups l).1.map fun p => (pairStr p).count d).sum := by
    intro d hd
    have : (pairsStr (groups l).1).count d = ((groups l).1.map fun p => (pairStr p).count d).sum := by
      rw [pairsStr, joinWith_count _ _ hd, List.map_map]; rfl
    rcases h2 with e | ⟨-, e⟩
    · rw [← this, ← e]
    · rw [← this]
      conv_lhs => rw [e]
      rw [List.count_append, List.count_cons_of_ne hd.symm]; simp
  obtain ⟨ws, f, e⟩ := e2 (by rw [← cs _ (by decide), ← cs _ (by decide), cnt _ (by decide), cnt _ (by decide)]; exact hbar)
  refine ⟨ws, f, ?_⟩
  unfold Documented
  rw [← hl, ← e]
  rcases h2 with h2 | ⟨h2, h3⟩
  · exact Or.inl h2
  · refine Or.inr ⟨fun hw => h2 ?_, h3⟩
    rw [hw] at e
    simpa using e

/-! ### What is accepted and should not be -/

/-- the integer written with one digit -/
theorem isInt_digit (c : Char) (hc : c.isDigit = true) : IsInt [c] (c.toNat - 48 : ℕ) := by
  refine ⟨[c], by simp, by simpa using hc, by omega, ?_, Or.inl ⟨Or.inl rfl, by simp⟩⟩
  have : c.toNat ≤ 57 := by
    simp only [Char.isDigit, ge_iff_le, Bool.and_eq_true, decide_eq_true_eq, UInt32.le_iff_toNat_le] at hc
    exact hc.2
  omega

/-- **C122 refuted.** Where the '|' is missing and the second radius is written as an integer, the option is accepted, and this radius is taken for the number of the moment
as well: "0:1" asks for moment 1 of the range from 0 to 1 m. -/
theorem missing_bar_accepted (lc : List Char → Option ℝ) (h0 : lc ['0'] = some 0) (h1 : lc ['1'] = some 1) :
    parseMoms lc "0:1".toList = some [⟨0, 1, [1]⟩] ∧ ¬ ∃ ws, Documented ws "0:1".toList := by
  have hf : "0:1".toList.filter (fun c => !isBlank c) = ['0', ':', '1'] := by decide
  constructor
  · have hg : groups ['0', ':', '1'] = ([(['0'], ['1'])], []) := by
      rw [groups_iff]
      exact ⟨by simp, Or.inl (by decide)⟩
    have hn : nums ['1'] = some [1] := (nums_iff _ _).2 ⟨[['1']], by simp, .cons (isInt_digit '1' (by decide)) .nil, rfl⟩
    unfold parseMoms
    dsimp only
    rw [hf, hg]
    simp [entry, h0, h1, hn]
  · rintro ⟨ws, h⟩
    unfold Documented at h
    rw [hf] at h
    cases ws with
    | nil =>
      rcases h with h | ⟨h, -⟩
      · simp [joinWith] at h
      · exact h rfl
    | cons w ws =>
      have hm : '|' ∈ joinWith ';' ((w :: ws).map Written.str) := by simp [joinWith, Written.str]
      have : '|' ∈ ['0', ':', '1'] := by
        rcases h with h | ⟨-, h⟩
        · rw [h]; exact hm
        · rw [h]; exact List.mem_append_left _ hm
      revert this; decide

/-- the numbers of the default options -/
noncomputable def exLc (s : List Char) : Option ℝ :=
  if s = ".5e-6".toList then some 5e-7 else if s = "25e-6".toList then some 25e-6 else if s = ['0'] then some 0 else if s = ['1'] then some 1 else none

theorem exLc_numeric : Numeric exLc := by
  intro s x h
  unfold exLc at h
  split_ifs at h with h1 h2 h3 h4
  · subst h1; decide
  · subst h2; decide
  · subst h3; decide
  · subst h4; decide

/-- the default of `out_wet` (opts_lgrngn.hpp:259), with blanks -/
example : parseMoms exLc ".5e-6 : 25e-6 | 0,1,2,3 ; 25e-6 : 1 | 0,3,6".toList = some [⟨5e-7, 25e-6, [0, 1, 2, 3]⟩, ⟨25e-6, 1, [0, 3, 6]⟩] := by
  have d := fun c h => isInt_digit c h
  refine documented_understood exLc_numeric (ws := [⟨".5e-6".toList, "25e-6".toList, [['0'], ['1'], ['2'], ['3']]⟩, ⟨"25e-6".toList, ['1'], [['0'], ['3'], ['6']]⟩])
    (.cons ⟨by simp [exLc], by simp [exLc], by simp, ?_⟩ (.cons ⟨by simp [exLc], by simp [exLc], by simp, ?_⟩ .nil)) (Or.inl (by decide))
  · exact .cons (d '0' (by decide)) (.cons (d '1' (by decide)) (.cons (d '2' (by decide)) (.cons (d '3' (by decide)) .nil)))
  · exact .cons (d '0' (by decide)) (.cons (d '3' (by decide)) (.cons (d '6' (by decide)) .nil))

/-- and it is accepted as nothing else -/
example {es : List OutMom} (h : parseMoms exLc "0:1|0".toList = some es) : ∃ ws, List.Forall₂ (Written.Means exLc) ws es ∧ Documented ws "0:1|0".toList :=
  accepted_documented_partial exLc_numeric h (by decide)

end LCP.Icicle
