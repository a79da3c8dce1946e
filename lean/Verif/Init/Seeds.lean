import Verif.Init.Model
import Mathlib.Algebra.Order.Floor.Ring
import Mathlib.Tactic.Linarith
import Mathlib.Tactic.NormNum
import Mathlib.Tactic.Positivity
import Mathlib.Tactic.FieldSimp

/-!
# Random number seeds: which numbers a simulation gets

Sources: src/detail/urand.hpp (host generator), src/particles_init.ipp, src/impl/particles_impl.ipp, src/particles_ctor.ipp.

The engine (`std::mt19937`) is abstract: any function from seeds to states and from states to (32-bit word, next state).
-/
namespace LCP.Seed

/-! ### Model -/

/-- `engine_t` (src/detail/urand.hpp:25): `seed` is the constructor and `engine.seed(int)` (lines 56-61), `next` is `operator()`.
Simplification: the words of the engine are arbitrary; nothing is assumed about their statistics -/
structure Engine (S : Type) where
  seed : ℤ → S
  next : S → ℕ × S

/-- `dist_normal01` (src/detail/urand.hpp:27): a distribution with a state `N` of its own (the second number of a pair is kept for the next call),
which draws any number of words. Simplification: arbitrary -/
structure Normal (S N : Type) where
  empty : N
  one : S → N → ℝ × S × N

/-- `class rng` (src/detail/urand.hpp:22-91): the engine and the distributions. `dist_u01` and `dist_un` have no state -/
structure Gen (S N : Type) where
  engine : S
  normal : N

variable {S N α β : Type}

/-- `n` words of the engine, in the order drawn -/
def draw (e : Engine S) : ℕ → S → List ℕ × S
  | 0, s => ([], s)
  | n + 1, s => let w := e.next s; let r := draw e n w.2; (w.1 :: r.1, r.2)

/-- `n` groups of `k` words each -/
def drawGroups (e : Engine S) (k : ℕ) : ℕ → S → List (List ℕ) × S
  | 0, s => ([], s)
  | n + 1, s => let w := draw e k s; let r := drawGroups e k n w.2; (w.1 :: r.1, r.2)

/-- `uniform_real_distribution(0,1)` of a group of words (`std::generate_canonical`: one word in single precision, two in double).
Simplification: exact, without the final rounding -/
noncomputable def canonical : List ℕ → ℝ
  | [] => 0
  | w :: ws => (w : ℝ) / 2 ^ (32 * (ws.length + 1)) + canonical ws

/-- `n` normal numbers -/
def drawNormals (d : Normal S N) : ℕ → Gen S N → List ℝ × Gen S N
  | 0, g => ([], g)
  | n + 1, g => let x := d.one g.engine g.normal; let r := drawNormals d n ⟨x.2.1, x.2.2⟩; (x.1 :: r.1, r.2)

/-- What is asked of the generator, depending on what has been drawn: `rand_un`, `rand_u01` (src/impl/particles_impl.ipp:316-319),
`rng.generate_normal_n` -/
inductive Prog (α : Type) where
  | ret (a : α)
  | un (n : ℕ) (k : List ℕ → Prog α)
  | u01 (n : ℕ) (k : List ℝ → Prog α)
  | normal (n : ℕ) (k : List ℝ → Prog α)

/-- What was given, with the words used -/
inductive Answer where
  | un (keys : List ℕ)
  | u01 (groups : List (List ℕ))
  | normal (xs : List ℝ)

/-- Runs the requests (src/detail/urand.hpp:63-89): results, answers in their order, the generator afterwards. `k` words per real number -/
noncomputable def run (e : Engine S) (d : Normal S N) (k : ℕ) : Prog α → Gen S N → α × List Answer × Gen S N
  | .ret a, g => (a, [], g)
  | .un n f, g => let r := draw e n g.engine; let q := run e d k (f r.1) ⟨r.2, g.normal⟩; (q.1, .un r.1 :: q.2.1, q.2.2)
  | .u01 n f, g => let r := drawGroups e k n g.engine; let q := run e d k (f (r.1.map canonical)) ⟨r.2, g.normal⟩; (q.1, .u01 r.1 :: q.2.1, q.2.2)
  | .normal n f, g => let r := drawNormals d n g; let q := run e d k (f r.1) r.2; (q.1, .normal r.1 :: q.2.1, q.2.2)

/-- The options concerned (include/libcloudph++/lgrngn/opts_init.hpp:119-124) -/
structure Opts where
  rngSeed : ℤ
  rngSeedInit : ℤ
  switch : Bool

/-- Defaults (include/libcloudph++/lgrngn/opts_init.hpp:222-223,248) -/
def Opts.default : Opts := ⟨44, 44, false⟩

/-- `rng.reseed` (src/detail/urand.hpp:58-61): the engine only -/
def reseed (e : Engine S) (s : ℤ) (g : Gen S N) : Gen S N := ⟨e.seed s, g.normal⟩

/-- A simulation of one process (or device): construction (`rng(_opts_init.rng_seed)`, src/impl/particles_impl.ipp:348), `init`
(src/particles_init.ipp:30-32: reseeding if asked to; then the requests of initialisation; lines 129-130: reseeding), and all calls afterwards.
`rank` is known to the constructor (src/particles_ctor.ipp:24-68) but is not used for the seeds; the same is true of the number of the device
(src/particles_multi_gpu_ctor.ipp). Returns: result and answers of initialisation, result and answers afterwards -/
noncomputable def life (e : Engine S) (d : Normal S N) (k : ℕ) (o : Opts) (_rank : ℕ) (init : Prog α) (rest : α → Prog β) :
    (α × List Answer) × (β × List Answer) :=
  let g0 : Gen S N := ⟨e.seed o.rngSeed, d.empty⟩
  let g1 := if o.switch then reseed e o.rngSeedInit g0 else g0
  let r := run e d k init g1
  let q := run e d k (rest r.1) (reseed e o.rngSeed r.2.2)
  ((r.1, r.2.1), (q.1, q.2.1))

/-! ### Specification -/

/-- The sequence of words of an engine seeded with `s` -/
def stream (e : Engine S) : S → ℕ → ℕ
  | s, 0 => (e.next s).1
  | s, i + 1 => stream e (e.next s).2 i

/-- No normal numbers are asked for, whatever is drawn -/
inductive NoNormal : Prog α → Prop
  | ret (a) : NoNormal (.ret a)
  | un (n k) : (∀ x, NoNormal (k x)) → NoNormal (.un n k)
  | u01 (n k) : (∀ x, NoNormal (k x)) → NoNormal (.u01 n k)

/-- The words used in an answer -/
def Answer.words : Answer → List ℕ
  | .un ks => ks
  | .u01 gs => gs.flatten
  | .normal _ => []

/-- Two programs ask for the same amounts of the same kinds of numbers as long as they get the same numbers -/
inductive SameRequests : Prog α → Prog β → Prop
  | ret (a b) : SameRequests (.ret a) (.ret b)
  | un (n k k') : (∀ x, SameRequests (k x) (k' x)) → SameRequests (.un n k) (.un n k')
  | u01 (n k k') : (∀ x, SameRequests (k x) (k' x)) → SameRequests (.u01 n k) (.u01 n k')
  | normal (n k k') : (∀ x, SameRequests (k x) (k' x)) → SameRequests (.normal n k) (.normal n k')

/-- Where within its bin a dry radius lies: `[lo, hi]` (logarithms of radii) is divided into `cnt` bins of equal width -/
noncomputable def offsetInBin (lo hi : ℝ) (cnt : ℕ) (lnrd : ℝ) : ℝ := Int.fract ((lnrd - lo) * cnt / (hi - lo))

/-! ### Reproducibility -/

theorem run_normal (e : Engine S) (d : Normal S N) (k : ℕ) (p : Prog α) (hp : NoNormal p) (g : Gen S N) : (run e d k p g).2.2.normal = g.normal := by
  induction hp generalizing g with
  | ret a => rfl
  | un n k _ ih => simp only [run]; rw [ih]
  | u01 n k _ ih => simp only [run]; rw [ih]

/-- **C136a**: for initialisation the numbers are those of a generator freshly seeded with `rng_seed_init` (if switched on) or `rng_seed`;
afterwards, with those of a generator freshly seeded with `rng_seed`, however many numbers initialisation took and whatever it was seeded with -/
theorem life_eq (e : Engine S) (d : Normal S N) (k : ℕ) (o : Opts) (rank : ℕ) (init : Prog α) (hi : NoNormal init) (rest : α → Prog β) :
    let fresh : ℤ → Gen S N := fun s => ⟨e.seed s, d.empty⟩
    let a := run e d k init (fresh (if o.switch then o.rngSeedInit else o.rngSeed))
    let b := run e d k (rest a.1) (fresh o.rngSeed)
    life e d k o rank init rest = ((a.1, a.2.1), (b.1, b.2.1)) := by
  obtain ⟨rs, ri, sw⟩ := o
  cases sw <;> simp [life, reseed, run_normal e d k init hi]

/-- **C136b**: with `rng_seed_init_switch`, an ensemble of simulations with the same `rng_seed_init` and different `rng_seed` starts from the same
population -/
theorem same_start (e : Engine S) (d : Normal S N) (k : ℕ) (s s' i : ℤ) (rank rank' : ℕ) (init : Prog α) (hi : NoNormal init) (rest rest' : α → Prog β) :
    (life e d k ⟨s, i, true⟩ rank init rest).1 = (life e d k ⟨s', i, true⟩ rank' init rest').1 := by
  rw [life_eq e d k _ _ init hi, life_eq e d k _ _ init hi]; simp

/-- **C136c**: runs with the same `rng_seed` and the same population after initialisation proceed in the same way, even if initialisation was seeded
differently or took a different amount of numbers -/
theorem same_rest (e : Engine S) (d : Normal S N) (k : ℕ) (o o' : Opts) (h : o.rngSeed = o'.rngSeed) (rank rank' : ℕ) (init init' : Prog α) (hi : NoNormal init)
    (hi' : NoNormal init') (rest : α → Prog β) (hs : (life e d k o rank init rest).1.1 = (life e d k o' rank' init' rest).1.1) :
    (life e d k o rank init rest).2 = (life e d k o' rank' init' rest).2 := by
  rw [life_eq e d k _ _ init hi, life_eq e d k _ _ init' hi'] at *
  simp only at hs ⊢
  rw [hs, h]

theorem draw_eq (e : Engine S) (n : ℕ) (s : S) : (draw e n s).1 = (List.range n).map (stream e s) ∧ ∀ i, stream e (draw e n s).2 i = stream e s (n + i) := by
  induction n generalizing s with
  | zero => simp [draw]
  | succ n ih =>
    obtain ⟨h1, h2⟩ := ih (e.next s).2
    refine ⟨?_, fun i => ?_⟩
    · simp only [draw, h1, List.range_succ_eq_map, List.map_cons, List.map_map]; rfl
    · simp only [draw, h2, Nat.succ_add]; rfl

theorem drawGroups_eq (e : Engine S) (k n : ℕ) (s : S) :
    (drawGroups e k n s).1.flatten = (List.range (n * k)).map (stream e s) ∧ ∀ i, stream e (drawGroups e k n s).2 i = stream e s (n * k + i) := by
  induction n generalizing s with
  | zero => simp [drawGroups]
  | succ n ih =>
    obtain ⟨h1, h2⟩ := ih (draw e k s).2
    obtain ⟨h3, h4⟩ := draw_eq e k s
    refine ⟨?_, fun i => ?_⟩
    · simp only [drawGroups, List.flatten_cons, h1, h3]
      rw [Nat.succ_mul, Nat.add_comm (n * k) k, List.range_add, List.map_append, List.map_map]
      congr 1
      apply List.map_congr_left; intro i _; simp [h4]
    · simp only [drawGroups, h2, h4]; congr 1; rw [Nat.succ_mul]; omega

theorem run_words (e : Engine S) (d : Normal S N) (k : ℕ) (p : Prog α) (hp : NoNormal p) (g : Gen S N) :
    ((run e d k p g).2.1.map Answer.words).flatten = (List.range ((run e d k p g).2.1.map Answer.words).flatten.length).map (stream e g.engine) := by
  induction hp generalizing g with
  | ret a => simp [run]
  | un n f _ ih =>
    have h := ih (draw e n g.engine).1 ⟨(draw e n g.engine).2, g.normal⟩
    obtain ⟨h1, h2⟩ := draw_eq e n g.engine
    simp only [run, List.map_cons, List.flatten_cons, Answer.words, List.length_append]
    obtain ⟨W, hW⟩ : ∃ W, W = ((run e d k (f (draw e n g.engine).1) ⟨(draw e n g.engine).2, g.normal⟩).2.1.map Answer.words).flatten := ⟨_, rfl⟩
    rw [← hW] at h ⊢
    rw [h1, List.length_map, List.length_range, List.range_add, List.map_append, List.map_map]
    congr 1
    conv_lhs => rw [h]
    apply List.map_congr_left; intro i _; simp [h2]
  | u01 n f _ ih =>
    have h := ih ((drawGroups e k n g.engine).1.map canonical) ⟨(drawGroups e k n g.engine).2, g.normal⟩
    obtain ⟨h1, h2⟩ := drawGroups_eq e k n g.engine
    simp only [run, List.map_cons, List.flatten_cons, Answer.words, List.length_append]
    obtain ⟨W, hW⟩ : ∃ W, W = ((run e d k (f ((drawGroups e k n g.engine).1.map canonical)) ⟨(drawGroups e k n g.engine).2, g.normal⟩).2.1.map Answer.words).flatten := ⟨_, rfl⟩
    rw [← hW] at h ⊢
    rw [h1, List.length_map, List.length_range, List.range_add, List.map_append, List.map_map]
    congr 1
    conv_lhs => rw [h]
    apply List.map_congr_left; intro i _; simp [h2]

/-- **C136d**: within initialisation, and within all that follows it, no word of the engine is used twice: the words used are, in order, the
beginning of the sequence of the seed (runs without normal numbers) -/
theorem words_in_order (e : Engine S) (d : Normal S N) (k : ℕ) (o : Opts) (rank : ℕ) (init : Prog α) (hi : NoNormal init) (rest : α → Prog β)
    (hr : ∀ a, NoNormal (rest a)) :
    let used : List Answer → List ℕ := fun l => (l.map Answer.words).flatten
    let r := life e d k o rank init rest
    (used r.1.2 = (List.range (used r.1.2).length).map (stream e (e.seed (if o.switch then o.rngSeedInit else o.rngSeed))))
      ∧ used r.2.2 = (List.range (used r.2.2).length).map (stream e (e.seed o.rngSeed)) := by
  intro used r
  have hr' : r = life e d k o rank init rest := rfl
  rw [life_eq e d k o rank init hi rest] at hr'
  simp only [hr', used]
  exact ⟨run_words e d k init hi _, run_words e d k _ (hr _) _⟩

/-! ### The numbers of initialisation come again -/

theorem drawGroups_one (e : Engine S) (n : ℕ) (s : S) : (drawGroups e 1 n s).1 = (List.range n).map (fun i => [stream e s i]) := by
  induction n generalizing s with
  | zero => rfl
  | succ n ih =>
    simp only [drawGroups, ih, List.range_succ_eq_map, List.map_cons, List.map_map]
    rfl

/-- **C136e** (the full claim - after initialisation the random numbers are new ones - is false): unless initialisation has a seed of its own,
in single precision the random numbers with which the dry radii were drawn come again, one by one, as the keys of the first shuffle of droplets for
collisions; for every engine, whatever else is drawn -/
theorem keys_are_radii_again (e : Engine S) (d : Normal S N) (o : Opts) (ho : o.switch = false ∨ o.rngSeedInit = o.rngSeed) (rank n m : ℕ)
    (f : List ℝ → Prog α) (hi : NoNormal (.u01 n f)) (rest : α → Prog β) (q : α → List ℕ → Prog β) (hr : ∀ a, rest a = .un m (q a)) :
    ∃ us keys t t', (life e d 1 o rank (.u01 n f) rest).1.2 = .u01 us :: t ∧ (life e d 1 o rank (.u01 n f) rest).2.2 = .un keys :: t'
      ∧ us.length = n ∧ keys.length = m ∧ ∀ i < n, i < m → (us.map canonical).getD i 0 = (keys.getD i 0 : ℝ) / 2 ^ 32 := by
  have hs : (if o.switch then o.rngSeedInit else o.rngSeed) = o.rngSeed := by
    rcases ho with h | h <;> simp [h]
  rw [life_eq e d 1 o rank (.u01 n f) hi rest, hs]
  simp only [hr]
  refine ⟨_, _, _, _, rfl, rfl, ?_, ?_, ?_⟩
  · rw [drawGroups_one]; simp
  · rw [(draw_eq e m _).1]; simp
  · intro i h1 h2
    rw [drawGroups_one, (draw_eq e m _).1]
    simp [List.getD_eq_getElem?_getD, h1, h2, canonical]

theorem offset_eq (lo hi u : ℝ) (h : lo < hi) (cnt : ℕ) (hc : 0 < cnt) (idx ptr : ℕ) (hu : 0 ≤ u ∧ u < 1) :
    offsetInBin lo hi cnt (Init.calcLnrd lo hi u cnt idx ptr) = u := by
  have h1 : hi - lo ≠ 0 := by linarith
  have h2 : (cnt : ℝ) ≠ 0 := by positivity
  have h3 : (Init.calcLnrd lo hi u cnt idx ptr - lo) * cnt / (hi - lo) = u + (((idx : ℤ) - ptr : ℤ) : ℝ) := by
    unfold Init.calcLnrd; field_simp; push_cast; ring
  rw [offsetInBin, h3, Int.fract_add_intCast, Int.fract_eq_self.mpr hu]

/-- **C136f**: so the first shuffle is not a shuffle: it puts the droplets in the order of the position of their dry radii within the bins of the
initial spectrum (`us` are the numbers the dry radii were drawn with, `keys` those of the shuffle - related by `keys_are_radii_again`; `order` is what
the sort by keys gives). Collision partners are taken one after another from this order within each cell -/
theorem first_shuffle_by_offset (n : ℕ) (us : List ℝ) (keys : List ℕ) (hw : ∀ i < n, keys.getD i 0 < 2 ^ 32)
    (hk : ∀ i < n, us.getD i 0 = (keys.getD i 0 : ℝ) / 2 ^ 32) (lo hi : ℝ) (h : lo < hi) (cnt : ℕ → ℕ) (ijk : ℕ → ℕ) (hc : ∀ i < n, 0 < cnt (ijk i))
    (order : List ℕ) (hp : order.Perm (List.range n)) (hsort : order.Pairwise (fun i j => keys.getD i 0 ≤ keys.getD j 0)) :
    let off : ℕ → ℝ := fun i => offsetInBin lo hi (cnt (ijk i)) (Init.initLnrd lo hi (fun i => us.getD i 0) cnt ijk 0 i)
    order.Pairwise (fun i j => off i ≤ off j) := by
  have hoff : ∀ i < n, offsetInBin lo hi (cnt (ijk i)) (Init.initLnrd lo hi (fun i => us.getD i 0) cnt ijk 0 i) = (keys.getD i 0 : ℝ) / 2 ^ 32 := by
    intro i hi'
    have hlt : (keys.getD i 0 : ℝ) < 2 ^ 32 := by exact_mod_cast hw i hi'
    have h01 : 0 ≤ us.getD i 0 ∧ us.getD i 0 < 1 := by
      rw [hk i hi']
      exact ⟨by positivity, by rw [div_lt_one (by positivity)]; exact hlt⟩
    unfold Init.initLnrd
    simp only [Nat.zero_add]
    rw [offset_eq lo hi _ h _ (hc i hi') _ _ h01, hk i hi']
  refine hsort.imp_of_mem ?_
  intro i j hi' hj' hij
  have h1 : i < n := List.mem_range.mp (hp.mem_iff.mp hi')
  have h2 : j < n := List.mem_range.mp (hp.mem_iff.mp hj')
  simp only [hoff i h1, hoff j h2]
  have : (keys.getD i 0 : ℝ) ≤ keys.getD j 0 := by exact_mod_cast hij
  gcongr

/-! ### All processes get the same numbers -/

theorem run_same (e : Engine S) (d : Normal S N) (k : ℕ) (p : Prog α) (p' : Prog β) (h : SameRequests p p') (g : Gen S N) :
    (run e d k p g).2 = (run e d k p' g).2 := by
  induction h generalizing g with
  | ret a b => rfl
  | un n k k' _ ih => simp only [run]; rw [ih]
  | u01 n k k' _ ih => simp only [run]; rw [ih]
  | normal n k k' _ ih => simp only [run]; rw [ih]

/-- **C136g** (negation of: parts of a distributed simulation get independent random numbers): two processes (or devices) which ask for the same
amounts of numbers at initialisation get the same numbers - and, as long as they go on asking for the same amounts, the same numbers afterwards -/
theorem all_processes_alike {α' β' : Type} (e : Engine S) (d : Normal S N) (k : ℕ) (o : Opts) (rank rank' : ℕ) (init : Prog α) (init' : Prog α')
    (rest : α → Prog β) (rest' : α' → Prog β') (h : SameRequests init init') (h2 : ∀ a a', SameRequests (rest a) (rest' a')) :
    (life e d k o rank init rest).1.2 = (life e d k o rank' init' rest').1.2 ∧ (life e d k o rank init rest).2.2 = (life e d k o rank' init' rest').2.2 := by
  simp only [life]
  obtain ⟨G, hG⟩ : ∃ G : Gen S N, G = (if o.switch then reseed e o.rngSeedInit ⟨e.seed o.rngSeed, d.empty⟩ else ⟨e.seed o.rngSeed, d.empty⟩) := ⟨_, rfl⟩
  rw [← hG]
  have h3 := run_same e d k init init' h G
  refine ⟨by rw [h3], ?_⟩
  rw [h3]
  rw [run_same e d k _ _ (h2 (run e d k init G).1 (run e d k init' G).1)]

/-- the requests of initialisation of one process without ice, chemistry and sources, one aerosol mode with `sd_conc` super-droplets per cell:
`init_dry_sd_conc` (particles_impl_init_dry_sd_conc.ipp:46-48), then `init_xyz` (particles_impl_init_xyz.ipp:49-56), in three dimensions.
Returns the logarithms of dry radii and the positions in the coordinates of the process -/
noncomputable def initBox (dm : Grid.Dims) (b : Grid.Box) (lo hi : ℝ) (cnt : ℕ → ℕ) (ijk : ℕ → ℕ) (n : ℕ) : Prog (List (ℝ × ℝ × ℝ × ℝ)) :=
  .u01 n fun r => .u01 n fun x => .u01 n fun y => .u01 n fun z =>
    .ret ((List.range n).map fun i =>
      (Init.initLnrd lo hi (fun i => r.getD i 0) cnt ijk 0 i, Init.initXyz dm b ![x.getD i 0, y.getD i 0, z.getD i 0] (ijk i)))

/-- **C136h**: so processes with equal subdomains start with the same population: the same dry radii at the same places relative to the subdomain.
A domain divided into equal slabs is, at the start, a periodic repetition of one slab -/
theorem slabs_repeat (e : Engine S) (d : Normal S N) (k : ℕ) (o : Opts) (rank rank' : ℕ) (dm : Grid.Dims) (b : Grid.Box) (lo hi : ℝ) (cnt ijk : ℕ → ℕ) (n : ℕ)
    (rest rest' : List (ℝ × ℝ × ℝ × ℝ) → Prog β) :
    (life e d k o rank (initBox dm b lo hi cnt ijk n) rest).1.1 = (life e d k o rank' (initBox dm b lo hi cnt ijk n) rest').1.1 := rfl

/-! ### Examples -/

/-- an engine: a linear congruential generator -/
def lcg : Engine ℕ := ⟨fun s => s.toNat, fun s => ((s * 1664525 + 1013904223) % 2 ^ 32, (s * 1664525 + 1013904223) % 2 ^ 32)⟩

/-- a way to get normal numbers with a number kept -/
noncomputable def twoByTwo : Normal ℕ (Option ℝ) := ⟨none, fun s c => match c with
  | some x => (x, s, none)
  | none => let w := lcg.next s; ((w.1 : ℝ), w.2, some (-(w.1 : ℝ)))⟩

-- the hypotheses of `keys_are_radii_again` hold for the default options, two super-droplets, one shuffle
example : ∃ us keys t t', (life lcg twoByTwo 1 Opts.default 0 (.u01 2 fun x => .ret x) (fun _ => .un 2 fun y => .ret y)).1.2 = .u01 us :: t
    ∧ (life lcg twoByTwo 1 Opts.default 0 (.u01 2 fun x => .ret x) (fun _ => .un 2 fun y => .ret y)).2.2 = .un keys :: t' ∧ us.length = 2 ∧ keys.length = 2
    ∧ ∀ i < 2, i < 2 → (us.map canonical).getD i 0 = (keys.getD i 0 : ℝ) / 2 ^ 32 :=
  keys_are_radii_again lcg twoByTwo Opts.default (Or.inl rfl) 0 2 2 _ (.u01 _ _ fun _ => .ret _) _ (fun _ y => .ret y) fun _ => rfl

-- with a seed of its own, initialisation gets other numbers
example : (draw lcg 1 (lcg.seed 44)).1 ≠ (draw lcg 1 (lcg.seed 45)).1 := by decide

-- two words make a number of a double
example : canonical [3, 1] = (3 + 1 * 2 ^ 32) / 2 ^ 64 := by norm_num [canonical]

-- normal numbers: the state of the distribution is not reset by reseeding, so `NoNormal` is needed in C136a: with an odd amount of normal numbers
-- drawn during initialisation, the first normal number afterwards would not come from the seed
example : (life lcg twoByTwo 1 ⟨1, 2, true⟩ 0 (.normal 1 fun _ => .ret ()) (fun _ => .normal 1 fun y => .ret y)).2.1
    ≠ (run lcg twoByTwo 1 (.normal 1 fun y => .ret y) (⟨1, none⟩ : Gen ℕ (Option ℝ))).1 := by
  have h2 : (lcg.next (lcg.seed 2)).1 = 1017233273 := by decide
  have h1 : (lcg.next (lcg.seed 1)).1 = 1015568748 := by decide
  change [-(((lcg.next (lcg.seed 2)).1 : ℕ) : ℝ)] ≠ [(((lcg.next (lcg.seed 1)).1 : ℕ) : ℝ)]
  rw [h1, h2]; norm_num

end LCP.Seed
