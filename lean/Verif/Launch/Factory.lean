import Mathlib.Data.Int.Notation
import Mathlib.Data.Nat.Notation
import Mathlib.Tactic.FinCases
import Mathlib.Data.Fintype.Basic
import Mathlib.Tactic.SplitIfs

/-!
# Creating the object: the backend asked for, and detection of several processes

Sources: src/lib.cpp:13-40 (`factory`), src/particles_ctor.ipp:24-72 (the constructor), src/detail/ran_with_mpi.hpp, src/detail/mpi_init.hpp, src/lib_omp.cpp:18-37 (`sanity_checks`),
src/impl_multi_gpu/particles_multi_gpu_impl.ipp:118-151 (the multi-GPU constructor).

Simplifications: an environment variable holding the number of processes is the number `atoi` makes of it (0 for text that is not a number); calls of MPI and CUDA themselves succeed; the checks of options
in the constructor of `impl` are the subject of other modules and taken to succeed.
-/
namespace LCP.Launch

/-- backend_t (backend.hpp) as an `int` may be: `other` is any value that is not one of those handled by `factory` (`undefined` is one of them) -/
inductive Backend
  | serial | OpenMP | CUDA | multi_CUDA | other
  deriving DecidableEq

/-- what the library was built with: CUDA_FOUND, MULTICUDA_FOUND, _OPENMP, USE_MPI -/
structure Build where
  cuda : Bool
  multiCuda : Bool
  openMP : Bool
  mpi : Bool

/-- how an edge of the domain in x is treated (bcond.hpp; the kind between GPUs is set later) -/
inductive Edge
  | sharedmem | distmem_mpi | open_
  deriving DecidableEq

/-- what is around the process -/
structure World where
  /-- environment variables -/
  env : String → Option ℤ
  /-- MPI_Comm_rank, MPI_Comm_size (used if built with MPI) -/
  rank : ℤ
  size : ℤ
  /-- the level of threading MPI provides is MPI_THREAD_MULTIPLE -/
  threadMultiple : Bool
  /-- the constructor is called by the main thread of MPI -/
  mainThread : Bool
  /-- omp_get_max_threads() -/
  threads : ℕ
  /-- the numbers of the threads that worked on the 100 elements of the test vector are not all the same -/
  threadsDiffer : Bool

/-- the end of the call: undefined behaviour (`atoi(NULL)`), an exception, or an object of a backend with edges left and right (`none` for several GPUs) -/
inductive Outcome
  | crash
  | throws
  | made (b : Backend) (edges : Option (Edge × Edge))
  deriving DecidableEq

/-- `getenv(R) != NULL && atoi(getenv(S)) > 1`; `none`: `atoi(NULL)` -/
def launcher (env : String → Option ℤ) (R S : String) : Option Bool :=
  match env R with
  | none => some false
  | some _ => match env S with
    | none => none
    | some n => some (decide (1 < n))

/-- `a || b`, the second one looked at only if the first one is false -/
def orElse (a b : Option Bool) : Option Bool :=
  match a with
  | none => none
  | some true => some true
  | some false => b

/-- ran_with_mpi (ran_with_mpi.hpp:5-17) -/
def ranWithMpi (env : String → Option ℤ) : Option Bool :=
  orElse (launcher env "PMI_RANK" "PMI_SIZE") <| orElse (launcher env "OMPI_COMM_WORLD_RANK" "OMPI_COMM_WORLD_SIZE") <|
    orElse (launcher env "LAMRANK" "LAMSIZE") (launcher env "MV2_COMM_WORLD_RANK" "MV2_COMM_WORLD_SIZE")

/-- the edges (particles_ctor.ipp:36-58) -/
def edges (openWalls : Bool) (rank size : ℤ) : Edge × Edge :=
  if 1 < size then
    if openWalls = false then (.distmem_mpi, .distmem_mpi)
    else if rank = 0 then (.open_, .distmem_mpi)
    else if rank = size - 1 then (.distmem_mpi, .open_)
    else (.distmem_mpi, .distmem_mpi)
  else if openWalls = false then (.sharedmem, .sharedmem)
  else (.open_, .open_)

/-- `sanity_checks` of the backend (lib_cpp.cpp, lib_cuda.cu: nothing; lib_omp.cpp:18-37); `true`: it throws -/
def sanityThrows (b : Backend) (w : World) : Bool :=
  match b with
  | .OpenMP => if w.threads = 1 then false else !w.threadsDiffer
  | _ => false

/-- the constructor for one device (particles_ctor.ipp:24-77) -/
def construct (bld : Build) (b : Backend) (openWalls : Bool) (w : World) : Outcome :=
  if bld.mpi then
    if sanityThrows b w then .throws else .made b (some (edges openWalls w.rank w.size))
  else match ranWithMpi w.env with
    | none => .crash
    | some true => .throws
    | some false => if sanityThrows b w then .throws else .made b (some (edges openWalls 0 1))

/-- the constructor for several GPUs (particles_multi_gpu_impl.ipp:118-151), which constructs an object for each of them; if one of them throws, so does it -/
def constructMulti (bld : Build) (openWalls : Bool) (w : World) : Outcome :=
  if bld.mpi && !w.threadMultiple then .throws
  else if bld.mpi && !w.mainThread then .throws
  else match construct bld .CUDA openWalls w with
    | .made _ _ => .made .multi_CUDA none
    | o => o

/-- factory (lib.cpp:13-40) -/
def factory (bld : Build) (b : Backend) (openWalls : Bool) (w : World) : Outcome :=
  match b with
  | .multi_CUDA => if bld.multiCuda then constructMulti bld openWalls w else .throws
  | .CUDA => if bld.cuda then construct bld .CUDA openWalls w else .throws
  | .OpenMP => if bld.openMP then construct bld .OpenMP openWalls w else .throws
  | .serial => construct bld .serial openWalls w
  | .other => .throws

/-! ## Specification -/

/-- the library has the backend -/
def Has (bld : Build) : Backend → Prop
  | .serial => True
  | .OpenMP => bld.openMP = true
  | .CUDA => bld.cuda = true
  | .multi_CUDA => bld.multiCuda = true
  | .other => False

/-- the variables a launcher of MPI programs sets: number of the process and how many there are -/
def launchers : List (String × String) :=
  [("PMI_RANK", "PMI_SIZE"), ("OMPI_COMM_WORLD_RANK", "OMPI_COMM_WORLD_SIZE"), ("LAMRANK", "LAMSIZE"), ("MV2_COMM_WORLD_RANK", "MV2_COMM_WORLD_SIZE")]

/-- the environment is one a launcher leaves: where the number of the process is set, so is how many there are -/
def Paired (env : String → Option ℤ) : Prop := ∀ l ∈ launchers, env l.1 ≠ none → env l.2 ≠ none

/-- a known launcher has started more than one process -/
def Several (env : String → Option ℤ) : Prop := ∃ l ∈ launchers, env l.1 ≠ none ∧ ∃ n, env l.2 = some n ∧ 1 < n

/-! ## Theorems -/

theorem construct_made {bld : Build} {b : Backend} {o : Bool} {w : World} {b' : Backend} {e : Option (Edge × Edge)} (h : construct bld b o w = .made b' e) : b' = b := by
  unfold construct at h
  split at h
  · split_ifs at h; cases h; rfl
  · split at h
    · cases h
    · cases h
    · split_ifs at h; cases h; rfl

/-- **C144.** An object made is of the backend asked for, and the library has it. -/
theorem made_is_requested {bld : Build} {b : Backend} {o : Bool} {w : World} {b' : Backend} {e : Option (Edge × Edge)} (h : factory bld b o w = .made b' e) : b' = b ∧ Has bld b := by
  cases b <;> simp only [factory] at h
  · exact ⟨construct_made h, trivial⟩
  · split_ifs at h with hc; exact ⟨construct_made h, hc⟩
  · split_ifs at h with hc; exact ⟨construct_made h, hc⟩
  · split_ifs at h with hc
    refine ⟨?_, hc⟩
    unfold constructMulti at h
    split_ifs at h
    split at h
    · cases h; rfl
    · next hne => exact absurd h (hne _ _)
  · cases h

/-- **C144.** A backend the library does not have, or an unknown one, is refused with an exception. -/
theorem missing_throws {bld : Build} {b : Backend} (hb : ¬Has bld b) (o : Bool) (w : World) : factory bld b o w = .throws := by
  cases b <;> simp_all [factory, Has]

theorem launcher_cases (env : String → Option ℤ) (R S : String) :
    (launcher env R S = none ↔ env R ≠ none ∧ env S = none) ∧ (launcher env R S = some true ↔ env R ≠ none ∧ ∃ n, env S = some n ∧ 1 < n) := by
  unfold launcher
  cases env R <;> cases env S <;> simp

theorem ranWithMpi_paired {env : String → Option ℤ} (hp : Paired env) : ranWithMpi env ≠ none ∧ (ranWithMpi env = some true ↔ Several env) := by
  have key : ∀ l ∈ launchers, ∃ b, launcher env l.1 l.2 = some b ∧ (b = true ↔ env l.1 ≠ none ∧ ∃ n, env l.2 = some n ∧ 1 < n) := by
    intro l hl
    obtain ⟨h1, h2⟩ := launcher_cases env l.1 l.2
    cases h : launcher env l.1 l.2 with
    | none => exact absurd (h1.1 h).2 (hp l hl (h1.1 h).1)
    | some b => exact ⟨b, rfl, by rw [← h2, h]; simp⟩
  obtain ⟨b1, e1, i1⟩ := key _ (by simp [launchers] : ("PMI_RANK", "PMI_SIZE") ∈ launchers)
  obtain ⟨b2, e2, i2⟩ := key _ (by simp [launchers] : ("OMPI_COMM_WORLD_RANK", "OMPI_COMM_WORLD_SIZE") ∈ launchers)
  obtain ⟨b3, e3, i3⟩ := key _ (by simp [launchers] : ("LAMRANK", "LAMSIZE") ∈ launchers)
  obtain ⟨b4, e4, i4⟩ := key _ (by simp [launchers] : ("MV2_COMM_WORLD_RANK", "MV2_COMM_WORLD_SIZE") ∈ launchers)
  have hs : Several env ↔ (b1 = true ∨ b2 = true ∨ b3 = true ∨ b4 = true) := by
    rw [i1, i2, i3, i4]
    simp only [Several, launchers, List.mem_cons, List.not_mem_nil, or_false]
    constructor
    · rintro ⟨l, rfl | rfl | rfl | rfl, h⟩
      · exact Or.inl h
      · exact Or.inr (Or.inl h)
      · exact Or.inr (Or.inr (Or.inl h))
      · exact Or.inr (Or.inr (Or.inr h))
    · rintro (h | h | h | h)
      · exact ⟨_, Or.inl rfl, h⟩
      · exact ⟨_, Or.inr (Or.inl rfl), h⟩
      · exact ⟨_, Or.inr (Or.inr (Or.inl rfl)), h⟩
      · exact ⟨_, Or.inr (Or.inr (Or.inr rfl)), h⟩
  rw [hs, ranWithMpi]
  simp only at e1 e2 e3 e4
  rw [e1, e2, e3, e4]
  cases b1 <;> cases b2 <;> cases b3 <;> cases b4 <;> simp [orElse]

/-- **C144 (partial).** A library built without MPI and started as several processes by one of the four known launchers refuses to make any object. -/
theorem several_refused_partial {bld : Build} (hm : bld.mpi = false) (b : Backend) (o : Bool) {w : World} (hp : Paired w.env) (hs : Several w.env) : factory bld b o w = .throws := by
  have h := (ranWithMpi_paired hp).2.2 hs
  have hc : ∀ b, construct bld b o w = .throws := fun b => by simp [construct, hm, h]
  cases b <;> simp [factory, constructMulti, hc, hm]

/-- **C144.** A single process is not refused: without MPI, and not started as one of several, every backend the library has is made (the test of OpenMP apart), with edges that are
connected to one another, or open if asked for. -/
theorem single_made {bld : Build} (hm : bld.mpi = false) {b : Backend} (hb : Has bld b) (o : Bool) {w : World} (hp : Paired w.env) (hs : ¬Several w.env)
    (ht : b = .OpenMP → w.threads = 1 ∨ w.threadsDiffer = true) :
    factory bld b o w = .made b (if b = .multi_CUDA then none else some (if o then (.open_, .open_) else (.sharedmem, .sharedmem))) := by
  obtain ⟨h1, h2⟩ := ranWithMpi_paired hp
  have hf : ranWithMpi w.env = some false := by
    cases h : ranWithMpi w.env with
    | none => exact absurd h h1
    | some c => cases c with
      | false => rfl
      | true => exact absurd (h2.1 h) hs
  have hno : sanityThrows b w = false := by
    cases b <;> simp only [sanityThrows]
    rcases ht rfl with h | h <;> simp [h]
  have he : edges o 0 1 = if o then (.open_, .open_) else (.sharedmem, .sharedmem) := by cases o <;> rfl
  have hC : sanityThrows .CUDA w = false := rfl
  cases b
  case other => exact absurd hb (by simp [Has])
  all_goals simp_all [factory, construct, constructMulti, Has]

/-- **C144.** With MPI an edge of a process's part of the domain is open exactly if it is an edge of the whole domain and side walls are open; otherwise it is shared, with another process
exactly if there is more than one. -/
theorem mpi_edges {bld : Build} (hm : bld.mpi = true) {b : Backend} (o : Bool) {w : World} (hr : 0 ≤ w.rank) (hr' : w.rank < w.size) {b' : Backend} {l r : Edge}
    (h : factory bld b o w = .made b' (some (l, r))) :
    (l = .open_ ↔ o = true ∧ w.rank = 0) ∧ (r = .open_ ↔ o = true ∧ w.rank = w.size - 1) ∧ (l ≠ .open_ → (l = .distmem_mpi ↔ 1 < w.size)) ∧ (r ≠ .open_ → (r = .distmem_mpi ↔ 1 < w.size)) := by
  have key : edges o w.rank w.size = (l, r) := by
    have hc : ∀ c, construct bld c o w = .made b' (some (l, r)) → edges o w.rank w.size = (l, r) := by
      intro c hc
      simp only [construct, hm, if_true] at hc
      split_ifs at hc
      simp only [Outcome.made.injEq, Option.some.injEq] at hc
      exact hc.2
    cases b <;> simp only [factory] at h
    · exact hc _ h
    · split_ifs at h; exact hc _ h
    · split_ifs at h; exact hc _ h
    · split_ifs at h
      unfold constructMulti at h
      split_ifs at h
      split at h
      · cases h
      · next hne => exact absurd h (hne _ _)
    · cases h
  unfold edges at key
  split_ifs at key with h1 h2 h3 h4 h5 <;> (obtain ⟨rfl, rfl⟩ := Prod.mk.inj key) <;> simp_all <;> omega

/-- **C144 (negation).** If the number of the process is set but not how many there are, the call is undefined behaviour instead of an exception or an object. -/
theorem crashes_unpaired {bld : Build} (hm : bld.mpi = false) (o : Bool) {w : World} (h1 : w.env "PMI_RANK" ≠ none) (h2 : w.env "PMI_SIZE" = none) : factory bld .serial o w = .crash := by
  have : ranWithMpi w.env = none := by
    have := (launcher_cases w.env "PMI_RANK" "PMI_SIZE").1.2 ⟨h1, h2⟩
    simp [ranWithMpi, this, orElse]
  simp [factory, construct, hm, this]

/-- the environment of process `r` of `n` of a launcher that sets two other variables, as `srun` does with PMIx -/
def slurm (r n : ℤ) (s : String) : Option ℤ := if s = "SLURM_PROCID" then some r else if s = "SLURM_NTASKS" then some n else none

/-- **C144 (negation).** Processes started by another launcher go unnoticed: each of them takes itself for the only one, with the edges of its domain connected to one another. -/
theorem other_launcher_unnoticed {bld : Build} (hm : bld.mpi = false) (r n : ℤ) {w : World} (hw : w.env = slurm r n) : factory bld .serial false w = .made .serial (some (.sharedmem, .sharedmem)) := by
  have hp : Paired w.env := by rw [hw]; intro l hl; fin_cases hl <;> simp [slurm]
  have hs : ¬Several w.env := by
    rw [hw]; rintro ⟨l, hl, h, _⟩; fin_cases hl <;> simp [slurm] at h
  simpa using single_made hm (b := .serial) trivial false hp hs (by simp)

/-! ## Concrete cases -/

def ompi (r n : ℤ) (s : String) : Option ℤ := if s = "OMPI_COMM_WORLD_RANK" then some r else if s = "OMPI_COMM_WORLD_SIZE" then some n else none

example : factory ⟨false, false, true, false⟩ .OpenMP false ⟨ompi 0 4, 0, 4, true, true, 8, true⟩ = .throws := by decide
example : factory ⟨false, false, true, false⟩ .OpenMP false ⟨ompi 0 1, 0, 1, true, true, 8, true⟩ = .made .OpenMP (some (.sharedmem, .sharedmem)) := by decide
example : factory ⟨false, false, true, true⟩ .serial true ⟨ompi 2 3, 2, 3, true, true, 8, true⟩ = .made .serial (some (.distmem_mpi, .open_)) := by decide
example : Paired (ompi 0 4) ∧ Several (ompi 0 4) := by
  refine ⟨?_, ("OMPI_COMM_WORLD_RANK", "OMPI_COMM_WORLD_SIZE"), by simp [launchers], by simp [ompi], 4, by simp [ompi], by decide⟩
  intro l hl; fin_cases hl <;> simp [ompi]

end LCP.Launch
