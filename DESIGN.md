# Formal model of libcloudph++ in Lean 4 — design

## Trusted base
* Lean 4.33.0 kernel; the axioms `propext`, `Classical.choice`, `Quot.sound` only (no own axioms, no compiled-code tactics).
* The fidelity of the hand-written model: each definition cites the /repo file and lines it was transcribed from. The code is not run.
* Mathlib definitions of ℝ, ℚ, floor, ceil, real powers (standard meaning).

## General modelling decisions
* Floating point is modelled only in C114-C121, C126, C127, C130, C131 (`Float/`: rounding of positions, limits, cell indices, substep counts and moments, unbounded exponents, any rounding to nearest, no `-Ofast` re-association except the reciprocal in `cellIdxRecip`). Everywhere else `real_t` becomes ℝ (or any linear ordered field) and conservation statements are exact-arithmetic statements.
* `n_t` (unsigned long long) is ℕ with *explicit* underflow checks where a subtraction occurs (the theorem proves that the subtraction is never truncated); `size_t` cell indices are ℕ, negative intermediate values ℤ.
* Random numbers, shuffle keys and the outcome of unstable sorts are universally quantified inputs (any permutation that sorts).
* Parallel `thrust::for_each` loops are modelled as a fold over an arbitrary permutation of the iterations; order independence is proved.
* Physics closures (kernel value, saturation vapour pressure, terminal velocities …) are parameters: theorems hold for every closure, possibly with explicitly stated sign hypotheses.
* Exceptions and undefined behaviour (array overrun, pool exhaustion, empty column) are distinct outcomes of the model.

## Layout
* `lean/Verif/<Area>/Model.lean` (and other files containing only definitions, e.g. `Hskpng/Rcyc.lean`, `Adve/Transport.lean`, `Blk1m/Formulae.lean`) – transcription of the code; `*Lemmas.lean` – helper lemmas; `*Props.lean` and the remaining files – property theorems, small independent specifications they are stated against, and non-vacuity `example`s.
* `tools/` – scripts generating `properties.jsonl`, `MANIFEST.json`, `seeded/LOG.jsonl` (no role in the proofs).

| area | modules | code in /repo |
|---|---|---|
| parallel primitives | `Thrust`, `SortLemmas` | thrust::sort_by_key, reduce_by_key, scatter, remove_if, for_each |
| coalescence | `Coal/*` | src/impl/coalescence/coal.ipp |
| recycling, removal | `Hskpng/*` | src/impl/housekeeping: rcyc, hskpng_remove |
| grid, volumes, faces | `Grid/*` | hskpng_ijk, init_e2l/init_grid, dv, lft/rgt/… |
| diagnostics | `Diag/*` | moms, particles_diag, mass_dens |
| walls | `Bcnd/*` | bcnd.ipp, puddle |
| stepping protocol | `Step/*` | particles_step.ipp, adjust_timesteps |
| tmp vector pools | `Pool/*` | tmp_vector_pool, its users |
| Eulerian fields | `E2L/*` | init_e2l, sync_in, halo of Courant numbers |
| multi-domain | `Distmem/*` | distmem_opts, copy/exchange, mpi |
| transport | `Adve/*` | adve, sedi, subs, turb_adve, step_async ordering |
| initialisation | `Init/*` | init_xyz, init_dry_*, init_n, init_wet |
| sources, relaxation | `Step/Model`, `Rlx/*` | src/impl/initialization + rlx |
| sanity checks | `Sanity/*` | init_sanity_check |
| thermodynamics | `Common/*` | include/libcloudph++/common/*.hpp |
| root finder | `Toms/*` | detail/toms748, kappa-Köhler equilibrium |
| condensation | `Cond/*`, `Common/Tpr` | src/impl/condensation/*, src/impl/common/*, ice_dep, hskpng_Tpr |
| ice nucleation, melting | `Ice/*` | common/ice_nucleation.hpp, src/impl/ice/*, update_th_freezing, init_T_freeze |
| subgrid turbulence | `Turb/*` | common/GA17_turbulence.hpp, hskpng_tke/turb_vel/turb_ss.ipp, step_async |
| aqueous chemistry | `Chem/*`, `Toms/Range` | common/{chem,molar_mass,henry,dissoc,react}.hpp, impl/chemistry/*.ipp, chemistry part of step_cond/step_async, init_chem_aq |
| collision kernels | `Kernel/*` | src/detail/{kernels,kernel_interpolation,kernel_utils,kernel_onishi_nograv,wang_collision_enhancement}.hpp, init_kernel.ipp; tables of efficiencies are parameters |
| terminal velocities | `Vterm/*` | common/vterm.hpp, earth.hpp, hskpng_vterm.ipp, init_vterm.ipp, velocity handling of step_async (particles_step.ipp:377-407), sedi |
| aerosol source | `Src/*` | init_count_num.ipp:113-165, src_dry_distros_simple.ipp, src_dry_distros_matching.ipp |
| validity of the sorted list; room for super-droplets | `Hskpng/SortFlag*`, `Src/Room`, `Rlx/Buffer` | hskpng_sort.ipp, hskpng_ijk.ipp:158-200, hskpng_resize.ipp, src.ipp, post_copy.ipp, particles_step.ipp (order of operations), rlx_dry_distros.ipp:213-271 |
| activation, in-cloud time; divergence | `Diag/Activation*`, `Diag/VelDiv` | particles_diag.ipp:16-62, 93-192, 352-407, 499-555, update_incloud_time.ipp, init_incloud_time.ipp |
| fluxes, largest droplet; attributes | `Diag/Rates`, `Diag/Attr` | particles_diag.ipp:64-143, 227-350, 409-490, 560-650, fill_outbuf.ipp:39-77, particles_impl.ipp:440-491 |
| life of temporary arrays over the whole API | `Pool/ApiLang`, `Pool/Api`, `Pool/ApiSpec`, `Pool/ApiAnalysis`, `Pool/ApiChecks`, `Pool/ApiEnum*`, `Pool/ApiAcc`, `Pool/ApiWitness`, `Pool/ApiProps` | particles_step.ipp, particles_init.ipp, particles_diag.ipp, particles_ctor.ipp, tmp_vector_pool.hpp, particles_impl.ipp:190-276, 496-539 and every user of a guard under src/impl (cited in `Pool/Api`) |
| diagnostics against the simulation | `Step/Skeleton`, `Step/SkeletonLemmas`, `Step/SkeletonProps`, `Step/SkeletonWitness` | particles_step.ipp, particles_init.ipp, particles_diag.ipp, particles_ctor.ipp:78-99 and the functions of src/impl they call (cited in `Step/Skeleton`), as data flow |
| tables of collision efficiencies | `Kernel/Tab*` (generated), `Kernel/Tables`, `Kernel/TablesProps` | src/detail/kernel_definitions/*_efficiencies.hpp |
| concurrency of the multi-GPU backend, its output, thread barrier | `MultiGpu/*.lean` (C92, C93, C94) |
| size-distribution analysis, constant-multiplicity initialisation, large tail | `Init/{DistAnalysis,RangeProps,ConstMulti}.lean` |
| Python bindings: arrays, keyword arguments, option setters | `Py/{Model,Props,Calls}.lean` |
| initial wet radii | `Init/Wet.lean` |
| water brought in by sources | `Src/Water.lean` |
| whole time steps and runs | `Run/Model`, `Run/HowProps` (the ways of condensation), `Run/Lemmas`, `Run/Props`, `Run/Inside`, `Run/Example` |
| runs that can, and runs that cannot be continued | `Run/Progress`, `Run/Stuck` |
| whole runs on several subdomains | `Run/Dist`, `Run/DistProps`, `Run/DistInside`, `Run/DistExample` |
| kinematic 2D driver (`models/kinematic_2D`): background steps, spin-up and relaxation, wind field, output options | `Icicle/{Async,AsyncProps,Spinup,SpinupProps,Flow,FlowProps,Driver,OutOpts,OutOptsProps}.lean` |
| critical radii over runs | `Run/Crit`, `Run/CritProps`, `Run/CritWit` |
| message passing between processes | `Mpi/Sem`, `Mpi/Confluence`, `Mpi/Determinacy`, `Mpi/Discipline`, `Mpi/Lockstep`, `Mpi/Segments`, `Mpi/Program`, `Mpi/Bulk`, `Mpi/Canon`, `Mpi/CanonExch`, `Mpi/Counting`, `Mpi/Check`, `Mpi/Schedules`, `Mpi/Refine`, `Mpi/RefineRun`, `Mpi/Halos`, `Mpi/RunSpec`, `Mpi/Props`, `Mpi/Witness` |
| floating-point rounding of positions | `Float/Round`, `Float/Model`, `Float/Lemmas`, `Float/Props`, `Float/Guard`, `Float/Place`, `Float/Remote`, `Float/Sub`, `Float/Dt`, `Float/Moment` |
| bulk schemes | `Blk1m/*`, `Blk2m/*` | include/libcloudph++/blk_{1m,2m}/*.hpp |

## Per property plan
| id | model | proof |
|---|---|---|
| C01–C05, C07 | `Coal`: SD record, `collide`, `collider` on a pair, fold over pairs | pairwise invariant, induction over the loop; swap lemma for order independence |
| C06 | `scaleFactor` | arithmetic |
| C08, C09 | `Rcyc`: list of SDs sorted by multiplicity (any sorting permutation) | list induction, permutation sums; C09 is false in general → negation + `_partial` |
| C10 | `Remove`: attribute vectors as columns, stencil filter | induction, `zip` alignment |
| C11, C12 | `Grid`: ravel/unravel, floor | Nat div/mod |
| C13, C14, C15, C16 | `Diag`: sort/reduce_by_key/scatter, selections | refinement to per-cell sum spec |
| C17–C19 | `Bcnd` | floor/fmod algebra; budget induction over steps |
| C20–C22 | `Protocol` state machine | invariants over op lists |
| C23, C24 | `Pool` | invariant over op lists; exhaustion witness |
| C25, C26 | `E2L` with C truncated division on ℤ | Nat/Int arithmetic |
| C27–C29 | `Distmem` | arithmetic, ring of subdomains, sums |
| C30, C31 | `Grid` | telescoping sums of clipped intervals |
| C32 | `Adve` | field algebra |
| C33–C35 | `Init` | real inequalities |
| C36, C37 | `Source` | counter induction, arithmetic |
| C38 | `Blk1m.Adj` | loop invariant with arbitrary closure |
| C39 | `Blk.Column` | telescoping |
| C40, C41 | `Blk1m.Rhs` | linear arithmetic |
| C42 | `Sanity` | case analysis |
| C43, C44 | `Diag.MassDens`, `Pool` | refinement to the per-cell definition; pool counting |
| C45, C56 | `Adve.Transport`: histories of sync/step calls | invariant over histories; composition of displacements |
| C57 | `Cond.Droplet`: growth law of one droplet / crystal, implicit step on top of the TOMS 748 model | sign analysis of the Maxwell-Mason formula, continuity, bracket case analysis, induction over steps |
| C58 | `Cond.PerCell`: the substep loop of `step_cond` on arrays (sorting, counting, scatter through `count_ijk`, temporary arrays with arbitrary initial contents) | refinement of the array operations to per-cell sums, then induction over substeps (telescoping budget) |
| C59 | `Common.Tpr`, `Cond.Air` | field algebra, composition with C57 |
| C60 | `Cond.PerPart`: `startP`, `substepP`, `condPerPart` - per-particle fields, `reduce_by_key` sums, scatter by threads in any order | per-substep refinement (`substepP_ok`), induction on substeps; invariant for mixing: own air = interpolated ambient air + a function of the cell; simulation of one particle for independence |
| C61 | `Cond.Adaptive`: the per-super-droplet functor (`tryLoop`, `override`, `loopA`) and the step around it (`condAdaptive`); uninitialised locals are arbitrary | invariant of the search (fraction of the ambient change applied = 1/t), loop invariant of the substeps, refinement to a specified history (`History`, `Chosen`, both proved unique), equality with the fixed scheme of C60 via its substep theorem; budgets as in C60 |
| C62 | `Ice.Model`: freezing/melting functors, `iceNuclMelt` with the two moment computations and the scatter through `count_ijk`, `update_th_freezing` | functor-level mass identities (rpow), per-cell sums via the `Lists` lemmas of C58, heat by algebra; `phases_always`: induction over `ReflTransGen Step` using `percell_phase` (C58's substep induction) |
| C63 | `Ice.Model`: `TfreezeCDFinv`, `Jhet`, `Jhom`, `pFreeze`, `initTfreeze` | inversion of the CDF by monotonicity of log/exp, Lebesgue measure of the set of random numbers, multiplicativity of exp; array indices of the initialisation |
| C64 | `Turb.Model`: GA17 formulas, `hskpng_tke`, `hskpng_turb_vel`, `hskpng_turb_dot_ss`, the turbulence part of `step_async` | Mathlib `variance`/`IndepFun` over an arbitrary probability space, induction over steps (independence of the current velocity and the next random number derived from mutual independence); cell sums by the `Lists` lemmas |
| C65 | `Chem.Model`: `chem_Henry_fun` with all constants | the step is an affine contraction; equilibrium stated through the dissociation laws, not through the effective constant of the code |
| C66 | `chem_henry` over all gases with sort / reduce_by_key / permutation iterators | fold over gases, cell sums by the `Lists` lemmas |
| C67 | `chem_minfun`, `chem_electroneutral` with the TOMS748 model, `set_chem_flag` | charge is strictly monotone in H⁺, intermediate value theorem; range and accuracy of the root finder (`Toms.Range`, `Toms.Props`) |
| C68 | `chem_rhs_helper`, `chem_rhs`, classical RK4, `chem_new_rd3` | RK4 combination of four slopes each bounded by the content / dt; stage states stay within bounds |
| C69 | substep loop of `step_cond`, `sstp_percell_step_chem`, `chem_cleanup` | invariant over substeps |
| C70 | `init_chem_aq`, histories (inductive `Reach`) of chemistry steps and of `Coal.coal` | induction over histories |
| C71 | `kval` = the virtual `calc` of each kernel, `initKernel`; `Coal.coal` with such a kernel | algebra; nothing happens in a pair without collisions (pointwise form of `coal`) |
| C72 | `interpolatedEfficiency` with explicit array reads (`Option`) | the node cell containing a radius; triangular indices |
| C73 | `wang`, `nogravWith`, `kval (.onishi ..)` | convex combination of table entries; signs of the factors of `wrA2`; counterexamples |
| C74 | `Vterm.Model`: the five formulae, the cache, ice | formulae rewritten with dimensionless numbers in SI; sign analysis; width of a cache bin |
| C75 | `Vterm.Step`: refresh of velocities, coalescence loop with `Coal.coal`, sedimentation; `Vterm.Reverse`: next condensation | induction over sub-steps with the trace of states; sign of the Maxwell-Mason denominator for negative Nusselt numbers |
| C76 | `Src.Model`, `Src.Cells`: `init_count_num_src`, the simple source on top of the initialisation model of C33/C34 | floor arithmetic of box edges against cell centres; new super-droplets enumerated cell by cell through the scan of counts |
| C77 | `Src.Match*`, `Src.Runs`, `Src.Clash`: sort, `unique_by_key`, `binary_search`, `remove_if`, `reduce_by_key`, random picks | runs of a sorted list of (cell, interval) keys; counting argument for buffers and number of emissions; two families of counterexamples |
| C78 | `Src.Fresh`: vectors resized with their fill values, attributes set, surroundings not saved; the per-particle condensation of C60 | reduction to the substep theorem of C60; bounds on temperature and humidity of the air used; critical radius -1 |
| C79 | `Src.Stale`: the cell indices left by advection (`cellAfter`), used with the matching source of C77 and the cell reduction of C37 | which cell the index belongs to, for each scheme; consequences for matching and for array bounds |
| C80 | `Hskpng.SortFlag`: the lists `sorted_id`, `sorted_ijk`, the flag, and the operations of every API call on them | abstract interpretation of the sequence of operations (what is known about flag and lists), sound for every execution |
| C81 | `Rlx.Buffer`: number of created super-droplets per bin (from the model of C37), sizes of vectors | arithmetic on sizes, for all states |
| C82 | `Src.Room`: number of super-droplets, sizes of vectors, limit; outcomes with exceptions and out-of-range accesses | invariant over any sequence of operations, before and after an exception |
| C83 | `Diag.Activation`: the selection by critical size or humidity (root search of `Toms`), the air held by the object, in-cloud times under time steps, collisions, removals | accuracy of the root search against the maximum of the Koehler curve; induction over histories; invariant over calls; witnesses for stale air |
| C84 | `Diag.VelDiv`: the per-cell sum over faces with the face indices of C13 | index arithmetic; factor of the time step; counterexamples in 1D and 0D |
| C85 | `Diag.Rates`: velocities recomputed with the model of C74, moments of C14; reduction by maximum with keys compared after conversion to real_t | reduction to the moment theorem; induction over the reduction; witness with 2^24+2 cells |
| C86 | `Diag.Attr`: which arrays are resized under which options, the checks of `get_attr` and of the diagnostics, arrays read | sizes as invariant of histories; case analysis over calls for all options |
| C87 | `Pool.Api*`: every API call as a program over the guards of the ten pools (`Prog`: sequence, choice, loop, exception, scope), run on `Pool.Model` | abstract interpretation (may/must live guards) proved sound for all runs; the analysis is evaluated by the kernel for every combination of options (finite), then induction over the history |
| C88 | as C87, outcome `null` | as C87 |
| C89 | the whole API as data flow: which parts of the object each call reads and writes, physics uninterpreted (`Step/Skeleton`) | simulation relation between the history with and without diagnostics, induction on the history; where diagnostics may be placed is a small automaton; witnesses for the excluded places |
| C90 | same model | the report is computed from the simulated state alone; induction on the narrowings; witnesses for mass density and a second reading after a temperature |
| C91 | all entries of the six tables, generated by `tools/gentables.py` from the headers (`Kernel/Tab*`), with the interpolation of C72 | kernel evaluation over the complete tables (they are constants of the code), then interpolation lemmas for all real radii |
| C92 | `MultiGpu/Exchange.lean`: one thread program per device (27 operations) over an arbitrary type of devices, asynchronous copies with in-order streams, events capturing the copies started; every interleaving by a step relation | inductive invariant (`MultiGpu/Invariant.lean`); race freedom from it by cases over pairs of operations; deadlock freedom by taking the thread that is furthest behind; termination by a measure; counterexample interleaving for enlarging buffers |
| C93 | `MultiGpu/Barrier.lean`: `barrier_t` with generation, count, sleeping and woken threads, spurious wake-ups | inductive invariant linking the count to the number of threads that have arrived; witness after 2^32 rounds by induction |
| C94 | `MultiGpu/Outbuf.lean`: `outbuf` with the copy made by `std::bind`, `diag_puddle` | induction over devices with the partition theorems of C27; witness |
| C95 | model of the range search as a loop with fuel (`Init/DistAnalysis.lean`); invariant over the numbers of steps up/down, measure for termination (`Init/RangeProps.lean`) | partial: too thin aerosol is not reported |
| C96 | trapezoidal rule vs. interval integral, rounding, bisection over the cumulative distribution and Lebesgue measure of the preimages (`Init/ConstMulti.lean`); root finder from C49 | proved |
| C97 | limits of the tail initialisation (`Init/ConstMulti.lean`) | partial: always throws with user-given range |
| C98 | `Common/Profiles.lean`: the functions as they are | Gaussian integral after completing the square, change of variables, derivative of real powers, AM-GM | proved |
| C99 | `Py/Model.lean`: NumPy array as dtype, flag, shape, byte strides; `np2ai` with its write past the end as an outcome | strides of C order, composed with the index maps of C25; case analysis; literal witnesses for refutations | partial |
| C100 | `Py/Model.lean`: Boost.Python's filling of positions (documented behaviour, Boost is not in the repository), setters as folds over maps and vectors | counting keywords used; induction over the assigned dict | partial |
| C101 | `Blk1m/Termination.lean`, `Blk1m/TermReal.lean`, `Blk1m/DryThermo.lean`, `Blk1m/TermDry.lean` on the loop of `Blk1m/Model.lean` | rank function (vapour rises by half a tolerance or a reservoir is emptied while evaporating, falls by half a tolerance while condensing); invariant with exact RK4 polynomials of the affine latent heat and a growth bound of the saturation pressure; for the default variant (temperature a power of the potential temperature) convexity of the heating coefficient bounds the Runge-Kutta stages; three-state cycle for the negation | partial |
| C102 | `Init/Wet.lean` on `Toms/Wet.lean` (root search) and `Cond/Growth.lean` | uniqueness and accuracy of the bracketed root of the Köhler function, transported from volume to radius; growth-rate sign of condensation at that root |
| C103 | `Src/Water.lean` on `Src/Fresh.lean` and the moments of `Cond/PerCell.lean` | exact account by splitting the sum over super-droplets; the pair of calls that is commented out is modelled too and shown to conserve |
| C104 | whole time steps composed of the process models (condensation in any of its ways, coalescence substeps, transport, sources, boundary conditions, recycling/removal) acting on one population; a run is a sequence of steps with everything not determined by the state arbitrary | induction over the steps; each process lemma gives preservation |
| C105 | the same runs, with dry volume, number, water volume, what reaches the ground, what leaves, what sources add as separate sums | per-step balance from the process budgets (C02, C05, C08, C14, C58), telescoped over the run |
| C106 | the runs of C104 with all inputs given by surroundings that may depend on time and population; the index conversion at the end of step_async | each process model shown defined on well-formed populations, displacement bounds for the three schemes, then existence of a history of any length; two concrete runs that stop |
| C107 | runs on any number of subdomains: every subdomain goes through a step as in C104, then the exchange of C29 | balance at the walls per subdomain, the exchange conserves every exchanged quantity, telescoped over the run; positions inside by induction from bounds on displacements |
| C108 | `Icicle/Async`: actions of hook_post_step, future, background task as a second thread; library = `Step/Model` | invariant through an eager interpreter (`Icicle/AsyncProps`, `Icicle/Driver`), termination by a measure |
| C109 | `Icicle/Spinup`: get_rain/set_rain of the four schemes, hook_ante_loop, hook_ante_step, relaxation term | closed form of the state in any time step by induction (`Icicle/SpinupProps`) |
| C110 | `Icicle/Flow`: stream function, momenta, density, Courant numbers and limits of the Lagrangian domain | telescoping, trigonometric identities (`Icicle/FlowProps`) |
| C111 | `Run/Crit`: `rc2` of every super-droplet through whole time steps (initial refresh, condensation, chemistry, coalescence with invalidation, refresh, transport, new super-droplets, boundaries, recycling/removal) | induction over runs of a predicate on (dry volume, hygroscopicity, stored value) of live super-droplets; concrete parcel runs for the negations (`Run/CritProps`, `Run/CritWit`) |
| C112 | `Mpi/Sem`: operational semantics of Isend/Irecv/Wait with adversarial scheduling, buffering and delay; `Mpi/Program`: the programs of the processes | diamond property and discipline of buffers (`Confluence`, `Determinacy`, `Discipline`, `Check`, `Counting`), a canonical schedule (`Canon`, `CanonExch`), refinement to lists of super-droplets (`Refine`, `RefineRun`, `RunSpec`); `Mpi/Props`, `Mpi/Witness` |
| C113 | same model, Courant numbers stored with halo | `Mpi/Halos`: contents of halos; refinement of runs (`RunSpec`, `Props`); schedules for the negations (`Witness`) |
| C114 | `Float/Round`: numbers with p significant bits, any rounding to nearest; `Float/Model`: the quotient in double precision | spacing of p-bit numbers and of their quotients (`quotient_gap`), error of rounding to q bits; concrete counterexample in double precision |
| C115 | `periodicFl`: every operation rounded, `fmod` proved exact | monotonicity of rounding; sum of rounding errors; concrete counterexamples in single precision |
| C116 | `guardZ`, `shiftFl`: mixed single/double expressions of the predictor step | bounds on relative errors; in single precision the correction is below half a unit in the last place for all grids |
| C117 | `posFl`, `curandU01` | bounds on errors of the convex combination; spacing below one |
| C118 | `remoteFl`, `awayFl`, `bcondTol` | error bounds of the three roundings; spacing of numbers below the limit compared with the tolerance |
| C119 | `subX1`, `cellIdx` | single-precision positions below a rounded limit are below the exact one; numeral evaluation for the witness |
| C120 | `sstpFl` | relative error of product and quotient; numeral evaluation for the witness |
| C121 | `Sum`, `termFl`, `momentFl` | induction on the tree of additions, a relative-error calculus (`Within`); integers below 2^p are closed under exact addition |
| C122 | `Icicle/OutOpts`: the two Boost.Spirit grammars of `parse_moms` on lists of characters, `lexical_cast` a parameter | inversion lemmas for every parser (`intTok_iff`, `nums_iff`, `groups_iff`), counting of separators; counterexample without '|' |
| C123 | `Blk2m/Formulae` (+ `N0_c`); spectra as functions of diameter | gamma integrals (`gamma_moment`), linearity; the scale error of the ventilation coefficient as an exact factor, with a witness |
| C124 | `Blk2m/Formulae`, `Blk2m/Model.actRate`; specification by the maximum of the Köhler curve and an integral of the log-normal density | maximum by factorisation, tail of the Gaussian by the fundamental theorem and `erf → 1` |
| C125 | `Blk1m/Formulae` | monotonicity of real powers, exponential moments shared with C53 |
| C126 | `Float/Coal`: `collide` with any rounding to nearest, optional fused multiply-add, accurate roots; substeps as lists of disjoint pairs with the limiter | relative-error calculus (`Within`), induction over pairs, then over substeps; a family of histories showing that the loss is systematic |
| C127 | `Float/Kappa`: `weighted_summator` with rounding after every operation | monotonicity of rounding (recovered size is not negative), weighted mean with relative errors, induction over collisions and events |
| C128 | `Diag/Api`: every selection and moment function by name, over stored attributes and the options that decide which exist | induction over the sequence of calls on top of C14, C15; witnesses for absent attributes |
| C129 | `Bulk/Zip`: the loops over zipped containers, forwards and backwards, and the checks of the Python bindings; any cell formula | well-founded recursion over positions; definedness iff sizes are equal |
| C130 | `Float/Sedi`: the settling formula with any rounding, with or without fused multiply-add | absolute error of rounding in a domain of bounded height, induction over steps; spacing of floating-point numbers for the droplets that never move |
| C131 | `Float/Water`: the substep loop of one cell with every operation rounded, moments in any order of summation | error relative to the result of a rounding, increments of the substeps cancel, induction over substeps and over calls; spacing of floating-point numbers for changes that are lost |
| C132 | lengths of all option-dependent arrays after allocation, and the list of accesses of each API call (`Arrays/Model.lean`), on top of the option checks of C42 | case analysis over the accesses; if-and-only-if characterisation of the option combinations that go out of bounds, six witnesses |
| C133 | the collision part of `rhsCell` (`Blk2m/Model.lean`) in cells without phase changes; specification: mass of a drop, moments of the spectrum (C123) | algebra with the Gamma function recurrence; witnesses with accretion only (`Blk2m/Collect.lean`) |
| C134 | `ExchangeRcyc` (`Distmem/Recycle.lean`): `exchange` without the removal, then `Rcyc.rcyc` on every process | counting over the list of held super-droplets and `split_pos`; induction over steps; explicit runs with halving multiplicities for the failure |
| C135 | `rainRhs`, `limitFl`, `euler`, `rhs2m` (`Float/Limit.lean`): the single-moment tendencies with rounding to nearest and NaN as `none`; the caller's `x += dt*dot_x` | monotonicity of rounding, relative errors; exact evaluation of the roundings for one rain content per precision and exponent |
| C136 | `Init/Seeds.lean`: abstract engine, the state of the normal distribution kept by `reseed`, adaptive programs of requests; construction – init – rest as in `particles_init.ipp`. By induction on programs: results depend on seeds only, words are consecutive in the sequence of the seed; negations: keys of the first shuffle are the numbers of the dry radii; processes alike. |
| C137 | `Common/Tetens.lean` over `tet_p_vs`, `tet_r_vs`, `p_vs`, `r_vs`, `RHof`, `TofCell`, `pOfCell`: logarithm of the ratio of Tetens to Clausius-Clapeyron pressure has a derivative between 1e-4 and 2.5e-4 per kelvin from 0 to 40 °C (rational inequalities), mean value theorem from the triple point, exponential bounds. |
| C138 | `Float/Puddle.lean`: one tree of rounded additions per time step, accumulated; `count_vol` with its mixture of `double` and `real_t` | induction on trees and on runs with the relative-error relation of C121; spacing of numbers above a power of two for the losses |
| C139 | `Distmem/Buffers.lean`: sizes of the buffers at initialisation and their enlargement in `bcnd`, over histories of numbers sent | induction on the history with the invariant that both kinds of buffers are for the same number of super-droplets up to a division's remainder |
| C140 | `Step/Substeps.lean`: adjust_timesteps with signed numbers, the loops of coalescence and chemistry as lists of events | sums of the times handed over by induction on the number of substeps; order of events. |
| C141 | `Py/Names.lean`: the enumerations, the tables of names and the lookups over all strings | a lookup in a table without repeated names finds exactly the pairs of the table; the tables are compared entry by entry |
| C142 | `Icicle/Choices.lean`: the chains of options of the kinematic driver over all strings, composed with the checks and the kernel set-up of the library | one case per documented name; an undocumented string falls through every chain |
| C143 | `Step/NanCheck.lean`: floating-point values with NaN and infinities, the reduction as an arbitrary tree of `plus<bool>`, the checks of `sync_in` | induction on the tree (result is 0 exactly without invalid values) and on the list for `min_element` |
| C144 | `Launch/Factory.lean`: factory, the constructors up to the choice of edges, detection of MPI from the environment with its short-circuits and `atoi(NULL)` as an outcome | case analysis over builds and backends; the chain of launchers against an existential specification |
| C46 | `Init` | floor arithmetic |
| C47, C48 | `Common`, `Toms.Wet` | real analysis (monotonicity, IVT) |
| C49 | `Toms.Model`: TOMS 748 as a loop | bracket invariant, induction over iterations |
| C50 | `Blk1m.Formulae` | index arithmetic |
| C51, C52, C53 | `Blk2m` | field algebra, integrals against the gamma function |
| C54 | `Coal.Number` | measure of the random number set |
| C55 | `Step.Accept` | case analysis over all calls |

Findings (code disagrees with the property) are recorded in *Disagreements*; each is backed by a theorem (a negation with a concrete witness) and the part that does hold is proved under the suffix `_partial` or with the extra hypothesis in the statement.

## Disagreements
Properties that the code, as transcribed, does not satisfy; the theorem named is the machine-checked witness.

* **C09** – `rcyc` leaves dead super-droplets when more than half of all are dead, none has multiplicity one and the run is not purely constant-multiplicity (`rcyc_zeros_survive`).
* **C16** – reading a *field* diagnostic twice gives a scrambled array if some cell is empty: `outbuf()` itself re-counts and overwrites the cell list (`outbuf_field_twice_wrong`).
* **C17** – positions more than ten domain lengths to the left of a periodic wall are not folded back (`periodic_wrong`).
* **C20** – a failed `init` opens `sync_in`; a `step_async` that throws on an option mismatch consumes the pending step; a throw mid-step leaves a half-done step (`sync_after_failed_init`, `async_throw_consumes`, `async_half_done`).
* **C22** – the adapted number of coalescence substeps is overwritten at the next step.
* **C24, C44** – the pool of temporary vectors is too small for predictor-corrector advection in 1D/2D and for some diagnostics with a pool of one (`adve_pool_exhausted`).
* **C25** – a y-slowest Eulerian array over a single column in x is read transposed (`single_column_wrong`).
* **C26** – the locally filled halo of x Courant numbers wraps with period nx+1 faces (`halo_x_wrong`).
* **C29** – receive buffers are sized by the receiver's own outgoing counts (`buffer_too_small`); `n_sd_max` is checked before the sent ones are removed (`check_before_removal`); chemical masses are not exchanged under MPI.
* **C30** – cells outside the Lagrangian domain get a wrong, possibly positive, volume.
* **C31** – in 1D the right-face index equals the left-face index (`right_face_1d_wrong`).
* **C32** – the implicit scheme may carry a droplet across a closed face of the neighbouring cell (`impl_crosses`); in 1D the right face is ignored (`adve_1d_wrong`, `adve_1d_crosses`).
* **C33** – super-droplets are also created in cells outside the Lagrangian domain (`outside_domain`).
* **C35** – counts are truncated while the divisor is rounded; `sd_conc/divisor` is an integer division and may divide by zero (`multiplier_wrong`, `multiplier_div_zero`).
* **C37** – relaxation overshoots for fractional `rlx_sd_per_bin` (`overshoot`), and new super-droplets may have kappa outside their range (`kappa_outside`).
* **C38** – with p < p_vs the saturation mixing ratio is negative and the RK4 adjustment drives vapour negative (`rk_negative_vapour`). Termination of the RK4 loop is not proved.
* **C40** – the option `revp` does not switch off rain evaporation (`revp_ignored`).
* **C41** – bulk species can become negative for long time steps (`warm_negative`, `ice_negative_cloud`, `sublimation_negative`).
* **C42** – only the first entry of `SGS_mix_len` is checked; `x1` is not checked against the grid; `sd_conc*sd_const_multi` wraps; layouts are not enforced.
* **C43** – the mass-density estimator indexes the compact count array by cell number.
* **C45** – a `sync_in` without Courant numbers skips the fallback to `euler`, and stale faces behind the array are read (`stale_courants`).
* **C48** – the bracket for the critical radius is invalid for very large dry radii (`rw3_cr_bracket_fails`).
* **C50** – the Koenig tables are read one past the end for T ≤ 242.16 K.
* **C58** – with per-cell substeps and a density field that differs from the previous step's, total water of every cell with condensate changes by the difference of the *initial* condensate's mixing ratios at the first substep's and the final density, even if nothing grows (`percell_not_conserved`).
* **C60** – with mixing, what condenses in a substep is converted to mixing ratio at the density each super-droplet has reached in that substep; if super-droplets come from air of another density (another level, or a changed field), total water of the cell is not conserved (`perpart_mix_not_conserved`, with a concrete case). This is an exact-arithmetic source of the differences that the comment in apply_perparticle_cond_change_to_percell_rv_and_th.ipp reports; that all super-droplets of a cell end with the same air, which that comment doubts, is proved in exact arithmetic (`perpart_mix_water`, `perpart_mix_order`). Without mixing, the cell's potential temperature is updated with the latent heat at the temperature diagnosed in the *previous* step (`hskpng_Tpr` is not called in this branch): `perpart_nomix_water` states it with `q.s.T`.
* **C61** – if the tolerance is met after halving to `2^j` substeps and the droplet is then found to cross its critical radius, only `1/2^j` of the ambient change is reverted although `2/2^j` had been applied: the `sstp_cond_act` substeps begin after `1/2^j` of it, and `1 + 1/2^j` times the change is applied in total (`adaptive_overshoot`; vapour, temperature, density and pressure are re-synchronised with the cell afterwards, the SGS supersaturation is not). If the tolerance is met, the latent heat of the first substep is computed at the temperature of the shorter trial substep (`half` in `History`). With `sstp_cond` not a power of two, the estimate of crossing multiplies the change over `dt/2^J` by `sstp_cond` > `2^J` (in `Chosen.max`).
* **C62** – melting ignores the dry core: ice whose water volume is below the dry volume (sublimation stops at semi-axes of 1 nm whatever the core) turns into a droplet smaller than its dry particle (`melt_below_dry`), which condensation otherwise never produces. Droplets may also be frozen above 0 °C and melted again in the same call (no net effect, `Outcome.stays`).
* **C63** – `init_T_freeze` fills entries `[0, n_part_to_init)` of the temporary array with random numbers but reads from entry `n_part_old`: for the second and later distributions (and all sources) freezing temperatures come from leftovers of the temporary array (`initTfreeze_stale`). A random number of exactly 0 gives `log 0` (infinite temperature in C++); the laws are stated for numbers in (0,1).
* **C64** – the supersaturation perturbation is advanced explicitly with `1/τ = 2.8e-4 Σ n r / V`: with `dt > 2τ` it is driven away from its equilibrium (`ss_diverges`). Random numbers are abstract random variables; the generator is not modelled.
* **C66** – uptake of a gas by the droplets of a cell is computed independently for each; if together they would take more than there is, the mixing ratio is set to 0 and the excess has been created (`henry_creates`).
* **C67** – the search for electroneutrality is limited to pH −1…8. For a droplet that should be more alkaline the root finder has no sign change and returns a value of at least 5 mol/l H⁺ (`dissoc_alkaline`; concretely 1 mmol/l ammonia at 298 K, `ammonia_droplet`); the droplet then fails the ionic strength test and is excluded from chemistry.
* **C69** – `sstp_percell_step_chem` loops over `var_rho ? n : n-1` gases (a condition copied from condensation, where the last field is density): with constant density ozone is not substepped (`ozone_not_substepped`).
* **C72** – in single precision `r_max - 1e-6` equals `r_max` = 1100: for a drop of 1.1 mm or more `interpolated_efficiency` reads behind the end of the table (`float_reads_outside`).
* **C73** – (a) `wang_collision_enhancement` for two droplets of equal radius up to 100 µm finds no ratio above 1 and indexes row 11 of 11 (`onishi_equal_radii`; two such super-droplets are made by every recycling/splitting); the same for a collector of exactly 100 µm; (b) it is called with `k_params[0]`, the Reynolds number, instead of the dissipation rate (`enhancement_ignores_dissipation`: also in still air, `enhancement_in_still_air`); (c) `pow(…, real_t(1/4))` is `pow(…, 0)`: the Kolmogorov length is 1 m always (`kolmogorov_is_one`, `kolmogorov_wrong`); (d) the geometric kernel contains the multiplicity, the turbulent one does not (`turbulent_rate_too_low`).
* **C73** – kernel_onishi_nograv.hpp chooses the regime of clustering (Stokes number below or above critical) of each droplet by the Stokes number of the other droplet of the pair (`if(St2 <= StA) y11 = A1*St1*St1 ...`): `clustering_depends_on_partner`.
* **C75, C57** – `step_async` recomputes invalidated velocities after every coalescence sub-step but the last (particles_step.ipp:390-391), so collectors of the last sub-step (of every collision with the default of one sub-step) keep the marker -1 m/s. Sedimentation then moves them up by dt * 1 m/s (`collectors_rise`, `rises`). The marker also survives into the next `step_sync`, where condensation computes a negative Reynolds number: the Nusselt and Sherwood numbers `1 + cbrt(1 - Pe)` are negative for Pe > 2 (radius above about 25 um), hence the diffusivities are, and the droplet shrinks in supersaturated air and grows in subsaturated air (`reversed_rate`, `reversed_growth`, `exMarked_shrinks`). `max(1, pow(Re, .077))` with `pow` = NaN is modelled as 1, as IEEE semantics of `std::max` give; release builds use -Ofast (CMakeLists.txt:124), where NaN may come out instead. Calling `diag_precip_rate` between steps recomputes all velocities, so the diagnostic changes the simulation.
* **C76** – amounts are computed for `supstp * opts_init.dt` (src_dry_distros_simple.ipp:28) although the number of steps is counted with the current `dt`; with a variable time step the emission rate is wrong by the ratio of the two.
* **C77** – `unique_by_key` and `reduce_by_key` in src_dry_distros_matching.ipp (177, 284) use the size interval alone as key although entries are ordered by (cell, interval). If the last occupied interval of a cell equals the first occupied one of the next occupied cell, the runs merge: the first cell may get nothing, the second gets both a raised and a new super-droplet. Also: matching raises the multiplicity of existing (possibly large, wet) droplets, hence adds their water; during the activation the number of super-droplets transiently exceeds the final one and is checked against `n_sd_max`; offsets are computed in `real_t`, exact in single precision up to 2^24 super-droplets only (not modelled).
* **C78** – `post_adding_SD` (which calls `init_perparticle_sstp`) is commented out in src.ipp:15,23 and rlx.ipp:15,20, so the saved surroundings of new super-droplets are 0. In the first substep of the next per-particle condensation they grow in air with 1/sstp of vapour, potential temperature, density and pressure of the cell (`blank_first_substep`), i.e. for two or more substeps at a temperature of a third or less of the real one and a relative humidity 1e11 times too high, capped by RH_max (`blank_humidity`). Their critical radius is -1 until coalescence is next switched on (`blank_never_activates`).
* **C79** – in `step_async` source and relaxation run before `post_copy` recomputes cell indices. With the Euler and implicit schemes they use the departure cell (`stored_departure_partial`, `stored_level_below`). With predictor-corrector they use the cell of the predictor in coordinates shifted by the two halo columns (adve.ipp:197-199, 253, 303): even in still air every super-droplet is attributed to the cell two columns further (`stored_two_columns_off`), so the matching source raises super-droplets two columns off the source (`raised_outside`), never matches in the first two columns (`never_matched`), and reads `count_num` out of range for super-droplets in the last two (`stored_out_of_range`); in relaxation, the reduction over cells can have more entries than there are cells and is written past the end of `count_ijk`, `count_mom` (`count_overflow`, uniform flow).
* **C80** – `src` leaves the flag `sorted` up (the call of `post_adding_SD`, src.ipp:26, is commented out) although it has appended zeros to `sorted_id`/`sorted_ijk`; the matching source also compacts `sorted_ijk` in place. If relaxation follows in the same step (source and relaxation together are not rejected) and advection is not predictor-corrector, its per-cell numbers miss the new super-droplets, count super-droplet 0 in cell 0 once more for each of them, and may have more entries than cells (`relaxation_after_source`, `readers_out_of_date`, `readers_out_of_date_matching`).
* **C81** – rlx_dry_distros.ipp:271 draws n_dims numbers per created super-droplet into a vector of n_part entries: past its end if fewer super-droplets were present than created (2D), past its storage if n_dims times the created ones exceed n_sd_max (`random_past_end`, `random_past_storage`).
* **C82** – `n_part` is raised before `hskpng_resize_npart` checks it against n_sd_max; after the exception every use of super-droplets goes past the end of vectors (`broken_for_good`). The matching source checks room for all candidates before matching (`matching_throws_early`).
* **C83** – `diag_rw_ge_rc`, `diag_RH_ge_Sc` and the in-cloud time of `step_cond` use the temperature and humidity left by the last `hskpng_Tpr`; `sync_in` and `step_cond` do not call it, so the air is stale until `step_async` or `diag_temperature`/`diag_pressure`/`diag_RH`; a read-only looking diagnostic thereby changes later results (`activation_stale`, `diagnostic_changes_incloud`). `th_dry = false` without `const_p` is accepted, but pressure and temperature are then 0 for ever (`th_std_without_pressure`).
* **C84** – `diag_vel_div` divides by `opts_init.dt` even if the Courant numbers are for another step (`vel_div_other_dt`); 1D gives zero (`vel_div_1d`), 0D old data (`vel_div_0d`).
* **C85** – `diag_max_rw` compares cell numbers with `thrust::equal_to<real_t>`; in single precision cells 2^24 and 2^24+1 are merged (`max_rw_merged`). `diag_precip_rate` overwrites stored velocities, including those marked invalid (`precip_rate_writes`).
* **C86** – `diag_up_mom`, `diag_vp_mom`, `diag_wp_mom` do not check that turbulent velocities exist: reads from an empty array (`turbulent_moments_ub`); `diag_incloud_time_mom` is only guarded by an assertion (`incloud_silent`).
* **C87** – chemistry with per-particle substepping exhausts the pool in the first `step_cond`, because the volumes acquired in init are only given back by the first chemistry step (`exhausts_chem_exact`); predictor-corrector advection needs three vectors, the pool has two in 2D, one in 1D (`exhausts_pred_corr`); a selecting diagnostic between `sync_in` and `step_cond` (`exhausts_diag_before_cond`); comparisons and fluxes in a parcel (`exhausts_parcel`).
* **C88** – a moment asked for after `sync_in` with the selection made before it passes the check and dereferences a null guard (`derefs_moment_after_sync`); with no droplets at init the first advecting `step_async` reads cell indices that were never calculated (`derefs_no_ccn`); after an exception while unpacking droplets of another process the object is unusable (`derefs_after_unpack_throw`).
* **C89** – `diag_pressure`, `diag_temperature`, `diag_RH` between `sync_in` and `step_cond` change what condensation does (the mean free paths are computed from the temperature left by the last call, `temperature_diagnostic_interferes`); `diag_precip_rate` at its usual place after `step_async` recomputes the terminal velocities that coalescence left invalid, and the next condensation uses them (`precipitation_diagnostic_interferes`).
* **C90** – `diag_wet_mass_dens` and `diag_dry_mass_dens` read `count_num` beyond the counted cells (`mass_density_depends_on_earlier_diagnostics`); reading `outbuf()` twice after `diag_temperature` and the like gives a different second answer, because `outbuf()` ends by restoring the list of occupied cells (`outbuf_twice_after_temperature_differs`).
* **C91** – the gravitational Pinsky table has 0 for equal drops up to 21 micrometers except 0.042 at 8 micrometers, the number of the stratocumulus table (`gravitational_table_stray_entry`, `gravitational_equal_drops`); the cumulonimbus table has 0.2 at (20, 13) micrometers, less than all four neighbours (`cumulonimbus_table_dip`); with all tables but Vohl's drops of 300 micrometers or more never collect droplets below 14 micrometers (`large_drops_miss_small_ones`).
* **C92** `bcnd` enlarges the exchange buffers inside `step_async`, and the neighbour starts its first `cudaMemcpyPeerAsync` into `in_n_bfr` before the first barrier: when a device has to enlarge its buffers, its neighbour may already be copying into the buffer that is being freed.
* **C93** `unsigned int gen = m_generation` truncates: after 2^32 rounds the barrier does not hold threads any more (not reachable in the library, where a barrier lives for five rounds).
* **C94** `particles_t<multi_CUDA>::outbuf` passes the host vector to `std::bind` by value: `fill_outbuf` fills the copy and the vector copied to the output is the unfilled one (which only `init_n_sd_conc` ever writes: it holds the initial dry-air density or zeros). Also, an exception thrown in a worker thread of this backend ends the program (no handler in `set_device_and_run`); this is not modelled.
* **C95** An aerosol with less than one particle per super-droplet at all radii is not reported: `rd_min` grows past `rd_max` and on (`search_never_ends`); in floating point the radius overflows, NaN is converted to an unsigned integer (undefined), and only then, with luck, the check `rd_min >= rd_max` throws.
* **C97** `sd_conc_large_tail` with user-given `rd_min`, `rd_max` passes the sanity check but always throws "rd_min >= rd_max": the tail starts at `rd_max`, which is also its end (`tail_user_throws`).
* **C98** `lognormal::n_e`, `n` divide by `log(stdev)`, not its absolute value: for a geometric standard deviation below one they are negative (`lognormal_negative`).
* **C99** `np2ai`: strides of unit dimensions are trusted, but NumPy leaves them arbitrary in C-contiguous arrays: with one column, `zeros((5,1)).T` is read one level too low (`single_column_2d_wrong`), likewise in 3D (`single_column_3d_wrong`). No extents are checked (`extents_unchecked`, `profile_in_bounds_iff`). Strides of arrays with too many dimensions are written past the end of a vector before the dimension check (`overflow_iff`). 1D with one column is taken for a parcel (`one_column_1d`). Profiles for th or rv are written back by all columns (`profile_write_race`).
* **C100** `init` has eight parameters and seven names: th, rv, rhod name the parameters rv, rhod, p (`init_names_shifted`, `init_keywords_wrong`), th and p cannot be named. `set_kp` and the double-moment `set_dd` append (`set_kernel_params_appends`, `kernel_params_twice`, `set_modes_2m_appends`).
* **C101** The loop of the RK4 adjustment can alternate between condensation and evaporation for ever when the saturation mixing ratio rises by more than 1.5 tolerances per condensation step (latent-heat gain above 3, roughly above 298 K at 1000 hPa); `rk_infinite_loop` exhibits a three-state cycle for a linear saturation curve as steep as the real one near 313 K. With the exact curve such cycles were not excluded nor exhibited.
* **C102** `opts_init.RH_max` is not checked; with `RH_max >= 1` and supersaturated air the interval handed to the root search is reversed (`supersaturated_bracket`).
* **C103** Super-droplets added by a source or relaxation bring their water along: `ante_adding_SD`/`post_adding_SD`, which would take it from the vapour, are commented out in both callers (a comment at particles_step.ipp:448 says the effect is neglected on purpose; the account in the theorem is the exact size of what is neglected).
* **C106** A run stops (undefined behaviour) when coalescence meets an empty population (all droplets rained out), and, with recycling, when more than half of the super-droplets died in one step and none has multiplicity one: the dead ones keep positions below the ground, which `hskpng_ijk` converts to unsigned indices.
* **C109** – with a negative `--spinup` relaxation starts at once although its goals `th_eq`, `rv_eq` are never assigned (`relaxing_unset`); at the end of the spin-up `kin_cloud_2d_lgrngn_chem::set_chem` switches aqueous reactions on even if `--chem_rct=0` (`chem_forced_on`), and it does not switch them off during the spin-up; `set_rain` replaces the supersaturation limit by 44 (`rhMax_lost`).
* **C110** – Courant numbers for the Lagrangian scheme are momenta divided by the density at the face; at the bottom of the super-droplet domain (centre of the lowest cells) the opposite momenta of the two faces therefore do not cancel, and the air carries super-droplets out of the domain in downdraughts (`downdraught_leak`, `bottom_not_closed`).
* **C111** – `hskpng_approximate_rc2_invalid` is called only in `init` and in steps with coalescence: super-droplets from sources keep `rc2 = -1` (never activate in the sense of `sstp_cond_act`) until then (`source_never_critical`, `blank_never_activates`); `chem_react` changes `rd3` without invalidating `rc2` (`chemistry_witness`); `coal` invalidates according to `opts_init.sstp_cond_act` but the refresh depends on the current `sstp_cond_act` (`short_step_witness`).
* **C112, C113** – `xchng_courants` never waits for (and leaks) the requests of its sends. With a halo and `opts.adve == opts.turb_adve == false` in a step, nothing delays the next `sync_in` until the message to the left has been taken, and the neighbour may get the Courant numbers of the next step (`late_send`); with advection, the exchange of super-droplets happens to order them. With a subdomain narrower than the halo, the columns sent overlap the halo being received (`narrow`).
* **C114** In double precision the quotient of position and cell size can round up to the number of cells: with nx = 17, dx = 3.2 and x1 = nx*dx the position 54.4 < x1 is given the cell index 17 (`cell_double_out_of_range`), i.e. one past the last; all per-cell arrays are then read out of bounds. The comment in hskpng_ijk says the division in double precision avoids this; it does for `float` (`cell_single_in_range`), not for `double`.
* **C115** `a + fmod(...)` can round up to the upper wall when the lower wall is not at zero (`periodic_hits_upper_wall`: 16 cells, x0 = dx/2, x1 = 16 dx, then index 16). Adding ten domain lengths costs three to four bits of every position in every step, also of droplets that crossed no wall; one at 1-2^-24 in a domain of length 1 is moved to 0 (`periodic_moves_interior`).
* **C116** The guard after the predictor step subtracts 1e-8 of a layer. In single precision this never changes z1 (`guard_single_at_top`), so a droplet that the predictor moves above the top is assigned the layer nz, which does not exist: in 2D it is the bottom of the next column (`guard_single_wrong_cell`).
* **C117** cuRAND's (0,1] is turned into [0,1) by `1 - v`, which is 1 for v < 2^-25 in single precision (`curand_reaches_one`). Independently of this the random position in a cell can be rounded to its upper end, e.g. to x1 = 7 with u = 1-2^-24 in the last of 7 cells (`place_reaches_end`); the predictor-corrector scheme computes cell indices of such positions before boundary conditions are applied.
* **C118** the correction of received droplets subtracts 5e-4 m from coordinates at or above the limit. In single precision, in any subdomain that ends above 16384 m (e.g. 200 columns of 100 m) the difference is rounded back to the limit, and the droplet gets the index after the last column, outside every array indexed by cells (`land_outside`). The alternative `nextafter_away_from_bcond` defined in the same file does not have this problem.
* **C119** the last device's limit is x1 - n_bfr*dx with two roundings; for seven columns of 0.7f on two devices it is one unit above four columns, and the position 4*dx, which the device accepts, is given column 4 of 4 (`sub_last_out_of_range`).
* **C120** in double precision with opts_init.dt = 0.3 and sstp_cond = 7, opts.dt = 0.3 gives 7*0.3/0.3 = 7.000000000000001 and eight substeps (`sstp_changed_by_default_dt`); likewise 3 substeps of 0.1 s become 4.
* **C121** in single precision the number of droplets in a cell is added up in `real_t`: after 2^25 droplets super-droplets of multiplicity one are not counted at all (`count_stagnates`), and the result depends on the order of the reduction (`count_order_dependent`).
* **C122** `parse_moms` keeps the npos of an absent '|' in an `int`; substr(0,-1) and substr(0) are then both the whole string, so "0:1" is accepted as moment 1 of the range 0-1 m (`missing_bar_accepted`). Blanks inside numbers are ignored: "0:1|1 2" asks for moment 12.
* **C123** `a_fall` (blk_2m/cond_evap_formulae.hpp) is the coefficient of a fall speed in cm/s of a diameter in micrometres, but `tau_relax_r` uses it with the slope in 1/m and viscosity in SI: the Reynolds number of the mean raindrop is off by `10^(2-18β)` (β = 2/3, 1/3, 1/6, 0 by size class), so that drizzle and ordinary rain evaporate practically without ventilation (`rain_ventilation_scale`, `rain_ventilation_wrong`). `N0_c` has a malformed return type and is never instantiated.
* **C126** Adding the dry size of a collected droplet to that of a large drop can be lost in rounding, in the same direction every time: in single precision a drop that holds the aerosol of 2^25 droplets collects any number of further ones without its dry size changing, while the droplets are removed (`coal_absorption`). The aerosol mass of a long run decreases without bound (relative to the drift bound, which is reached up to a constant).
* **C128** `diag_up_mom`, `diag_vp_mom`, `diag_wp_mom` do not check that the velocities exist (turb_adve_switch, dimensions): they read an empty vector. `diag_incloud_time_mom` without `opts_init.diag_incloud_time` only asserts: in a release build it returns normally and `outbuf()` gives the previous diagnostic (`stale_answer`). The ice and chemistry diagnostics throw.
* **C129** `zip` ends only when all iterators are at their ends: with containers of different sizes the loop runs past the shortest. The Python bindings of the bulk schemes check type and layout of every array but never compare sizes, so a wrong size reads and writes outside of the arrays instead of raising (`python_calls`). An empty column with sedimentation dereferences a null pointer (`column_defined`).
* **C130** In floating point a droplet whose fall in one step is below half a unit in the last place of its height never moves: in single precision at 1500 m with dt = 0.1 s everything settling slower than about 0.6 mm/s stays where it is for ever (`settle_stuck`, `haze_stuck`).
* **C131** In floating point, condensation below half a unit in the last place of the water vapour per substep leaves the vapour unchanged while the liquid water grows: in single precision at 10 g/kg, 0.24 micrograms per kilogram per substep come from nowhere (`vapour_stuck`, `water_from_nowhere`).
* **C132** Six option combinations pass all checks but make the code use arrays that were never allocated: `turb_coal` without any turbulence switch; `turb_cond` in `step_async` without `turb_cond_switch` (only `step_cond` checks it); chemistry with `no_ccn_at_init`; a grid in x and y only; turbulent advection without x direction; `sstp_cond_act` < 1 with `sstp_cond` > 1.
* **C133** The double-moment scheme divides the collected water by the mass of a drop of the *mean radius*, which is smaller than the mean drop mass; collisions therefore remove a larger share of the droplets than of the cloud water (factor `(m+2)(m+3)/(m+1)²`, about 1.35 at 100 droplets/cm³), and a step can leave cloud water without droplets.
* **C134** With recycling in an MPI run the slots of super-droplets *sent to a neighbour* are refilled by splitting, so every process grows by what it receives in every step and the run ends with the `n_sd_max` exception (`recycled_run_fails`); the multi-GPU backend rejects the option, MPI does not.
* **C135** The limit `rr/dt` on rain evaporation is exact only in real arithmetic: `dt * (rr/dt)` may exceed `rr` (never for power-of-two `dt`, some 5-10% of contents otherwise), rain ends just below zero, and `pow(rr, .875)` in `collection_rate` is NaN in the next call (`evaporation_then_nan`).
* **C136** `init()` ends with `rng.reseed(rng_seed)` also when `rng_seed_init_switch` is off, i.e. after the very same seed was used for initialisation (and both seeds are 44 by default). The first shuffle then draws the words the dry radii were drawn with: in single precision the first collision partners are neighbours in the order of offsets within size bins. Neither the MPI rank nor the device number enters the seed, so all processes and devices use the same sequence: equal slabs start with identical populations.
* **C138** (particles_impl_bcnd.ipp:260-301) puddle outputs are running sums of type `real_t`: in single precision they stop growing once the rain of a time step is below half a unit in the last place of what has accumulated.
* **C139** buffers of a receiver are enlarged by what it sends itself, not by what it gets: a whole evenly filled column (Courant number 1) does not fit the initial buffers of a neighbour; the assertions of `pack_*` concern the sender only.
* **C140** `sstp_coal` and `sstp_chem` below one are accepted and silently switch the process off (`no_substeps`); `opts.dt = 0` means the default time step, not no time (`zero_is_default`).
* **C141** Long's collision kernel is `long` in the Python bindings but `Long` in `kernel_name`.
* **C142** Onishi's two kernels, offered by the kinematic driver's help, always throw: the driver passes two parameters where the library accepts exactly one, and never sets `turb_coal_switch`. Without assertions an unknown `--adve_scheme` runs silently as `implicit`.
* **C143** `nancheck` always reports "1 nan/inf numbers", because the flags are summed with `plus<bool>`; after collisions the chemicals of all super-droplets but the last are checked (`n_part - 1`).
* **C144** A library built without MPI notices only four launchers; started by another one (e.g. `srun` with PMIx) each process simulates the whole domain on its own. A rank variable without its size variable leads to `atoi(NULL)`.
* **C51, C52** – blk_2m: limited accretion creates water (`water_created`); cloud water can become negative (`rc_negative`).

Remarks without a theorem: coalescence on zero super-droplets builds a range whose end precedes its begin; `step_cond` does not check `chem_switch`; matching of sources merges adjacent cells with equal bin numbers; the source uses `opts_init.dt` even if `opts.dt` overrides it; het_B_nucleation_2 calls `abs` unqualified.

## Not modelled
Floating-point rounding outside `Float/`, overflow of reals, CUDA/OpenMP memory model (beyond "any order of loop iterations"), MPI beyond the semantics of `Mpi/Sem` (messages arrive intact, the guarantees of the standard on ordering and matching hold), input validation by Boost.units, Python bindings other than `np2ai`, keyword arguments and option setters (`Py/`), I/O, `std::random` quality, performance.
