#!/usr/bin/env python3
"""Source of truth for properties.jsonl (text) and MANIFEST.json (status); run from /verif."""
import json
P=[]
def p(id,title,statement,quantifier,why,anchors): P.append(dict(id=id,title=title,statement=statement,quantifier=quantifier,why_tests_cant=why,anchors=anchors))

COAL="src/impl/coalescence/particles_impl_coal.ipp"
p("C01","Coalescence conserves dry aerosol volume",
 "A coalescence substep performed by step_async leaves, in every grid cell, the sum over super-droplets of multiplicity times dry radius cubed exactly unchanged.",
 "every population, every assignment of super-droplets to cells, every shuffle, every kernel value, every random draw and every substep length",
 "The space of populations, pairings and random draws is infinite; statistical tests only bound an average error.",
 [COAL+": detail::collider, detail::collide, impl::coal"])
p("C02","Coalescence conserves liquid water volume",
 "A coalescence substep leaves, in every grid cell, the sum over super-droplets of multiplicity times wet radius cubed exactly unchanged (in exact arithmetic).",
 "every population, shuffle, kernel value, random draw and substep length",
 "Tests compare a few runs within tolerance; a wrong exponent or multiplicity limiter can hide in rare multi-collision events.",
 [COAL+": detail::collide, detail::collider"])
p("C03","Coalescence never underflows or creates multiplicity",
 "During coalescence the unsigned multiplicity of a super-droplet never wraps below zero and never grows; the number of super-droplets is unchanged; the total number of real droplets in a cell never increases.",
 "every population, shuffle, kernel value (however large), random draw",
 "Underflow needs a rare combination of huge collision probability and multiplicity ratio that a finite test set need not hit.",
 [COAL+": detail::collider (min with n_a/n_b), detail::collide"])
p("C04","Coalescence is schedule independent and local to cells",
 "The parallel loop over pairs gives the same result for every execution order of its iterations; each super-droplet takes part in at most one collision per substep and only collides with a super-droplet of its own cell.",
 "every thread schedule (every permutation of the loop iterations), every sorted cell assignment",
 "Thread interleavings cannot be enumerated by running tests.",
 [COAL+": detail::collider (cix_a % 2, cix_a != cix_b - 1), impl::coal","src/impl/housekeeping/particles_impl_hskpng_sort.ipp"])
p("C05","Coalescence transports solute: chemistry and kappa",
 "When chemistry is on, sum of multiplicity times dissolved mass of each species is unchanged by coalescence; with several kappas the sum of multiplicity times kappa times dry radius cubed is unchanged.",
 "every population, pairing and number of collisions",
 "Post-passes decode who collided from a packed float vector; mistakes only show in particular pairings.",
 [COAL+": detail::summator, detail::weighted_summator, impl::coal"])
p("C06","Collision probability scaling represents all pairs",
 "Multiplying the per-pair probability by the scale factor makes the number of candidate pairs examined in a cell equal to n(n-1)/2, all unordered pairs of super-droplets of that cell.",
 "every number of super-droplets in a cell",
 "Off-by-one mistakes matter only for odd/even/small cells.",
 [COAL+": detail::scale_factor"])
p("C07","Coalescence invalidates cached attributes of exactly the changed super-droplets",
 "After coalescence every super-droplet whose wet or dry radius changed has its cached terminal velocity flagged as invalid, and super-droplets that did not collide keep all their attributes.",
 "every population, shuffle, draw",
 "A stale cache changes results only slightly and only for particular pairs.",
 [COAL+": detail::collide, detail::invalidator, impl::coal"])
p("C08","Recycling conserves every multiplicity-weighted quantity",
 "rcyc replaces zero-multiplicity super-droplets by splitting the most numerous ones so that the sum over super-droplets of multiplicity times f(attributes) is unchanged for every function f of the attributes.",
 "every population, every tie-breaking of the unstable sort, every f",
 "Quantifies over all functions of attributes and all sort outcomes.",
 ["src/impl/housekeeping/particles_impl_rcyc.ipp: impl::rcyc"])
p("C09","No zero-multiplicity super-droplets survive recycling",
 "After rcyc no super-droplet has zero multiplicity.",
 "every population",
 "The claim depends on the whole multiplicity histogram.",
 ["src/impl/housekeeping/particles_impl_rcyc.ipp: impl::rcyc"])
p("C10","Removal of dead super-droplets keeps attributes aligned",
 "hskpng_remove_n0 removes exactly the super-droplets with zero multiplicity, keeps the order of the others, and keeps every attribute vector aligned with every other.",
 "every population and every number of attribute vectors, incl. chemistry",
 "Misalignment is only visible for particular removal patterns.",
 ["src/impl/housekeeping/particles_impl_hskpng_remove.ipp: impl::hskpng_remove_n0"])
p("C11","Cell index encoding is a bijection",
 "The flat cell index computed from (i,j,k) is smaller than n_cell, distinct for distinct (i,j,k), and recovering (i,j,k) from the flat index gives them back, in 0-3 dimensions.",
 "every grid size and every cell",
 "Unbounded grid sizes.",
 ["src/impl/housekeeping/particles_impl_hskpng_ijk.ipp: ravel_ijk, unravel_ijk"])
p("C12","Positions determine the enclosing cell",
 "A super-droplet at position x inside the domain is assigned the unique cell [i dx,(i+1) dx) containing it, so its cell index is in range.",
 "every position and grid",
 "Continuum of positions.",
 ["src/impl/housekeeping/particles_impl_hskpng_ijk.ipp: hskpng_ijk, detail::divide_by_constant_and_cast"])
p("C13","Sorting and counting by cell are correct",
 "After hskpng_sort and hskpng_count: sorted ids are a permutation of all ids ordered by cell, count_ijk lists each non-empty cell once in increasing order, count_num is the number of super-droplets of that cell, and the counts add up to n_part; shuffling changes order only within cells.",
 "every population, shuffle key and unstable-sort outcome",
 "All permutations.",
 ["src/impl/housekeeping/particles_impl_hskpng_sort.ipp","src/impl/housekeeping/particles_impl_hskpng_count.ipp"])
p("C14","Diagnosed moments equal their definition",
 "diag_*_mom(k) followed by outbuf() returns for every cell (sum of n x^k over selected super-droplets in the cell)/(dv rhod), and zero in cells without super-droplets.",
 "every population, selection, power and cell",
 "Scatter/gather through reduce_by_key must be right for all occupancy patterns.",
 ["src/impl/diagnose_SD_attributes/particles_impl_moms.ipp: moms_calc","src/impl/diagnose_SD_attributes/particles_impl_fill_outbuf.ipp","src/particles_diag.ipp"])
p("C15","Selection by size ranges",
 "diag_dry_rng/wet_rng/kappa_rng select exactly the super-droplets with min <= r < max; abutting ranges partition the population so that their moments add up; consecutive (_cons) selections act as intersections; diag_all selects everything.",
 "every population and every sequence of selections",
 "All boundaries and all compositions of filters.",
 ["src/impl/diagnose_SD_attributes/particles_impl_moms.ipp: moms_rng, moms_cmp, moms_ge0, moms_gt0, moms_eq0","src/particles_diag.ipp"])
p("C16","outbuf can be read repeatedly",
 "Calling outbuf() twice without any diag_ call in between returns the same array.",
 "every population and every kind of diagnostic",
 "Depends on occupancy pattern of cells.",
 ["src/particles_ctor.ipp: outbuf","src/impl/diagnose_SD_attributes/particles_impl_fill_outbuf.ipp","src/particles_diag.ipp: diag_pressure, diag_temperature, diag_RH"])
p("C17","Periodic walls",
 "The periodic boundary condition leaves positions inside the domain unchanged, maps positions outside to a position inside the domain that differs by a whole number of domain lengths.",
 "every position (up to ten domain lengths to the left) and every domain",
 "Continuum of positions; sign pitfalls of fmod.",
 ["src/impl/boundary_conditions/particles_impl_bcnd.ipp: detail::periodic"])
p("C18","Open walls and surface remove exactly the leavers",
 "With non-periodic boundaries exactly the super-droplets whose position left the domain get multiplicity zero, all others keep their multiplicity and attributes.",
 "every population and configuration of walls",
 "All configurations and positions.",
 ["src/impl/boundary_conditions/particles_impl_bcnd.ipp: impl::bcnd"])
p("C19","Puddle budget",
 "The accumulated puddle (diag_puddle) plus the content of the domain is invariant under the bottom boundary condition: whatever water, dry volume, droplet number and dissolved mass disappear through the bottom appear in the puddle; puddle entries never decrease.",
 "every history of steps and every population",
 "Unbounded histories.",
 ["src/impl/boundary_conditions/particles_impl_bcnd.ipp: impl::bcnd","src/particles_diag.ipp: diag_puddle"])
p("C20","Stepping protocol",
 "A sequence of API calls is accepted only if it starts with init, each step_cond follows a sync_in and each step_async follows a step_cond with nothing but failed calls in between; sync_in is refused while a step_async is pending; wrong-order calls throw and leave the state unchanged; no accepted sequence deadlocks.",
 "every finite sequence of API calls with every argument validity",
 "Unbounded call histories.",
 ["src/particles_step.ipp: step_sync, sync_in, step_cond, step_async","src/particles_init.ipp: init"])
p("C21","Variable time step keeps substeps short",
 "When opts.dt overrides the default step, the number of substeps of every process is at least one and the substep is never longer than dt_default/sstp_default for processes with more than one substep; opts.dt<=0 restores defaults; an override without variable_dt_switch throws.",
 "every dt and every substep count",
 "Continuum of dt, ceil rounding.",
 ["src/impl/particles_impl_adjust_timesteps.ipp: adjust_timesteps"])
p("C22","Coalescence substep adaptation persists",
 "With constant-multiplicity initialisation, once a multiple collision is detected the number of coalescence substeps stays increased in the following steps.",
 "every history of steps",
 "Statement about histories.",
 ["src/particles_step.ipp: step_async (++sstp_coal)","src/impl/particles_impl_adjust_timesteps.ipp"])
p("C23","Temporary vectors are never shared",
 "Two guards alive at the same time never refer to the same temporary vector; after all guards are destroyed every vector is free again; releasing and re-acquiring keeps this.",
 "every sequence of acquire/release",
 "All histories of guard lifetimes.",
 ["src/detail/tmp_vector_pool.hpp"])
p("C24","Temporary vector pools suffice",
 "For every accepted configuration the pool of per-particle temporary vectors is large enough for the vectors held simultaneously by advection.",
 "every configuration (dimensionality, advection scheme, switches)",
 "Combinatorial configuration space.",
 ["src/impl/particles_impl.ipp: tmp_drp_no","src/impl/advection/particles_impl_adve.ipp","src/detail/tmp_vector_pool.hpp"])
p("C25","Eulerian fields are copied to the right cells",
 "sync copies the caller's array element of cell (i,j,k) to that cell and back, for every memory layout given by the strides; copying in and out unchanged restores the caller's array; elements outside the mapping are untouched.",
 "every grid size, layout (kij/ijk...) and subdomain offset",
 "All sizes and strides.",
 ["src/impl/initialization/particles_impl_init_e2l.ipp: init_e2l","src/impl/particles_impl_sync.ipp: sync"])
p("C26","Periodic halo of Courant numbers",
 "For the predictor-corrector scheme the halo of the x Courant number field is the periodic extension of the face values.",
 "every grid size and halo index",
 "All sizes.",
 ["src/impl/initialization/particles_impl_init_e2l.ipp: detail::periodic_cellno","src/impl/distributed_memory/particles_impl_xchng_courants.ipp"])
p("C27","Domain decomposition is an exact partition",
 "The subdomains assigned to GPUs or MPI processes are contiguous, disjoint and cover all nx columns, and each gets at least one column when nx >= number of devices.",
 "every nx and number of devices",
 "All sizes.",
 ["src/detail/distmem_opts.hpp: get_dev_nx, distmem_opts"])
p("C28","Source region survives decomposition",
 "The parts of the source box handed to the subdomains tile the original box exactly and lie inside the subdomains.",
 "every box and decomposition",
 "Continuum of boxes.",
 ["src/detail/distmem_opts.hpp: distmem_opts"])
p("C29","Exchange between domains loses nothing",
 "When super-droplets cross subdomain borders, after the exchange and removal of sent ones the total multiplicity-weighted sum of every attribute over all subdomains is unchanged, and every super-droplet is held by exactly one subdomain with correctly translated position.",
 "every number of subdomains and every population",
 "All populations and topologies.",
 ["src/impl/distributed_memory/particles_impl_pack.ipp","src/impl/distributed_memory/particles_impl_unpack.ipp","src/impl/distributed_memory/particles_impl_mpi_exchange.ipp","src/impl_multi_gpu/particles_multi_gpu_impl_step_async_and_copy.ipp"])
p("C30","Cell volumes add up to the Lagrangian domain volume",
 "The volume of each cell is the volume of its intersection with the domain [x0,x1)x[y0,y1)x[z0,z1); the volumes add up to the domain volume.",
 "every grid and domain within the grid",
 "Continuum of domains.",
 ["src/impl/initialization/particles_impl_init_grid.ipp: detail::dv_eval"])
p("C31","Face indices follow the Arakawa-C grid",
 "For each cell the stored left/right/fore/hind/below/above indices address the Courant number of the face shared with the neighbouring cell; the right face of a cell is the left face of its right neighbour etc., and indices stay within the Courant arrays.",
 "every grid size, dimensionality and cell",
 "All sizes.",
 ["src/impl/initialization/particles_impl_init_grid.ipp: init_grid"])
p("C32","Advection solves the interpolated-velocity step",
 "With the explicit/implicit scheme the displacement equals the Courant number, linearly interpolated between the two cell faces at the departure/arrival point, times dx; uniform flow shifts every super-droplet by C dx; a super-droplet cannot cross a face with zero normal Courant number while |C|<1.",
 "every position, cell and Courant numbers",
 "Continuum.",
 ["src/impl/advection/particles_impl_adve.ipp: adve_helper"])
p("C33","Initial positions fall in their cells",
 "Each initial super-droplet position lies within the cell it was generated for and within the Lagrangian domain.",
 "every random draw, grid and domain",
 "Continuum.",
 ["src/impl/initialization/particles_impl_init_xyz.ipp: detail::pos_lgrngn_domain"])
p("C34","Initial radii are stratified",
 "With sd_conc initialisation the j-th super-droplet of a cell gets a dry radius within the j-th of sd_conc equal sub-intervals of log radius, thus radii are distinct and cover the range.",
 "every random draw, sd_conc and range",
 "Continuum.",
 ["src/impl/initialization/particles_impl_init_dry_sd_conc.ipp: detail::calc_lnrd"])
p("C35","Several aerosol distributions keep their concentrations",
 "When the dry distribution map has several entries, the multiplicities of the super-droplets of each entry represent the integral of that entry (up to the rounding of the bin count), i.e. the multiplier is scaled by exactly sd_conc / (number of SDs of the entry).",
 "every set of distributions",
 "Integer division only bites for certain fractions.",
 ["src/impl/initialization/particles_impl_init_SD_with_distros_sd_conc.ipp","src/impl/initialization/particles_impl_init_dist_analysis.ipp"])
p("C36","Aerosol source fires at the requested cadence",
 "With opts.src on, new aerosol is added in step_async exactly once per supstp_src calls; switching opts.src off resets the counter.",
 "every history of steps",
 "Unbounded histories.",
 ["src/particles_step.ipp: step_async","src/impl/sources_and_relaxation_of_SDs"])
p("C37","Relaxation never overshoots",
 "The relaxation of aerosol adds to a height bin only droplets missing w.r.t. the expected number, and at most the missing number (up to rounding).",
 "every population and option values",
 "Continuum of options.",
 ["src/impl/sources_and_relaxation_of_SDs/particles_impl_rlx_dry_distros.ipp"])
ADJ="include/libcloudph++/blk_1m/adj_cellwise.hpp"
p("C38","blk_1m saturation adjustment conserves water and stays non-negative",
 "adj_cellwise leaves the sum rv+rc+rr of every cell unchanged and never makes a non-negative mixing ratio negative.",
 "every cell state, every option combination, every number of iterations and thermodynamic closure",
 "Iterative algorithm over a continuum of states.",
 [ADJ+": adj_cellwise_hlpr, adj_cellwise_nwtrph, adj_cellwise"])
p("C39","Bulk sedimentation closes the column budget",
 "rhs_columnwise (blk_1m rain and ice, blk_2m) adds tendencies whose density-weighted column sum equals the surface flux it returns; nothing enters through the model top; sedi=false changes nothing.",
 "every column height, density and rain profile",
 "All column sizes.",
 ["include/libcloudph++/blk_1m/rhs_columnwise.hpp","include/libcloudph++/blk_2m/rhs_columnwise.hpp"])
p("C40","Bulk cell-wise tendencies conserve water",
 "rhs_cellwise of blk_1m (warm and ice) changes the tendencies of vapour, cloud, rain and ice species by amounts that add up to zero in every cell; disabled processes contribute nothing; potential-temperature tendency is latent heating times phase change.",
 "every cell state and option combination",
 "Continuum of states, all option combinations.",
 ["include/libcloudph++/blk_1m/rhs_cellwise.hpp"])
p("C41","Bulk cell-wise tendencies keep species non-negative",
 "Applying the blk_1m tendencies over the time step dt they were computed for does not make a non-negative species negative.",
 "every cell state and option combination",
 "Continuum.",
 ["include/libcloudph++/blk_1m/rhs_cellwise.hpp"])
p("C42","Sanity checks reject inconsistent options",
 "An init call that returns normally implies the documented constraints among options, incl. every entry of SGS_mix_len positive.",
 "every options value",
 "Combinatorial space.",
 ["src/impl/initialization/particles_impl_init_sanity_check.ipp"])
if __name__=="__main__":
    import os,sys
    sys.path.insert(0,os.path.dirname(__file__))
    try:
        import props2
        props2.add(p)
    except ImportError: pass
    with open("/verif/properties.jsonl","w") as f:
        for x in P: f.write(json.dumps(x)+"\n")
    print(len(P))
