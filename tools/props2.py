def add(p):
    p("C43","The mass density estimator uses each cell's own super-droplet count",
      "diag_wet_mass_dens(rad, sig0) followed by outbuf() returns for every cell the sum over the selected super-droplets of the cell of the Shima et al. (2009) kernel whose width is sig0 divided by the fifth root of the number of super-droplets in that same cell.",
      "all populations, cell assignments, selections, radii and earlier calls",
      "the result depends on which cells happen to be empty and on leftovers of earlier calls",
      ["src/impl/diagnose_SD_attributes/particles_impl_mass_dens.ipp: mass_dens_estim"])
    p("C44","Temporary vector pools suffice for diagnostics",
      "For every accepted configuration, any sequence of diag_* calls (selections, consecutive selections, comparisons with critical radius or supersaturation, precipitation rate) never needs more per-particle temporary vectors at once than init() has allocated.",
      "all accepted configurations and all finite sequences of diagnostic calls",
      "the peak depends on which selection is still held and on option combinations; exhaustion is silent in release builds",
      ["src/detail/tmp_vector_pool.hpp: tmp_vector_pool", "src/impl/particles_impl.ipp: tmp_drp_no", "src/particles_diag.ipp: diag_rw_ge_rc, diag_precip_rate"])
    p("C45","Advection never reads Courant numbers outside the stored arrays","Advection of a super-droplet that is inside the domain depends only on the stored Courant numbers (grid plus halo); with the predictor-corrector scheme and x Courant numbers within [-2,2] the predicted point stays within the two-column halo.","every grid, position, scheme and Courant numbers","Out-of-bounds reads only occur for particular extreme displacements.",["src/impl/advection/particles_impl_adve.ipp: adve, adve_calc","src/particles_step.ipp: sync_in (fallback to euler)","src/impl/initialization/particles_impl_init_sync.ipp"])
    p("C46","Initial multiplicities represent the given aerosol","With a single dry distribution, the sum of the multiplicities initialised in a cell lies between the lower and upper Riemann sums of the distribution (times cell volume, density and profile factors) up to half a particle per super-droplet; with dry_sizes it equals the number of particles in the cell up to half a particle per super-droplet.","every distribution, range, sd_conc, cell and random draw","Continuum of distributions and draws.",["src/impl/initialization/particles_impl_init_n.ipp","src/impl/initialization/particles_impl_init_dist_analysis.ipp","src/impl/initialization/particles_impl_init_count_num.ipp"])
    p("C47","Thermodynamic formulae are mutually consistent","The conversions between dry and standard potential temperature are inverse to each other and describe one physical state; the specific latent heats satisfy Hess's law at every temperature, so that evaporating ice costs melting plus evaporation; saturation pressures over water and ice satisfy Clausius-Clapeyron with those latent heats, agree at the triple point and order correctly below it; saturation with respect to the mixing ratio is saturation with respect to vapour pressure.","all temperatures, pressures, densities and mixing ratios in the physical range","Continuum of states; consistency between formulae coded in different headers.",["include/libcloudph++/common/const_cp.hpp","include/libcloudph++/common/theta_dry.hpp","include/libcloudph++/common/theta_std.hpp","include/libcloudph++/common/moist_air.hpp"])
    p("C48","Equilibrium and critical radii searches are well posed","For every dry radius, positive kappa and relative humidity below saturation the interval handed to the root finder for the equilibrium wet radius brackets a solution of the Koehler equation, which is unique; the critical radius sought is the maximum of the Koehler curve and the interval handed to the root finder brackets it for every dry particle.","all dry radii, kappa, temperatures and humidities","Continuum of particles; an invalid bracket is only detected by an assertion.",["include/libcloudph++/common/kappa_koehler.hpp: rw3_eq, rw3_cr","include/libcloudph++/common/kelvin_term.hpp"])
    p("C49","Root finding is contained, accurate and bounded","For every continuous-or-not function with a sign change (or zero) at the given interval ends, the bracketing root finder evaluates the function only inside the interval, at most max_iter times, returns a point of the interval, and the returned point is within the requested relative tolerance of a sign change (if the iteration limit was not reached) - whatever the interpolation steps do.",
      "all functions, intervals with sign change, tolerances and iteration limits",
      "the iteration path depends on the function; tests sample a few functions",
      ["include/libcloudph++/common/detail/toms748.hpp: toms748_solve, bracket, eps_tolerance"])
    p("C50","Ice growth table lookups are in bounds","For every temperature the model accepts in mixed/ice conditions the Koenig (1971) coefficient lookups of the single-moment ice scheme read only entries of the two 32-entry tables, and the interpolated coefficients lie within the tabulated range.",
      "all temperatures",
      "an out-of-bounds read happens only below a threshold temperature and is silent",
      ["include/libcloudph++/blk_1m/formulae.hpp: coeff_alpha, coeff_beta"])
    p("C51","Double-moment tendencies conserve water and latent heat","One call of the double-moment cell-wise right-hand side changes the tendencies of vapour, cloud water and rain so that their sum is unchanged, and changes the potential temperature tendency by exactly the latent heat of the vapour tendency; the call throws exactly for contradictory pressure/temperature options; condensation and evaporation have the sign of the supersaturation.","all cells, options, time steps and previous tendencies","limiters interact only for particular combinations of rates and time step",["include/libcloudph++/blk_2m/rhs_cellwise.hpp: rhs_cellwise","include/libcloudph++/blk_2m/cond_evap_formulae.hpp"])
    p("C52","Double-moment tendencies keep contents non-negative","Integrating the double-moment tendencies (cell-wise and sedimentation) over the time step they were computed for leaves cloud water, rain water, droplet and drop number non-negative for every time step.","all non-negative contents and all time steps","a negative result needs a particular combination of simultaneous sinks",["include/libcloudph++/blk_2m/rhs_cellwise.hpp: rhs_cellwise","include/libcloudph++/blk_2m/rhs_columnwise.hpp: rhs_columnwise"])
    p("C53","Bulk fall speeds are means of the drop fall speed","In the double-moment scheme the mass- and number-weighted fall speeds equal the mass- and number-weighted means of the piecewise power-law fall speed over an exponential drop spectrum that has the given mass and number, scaled with the density ratio; they are non-negative and below 10 m/s times that ratio and vanish below the thresholds.","all rain mixing ratios, numbers and air densities","closed forms with an error function and eight antiderivatives; a test cannot compare them with the integrals for all slopes",["include/libcloudph++/blk_2m/terminal_vel_formulae.hpp: v_term_m, v_term_n, mint_*, nint_*","include/libcloudph++/blk_2m/common_formulae.hpp: lambda_r"])
    p("C54","The number of collisions is unbiased and its effect exact","For every candidate pair the number of collisions called for averages, over the uniform random number, to the pair's collision probability (substep/volume * kernel * all pairs of the cell / examined pairs), also when that exceeds one; the less numerous super-droplet of the pair takes up that number of partners limited by what the more numerous one can supply, gains exactly that many times the partner's dry volume, liquid volume and dissolved masses, and gets the longer in-cloud time; the request for more substeps is raised exactly when some examined pair has probability of at least one in a constant-multiplicity run.","all populations, kernels, random numbers and execution orders","an expectation and an exact characterisation over all pairs and random numbers",["src/impl/coalescence/particles_impl_coal.ipp: collider, scale_factor, collide, selector"])
    p("C55","Calls are accepted exactly when their arguments match the configuration","sync_in() accepts a call exactly when it is the turn for it and the passed arrays are those the configuration requires (Courant numbers of exactly the dimensions of the run, diss_rate / ambient chemistry / pressure / turbulence fields exactly when the corresponding switch asks for them, and mandatory theta, r_v); step_cond() and step_async() accept exactly the option combinations the configuration supports, in the right order; every other call throws.","all configurations, argument presence patterns, options and call histories","the product of switches, dimensions and optional arguments is large, and each refusal is a separate check",["src/particles_step.ipp: sync_in, step_cond, step_async"])
    p("C56","Transport is the sum of the switched-on processes","In one step every super-droplet is displaced by exactly the sum of: the advective displacement if advection is on, turbulent velocity times time step if turbulent advection is on, minus terminal velocity times time step (vertically) if sedimentation is on, minus the subsidence velocity of its level times time step if subsidence is on; a process that is off, or another process, contributes nothing, horizontal coordinates are untouched by the last two, and the configured advection scheme is back in force afterwards.","all grids in 2D and 3D, positions, velocities, time steps and option combinations","continuum of positions and 16 option combinations times schemes",["src/particles_step.ipp: step_async","src/impl/advection/particles_impl_turb_adve.ipp","src/impl/sedimentation/particles_impl_sedi.ipp","src/impl/subsidence/particles_impl_subs.ipp"])
    p("C57","Condensational growth of one droplet is bounded, correctly directed and accurate","In a condensation step a droplet grows, shrinks or stays as it is according to whether the relative humidity (capped by RH_max) is above, below or at the saturation ratio of the kappa-Koehler curve for its size; it never becomes smaller than its dry core, over any number of steps, and never changes by more than twice the explicit Euler change; its growth rate is the solution of the coupled heat and vapour diffusion balances with molecular and ventilation corrections; the new size is, within the root finder's tolerance, a solution of the backward Euler equation, except where the rate more than doubles over that interval, in which case it is the explicit Euler value. Ice crystals grow exactly when the air is supersaturated with respect to ice and keep axes of at least 1 nm.",
      "all ambient conditions (temperatures up to 1000 K), droplet sizes, dry radii, hygroscopicities, time steps and sequences of steps",
      "the outcome depends continuously on a dozen inputs and on the path of a root finder",
      ["src/impl/condensation/common/particles_impl_cond_common.ipp: advance_rw2, advance_rw2_minfun, advance_ice_ac", "include/libcloudph++/common/maxwell-mason.hpp: rdrdt, rdrdt_i", "include/libcloudph++/common/ventil.hpp: Nu, Sh", "include/libcloudph++/common/transition_regime.hpp: beta"])
    p("C58","Condensation with per-cell substeps keeps the budgets of water and heat","After condensation and deposition with any number of substeps common to all droplets of a cell, vapour plus condensed water of every cell equals what the cell had received; potential temperature changes by the latent heat of what has condensed and been deposited; every substep applies an equal share of the change made to the fields since the previous step and the droplets grow in their own cell's air; empty cells come out as received; droplets stay at least as large as their dry cores, ice stays ice, multiplicities and cells are untouched; and the fields left behind are the reference for the next step's change.",
      "all grids, populations, fields, numbers of substeps, switches (ice, SGS supersaturation, density passed or not) and option values",
      "a budget over all states and any number of substeps, with scatter/gather through sorted index arrays and arbitrary contents of reused temporary arrays",
      ["src/particles_step.ipp: step_cond","src/impl/condensation/percell/particles_impl_cond.ipp: cond","src/impl/condensation/percell/sstp_percell_step.ipp","src/impl/ice/particles_impl_ice_dep.ipp: ice_dep","src/impl/common/save_liq_ice_content_before_change.ipp","src/impl/common/particles_impl_update_th_rv.ipp: update_th_rv","src/impl/condensation/common/sstp_save.ipp"])
    p("C59","Diagnosed air properties are consistent","The two Clausius-Clapeyron humidity formulae agree on saturation and the sign of supersaturation; with diagnosed pressure the humidity is the ideal-gas vapour pressure over the saturation pressure; humidity increases with vapour content for all four formulae, is higher over ice than over water below freezing; viscosity and mean free paths are positive; hence in every substep a droplet grows or shrinks according to its cell's humidity being above or below its Koehler value.",
      "all pressures, temperatures, mixing ratios; all substeps, droplets and populations",
      "statements over a continuum of thermodynamic states",
      ["src/impl/housekeeping/particles_impl_hskpng_Tpr.ipp: RH, RH_i, hskpng_Tpr","include/libcloudph++/common/tetens.hpp","include/libcloudph++/common/mean_free_path.hpp","include/libcloudph++/common/vterm.hpp: visc"])
    p("C60","Condensation with per-particle substeps: budgets, independence, schedule",
      "With exact_sstp_cond every super-droplet carries its own vapour, potential temperature, density (and pressure); in each of the sstp_cond substeps these change by one sstp_cond-th of the difference between the value received for its cell and the value at the end of the previous step, the droplet grows in that air, and the vapour and heat are exchanged with its own air only (no mixing) or with the air of all super-droplets of the cell (mixing). Without mixing total water of every cell is conserved exactly, and the new size of a super-droplet depends on nothing but its own attributes and air and its cell's received values; with mixing all super-droplets of a cell end with the same air whatever air they started with, the fields written to the cells do not depend on the order of threads, and the vapour change equals what condensed in all substeps, converted at the densities seen by the super-droplets; cells without super-droplets are left as received; droplets never become smaller than their dry radius.",
      "all populations, cells, substep numbers, ambient fields and histories of the super-droplets (each may have come from a different cell), all thread orders",
      "quantifies over all populations, substep counts, histories of particles and schedules of threads",
      ["src/particles_step.ipp: step_cond","src/impl/condensation/perparticle/*.ipp","src/impl/common/particles_impl_update_th_rv.ipp: update_pstate, update_state","src/impl/common/calc_liq_ice_content_change.ipp","src/impl/condensation/common/sstp_save.ipp"])
    p("C61","Condensation with an adaptive number of substeps for each super-droplet",
      "With adaptive_sstp_cond (no mixing) every super-droplet grows in m equal substeps of dt/m in its own air. m is a power of two not exceeding half of sstp_cond - the first for which halving the substep changes the first substep's growth rate by no more than sstp_cond_adapt_drw2_eps (relative to rw2) while the change is below sstp_cond_adapt_drw2_max - or sstp_cond if there is none; sstp_cond_act replaces it if the droplet is estimated to cross its critical radius. A droplet that takes sstp_cond, sstp_cond_act (tolerance not met) or 1 substep ends with the same size as in the scheme with that fixed number of substeps. Exactly the ambient change of the step is applied over the substeps. Total water of each cell is conserved, droplets never become smaller than their dry radius, and each droplet's air is that of its cell after the step.",
      "all populations, option values (tolerances, maxima, critical radii), ambient changes and histories; contents of uninitialised local variables",
      "the number of substeps is the outcome of an unbounded search that depends on a continuum of droplet and air states",
      ["src/impl/condensation/perparticle/perparticle_nomixing_adaptive_sstp_cond.ipp: perparticle_nomixing_adaptive_sstp_cond_loop","src/particles_step.ipp: step_cond","src/impl/condensation/common/particles_impl_cond_common.ipp: advance_rw2"])
    p("C62","Freezing and melting conserve water and release the latent heat of fusion",
      "With ice nucleation on, a droplet freezes exactly if its criterion holds (singular scheme: air not warmer than its freezing temperature and at water saturation; time-dependent scheme: random number below the freezing probability) and the air is not above 0 C; it becomes a sphere of ice of the same mass. Every ice particle in air above 0 C melts to a droplet of the same mass. All other particles are untouched. Vapour, positions and multiplicities do not change; the condensed water of every cell stays the same; the potential temperature of every cell changes by the latent heat of fusion of the ice formed or melted there. Through any history of freezing, melting, condensation, deposition and transport each super-droplet is either purely liquid or purely ice.",
      "all populations, temperatures, humidities, freezing temperatures, random numbers, and histories of any length",
      "statements about all populations and all histories of phase changes; tests see single parcels",
      ["src/impl/ice/particles_impl_ice_nucl_melt.ipp: ice_nucl_melt, singular_freeze, time_dep_freeze, melt","src/impl/common/particles_impl_update_th_rv.ipp: update_th_freezing","src/impl/ice/particles_impl_ice_dep.ipp: ice_dep"])
    p("C63","Freezing temperatures and freezing probabilities follow the published laws",
      "The freezing temperature drawn for an insoluble inclusion of surface A is at or above T with probability 1-exp(-A exp(8.934-0.517(T-273.15))); without an inclusion it is 235.15 K. The probability of freezing within a time step is 1-exp(-J*size*dt) with the heterogeneous rate per surface of the inclusion or the homogeneous rate per volume of the droplet; it lies strictly between 0 and 1, grows with the time step and the inclusion, and does not depend on how the time is divided into steps. Each super-droplet's freezing temperature is drawn with its own random number at initialisation, for every distribution and source.",
      "all inclusion sizes, temperatures, time steps and divisions of time, all uniform random numbers, all initialisation sequences",
      "distributional statements over a continuum of random numbers",
      ["include/libcloudph++/common/ice_nucleation.hpp: T_freeze_CDF_inv, p_freeze","src/impl/initialization/particles_impl_init_T_freeze.ipp: init_T_freeze"])
    p("C64","Subgrid turbulence has the prescribed statistics",
      "With turbulent advection or condensation on, each turbulent velocity component of a super-droplet makes an Ornstein-Uhlenbeck step with the kinetic energy k, k^(3/2)=eps*L/0.845, of the dissipation rate eps passed for its cell and the mixing length L given for its level, and the time scale tau, tau^2*k*(2pi)^(2/3)=1.5*L^2. With independent standard random numbers the variance of a component equal to 2k/3 stays so, any other approaches it as exp(-2t/tau) and the mean as exp(-t/tau), whatever the time step; the variance after a time does not depend on how it is divided into steps. One, two or three components are moved in 1, 2, 3 dimensions, only the vertical one if only turbulent condensation is on. The supersaturation perturbation is driven by the vertical component and relaxes to equilibrium at the rate set by the droplets of the super-droplet's cell.",
      "all random variables (initial velocity, mutually independent random numbers), time steps, populations, cells and histories of any length",
      "distributional and long-time statements over all random sequences",
      ["include/libcloudph++/common/GA17_turbulence.hpp: tke, tau, update_turb_vel, tau_relax, dot_turb_ss","src/impl/housekeeping/particles_impl_hskpng_tke.ipp","src/impl/housekeeping/particles_impl_hskpng_turb_vel.ipp","src/impl/housekeeping/particles_impl_hskpng_turb_ss.ipp","src/particles_step.ipp: step_async"])
    p("C65","Gases dissolve towards Henry equilibrium",
      "A chemistry step with dissolution moves the dissolved amount of each of the six trace gases in a dilute droplet towards its equilibrium with the air around it: the aqueous concentration (all dissociated forms together) equals the effective Henry constant times the partial pressure. The equilibrium amount is the only fixed point, the new amount lies strictly between the old one and equilibrium, repeated steps with unchanged surroundings converge to it for any time step, and for short steps the rate is the published mass-transfer coefficient times the deviation from equilibrium.",
      "all six gases, all temperatures, droplet sizes, acidities, time steps, dissolved and gaseous amounts",
      "limits and fixed points over continuous parameters",
      ["src/impl/chemistry/particles_impl_chem_henry.ipp: chem_Henry_fun","include/libcloudph++/common/henry.hpp: H_temp, mass_trans, molec_vel","include/libcloudph++/common/dissoc.hpp: K_temp"])
    p("C66","Dissolution exchanges gas with droplets without loss",
      "In every cell, moles of each gas in the air plus moles dissolved in the droplets do not change during dissolution; mixing ratios stay non-negative; cells without droplets and droplets that are too concentrated keep their values.",
      "all populations, cells, sortings, time steps and states with non-negative amounts",
      "sums over arbitrary populations; the exceptional case needs droplets sweeping the cell within a step",
      ["src/impl/chemistry/particles_impl_chem_henry.ipp: chem_henry, ambient_chem_calculator"])
    p("C67","Droplet acidity follows from electroneutrality",
      "After the dissociation step the H+ content of each dilute droplet is the one for which the solution is electrically neutral, with every dissolved species dissociated according to its temperature-dependent constants; there is exactly one such value for any amounts. A droplet takes part in chemistry exactly if its ionic strength is below 0.02 mol/l. Nothing but H+ is changed.",
      "all temperatures, volumes, non-negative dissolved amounts",
      "existence, uniqueness and accuracy of a root over continuous parameters",
      ["src/impl/chemistry/particles_impl_chem_dissoc.ipp: chem_minfun, chem_electroneutral, chem_dissoc","src/impl/chemistry/particles_impl_chem_strength.ipp: set_chem_flag, chem_flag_ante"])
    p("C68","Oxidation of S(IV) is stoichiometric and never overdraws",
      "The reaction step converts S(IV) to sulfate mole for mole, each mole consuming one mole of ozone or hydrogen peroxide, at the published rates for the dissociated forms limited by what is there. For any time step no reactant becomes negative or grows, sulfate never decreases, and the dry mass grows by exactly the mass of sulfate produced. Other species and droplets too concentrated for chemistry are untouched.",
      "all droplets, temperatures, acidities, time steps, non-negative amounts",
      "a four-stage integration with limiters over continuous parameters",
      ["src/impl/chemistry/particles_impl_chem_react.ipp: chem_rhs_helper, chem_rhs, chem_new_rd3, chem_react","include/libcloudph++/common/react.hpp","src/impl/particles_impl.ipp: chem_stepper"])
    p("C69","A chemistry step conserves elements, whatever processes are switched on and however it is substepped",
      "Over a whole step with any combination of dissolution, dissociation and reactions and any number of chemical substeps, nitrogen, carbon, sulfur and oxidants in each cell (air and droplets) are conserved, no amount is negative, the dry mass of each droplet grows with its sulfate, and cells without droplets, droplet sizes, numbers and temperatures are untouched. With substepping each substep sees an equal part of the change of every gas passed in.",
      "all option combinations, numbers of substeps, populations, gas fields and non-negative states",
      "an invariant of a loop of unbounded length over all states",
      ["src/particles_step.ipp: step_cond (chemistry part), step_async","src/impl/chemistry/particles_impl_sstp_chem.ipp: sstp_percell_step_chem","src/impl/chemistry/particles_impl_chem_ante.ipp: chem_cleanup, chem_vol_ante"])
    p("C70","Chemical composition of droplets stays consistent with their dry size",
      "Aerosol starts as ammonium bisulfate of its dry mass. In every state reached by any sequence of chemistry steps and collisions no droplet has negative sulfate or more sulfate than dry mass; collisions redistribute but do not change the non-sulfate dry mass of a cell.",
      "all aerosols, histories of chemistry steps and collisions of any length, all random numbers and schedules",
      "a statement about all histories",
      ["src/impl/initialization/particles_impl_init_chem.ipp: init_chem_aq","src/impl/coalescence/particles_impl_coal.ipp: coal","src/impl/chemistry/particles_impl_chem_react.ipp: chem_new_rd3"])
    p("C71","Collision kernels follow their published laws",
      "For every pair of super-droplets the value of a kernel is the larger multiplicity times: geometric - optional user factor times pi (r1+r2)^2 |v1-v2|; golovin - user factor times the sum of the droplet volumes; Long - Long's efficiency times the geometric kernel; kernels with tabulated efficiencies - interpolated efficiency times the geometric kernel. Values are defined and never negative and do not depend on which droplet comes first. Initialisation accepts exactly the documented numbers of kernel parameters. Consequently droplets of a cell which all fall at the same speed do not coalesce under any gravitational kernel, and droplets up to 3 um do not coalesce with each other under Long's.",
      "all pairs of super-droplets, radii, velocities, multiplicities, kernels and their parameters, cell contents, random numbers and schedules",
      "formulae over all real arguments; unit tests sample a few radii",
      ["src/detail/kernels.hpp","src/impl/initialization/particles_impl_init_kernel.ipp: init_kernel","src/impl/coalescence/particles_impl_coal.ipp: coal"])
    p("C72","Collision efficiencies are interpolated inside of their table",
      "Tabulated collision efficiencies are reproduced exactly at the radii of the table (every um up to 100 um, every 10 um up to 1.1 mm) and interpolated bilinearly in between, without jumps; for all radii, however large, nothing outside of the table is read and the result lies within the range of the tabulated values; larger drops are treated like 1.1 mm ones; the result is symmetric.",
      "all pairs of non-negative radii, all tables",
      "an index computed from two reals: out-of-range reads only happen at special radii",
      ["src/detail/kernel_interpolation.hpp: interpolated_efficiency","src/detail/kernel_utils.hpp"])
    p("C73","Turbulent kernels add turbulence to sedimentation",
      "With the Onishi kernels the value for a pair is the larger multiplicity times efficiency x enhancement x sqrt(K_sed^2 + K_turb^2), where the enhancement (Wang et al. 2009) depends on the dissipation rate of the cell, K_turb uses the Kolmogorov length of the cell's air; it is symmetric, defined for all pairs and never below the kernel of sedimentation alone; without turbulence it is the kernel of sedimentation.",
      "all pairs of super-droplets, viscosities, densities, dissipation rates and Reynolds numbers",
      "special radii, and dependences no test varies",
      ["src/detail/kernels.hpp: kernel_onishi","src/detail/kernel_onishi_nograv.hpp","src/detail/wang_collision_enhancement.hpp"])
    p("C74","Terminal velocities follow the selected formula","For every droplet radius and air state, each option of terminal_velocity gives the velocity of its published formula (Stokes with slip below 9.5 um, Beard 1976 in the two larger ranges, Beard 1977 with the correction to ambient air, Khvorostyanov and Curry 2002 for spherical and non-spherical drops); it is positive, the reference conditions are recovered exactly, the cached variant never reads outside its table and uses a radius within 0.045 % of the droplet's (clamped at the ends); ice particles fall with 0.91 of the Beard (1976) velocity of their half-axis.",
      "all radii, temperatures, pressures, densities and viscosities (positivity: air no more than 100 times thinner nor 4 times denser than standard, drops up to 3 mm)",
      "piecewise formulae with unit conversions over a continuum of inputs, cached by bins",
      ["include/libcloudph++/common/vterm.hpp","src/impl/housekeeping/particles_impl_hskpng_vterm.ipp","src/impl/initialization/particles_impl_init_vterm.ipp"])
    p("C75","Velocities in use belong to present sizes","In every step, every coalescence sub-step evaluates collision rates, sedimentation displaces droplets, and the following condensation ventilates them, with the terminal velocity of their present size; in particular with sedimentation on, droplets never rise by sedimentation.",
      "all populations, numbers of sub-steps, collision outcomes, orders of parallel execution and velocity formulae",
      "needs a collision in the last sub-step and a look at individual super-droplets afterwards",
      ["src/particles_step.ipp: step_async","src/impl/housekeeping/particles_impl_hskpng_vterm.ipp: hskpng_vterm_all, hskpng_vterm_invalid","src/impl/coalescence/particles_impl_coal.ipp: collide","src/impl/sedimentation/particles_impl_sedi.ipp"])
    p("C76","The source adds what was asked where it was asked","When the aerosol source is active and finds no super-droplet to match (or the simple source is chosen), each activation keeps all existing super-droplets and adds, in exactly those cells whose centre lies in the requested source box, one super-droplet for each of src_sd_conc equal intervals of the logarithm of dry radius, positioned in the cell, with the hygroscopicity of the source and a multiplicity equal (up to rounding) to the number of particles that the requested rate emits into that interval during the time since the previous activation; nothing is added elsewhere, and configurations without a vertical plane are rejected.",
      "all 2D/3D grids, source boxes, distributions, periods, time steps, random numbers and orders of parallel execution",
      "amounts depend on the whole size distribution and on the history of time steps",
      ["src/impl/initialization/particles_impl_init_count_num.ipp: init_count_num_src","src/impl/sources_and_relaxation_of_SDs/particles_impl_src_dry_distros_simple.ipp","src/impl/sources_and_relaxation_of_SDs/particles_impl_src.ipp"])
    p("C77","The matching source emits once per cell and size","With the matching source, each activation changes no attribute of existing super-droplets except multiplicity, and for every source cell and size interval does exactly one of two things: raise the multiplicity of exactly one existing super-droplet of that cell and interval by the emitted number, or, if there is none, create one super-droplet with the emitted number there. Its temporary arrays are never exceeded.",
      "all populations, source boxes, distributions, random numbers, outcomes of the unstable sort and of stream compaction",
      "the failure needs particular patterns of occupied size intervals in neighbouring cells and a random number",
      ["src/impl/sources_and_relaxation_of_SDs/particles_impl_src_dry_distros_matching.ipp"])
    p("C78","A super-droplet created during a run condenses in the air of its own cell",
      "A super-droplet created by the aerosol source or by relaxation is, from the next condensation on, treated like any other: it starts from the vapour mixing ratio, potential temperature, density and pressure of the cell it is in, with its own critical radius; existing super-droplets are not affected by the addition.",
      "all populations, numbers and attributes of added super-droplets, air states, numbers of substeps, both per-particle variants",
      "the wrong first substep is masked by the limit on relative humidity and by later substeps; it depends on number of substeps and options",
      ["src/impl/sources_and_relaxation_of_SDs/particles_impl_src.ipp","src/impl/sources_and_relaxation_of_SDs/particles_impl_rlx.ipp","src/impl/sources_and_relaxation_of_SDs/particles_impl_post_adding_SD.ipp","src/impl/condensation/perparticle/init_perparticle_sstp.ipp"])
    p("C79","Source and relaxation see super-droplets in the cells they are in",
      "When the aerosol source looks for existing super-droplets to add to, and when relaxation counts the aerosol present at a level, each super-droplet is attributed to the cell its position is in at that time, and the arrays with one entry per cell are indexed within their size.",
      "all positions, flows, advection schemes, grids, source boxes and populations",
      "the attribution depends on the flow and on the advection scheme; a wrong attribution only shifts where aerosol appears, or corrupts memory silently",
      ["src/particles_step.ipp: step_async","src/impl/advection/particles_impl_adve.ipp","src/impl/sources_and_relaxation_of_SDs/particles_impl_src_dry_distros_matching.ipp","src/impl/sources_and_relaxation_of_SDs/particles_impl_rlx_dry_distros.ipp","src/impl/housekeeping/particles_impl_hskpng_ijk.ipp"])
    p("C80","Statistics are taken over an up-to-date list of super-droplets",
      "Whenever the library takes a per-cell statistic (moments, counts, collision pairs, condensation budgets, relaxation, diagnostics), in any sequence of init, step_sync/step_cond, step_async and diag_* calls, every super-droplet enters exactly once, under its own cell; the statistic of a cell is then the total over the super-droplets in it, no cell is listed twice, and the exception 'called on an unsorted set' is never thrown.",
      "all histories of API calls, options, numbers of substeps, sort outcomes and populations",
      "the list is rebuilt only if a flag says so, so correctness depends on every place that moves, adds or removes super-droplets in any order of calls; a stale list gives plausible numbers",
      ["src/impl/housekeeping/particles_impl_hskpng_sort.ipp","src/impl/housekeeping/particles_impl_hskpng_ijk.ipp: sorted","src/impl/sources_and_relaxation_of_SDs/particles_impl_src.ipp","src/impl/sources_and_relaxation_of_SDs/particles_impl_post_adding_SD.ipp","src/impl/sources_and_relaxation_of_SDs/particles_impl_rlx_dry_distros.ipp: sorted","src/impl/common/particles_impl_update_th_rv.ipp","src/particles_step.ipp"])
    p("C81","Relaxation stores its random numbers within their vector",
      "Whatever the number of super-droplets present and created in a relaxation step that does not exceed n_sd_max, the random numbers drawn for the created ones stay within the temporary vector they are drawn into.",
      "all populations, numbers of levels, super-droplets per bin, dimensions, values of n_sd_max",
      "out-of-range writes corrupt memory only for particular ratios of created to existing super-droplets",
      ["src/impl/sources_and_relaxation_of_SDs/particles_impl_rlx_dry_distros.ipp","src/impl/housekeeping/particles_impl_hskpng_resize.ipp","src/detail/urand.hpp: generate_n"])
    p("C82","Running out of super-droplet slots is reported and harmless",
      "Super-droplets are added by init, source or relaxation exactly if n_sd_max has room for them, otherwise an exception is thrown; vectors always hold exactly the super-droplets there are, no access goes past their end, and after a caught exception the object can still be used.",
      "all sequences of additions, matchings, removals and uses of super-droplets, with exceptions caught anywhere",
      "concerns states reached after exceptions, in any later sequence of calls",
      ["src/impl/housekeeping/particles_impl_hskpng_resize.ipp","src/impl/housekeeping/particles_impl_hskpng_remove.ipp","src/impl/sources_and_relaxation_of_SDs/particles_impl_src_dry_distros_simple.ipp","src/impl/sources_and_relaxation_of_SDs/particles_impl_src_dry_distros_matching.ipp","src/impl/sources_and_relaxation_of_SDs/particles_impl_src_dry_sizes.ipp"])
    p("C83","Activation diagnostics and in-cloud time",
      "diag_rw_ge_rc selects exactly the super-droplets larger than their critical size and diag_RH_ge_Sc those for which the air is at least critically supersaturated (up to the accuracy of the root search), for the air last passed by the caller; the in-cloud time of a super-droplet is the time for which the droplets it represents (the longest lasting of those it has collected) have been activated without interruption.",
      "all super-droplets, dry sizes, hygroscopicities, air states, sequences of API calls, collisions, removals and additions",
      "selection depends on a root of a transcendental function and on every previous call which may or may not have refreshed the air",
      ["src/particles_diag.ipp: diag_rw_ge_rc, diag_RH_ge_Sc, diag_incloud_time_mom","src/impl/diagnose_SD_attributes/particles_impl_update_incloud_time.ipp","src/impl/housekeeping/particles_impl_hskpng_Tpr.ipp","src/particles_step.ipp"])
    p("C84","Diagnosed divergence",
      "diag_vel_div outputs, in each cell, the divergence of the flow whose Courant numbers were passed.",
      "all grids, halos, flows and time steps",
      "depends on index arithmetic for every cell of every grid shape and on time steps that change during the run",
      ["src/particles_diag.ipp: diag_vel_div, add_div","src/impl/initialization/particles_impl_init_grid.ipp"])
    p("C85","Precipitation fluxes and largest droplet",
      "diag_precip_rate outputs per cell the sum over the selected droplets of multiplicity times radius cubed times settling velocity, diag_precip_rate_ice_mass the mass flux of all ice, diag_ice_mix_ratio the mass of selected ice per mass of dry air, diag_max_rw the largest wet radius in the cell; they change nothing else.",
      "all populations, selections, cell numbers, velocity formulae and air states",
      "sums over arbitrary populations; the failure needs more cells than a float can count",
      ["src/particles_diag.ipp: diag_precip_rate, diag_precip_rate_ice_mass, diag_ice_mix_ratio, diag_max_rw","src/impl/housekeeping/particles_impl_hskpng_vterm.ipp: hskpng_vterm_all"])
    p("C86","Reading attributes of super-droplets",
      "get_attr returns one value per super-droplet for every attribute that exists in the chosen set-up and throws otherwise; every diagnostic either reads arrays which exist or throws.",
      "all combinations of options, all names, all histories of resizing, all diagnostics",
      "combinations of options times diagnostics; reading past the end of an array need not crash",
      ["src/impl/diagnose_SD_attributes/particles_impl_fill_outbuf.ipp: fill_attr_outbuf","src/impl/particles_impl.ipp: distmem_real_vctrs","src/particles_diag.ipp","src/impl/housekeeping/particles_impl_hskpng_resize.ipp"])
    p("C87","No temporary array is taken from an empty pool",
      "For every configuration that init accepts and every sequence of API calls (init, sync_in, step_cond, step_async, diag_*, outbuf, get_attr), whatever the run-time options, the number of substeps, size bins and super-droplet groups, the data, and whichever calls end in an exception: whenever the library takes a temporary array from one of its pools, the pool still has a free one (otherwise index -1 of the pool is used, undefined behaviour in release builds).",
      "all accepted combinations of options, all finite sequences of API calls, all run-time options, loop counts and exception points",
      "temporary arrays are held across API calls; the sizes of the pools were chosen option by option, the demand depends on combinations of options and on the order of calls",
      ["src/detail/tmp_vector_pool.hpp","src/impl/particles_impl.ipp: tmp_drp_no","src/particles_step.ipp: step_cond, step_async, sync_in","src/particles_diag.ipp","src/particles_init.ipp"])
    p("C88","No temporary array is used after it was given back",
      "Under the same quantification as C87: the library never reads or writes a temporary array (selection of a diagnostic, cell indices of the super-droplets, arrays of the per-particle substepping, mean free paths, arrays of the chemistry, lists for the exchange between processes) that has not been taken from its pool or has been given back.",
      "all accepted combinations of options, all finite sequences of API calls, all run-time options, loop counts and exception points",
      "the life of these arrays spans API calls and depends on options and on exceptions; dereferencing a null pointer or an array reused elsewhere shows only on particular call orders",
      ["src/detail/tmp_vector_pool.hpp: reset_guardp","src/particles_step.ipp","src/particles_diag.ipp","src/impl/boundary_conditions/particles_impl_bcnd.ipp","src/impl/housekeeping/particles_impl_hskpng_ijk.ipp","src/impl/distributed_memory/particles_impl_post_copy.ipp"])
    p("C89","Asking for diagnostics does not change the simulation","Calling diagnostics between the calls of a simulation, in any number, order and place, leaves the simulation as it would have been without them: the calls that advance it hand back the same arrays and throw the same exceptions, and the droplets, their order and the state of the random generator are the same.",
      "all constructor options, all finite histories of sync_in, step_cond, step_async and diagnostic calls after init, all step options, all inputs, all physics",
      "two whole histories have to be compared for every placement of diagnostics; diagnostics share arrays (order of droplets, counts, selections, temperatures, fall velocities) with the simulation",
      ["src/particles_diag.ipp","src/particles_step.ipp","src/particles_ctor.ipp: outbuf","src/impl/diagnose_SD_attributes/particles_impl_moms.ipp","src/impl/housekeeping/particles_impl_hskpng_sort.ipp","src/impl/housekeeping/particles_impl_hskpng_count.ipp","src/impl/housekeeping/particles_impl_hskpng_vterm.ipp: hskpng_vterm_all"])
    p("C90","A report depends on the simulation alone","What is read from the output buffer after selecting droplets, narrowing the selection and asking for a moment is that moment of the current droplets, whatever was asked for before; reading the buffer again gives the same.",
      "all constructor options, all histories before the report, all earlier diagnostics, all numbers of narrowings",
      "the arrays read were left in some state by arbitrary earlier calls",
      ["src/particles_diag.ipp","src/particles_ctor.ipp: outbuf","src/impl/diagnose_SD_attributes/particles_impl_fill_outbuf.ipp","src/impl/diagnose_SD_attributes/particles_impl_mass_dens.ipp","src/impl/diagnose_SD_attributes/particles_impl_moms.ipp"])
    p("C91","The collision efficiencies of the library are sound for all pairs of drops","With each of the built-in tables the efficiency is defined for every pair of radii, lies between 0 and 4, and is at most 1 when one of the drops is smaller than 35 micrometers; the tables that replace Hall's efficiencies for small drops are Hall's for all larger ones; equal small drops do not collide in the gravitational table; every drop larger than a droplet can collect it.",
      "all six tables with all their entries, all pairs of non-negative radii",
      "the tables have 121806 entries and the radii are real numbers; a wrong entry shows only for radii next to it",
      ["src/detail/kernel_definitions/*_efficiencies.hpp","src/detail/kernel_interpolation.hpp","src/impl/initialization/particles_impl_init_kernel.ipp"])
    p("C92","Exchange of super-droplets between GPUs is free of races and deadlocks and delivers what was sent","During step_async of the multi_CUDA backend the host threads of the devices and the asynchronous peer-to-peer copies they start may interleave in any way. In every interleaving: no thread touches an exchange buffer that a copy under way reads or writes; the exchange cannot get stuck and takes a bounded number of steps; when it is over every device has unpacked exactly what its left and right neighbours packed for it.","every number of devices (two or more), both kinds of outer boundary, every contents of the messages, every interleaving of the threads with each other and with the completion of copies","a test runs one interleaving on one machine; whether the barriers and event waits order every pair of conflicting accesses is a statement about all interleavings",["src/impl_multi_gpu/particles_multi_gpu_impl_step_async_and_copy.ipp: step_async_and_copy","src/particles_multi_gpu_step.ipp: step_async","src/impl_multi_gpu/particles_multi_gpu_impl.ipp: impl::impl","src/impl/boundary_conditions/particles_impl_bcnd.ipp: impl::bcnd"])
    p("C93","Thread barrier: nobody passes before everybody has arrived, and nobody is left behind","For the barrier used by the multi-GPU step: wait() returns to a thread for the r-th time only after every thread has called it r times; once every thread has called it r times, every thread can return from the r-th call without waiting for anything further (no lost wake-up). This holds for every number of threads, every schedule, every number of reuses of one barrier object below 2^32 (the library uses each object five times), and with spurious wake-ups of the condition variable.","every number of threads, every schedule including spurious wake-ups, every number of rounds below 2^32","schedules are unbounded and chosen by the operating system; lost wake-ups and early releases are classic failures that tests do not hit",["src/detail/gpu_assert.hpp: barrier_t::wait","src/particles_multi_gpu_step.ipp: step_async"])
    p("C94","Output of the multi-GPU backend is the outputs of the devices side by side","outbuf() of the multi_CUDA backend returns, for every cell of the whole domain, what the device that owns the cell computed in the last diagnostic; diag_puddle() returns for each entry the sum over the devices.","every number of devices, grid, diagnostic result","depends on aliasing of buffers between threads and on the arithmetic of offsets for every split of the grid",["src/particles_multi_gpu_diag.ipp: outbuf, add_puddle, diag_puddle","src/impl_multi_gpu/particles_multi_gpu_impl.ipp: impl::impl","src/impl/diagnose_SD_attributes/particles_impl_fill_outbuf.ipp: fill_outbuf"])
    p("C95","The range of dry radii is detected so that super-droplets stand for whole particles","With sd_conc initialisation and rd_min, rd_max not given: if the aerosol distribution is large enough somewhere (super-droplets sharing that interval would stand for a particle or more) and negligible at 1e-14 m and 1e-3 m, initialisation finds a range that covers this interval up to one per cent of radius; super-droplets at both its ends stand for at least one particle each (for single-mode distributions everywhere in the range), those of the radii tried outside of it would stand for less than one; an exception is thrown exactly if the distribution is not negligible at 1e-14 m or 1e-3 m; an aerosol too thin to be represented is reported.","every non-negative distribution, number of super-droplets, cell volume and source interval","The search is a loop over a continuum of distributions.",["src/impl/initialization/particles_impl_init_dist_analysis.ipp:init_dist_analysis_sd_conc"])
    p("C96","Constant multiplicity: number, range and radii of super-droplets","With sd_const_multi, the limits of radius are (within the tolerance of the root finder) where the distribution falls to 1e-20 of its maximum and nothing larger is left out; the multiplicities in a cell add up to the integral of the distribution times volume, density and profile factors, up to half a multiplicity and the integration error; each radius is drawn with a probability proportional to the distribution and lies in the range.","every distribution, cell, multiplicity and random number","Statements on integrals and probabilities over all distributions.",["src/impl/initialization/particles_impl_init_dist_analysis.ipp:init_dist_analysis_const_multi","src/impl/initialization/particles_impl_init_count_num.ipp","src/impl/initialization/particles_impl_init_dry_const_multi.ipp"])
    p("C97","The large tail continues the distribution","With sd_conc_large_tail, the super-droplets added for large radii cover the radii from the end of the range of the others, without gap or overlap, whether that range was detected or given by the user.","every distribution and range","All ranges.",["src/impl/initialization/particles_impl_init_SD_with_distros_tail.ipp","src/impl/initialization/particles_impl_init_SD_with_distros.ipp"])
    p("C98","Aerosol distributions, hydrostatic pressure and mixing lengths offered to users are what they claim to be","lognormal::n_e and lognormal::n integrate to n_tot over all radii, describe the same aerosol, have the moments of a log-normal distribution with median mean_r and geometric standard deviation stdev > 1 and a single mode; hydrostatic::p equals p_0 at z_0, falls with height and satisfies dp/dz = -rho g for moist air of constant potential temperature and mixing ratio; the mixing lengths of SGS_length_scale are the claimed means, ordered (geometric <= arithmetic), between the shortest and longest edge and equal for cubes.","all parameters in their physical range, all radii and heights, all cell shapes","Integrals over all radii and differential equations.",["include/libcloudph++/common/lognormal.hpp","include/libcloudph++/common/hydrostatic.hpp","include/libcloudph++/common/SGS_length_scale.hpp"])
    p("C99","Python: the array entry used for a cell is the one with the cell's indices","A contiguous float64 NumPy array of one entry per cell (or per face, for Courant numbers) passed to init, sync_in, step_sync or step_cond from Python is accepted, and the entry read for cell (i,j,k), or written back, is the array's [i,j,k] ([i,k] in 2D, [i] in 1D, [0] in a parcel); a 1D array in 2D or 3D is used as a vertical profile; arrays of other types, non-contiguous arrays and arrays that do not fit the set-up are refused with an exception; nothing outside of the array is accessed; None means not given.","every array, grid, division into devices and cell","Every combination of shapes, strides and grids.",["bindings/python/util.hpp: np2ai, sanity_checks, not_numeric","bindings/python/lgrngn.hpp: init, sync_in, step_sync, step_cond, outbuf","src/impl/initialization/particles_impl_init_e2l.ipp","include/libcloudph++/lgrngn/arrinfo.hpp"])
    p("C100","Python: arguments reach the parameter they name, and assigning an option replaces it","For every way of mixing positional and keyword arguments in calls of init, sync_in, step_sync and step_cond, each value reaches the parameter with its name and the others keep their defaults; after assigning to dry_distros, dry_sizes, src_dry_distros, src_dry_sizes, w_LS, SGS_mix_len, kernel_parameters or the modes of the double-moment scheme, the option is what was assigned, whatever it was before.","every combination of arguments; every old and new value","All combinations of arguments and all histories of assignments.",["bindings/python/lib.cpp: init, step_sync, sync_in, step_cond","bindings/python/lgrngn.hpp: set_dd, set_sdd, set_ds, set_sds, set_kp, set_w_LS, set_SGS_mix_len","bindings/python/blk_2m.hpp: set_dd","include/libcloudph++/lgrngn/distro_t.hpp: kappa_rd_insol_t::operator<"])
    p("C101","The iterative saturation adjustment ends","adj_cellwise with the Runge-Kutta variant (adj_nwtrph = false) always returns: its loop, which has no iteration limit, is left after a number of passes bounded by the water content divided by the tolerance, and the cell is then within the tolerance of saturation or has nothing left to evaporate.","every cell state, tolerance and option combination","A loop without a bound over a continuum of states: termination cannot be observed by running it.",["include/libcloudph++/blk_1m/adj_cellwise.hpp: adj_cellwise_hlpr, rhs::update"])
    p("C102","New super-droplets start in equilibrium with the humidity of their cell, limited to RH_max","A super-droplet created by init, a source or relaxation gets the wet radius at which it is in equilibrium (kappa-Koehler) with the relative humidity and temperature of its own cell, the humidity being limited to opts_init.RH_max: the equilibrium radius not below the dry radius is unique, the radius set is that one up to the tolerance of the search and not below the dry radius; condensation does not change such a droplet where the limit is not active and makes it grow where it is; insoluble droplets start dry; other super-droplets keep their radii.","every dry radius, hygroscopicity, humidity, temperature, RH_max","A root search over a continuum of states.",["src/impl/initialization/particles_impl_init_wet.ipp","include/libcloudph++/common/kappa_koehler.hpp: rw3_eq"])
    p("C103","Adding super-droplets during a run does not change the water of a cell","The water of super-droplets added by a source or relaxation comes from the vapour of their cell: the total water (vapour plus liquid) of each cell is the same before and after.","every state and set of new super-droplets","A budget over all states and sizes of the population.",["src/impl/sources_and_relaxation_of_SDs/particles_impl_src.ipp","src/impl/sources_and_relaxation_of_SDs/particles_impl_rlx.ipp","src/impl/sources_and_relaxation_of_SDs/particles_impl_ante_adding_SD.ipp","src/impl/sources_and_relaxation_of_SDs/particles_impl_post_adding_SD.ipp"])
    p("C104","After every step of every run the population is well formed","Whatever the random numbers, the order of droplets, the flow, the sources, the boundary conditions and the recycling options, after every step_cond + step_async pair of a run of any length every super-droplet stands for at least one and fewer than 2^64 particles, has a non-negative wet and dry size and lies inside the domain; the number of super-droplets exceeds the initial one by at most what sources and relaxation added.","every initial population, every number of steps, every choice of random numbers, sort outcomes, execution orders, flows, sources and recycling outcomes","An invariant of a loop over unboundedly many steps; tests run a few steps from a few states.",["src/particles_step.ipp: step_cond, step_async","src/impl/distributed_memory/particles_impl_post_copy.ipp","src/impl/boundary_conditions/particles_impl_bcnd.ipp","src/impl/housekeeping/particles_impl_hskpng_remove.ipp"])
    p("C105","Aerosol, particle and water budgets close over whole runs","Over a run of any length: dry volume in the domain + dry volume in the puddle + dry volume that left through open walls and the top = initial dry volume + dry volume added by sources and relaxation; the same for particle numbers with <= (coalescence only reduces them); the same for water mass with, on the right, the vapour taken out by condensation in all the steps (per-particle substeps without mixing, adaptive substeps, or substeps in all of which the mass of air is the same: see C58, C60 for the others); in a domain without exits and sources the dry volume is the same after every number of steps.","every initial population, every number of steps, every choice of random numbers, sort outcomes, execution orders, flows, sources and recycling outcomes","Budgets summed over whole histories; tests compare a few totals of a few runs.",["src/particles_step.ipp: step_cond, step_async","src/impl/distributed_memory/particles_impl_post_copy.ipp","src/impl/boundary_conditions/particles_impl_bcnd.ipp","src/impl/coalescence/particles_impl_coal.ipp","src/impl/condensation/percell/particles_impl_cond.ipp"])
    p("C106","A run can always be continued","From every well-formed population, whatever the random numbers, the flow, the sources and the order of droplets, the next step_cond and step_async complete: no conversion of a position to an index and no loop over pairs is undefined; so a run can be continued for any number of steps.","every well-formed population, every number of steps, every behaviour of the surroundings (which may depend on time and on the population)","Absence of stuck states over unboundedly long histories; a test that did not stop shows one history.",["src/particles_step.ipp: step_cond, step_async","src/impl/distributed_memory/particles_impl_post_copy.ipp","src/impl/housekeeping/particles_impl_hskpng_ijk.ipp","src/impl/housekeeping/particles_impl_rcyc.ipp: rcyc","src/impl/coalescence/particles_impl_coal.ipp: coal"])
    p("C107","Distributed-memory runs close the same budgets as shared-memory ones","A run on any number of MPI processes or GPUs, of any length: the dry volume, the number of particles and the water held by all subdomains together and by their puddles, plus what left the whole domain through its outer open walls and the top, equal the initial amounts plus what sources added (the number may only fall, by coalescence; water also changes by what condensation took from the vapour of the subdomains). Nothing is lost or duplicated at internal boundaries, open outer edges lose only what crosses them, and after every step each super-droplet stands for at least one particle and lies inside the subdomain that holds it.","all numbers of subdomains, decompositions, populations, flows, random numbers, sort outcomes, step counts; runs in which every exchange fits its buffers and no droplet crosses more than one subdomain in a step","Tests run two or three processes for a few steps with one decomposition; the budget must close for every decomposition, crossing pattern and number of steps.",["src/impl/distributed_memory/particles_impl_mpi_exchange.ipp","src/impl/distributed_memory/particles_impl_pack.ipp","src/impl/distributed_memory/particles_impl_unpack.ipp","src/impl/boundary_conditions/particles_impl_bcnd.ipp","src/particles_step.ipp","src/particles_ctor.ipp"])
    p("C108","Background steps of the kinematic driver never race with the library",
      "The kinematic 2D driver, with or without chemistry, started with any acceptable options: if steps are run in the background (GPU backends), the driver never makes a library call (step_sync, step_async, diagnostics, destruction of the library object) while a background step_async may be running, never fails one of its own assertions, never calls get() on an invalid future, and gets no exception from the library's call-order checks; it never blocks for ever; its diagnostics see the initial state and the state after every time step whose number is a multiple of outfreq, each time with all time steps so far complete - the same as without background steps.",
      "all output frequencies > 0, numbers of time steps, spin-up lengths, backends, async switches, and all moments at which background steps complete",
      "the interleaving of the background thread with the main thread cannot be enumerated by running the program",
      ["models/kinematic_2D/src/kin_cloud_2d_lgrngn.hpp: hook_ante_loop, hook_post_step, ftr","models/kinematic_2D/src/kin_cloud_2d_lgrngn_chem.hpp: hook_post_step","src/particles_step.ipp: step_sync, step_async"])
    p("C109","Spin-up of the kinematic driver",
      "With --spinup N: rain formation (collisions and sedimentation of the Lagrangian scheme, autoconversion of the bulk schemes) is off in exactly the first N time steps and as requested by the user in all later ones; no other option is changed for good; if the user switched rain formation off the spin-up is ignored; relaxation of th and rv acts only after the spin-up, towards means that have been saved, and never overshoots for time steps not longer than tau_rlx.",
      "all spin-up lengths (also negative), all options, all time steps",
      "histories of any length and all option combinations",
      ["models/kinematic_2D/src/kin_cloud_2d_common.hpp: hook_ante_loop, hook_ante_step, update_rhs","models/kinematic_2D/src/kin_cloud_2d_lgrngn.hpp: get_rain, set_rain","models/kinematic_2D/src/kin_cloud_2d_lgrngn_chem.hpp","models/kinematic_2D/src/kin_cloud_2d_blk_1m.hpp","models/kinematic_2D/src/kin_cloud_2d_blk_2m.hpp"])
    p("C110","Wind field of the kinematic driver",
      "The momentum field of the kinematic driver has zero divergence in every grid cell, is periodic in x, carries no mass through the bottom and the top of the domain, and its speeds do not exceed w_max vertically and w_max X/(2Z) horizontally (per unit density); the super-droplets' domain has the size asked for, the velocities given to super-droplets match across the periodic boundary, and the air carries no super-droplet through the bottom.",
      "all grid sizes, domain sizes, amplitudes, time steps; all cells and faces",
      "holds for every grid; a test samples a few",
      ["models/kinematic_2D/cases/icmw8_case1.hpp: psi, rhod, setopts, intcond","models/kinematic_2D/src/kin_cloud_2d_lgrngn.hpp","src/impl/particles_impl_adve.ipp"])
    p("C111","Activation substepping compares every droplet with its own critical radius",
      "With opts_init.sstp_cond_act > 1, whenever condensation is called, the critical radius used to detect (de)activation of a super-droplet is that of its present dry size and hygroscopicity (at opts_init.rc2_T), "
      "whatever has happened since init(): collisions, transport, recycling, removal, sources, relaxation, chemistry, time steps of varying length.",
      "all histories of time steps with any options, any populations, any collisions, sources and execution orders",
      "the radius is a stored value kept up to date by several routines; whether it is current depends on the whole history",
      ["src/impl/housekeeping/particles_impl_hskpng_rc2.ipp: hskpng_approximate_rc2_invalid","src/impl/coalescence/particles_impl_coal.ipp: invalidator","src/particles_step.ipp: step_async",
       "src/particles_init.ipp: init","src/impl/condensation/perparticle/perparticle_nomixing_adaptive_sstp_cond.ipp"])
    p("C112","Exchange over MPI ends, in the same state, under every schedule",
      "When a simulation runs on two or more MPI processes, init() and any number of time steps complete on all processes: no process waits for ever for a message, even if the MPI library "
      "does not buffer anything. Whatever the order in which processes run and messages travel, the super-droplets at the end are those of the run in which, at each step, every process advances its "
      "own super-droplets and then all those that crossed the end of a subdomain are handed to the neighbouring process at once, in its coordinates: none lost, none twice, attributes not mixed up, "
      "messages of different kinds or different steps not confused; a message that does not fit or an excess of super-droplets is reported.",
      "any number of processes, steps, subdomains, periodic or open ends, populations, local computations, and all schedules of processes and messages",
      "outcomes depend on the interleaving of processes and on when the MPI library reads and writes buffers; a test sees one interleaving, usually with buffering",
      ["src/impl/distributed_memory/particles_impl_mpi_exchange.ipp: mpi_exchange","src/impl/distributed_memory/particles_impl_xchng_domains.ipp: xchng_domains",
       "src/impl/distributed_memory/particles_impl_xchng_courants.ipp: xchng_courants","src/impl/distributed_memory/particles_impl_pack.ipp: pack_n_lft, pack_real_lft, bcnd_remote_lft",
       "src/impl/distributed_memory/particles_impl_unpack.ipp: unpack_n, unpack_real, flag_lft, flag_rgt","src/impl/boundary_conditions/particles_impl_bcnd.ipp: bcnd","src/particles_step.ipp: sync_in, step_async"])
    p("C113","Courant numbers of the neighbours are those of the same step",
      "In a run on several MPI processes with predictor-corrector advection, if at init() and at each sync_in() every process is given its own part of a Courant number field, then in each step every "
      "process computes with its part of that step's field extended by two columns on each side: never with numbers of an earlier or later step, whatever the order in which processes run and "
      "messages travel.",
      "any number of processes and steps, 1D, 2D and 3D grids, any fields, and all schedules of processes and messages",
      "an old or new value gets into the halo only if a message is read late; this depends on the schedule and on buffering by the MPI library",
      ["src/impl/distributed_memory/particles_impl_xchng_courants.ipp: xchng_courants","src/particles_step.ipp: sync_in","src/particles_init.ipp: init"])
    p("C114","Cell index in floating point",
      "A droplet whose stored position lies between the limits of the domain is assigned the index of the grid cell its stored position is in, never an index beyond the last cell, although positions, "
      "the cell size and the quotient that gives the index are rounded.",
      "all positions and cell sizes representable in single or double precision, all numbers of cells (up to 2^29), the upper limit of the domain being nx*dx as computed or lower, and all roundings to nearest",
      "whether the quotient rounds up to an integer depends on single bits of position and cell size; out of 10^14 pairs a test tries a few",
      ["src/impl/housekeeping/particles_impl_hskpng_ijk.ipp: divide_by_constant_and_cast, hskpng_ijk","src/detail/distmem_opts.hpp: distmem_opts"])
    p("C115","Periodic walls in floating point",
      "A droplet that crossed a periodic side wall is put back between the walls, x0 <= x < x1, shifted by a whole number of domain lengths up to rounding error; a droplet that crossed no wall stays where it is.",
      "all limits of the domain and positions representable in a binary format, positions up to nine domain lengths outside, all roundings to nearest",
      "the failures are at positions a few units in the last place from the wall; tests place droplets elsewhere",
      ["src/impl/boundary_conditions/particles_impl_bcnd.ipp: periodic, bcnd"])
    p("C116","Predictor step keeps droplets on the grid, in floating point",
      "Between the predictor and the corrector step of advection every droplet is in an existing cell of the (halo-extended) grid: a droplet that the predictor moved through the top or bottom of the domain is put back "
      "strictly inside, in an existing layer, and a droplet between the side walls is in an existing column.",
      "all domain heights, cell sizes, numbers of layers (up to 10^6) and columns (up to 2^20), all positions, single and double precision, all roundings to nearest",
      "the correction by 1e-8 of a layer is above or below the resolution of the number format depending on precision and height; tests run one precision and one grid",
      ["src/impl/advection/particles_impl_adve.ipp: adve"])
    p("C117","Random positions in floating point",
      "Random numbers are at least 0 and less than 1, and a droplet created in a cell is placed at a position inside that cell and inside the domain, upper end excluded.",
      "all random numbers representable in single precision, all numbers the GPU generator may return in (0,1], all cells, cell sizes and domain limits (cells not thinner than 2^-20 of their upper end), all roundings to nearest",
      "the number 1 or the upper end of the cell is returned once in some 10^7 draws",
      ["src/detail/urand.hpp: generate_n","src/impl/initialization/particles_impl_init_xyz.ipp: pos_lgrngn_domain, init_xyz"])
    p("C118","Handing a droplet to the neighbouring subdomain in floating point",
      "A droplet that crossed the wall between two subdomains (devices or processes) by less than a subdomain's length is stored by the receiver at a position between its limits, upper limit excluded, at most a few millimetres from the exact place, and gets one of the receiver's columns.",
      "all roundings to nearest in at least 24 bits, all subdomain limits and all positions within one subdomain length, all lengths up to the stated bound",
      "whether the shifted coordinate is rounded onto the limit depends on the low bits of both limits and of the position",
      ["src/impl/distributed_memory/particles_impl_pack.ipp: remote, bcnd_remote_lft, bcnd_remote_rgt","src/impl/distributed_memory/particles_impl_unpack.ipp: tolerance_away_from_bcond, unpack_real","src/detail/config.hpp: bcond_tolerance"])
    p("C119","Limits of the subdomains in floating point",
      "Every position between the limits of a device's subdomain belongs to one of the columns of that device.",
      "all numbers of columns and devices, all column widths and representable positions, all roundings to nearest in single precision",
      "fails for about one in eight combinations of column width and numbers of columns, in the last bit, for droplets in the last bit of the last column",
      ["src/detail/distmem_opts.hpp: get_dev_nx, distmem_opts","src/impl/housekeeping/particles_impl_hskpng_ijk.ipp: divide_by_constant_and_cast"])
    p("C120","The number of substeps for a changed time step in floating point",
      "With opts.dt set, every process has at least one substep, no substep is longer than the default one by more than rounding errors, there is at most one substep more than in exact arithmetic, and setting opts.dt to the default time step changes nothing.",
      "all time steps and numbers of substeps below 2^(p-2), all roundings to nearest in p bits",
      "the quotient sstp*dt/dt exceeds sstp in the last bit for some time steps only (0.3 s with 7 substeps), and is then rounded up",
      ["src/impl/particles_impl_adjust_timesteps.ipp: adjust_timesteps"])
    p("C121","Diagnosed moments in floating point, for every order of summation",
      "A diagnosed moment differs from the exact one by a relative error of at most N+4 roundings (N super-droplets selected in the cell), whatever the order in which the parallel reduction adds; it is zero exactly if all selected droplets contribute zero; the number of droplets is exact and independent of the order.",
      "all lists of super-droplets, all binary trees of additions, all attributes and orders of moments with pow accurate to one rounding, all roundings to nearest",
      "the order of additions depends on the number of threads and on the device; the loss needs more than 2^24 droplets in a cell",
      ["src/impl/diagnose_SD_attributes/particles_impl_moms.ipp: moment_counter, moms_calc, moms_all"])
    p("C122","Output options of the kinematic driver are understood as documented","The strings given with --out_dry, --out_wet, --out_chem, --out_wet_pH are lists of ranges r1:r2|n1,n2,... separated by ';' (an ending ';' and blanks are allowed): every string of this form sets exactly the ranges and moment numbers it names, in their order, and every other string is refused with an exception.","all strings of characters, all lists of ranges, all functions from strings to real numbers for lexical_cast","Infinitely many strings; tests use the default ones.",["models/kinematic_2D/src/opts_lgrngn.hpp: parse_moms","models/kinematic_2D/src/outmom.hpp: outmom_t"])
    p("C123","Assumed drop spectra of the double-moment scheme carry the given contents","For every positive number and mass mixing ratio, the gamma spectrum of cloud droplets and the exponential spectrum of raindrops assumed in the formulae have exactly the given number and the given mass of water, the radius used in the rates is the mean radius of the spectrum, and the relaxation times of condensation and evaporation are the integrals over the spectrum of diffusion to spheres, for rain with ventilation for the drops' own fall speed.","all contents, densities and temperatures","Identities between integrals over an unbounded range of sizes and closed formulae with gamma functions, for a continuum of inputs.",["include/libcloudph++/blk_2m/common_formulae.hpp: miu_c, lambda_c, N0_c, lambda_r, N0_r, r_drop_c, r_drop_r","include/libcloudph++/blk_2m/cond_evap_formulae.hpp: tau_relax_c, tau_relax_r, a_fall, b_fall"])
    p("C124","Double-moment activation counts the aerosol without a barrier","After a call with activation, the cloud droplet concentration reached in one time step is the larger one of the present one and the number of particles of all log-normal modes whose Köhler curve stays below the supersaturation of the air (limited to RH_max - 1); nothing activates in air which is not supersaturated; more supersaturation never activates fewer; never more than there are; each new droplet brings the water of a one-micrometre drop.","all lists of modes, all temperatures below 791 K, pressures, humidities, limits RH_max > 1, time steps","The number is a tail of an integral of the size distribution, for a continuum of conditions and any number of modes.",["include/libcloudph++/blk_2m/activation_formulae.hpp: s_0, s, u, n_c_p, activation_rate","include/libcloudph++/blk_2m/rhs_cellwise.hpp: rhs_cellwise"])
    p("C125","Single-moment rates respond to the state as their laws say","Autoconversion starts at the threshold and is proportional to the excess; collection needs both cloud and rain; evaporation of rain has the sign of the subsaturation and grows with rain content and dryness; rain falls faster when there is more of it and in thinner air; the slopes of the spectra of rain and ice B hold the water of the cell; freezing, riming and deposition happen only in air not warmer than 273.16 K, melting only in air warmer than that, homogeneous nucleation only below 233.16 K; nothing happens to a species that is absent.","all contents, temperatures, pressures, densities","Signs, thresholds and monotonicity over a continuum of states.",["include/libcloudph++/blk_1m/formulae.hpp: autoconversion_rate, collection_rate, evaporation_rate, v_term, lambda_rain, lambda_ice_b, mass_b, velocity_iceA, velocity_iceB, hom_A_nucleation_1, het_A_nucleation, melting_A, riming_A, deposition_A"])
    p("C126","Drift of aerosol and water by coalescence in floating point","In a floating-point run the total dry volume of the aerosol and the total volume of liquid water change by coalescence only through rounding: over any history of T coalescence substeps, whatever collides and however many times, the dry volume stays within 3T and the liquid volume within 11T relative roundings, and no size becomes negative.","all populations, histories of coalescence substeps, precisions and roundings to nearest, with or without fused multiply-add","the error of a run accumulates over an unbounded number of collisions; a test compares totals of one short run with a tolerance",
      ["src/impl/coalescence/particles_impl_coal.ipp: collide, collider"])
    p("C127","Hygroscopicity stays in range in floating point","In a floating-point run with several hygroscopicities, collisions average them: over any history of collisions every hygroscopicity stays between the smallest and the largest initial one up to four relative roundings per collision, and dry sizes stay positive, although the dry size before the collision is recovered by subtracting rounded numbers.","all populations with positive dry sizes, all histories of collisions, precisions and roundings to nearest, without contraction of products and sums","a cancellation that makes a weight negative needs a particular pair of sizes and number of collisions",
      ["src/impl/coalescence/particles_impl_coal.ipp: weighted_summator, collide, coal"])
    p("C128","Diagnostics mean what their names say, in any sequence","After any sequence of diag_*_rng, diag_*_rng_cons, diag_ice, diag_water, diag_*_cons, diag_all calls, a diag_*_mom call and outbuf() return for each cell the sum of multiplicity times the n-th power of the named attribute (per mass of dry air) over exactly the particles wanted by the last selection that starts afresh and all consecutive ones after it; a diagnostic of an attribute the run does not have is refused with an exception.","all populations, options, sequences of selections, attributes and orders of moments","the number of sequences of calls is unbounded, and an absent attribute shows only with the option that removes it",
      ["src/particles_diag.ipp: diag_dry_rng, diag_dry_rng_cons, diag_wet_rng_cons, diag_ice_a_rng_cons, diag_ice_c_rng_cons, diag_kappa_rng_cons, diag_ice_cons, diag_water_cons, diag_up_mom, diag_vp_mom, diag_wp_mom, diag_incloud_time_mom, diag_chem","src/impl/particles_impl.ipp: distmem_real_vctrs"])
    p("C129","Bulk calls work cell by cell and refuse containers of different sizes","The cellwise functions of the bulk schemes give every cell exactly the formula applied to the old values of this cell, once, whatever the number of cells; the columnwise functions visit every level once; containers of different sizes, and from Python arrays of a wrong type or layout, are refused.","all cell formulas, numbers of containers, sizes and contents","sizes are unbounded, and an access outside of a container may go unnoticed in a test",
      ["include/libcloudph++/common/detail/zip.hpp: zip","include/libcloudph++/blk_1m/rhs_cellwise.hpp: rhs_cellwise","include/libcloudph++/blk_1m/rhs_columnwise.hpp: rhs_columnwise","bindings/python/util.hpp: np2bz, sanity_checks","bindings/python/blk_1m.hpp: rhs_cellwise"])
    p("C130","Settling in floating point","Over any history of steps a droplet falls by the sum of time step times settling velocity, up to half a unit in the last place of the height of the domain per step and one relative rounding of the distance.","all precisions, roundings to nearest, heights, histories of time steps and velocities while the droplet is above ground","the error accumulates over the number of steps, which is unbounded",
      ["src/impl/sedimentation/particles_impl_sedi.ipp: sedi","src/impl/subsidence/particles_impl_subs.ipp: subs"])
    p("C131","Total water in condensation, in floating point","With per-cell substeps, over any history of calls to step_cond the sum of water vapour and liquid water of a cell drifts by at most a fixed amount per call: two roundings of the water vapour per substep and about twice as many roundings of the liquid water as there are super-droplets.","all precisions, roundings to nearest, orders of summation, numbers of super-droplets, substeps and calls, sizes the droplets take, changes made by the flow model in between","the error accumulates over an unbounded number of steps and depends on an unspecified order of summation",
      ["src/particles_step.ipp: step_cond","src/impl/condensation/percell/sstp_percell_step.ipp: sstp_percell_step","src/impl/condensation/percell/particles_impl_cond.ipp: cond","src/impl/common/particles_impl_update_th_rv.ipp: update_th_rv","src/impl/common/save_liq_ice_content_before_change.ipp: save_liq_ice_content_before_change"])
    p("C132","Optional arrays are there when they are used","Every call of init, sync_in, step_cond and step_async that is not rejected with an exception touches only allocated elements of the arrays whose existence depends on options (positions, velocity and supersaturation fluctuations, ice attributes, critical radii, substepping copies, dissipation rate, trace gases, dissolved chemicals, profiles), and never takes a remainder by zero. The code keeps this except for exactly: turb_coal requested without any turbulence switch; turb_cond requested in step_async without turb_cond_switch; chemistry with no_ccn_at_init; a grid in x and y only; turbulent advection on a grid without x; sstp_cond_act below one with condensation substepping. All six are accepted by the checks.","all accepted opts_init, all run-time options, all numbers of super-droplets, occupied cells and substep numbers in force","a test runs one combination of the dozens of switches, and reading an unallocated element usually goes unnoticed; the property ranges over all combinations",["src/impl/particles_impl.ipp: impl, distmem_real_vctrs","src/particles_step.ipp: sync_in, step_cond, step_async","src/particles_init.ipp: init","src/impl/initialization/particles_impl_init_sync.ipp: init_sync","src/impl/initialization/particles_impl_init_hskpng_ncell.ipp: init_hskpng_ncell","src/impl/housekeeping/particles_impl_hskpng_turb_vel.ipp: hskpng_turb_vel","src/impl/housekeeping/particles_impl_hskpng_rc2.ipp: hskpng_approximate_rc2_invalid","src/impl/boundary_conditions/particles_impl_bcnd.ipp: bcnd"])
    p("C133","Collisions keep droplet numbers and masses consistent (double-moment scheme)","In a cell without phase changes, collisions take from the cloud droplets that carry the water taken, so the mean droplet mass is unchanged and no cloud water is left without droplets; accretion makes no raindrops, and autoconverted water goes into drops of 25 micrometre radius. The code takes too many droplets: the relative loss of droplets is the relative loss of cloud water times (m+2)(m+3)/(m+1)^2 > 1, m the shape parameter of the cloud spectrum, because the mass of a droplet of the mean radius is used for the mean droplet mass; the droplets can run out while cloud water remains, and below a threshold rate no droplets are taken at all.",
      "every cell content, option set, time step and previous tendency","the excess depends on concentration through the shape parameter and shows up only in the ratio of two tendencies",
      ["include/libcloudph++/blk_2m/rhs_cellwise.hpp: rhs_cellwise","include/libcloudph++/blk_2m/collision_sink_formulae.hpp: collision_sink_rate","include/libcloudph++/blk_2m/common_formulae.hpp: r_drop_c","include/libcloudph++/blk_2m/autoconversion_formulae.hpp: drizzle_radius"])
    p("C134","Recycling does not use up the room of a distributed run","In a run distributed over MPI processes with recycling switched on and no source, the number of super-droplets held by each process stays bounded by what it holds and exchanges, as it does without recycling (what it had, less what it sent, plus what it received). The code refills the slots of super-droplets that have been sent to a neighbour: as long as there is something to split, every process grows in every step by everything it receives, so the run ends with an exception once n_sd_max is reached, although droplet concentrations and masses are conserved.",
      "every number of processes, population, motion, outcome of the sorts and execution order, n_sd_max and number of steps","takes several processes and as many steps as there is room; single-process runs keep the count",
      ["src/impl/distributed_memory/particles_impl_post_copy.ipp: post_copy","src/impl/distributed_memory/particles_impl_unpack.ipp: flag_lft, flag_rgt","src/impl/housekeeping/particles_impl_rcyc.ipp: rcyc","src/particles_multi_gpu_step.ipp: step_async"])
    p("C135","Using up a reservoir in one step, in floating point","In floating-point arithmetic too, the limit put on rain evaporation keeps rain non-negative after the step it was made for, and tendencies stay numbers. In the code rain ends above minus four roundings of what it was, and never below zero if the time step is a power of two; but for other time steps some rain contents end just below zero, and from there on accretion makes both tendencies of the single-moment scheme NaN, also where there is no cloud water. The double-moment scheme recovers: its processes are off and its limiter gives back what is missing.",
      "every precision from 5 bits on, with or without fused multiply-add, every rain and cloud content, time step, evaporation asked for and amount converted","fewer than one rain content in ten ends below zero, only in cells where the limit binds, and not for dt = 1, 2, 4",
      ["include/libcloudph++/blk_1m/rhs_cellwise.hpp: rhs_cellwise_hlpr, rhs_cellwise_revap","include/libcloudph++/blk_1m/formulae.hpp: autoconversion_rate, collection_rate, evaporation_rate","include/libcloudph++/blk_2m/rhs_cellwise.hpp: rhs_cellwise"])
    p("C136","Random number seeds give reproducible and fresh random numbers","The initial population depends only on the seed of initialisation (rng_seed_init if switched on, else rng_seed) and what follows only on rng_seed and the population, however many numbers initialisation took; within each of the two no random word is used twice. Numbers used after initialisation should be new, and parts of a distributed run should get numbers of their own. In the code, unless initialisation has a seed of its own, the numbers of the dry radii come again as keys of the first shuffle, which therefore orders droplets by their place within size bins; and all processes and devices draw the same numbers, so equal subdomains start with copies of one population.",
      "every generator, seed, adaptive sequence of requests of any length, number of processes and population","statistics of a single run look random; the repetition shows up only when two phases or two processes are compared draw by draw",
      ["src/detail/urand.hpp: rng","src/particles_init.ipp: init","src/impl/particles_impl.ipp: rand_u01, rand_un, impl","src/impl/initialization/particles_impl_init_dry_sd_conc.ipp: init_dry_sd_conc","src/impl/housekeeping/particles_impl_hskpng_sort.ipp: hskpng_sort_helper"])
    p("C137","The options for relative humidity describe the same air",
      "The option choosing how relative humidity is computed (from vapour pressure or mixing ratio, with the Clausius-Clapeyron equation or the Tetens formula) does not change what air is saturated by more than a small known amount: from 0.01 to 40 degrees Celsius the Tetens humidities are within -1 to +0.11 per cent of the Clausius-Clapeyron ones from vapour pressure, and within -1.3 to +0.06 per cent for mixing ratios at pressures of at least six times saturation pressure; the temperature the particles see is the one the potential temperature handed over was made of, for both meanings of potential temperature; and the pressure is the one handed over or the one of the mixture of ideal gases.",
      "every temperature in the range, every pressure, vapour content, density, and every combination of the options",
      "The formulas are transcendental functions of a continuous range of temperatures; a test compares them at a few, at which a wrong coefficient can be invisible.",
      ["include/libcloudph++/common/tetens.hpp: p_vs, r_vs","include/libcloudph++/common/const_cp.hpp: p_vs, r_vs","src/impl/housekeeping/particles_impl_hskpng_Tpr.ipp: RH, hskpng_Tpr"])
    p("C138","Accumulated precipitation in floating point",
      "In floating-point arithmetic, for any number of threads and order of summation, the volume reported by diag_puddle after a run is the volume that fell out up to a relative error of one rounding per time step, one per super-droplet and a few more; the number of droplets is exact; no output ever decreases; and light rain counts as well as heavy rain: what falls out is not lost however long the run.",
      "every precision, every sequence of time steps of any length, every population falling out in each of them, every order of summation",
      "Long histories, and the loss sets in only after many time steps.",
      ["src/impl/boundary_conditions/particles_impl_bcnd.ipp: count_vol, count_num, bcnd","src/particles_diag.ipp: diag_puddle"])
    p("C139","Exchange buffers hold what a subdomain sends","In a distributed run the buffers for exchanging super-droplets hold everything a subdomain sends, in whole numbers and in real numbers, in every step and whatever was sent before; they never get smaller, and a receiver with room for one kind of numbers has room for the other; messages of up to half of an evenly filled column always fit the receiver.","every number of attributes, limit on super-droplets, width of subdomain and history of numbers sent","All histories of exchanges; the checks are assertions which release builds leave out.",["src/impl/initialization/particles_impl_reserve_hskpng_npart.ipp: reserve_hskpng_npart","src/impl/boundary_conditions/particles_impl_bcnd.ipp: bcnd","src/impl/distributed_memory/particles_impl_pack.ipp: pack_n_lft, pack_n_rgt, pack_real_lft, pack_real_rgt"])
    p("C140","Processes with substeps act over the whole time step","Whatever the time step and the number of substeps, coalescence, dissolution and oxidation, as far as they are switched on, are computed in every step for exactly the time step, in substeps not longer than those at the default time step, and no coalescence substep uses the fall speeds from before the previous one.","every number of substeps accepted, default time step and sequence of time steps, and combination of processes","All combinations of time steps and numbers of substeps; a missing or surplus substep changes results without any error.",["src/particles_step.ipp: step_cond, step_async","src/impl/particles_impl_adjust_timesteps.ipp: adjust_timesteps","include/libcloudph++/lgrngn/opts_init.hpp: sstp_coal, sstp_chem"])
    p("C141","Entries of the puddle, species and kernels are known by the same names everywhere","Every entry of the puddle has one of the fourteen documented names, looking up a name gives the entry it belongs to and any other string is refused; diag_puddle of the Python bindings never fails and holds every entry under its own name, whatever was accumulated; entries of chemical species are called as the species are in Python; every collision kernel can be chosen in Python, by the name the library itself uses for it.","every string, every entry, species and kernel, and every accumulated value","The numbers of species and of puddle entries are converted into one another without a check; a name that is missing or attached to another entry gives wrong results silently.",["include/libcloudph++/common/output.hpp: output_t, output_names, get_output_enum","include/libcloudph++/common/chem.hpp: chem_species_t","bindings/python/lgrngn.hpp: diag_puddle","bindings/python/lib.cpp: kernel_t, chem_species_t","include/libcloudph++/lgrngn/kernel.hpp: kernel_name"])
    p("C142","Every documented choice of kernel, fall speed and advection scheme runs as named","Every collision kernel, fall speed and advection scheme listed in the help of the kinematic driver can be run in every combination, and the run uses the collisions, fall speed and scheme the names stand for; a name that is not listed stops the run, with or without assertions.","every string given for the three options, every combination of them, with and without assertions","There are 150 combinations and infinitely many wrong names; the driver and the library check the choices separately, and what one offers the other may refuse.",["models/kinematic_2D/src/opts_lgrngn.hpp: setopts_micro","src/impl/initialization/particles_impl_init_kernel.ipp: init_kernel","src/impl/initialization/particles_impl_init_sanity_check.ipp: init_sanity_check","include/libcloudph++/lgrngn/opts_init.hpp: opts_init_t"])
    p("C143","In a debug build invalid input is noticed","With assertions on, sync_in returns exactly if every value received is a finite number (and, for temperatures, vapour contents, densities, dissipation rates and trace gases that are used, not negative), wherever in the array the invalid value is and in whatever order the threads combine their results; the number of invalid values printed is right; invalid amounts of chemicals are noticed in every super-droplet after collisions. Without assertions nothing is checked.","all fields of any size, all subsets of arguments, all switches, every order of the parallel reduction, all floating-point values including infinities and NaN","The result of the check is a parallel reduction of booleans; an invalid value may be anywhere, and comparisons with NaN are false.",["src/detail/checknan.hpp: nancheck, nancheck_range, isnaninf","src/particles_step.ipp: sync_in","src/impl/coalescence/particles_impl_coal.ipp: coal"])
    p("C144","The object made is the one asked for, and several processes are never taken for one","factory returns an object of the backend asked for or throws: a backend that was not compiled or is unknown is refused, never replaced; a library built without MPI refuses to work in a program started as several processes, and does not refuse a single one; with MPI the edges of a process's part of the domain are open, shared with another process or connected to one another as the number of processes and the option for side walls say.","every build configuration, backend, environment, rank and number of processes, level of threading and behaviour of OpenMP threads","The outcome depends on how the library was built, on the launcher and the environment; a process that wrongly takes itself for the only one gives plausible but wrong results.",["src/lib.cpp: factory","src/particles_ctor.ipp: particles_t","src/detail/ran_with_mpi.hpp: ran_with_mpi","src/lib_omp.cpp: sanity_checks","src/impl_multi_gpu/particles_multi_gpu_impl.ipp: impl"])
