#!/usr/bin/env python3
"""Generates MANIFEST.json; run from anywhere."""
import json
M=[]
def m(prop,status,theorems,note=""):
    M.append(dict(property=prop,status=status,theorems=theorems,note=note))
K="LCP.Coal."
m("C01","proved",[K+"coal_conserves_dry_volume"])
m("C02","proved",[K+"coal_conserves_liquid_volume"])
m("C03","proved",[K+"coal_multiplicity_never_wraps",K+"coal_droplet_number_nonincreasing",K+"coal_fitsU64"])
m("C04","proved",[K+"coal_schedule_independent",K+"coal_is_local"])
m("C05","proved",[K+"coal_conserves_chem",K+"coal_conserves_kappa_volume"])
m("C06","proved",[K+"candidate_pair_count",K+"scaled_pairs_represent_all_pairs"])
m("C07","proved",[K+"coal_invalidates_cache",K+"coal_no_stale_vt"])
R="LCP.Rcyc."
m("C08","proved",[R+"rcyc_conserves",R+"rcyc_count",R+"rcyc_clones"])
m("C09","partial",[R+"rcyc_no_zeros_partial",R+"rcyc_zeros_survive"],"The full claim is false: when more than half of the super-droplets are dead, none has multiplicity 1 and the run is not purely constant-multiplicity, dead ones survive (rcyc_zeros_survive).")
m("C10","proved",["LCP.Remove.remove_keeps_exactly_live","LCP.Remove.remove_fits"])
G="LCP.Grid."
m("C11","proved",[G+"ravel_unravel",G+"unravel_ravel",G+"ravel_injective"])
m("C12","proved",[G+"position_determines_cell"])
D="LCP.Diag."
m("C13","proved",[D+"sort_ok",D+"shuffle_ok",D+"count_ok",D+"count_le_nCell"])
m("C14","proved",[D+"radius_moment",D+"attribute_moment",D+"sd_conc"])
m("C15","proved",[D+"selections_ok",D+"cons_without_selection",D+"dryRng_wants",D+"wetRng_wants",D+"abutting_ranges"])
m("C16","partial",[D+"outbuf_twice_partial",D+"outbuf_field_partial",D+"outbuf_field_twice_wrong"],"True for moments and counts; false for fields (pressure, temperature, RH, ...) when some cell is empty: outbuf() re-counts and overwrites count_ijk, so the second read is scrambled (outbuf_field_twice_wrong).")
m("C30","partial",[G+"dv_is_intersection_volume_partial",G+"dv_sum_partial",G+"dv_full_domain",G+"dv_outside_positive",G+"dv_sum_wrong"],"True for cells meeting the domain in every direction with extents inside the grid; cells outside the domain get a wrong (possibly positive) volume, so the sum claim fails in general.")
m("C31","partial",[G+"faces_3d",G+"faces_2d",G+"faces_3d_shared",G+"faces_2d_shared",G+"left_face_1d_partial",G+"right_face_1d_wrong",G+"halo_columns"],"Proved in 2D and 3D; in 1D the right face index equals the left face index (the code adds nz = 0), right_face_1d_wrong.")
m("C43","partial",[D+"mass_dens_partial",D+"mass_dens_wrong"],"True when the non-empty cells are an initial segment of the grid; false otherwise, because count_num (compact) is indexed by cell number.")
B="LCP.Bcnd."
m("C17","partial",[B+"periodic_inside",B+"periodic_partial",B+"periodic_whole",B+"periodic_wrong",B+"bcnd_periodic_side",B+"bcnd_periodic_topbot"],"True for positions up to ten domain lengths to the left and any distance to the right; false further left, periodic_wrong.")
m("C18","proved",[B+"bcnd_removes_leavers",B+"bcnd_open_positions",B+"bcnd_survivors_inside"])
m("C19","proved",[B+"puddle_budget",B+"puddle_gain",B+"puddle_monotone",B+"puddle_monotone_history"])
S="LCP.Step."
m("C20","partial",[S+"protocol_order",S+"wrong_order_refused",S+"no_deadlock",S+"sync_after_failed_init",S+"async_throw_consumes",S+"async_half_done"],"Order enforced for successful calls; false after failures: a failed init opens sync_in, and a step_async that throws on an option mismatch consumes the pending step (sync_after_failed_init, async_throw_consumes, async_half_done).")
m("C21","proved",[S+"adjustOne_ok",S+"adjust_ok"])
m("C22","partial",[S+"sstp_coal_forgotten",S+"sstp_coal_witness",S+"sstp_coal_partial"],"The full claim is false: the adapted number of coalescence substeps is overwritten at the next step.")
P="LCP.Pool."
m("C23","proved",[P+"guards_disjoint",P+"all_free",P+"acquire_iff"])
m("C24","partial",[P+"adve_pool_partial",P+"adve_pool_exhausted"],"False for the predictor-corrector scheme in 1D/2D without options enlarging the pool (adve_pool_exhausted).")
m("C36","proved",[S+"source_cadence",S+"source_off",S+"source_once"])
m("C44","partial",[P+"diag_pool_partial",P+"diag_pool_exhausted"],"False for pools of one vector (parcel or 1D, default options).")
EL="LCP.E2L."
m("C25","partial",[EL+"scalar_map",EL+"sync_in_partial",EL+"sync_out_partial",EL+"sync_roundtrip_partial",EL+"devices_disjoint",EL+"courant_x_map",EL+"courant_y_map",EL+"courant_z_map",EL+"profile_broadcast",EL+"single_column_wrong"],"Holds for every padded array with x or y strictly slowest; false for y-slowest dense arrays over a single column in x (equal strides), single_column_wrong.")
m("C26","partial",[EL+"halo_y_partial",EL+"halo_z_partial",EL+"halo_x_actual",EL+"halo_x_wrong",EL+"mpi_halo_partial",EL+"profile_halo_out_of_bounds"],"y and z Courant numbers and the MPI exchange (all components) give the periodic extension; the x halo filled locally wraps with period nx+1 faces (halo_x_wrong).")
DM="LCP.Distmem."
m("C27","proved",[DM+"partition_contiguous",DM+"partition_exact",DM+"partition_nonempty",DM+"partition_sum",DM+"domain_start_beyond_first_part"],"Columns form an exact partition. Remark: the Lagrangian domain of a part ignores x0 when x0 lies beyond the first part (domain_start_beyond_first_part).")
m("C28","proved",[DM+"source_tiles",DM+"source_inside"])
m("C29","partial",[DM+"exchange_identity_partial",DM+"exchange_budget_partial",DM+"exchange_inside_partial",DM+"buffer_too_small",DM+"check_before_removal"],"Every successful exchange keeps all live super-droplets with translated positions; but the exchange can fail: receive buffers are sized by the receiver's own outgoing counts (buffer_too_small) and n_sd_max is checked before removal of the sent ones (check_before_removal). Chemical masses are not exchanged under MPI.")
AD="LCP.Adve."
m("C32","partial",[AD+"euler_step",AD+"implicit_step",AD+"predCorr_step",AD+"uniform_shift",AD+"uniform_shift_predCorr",AD+"expl_no_crossing",AD+"impl_no_crossing_own_partial",AD+"impl_no_crossing_partial",AD+"impl_crosses",AD+"adve_1d_wrong",AD+"adve_1d_crosses"],"Displacements and uniform flow proved in 2D/3D for all schemes; no-crossing proved for the explicit scheme, for the implicit one at the cell's own faces or |C|<=1/3. False: implicit scheme across a neighbouring closed face (impl_crosses), and in 1D, where the right face is ignored (adve_1d_wrong, adve_1d_crosses).")
m("C45","partial",[AD+"adve_reads_stored",AD+"faces_in_bounds",AD+"fallback",AD+"adve_step_stored_partial",AD+"stale_courants"],"Proved for every step whose sync_in is given Courant numbers, after any history. False when a later sync_in is called without them: the fallback to euler is skipped and memory behind the array is read (stale_courants).")
m("C56","proved",[AD+"transport_spec",AD+"transport_predCorr",AD+"faster_falls_lower",AD+"kAfter_level"])
IN="LCP.Init."
m("C33","partial",[IN+"initial_position_partial",IN+"outside_domain"],"Proved for cells overlapping the Lagrangian domain; super-droplets are also created in cells outside it, possibly with positive multiplicity, and get positions in neither the cell nor the domain (outside_domain).")
m("C34","proved",[IN+"cells_assigned",IN+"stratified",IN+"radii_distinct"])
m("C35","partial",[IN+"multiplier_exact_partial",IN+"single_distro_partial",IN+"multiplier_le_partial",IN+"count_total_partial",IN+"multiplier_wrong",IN+"multiplier_div_zero"],"Exact for a single distribution; in general false: the count is truncated while the divisor is rounded, the quotient sd_conc/divisor is an integer division (multiplier_wrong), and it may divide by zero (multiplier_div_zero).")
m("C46","proved",[IN+"number_single",IN+"number_sizes"])
m("C37","partial",["LCP.Rlx.relax_target_partial","LCP.Rlx.relax_partial","LCP.Rlx.relax_cells","LCP.Rlx.horSum_eq","LCP.Rlx.overshoot","LCP.Rlx.kappa_outside"],
 "Proved for any list of distributions with separate kappa ranges and an integer rlx_sd_per_bin; false for fractional rlx_sd_per_bin (overshoot: 2.5x) and for kappa outside its own range (kappa_outside).")
CM="LCP.Common."
m("C47","proved",[CM+x for x in ["Tdry_spec","std_dry_inverse","p_v_pDry","std_dry_same_state","hess","d_th_hess","clausius_clapeyron","clausius_clapeyron_ice","triple_point","p_vsi_lt_p_vs","saturated_iff","r_vs_pos","r_vsi_lt_r_vs"]])
m("C48","partial",[CM+x for x in ["rw3_eq_bracket","rw3_eq_exists","rw3_eq_unique","koehler_deriv","rw3_cr_is_max","rw3_cr_bracket","rw3_cr_exists","rw3_cr_bracket_fails","kelvin_law","kelvin_effect"]]+["LCP.Toms.rw3_eq_accuracy","LCP.Toms.rw3_eq_range","LCP.Toms.rw3_cr_accuracy"],"Equilibrium radius: proved (uniqueness for kappa <= 30). Critical radius: the bracket is valid exactly under the stated inequality and invalid for very large dry radii (rw3_cr_bracket_fails).")
BM="LCP.Blk1m."
m("C38","partial",[BM+x for x in ["nwt_conserves","nwt_outcome","nwt_saturated","rk_conserves","rk_result","rk_off","adj_conserves","rk_negative_vapour","rk_rain_untouched","rk_rain_evaporates","nwt_one","nwt_converged","rk4_exact"]],"Conservation, sign and outcome proved for both adjustments; the RK4 variant needs a non-negative saturation mixing ratio (p > p_vs), otherwise vapour becomes negative (rk_negative_vapour). Termination of the RK4 loop: C101.")
m("C39","proved",[BM+x for x in ["column_budget","column_flux_down","column_off","column_total","column_nonneg","columnRain_flux","column_budget_species"]]+["LCP.Blk2m."+x for x in ["column_budget","colLoop_budget","column_nonneg_all","column_off","column_total","column_flux"]],"blk_1m and blk_2m columns.")
m("C40","partial",[BM+x for x in ["warm_conserves","revap_conserves","ice_conserves","ice_throws_iff","ice_all_off","onCells_iff","Tp_isSome","revp_ignored","revp_ignored_effect","warm_rates","warm_off"]],"Conservation proved; the option revp does not disable rain evaporation (revp_ignored).")
m("C41","partial",[BM+x for x in ["warm_nonneg_partial","revap_nonneg_partial","ice_nonneg_partial","rates_nonneg","warm_negative","ice_negative_cloud","sublimation_negative","hetA_limits"]],"Non-negativity holds under explicit time-step limits; false in general (three witnesses).")
TM="LCP.Toms."
m("C49","proved",[TM+x for x in ["solve_bracket","solve_accuracy","solveDbl_accuracy","solveFlt_accuracy","solve_endpoint"]])
m("C50","partial",[BM+x for x in ["koenig_in_bounds_iff","koenig_oob_weight","koenig_range","coeffAlpha_nonneg","coeffBeta_range","koenig_interpolates","koenig_limits","koenig_table"]],"False for T <= 242.16 K (koenig_in_bounds_iff): one entry past the end is read; its interpolation weight is zero in exact arithmetic.")
SN="LCP.Sanity."
m("C42","partial",[SN+x for x in ["accepted_iff","accepted_documented_partial","accepted_grid","init_once","good_accepted","mixLen_unchecked","both_concs_accepted","x1_unchecked","sedi_1d_accepted"]],"accepted_iff characterises acceptance completely; false parts: only the first entry of SGS_mix_len is checked (std::min on iterators), x1 not checked, product of sd_conc and sd_const_multi wraps, layouts not enforced.")
B2="LCP.Blk2m."
m("C51","partial",[B2+x for x in ["cell_water","cell_water_partial","cell_latent","cell_throws_iff","cond_evap_sign","water_created","rain_only_evaporates","all_off","cond_off"]],"Latent heat proved. Water: exact budget proved (cell_water); conservation itself is false when accretion is limited (water_created).")
m("C52","partial",[B2+x for x in ["cell_nonneg","cell_rc_partial","column_nonneg_all","rc_negative"]],"Rain water and both numbers proved; cloud water can become negative (rc_negative) but not below minus its value.")
m("C53","proved",[B2+x for x in ["v_term_m_mean","v_term_n_mean","spectrum_mass","v_term_range","reference_density"]])
m("C54","proved",[K+x for x in ["pair_result","collisions_mean","colNo0_close","increase_iff"]])
m("C55","proved",["LCP.Step."+x for x in ["syncIn_iff","stepCond_iff","stepAsync_iff"]])
CO="LCP.Cond."
m("C57","partial",["LCP.Vterm.reversed_rate","LCP.Vterm.reversed_growth","LCP.Vterm.exMarked_shrinks"]+[CO+x for x in ["advanceG_bounds","advance_direction_partial","advanceG_strict","advance_grows_partial","equilibrium","many_steps","drw2dt_sign","drw2dt_vent","dry_grows","drw2dt_law","maxwell_mason","maxwell_mason_ice","advanceG_accuracy","advance_accuracy","advanceD_eq","advance_ice","advanceIce_props","beta_range","beta_anti","Nu_mono","numDbl_ok"]],"Direction of growth is proved for droplets with a non-negative stored velocity. Refuted otherwise: a droplet larger than about 25 um that collected another one in the last sub-step of the previous step has stored velocity -1 and shrinks in supersaturated air (reversed_growth). Bounds and dry-core limit hold in both cases. Real arithmetic; temperatures up to 1000 K; the debug-build NaN checks are not modelled.")
m("C58","partial",[CO+x for x in ["percell_water","percell_conserved_partial","percell_not_conserved","percell_empty","percell_radii","percell_substep","percell_heat_ice","percell_saved"]],"Everything proved except that the water budget is exact only with the condensate before the step converted at the first substep's density: with substeps and a changed density field total water changes (percell_not_conserved); conservation proved otherwise (percell_conserved_partial).")
m("C59","proved",[CO+x for x in ["humidity_cc","humidity_density","humidity_ice","humidity_mono","visc_pos","lambda_pos","percell_direction"]])
m("C60","proved",[CO+x for x in ["perpart_nomix_water","perpart_nomix_independent","perpart_substep","perpart_mix_water","perpart_mix_order","perpart_mix_conserved_partial","perpart_mix_not_conserved","perpart_radii","perpart_saved"]],"Everything in the statement is proved. Beyond it, exact conservation of total water, which a user would expect also with mixing, holds only where the super-droplets' previous density equals the cell's (perpart_mix_conserved_partial); otherwise it is false (perpart_mix_not_conserved). Also: the latent heat without mixing is taken at the temperature of the previous step.")
m("C61","partial",[CO+x for x in ["adaptive_history","Chosen.unique","History.unique","adaptive_as_max","adaptive_as_act","adaptive_as_one","adaptive_ambient_partial","adaptive_overshoot","overshoot_reachable","adaptive_water","adaptive_radii","adaptive_saved"]],"Proved, except that 'exactly the ambient change of the step is applied' holds only for droplets that do not both meet the tolerance and cross their critical radius (adaptive_ambient_partial); for those 1+1/2^j times the change is applied (adaptive_overshoot, reachable for every growing droplet: overshoot_reachable).")
IC="LCP.Ice."
m("C62","proved",[IC+x for x in ["nucl_melt","percell_phase","phases_always","frozen_ok","melt_frozen","melt_below_dry","sublimation_floor"]],"Outcome of every super-droplet, mass, heat and the phase invariant over any history (Step: freezing/melting, per-cell condensation/deposition - the only scheme accepted with ice - and anything that keeps sizes and phases). Finding: an ice particle that sublimated below its dry size melts to a droplet smaller than its dry particle (melt_below_dry, sublimation_floor).")
m("C63","partial",[IC+x for x in ["Tfreeze_ge_iff","Tfreeze_law","Tfreeze_none","activeBy_mono","pFreeze_eq","pFreeze_mem","pFreeze_split","pFreeze_split_list","pFreeze_mono_dt","pFreeze_mono_insol","pFreeze_law","Jhet_cold","initTfreeze_first_partial","initTfreeze_old","initTfreeze_stale","initTfreeze_equal"]],"The laws are proved; that every new super-droplet uses its own random number holds for the first distribution only (initTfreeze_first_partial): later the random numbers are written to the start of the temporary array but read from behind the existing super-droplets (initTfreeze_stale: the temperatures do not depend on the numbers drawn).")
m("C64","partial",["LCP.Turb."+x for x in ["turb_moments","turb_stationary","turb_relaxes","turb_limit","turb_step_length","tke_law","tau_law","calm","turb_step","ss_relax","ss_relax_partial","ss_diverges"]],"Velocities: all proved. Supersaturation: the tendency is explicit, hence its equilibrium is approached only if the time step is shorter than twice the relaxation time (ss_relax_partial); with a longer one the perturbation is driven away (ss_diverges).")
CH="LCP.Chem."
m("C65","proved",[CH+x for x in ["henry_equilibrium","henry_between","henryFun_nonneg","henry_steps","henry_rate","inEquilibrium_iff"]],"Surroundings of one droplet held fixed; the exchange with the cell is C66.")
m("C66","partial",[CH+x for x in ["henry_budget","henry_conserved_partial","henry_creates"]],"Exact budget proved for all states. Conservation fails if the droplets of a cell could take up more than the gas there is within the step (mixing ratio set to zero, excess created): henry_creates gives a state; henry_conserved_partial proves conservation if dt * sum(n k V) <= cell volume.")
m("C67","partial",[CH+x for x in ["neutral_unique","dissociated_iff","dissoc_range","dissoc_neutral","flag_iff","flag_pos","dissoc_alkaline","ammonia_droplet"]],"Neutrality up to the tolerance of the root finder (double precision, relative 2^-22 or 10/2^25 mol/l) if the neutral pH is between -1 and 8. False for alkaline droplets: they are given at least 5 mol/l of H+ and are excluded from chemistry from then on (dissoc_alkaline, ammonia_droplet).")
m("C68","proved",[CH+x for x in ["react_rates","rates_bounds","react_stoichiometry","react_dry","react_nonneg","react_proceeds","cleanup_id"]],"boost::numeric::odeint::runge_kutta4 is modelled as the classical scheme.")
m("C69","partial",[CH+x for x in ["step_no_loss","step_conserves_partial","step_sound","gas_substeps","ozone_not_substepped"]],"No loss proved for all; conservation with equality under the no-sweep condition of C66. Each substep sees an equal part of the change only if density is passed at each step: otherwise ozone is not substepped (ozone_not_substepped).")
m("C70","proved",[CH+x for x in ["init_composition","sulfate_le_dry","coal_conserves_rest"]],"")
KE="LCP.Kernel."
m("C71","proved",[KE+x for x in ["geometric_law","golovin_law","long_law","efficiency_law","kval_symm","init_accepts","kernel_nonneg","same_speed_no_collisions","long_small_no_collisions"]],"Kernels other than the two turbulent ones (C73). The tables of efficiencies are parameters with 20301 non-negative entries, as counted in the source.")
m("C72","partial",[KE+x for x in ["eff_bilinear","eff_node","eff_bounds","eff_large","eff_symm","init_tables","float_reads_outside"]],"Proved for double precision. False in single precision: r_max - 1e-6 is rounded to r_max, so for every drop of 1.1 mm or more the code reads outside of the table (float_reads_outside).")
m("C73","partial",[KE+x for x in ["onishi_law_partial","onishi_still","onishi_ge_still_partial","wang_ge_one_partial","nogravWith_ge","wang_equal_radii_outside","wang_100_outside","onishi_equal_radii","enhancement_ignores_dissipation","enhancement_in_still_air","gMono_spec","nograv_law_partial","clustering_depends_on_partner","kolmogorov_is_one","kolmogorov_wrong","turbulent_rate_too_low"]],"Symmetry (kval_symm), definedness and the lower bound proved for droplets of different sizes. False: equal radii up to 100 um and a collector of exactly 100 um read outside of the table of enhancement factors; the factor is chosen with the Reynolds number instead of the dissipation rate; the exponent 1/4 of the Kolmogorov length is an integer division; the turbulent part is not multiplied by the multiplicity.")
VT="LCP.Vterm."
m("C74","proved",[VT+x for x in ["beard76_stokes","beard76_mid","beard76_large","beard76_pos","gravity","khvorostyanov_law","khvB_slope","khvorostyanov_shape","shape_constant","khvorostyanov_pos","beard77v0_law","beard77v0_pos","beard77fact_ref","reference_density","beard77fact_small","beard77fact_small_mono","beard77fact_large","beard77fact_pos","dlnr_lt","vt0Bin_lt","fast_law","vtLiquid_pos","vtIce_pos"]],"Real arithmetic.")
m("C75","partial",[VT+x for x in ["coal_velocities","sedimentation_partial","sedimentation_no_coal","collectors_rise","rises","reversed_rate","reversed_growth","exMarked_shrinks"]],"Proved: the collision kernels always see current velocities; sedimentation uses current velocities for all super-droplets that did not collect others in the last coalescence sub-step. Refuted: collectors of the last sub-step keep the marker -1 m/s, so they rise in sedimentation and are ventilated with a negative Reynolds number in the next condensation.")
SR="LCP.Src."
m("C76","partial",[SR+x for x in ["source_cells","source_needs_2d","simple_source_partial","amount_close","source_ignores_dt","source_wrong_rate"]],"Proved with the time since the previous activation counted in opts_init.dt; refuted if the time step differs from it (variable time step): source_wrong_rate.")
m("C77","partial",[SR+x for x in ["matching_partial","buffers_suffice","emissions_ge","picked_nodup","clash","clash_excess"]],"Proved for populations without clashes (the last occupied interval of a cell differing from the first one of the next occupied cell). Refuted in general: runs are formed by interval number only, so runs of neighbouring cells merge (clash, clash_excess); proved for all populations: in total no fewer emissions than intervals, arrays large enough, no super-droplet raised twice.")
m("C78","partial",[SR+x for x in ["added_old","added_new","added_complete","added_blank","blank_first_substep","complete_first_substep","blank_temperature","blank_humidity","blank_never_activates"]],"Existing super-droplets are unaffected (proved). Refuted for new ones: their saved surroundings are zero, so the first substep is in air with 1/sstp of the cell's properties (blank_first_substep), at >= 1e11 times the relative humidity (blank_humidity); critical radius unknown (-1) until coalescence. complete_first_substep: with the surroundings saved the claim would hold.")
m("C79","partial",[SR+x for x in ["stored_departure_partial","stored_level_below","stored_two_columns_off","stored_out_of_range","raised_two_columns_off","never_matched","raised_outside","stored_level","count_overflow"]],"Refuted: Euler and implicit schemes use the departure cell (proved, which is the right one for super-droplets that stay in their cell); predictor-corrector uses a cell two columns off even in still air, out of range for the last two columns (stored_two_columns_off, raised_outside, count_overflow).")
m("C80","partial",["LCP.SortFlag."+x for x in ["readers_up_to_date_partial","upToDate_statistic","relaxation_after_source","readers_out_of_date","readers_out_of_date_matching","exists_runs"]],"Proved for all histories except steps in which the source creates or matches super-droplets, relaxation runs and advection is not predictor-corrector. There it is false: the flag is not lowered by the source (post_adding_SD is commented out), so relaxation counts super-droplet 0 in cell 0 in place of each new one (relaxation_after_source) and may produce more entries than cells (readers_out_of_date).")
m("C81","partial",["LCP.Rlx."+x for x in ["random_inside_iff","random_storage_partial","random_past_end","random_past_storage","toInit_eq"]],"Refuted: n_dims numbers per created super-droplet are written into a vector with one entry per super-droplet. Exact condition proved (random_inside_iff), a sufficient bound on n_sd_max against leaving the storage (random_storage_partial), and witnesses for both overruns.")
m("C82","partial",["LCP.Room."+x for x in ["add_throws_iff","no_overrun_partial","broken_for_good","matching_throws_early","matching_adds"]],"Proved up to the first exception. After it the object is broken for good (n_part was raised before the check): broken_for_good. The matching source throws although matched candidates would need no room: matching_throws_early.")
m("C83","partial",["LCP.Activ."+x for x in ["rw_ge_rc","RH_ge_Sc","incloud_time","updateIncloud_ev","coal_ev","air_current_partial","activation_stale","diagnostic_changes_incloud","th_std_without_pressure","critical_exists","critical_unique"]],"Selection against the maximum of the Koehler curve and in-cloud time against the history of the droplets: proved. Refuted: that the air is the one last passed: diag_rw_ge_rc, diag_RH_ge_Sc and step_cond use T and RH of the last hskpng_Tpr, so after sync_in they are stale (activation_stale), and calling diag_temperature changes the in-cloud time recorded later (diagnostic_changes_incloud); proved when step_async or a diagnostic refreshing the air comes in between (air_current_partial). With th_dry=false and const_p=false, accepted by the checks, T is 0 for ever (th_std_without_pressure).")
m("C84","partial",["LCP.VelDiv."+x for x in ["vel_div_partial","vel_div_other_dt","vel_div_1d","vel_div_0d","vel_div_in_bounds"]],"Proved in 2D and 3D with any halo if the Courant numbers are for opts_init.dt. Wrong by tau/dt for another time step; always zero in 1D; old data in 0D.")
m("C85","partial",["LCP.Rates."+x for x in ["precip_rate","precip_rate_unselected","precip_rate_succeeds","precip_rate_ice","ice_mix_ratio","ice_off","max_rw_partial","max_rw_merged","precip_rate_writes"]],"Fluxes and mixing ratio proved. diag_max_rw proved as long as cell numbers are exact in real_t; refuted in single precision above 2^24 cells, where keys are compared as floats and neighbouring cells merge (max_rw_merged). diag_precip_rate has a side effect on later condensation: it refreshes velocities marked as invalid (precip_rate_writes).")
m("C86","partial",["LCP.Attr."+x for x in ["get_attr","sizes","meaningful_ok","meaningless_throws_partial","turbulent_moments_ub","incloud_silent"]],"get_attr proved (coordinates of absent dimensions are returned as zeros). Refuted for diagnostics: moments of turbulent velocities without turbulence read an empty array (turbulent_moments_ub); in-cloud time moments silently do nothing in release builds when not recorded (incloud_silent).")
m("C87","partial",["LCP.PoolApi."+x for x in ["no_pool_exhausted_partial","usual_run_fine","no_guard_constructed_twice","exhausts_chem_exact","exhausts_diag_before_cond","exhausts_pred_corr","exhausts_parcel"]],"Proved for all histories of any length in which every call meets the condition `safe` (and no call follows a failed init or a failed distributed-memory step_async). Outside it is false, with witnesses: chemistry with per-particle substepping (first step_cond), a selecting diagnostic between sync_in and step_cond with per-particle substepping and mixing, predictor-corrector advection in 1D/2D or with chemistry, diag_rw_ge_rc/diag_RH_ge_Sc/diag_precip_rate/in-cloud time in 0D and 1D.")
m("C88","partial",["LCP.PoolApi."+x for x in ["no_released_array_used_partial","usual_run_fine","derefs_no_ccn","derefs_moment_after_sync","derefs_after_unpack_throw"]],"Proved for the same histories as C87. Outside it is false, with witnesses: no droplets at init, then the first step_async with advection; a moment asked for after sync_in when the selection was made before it (selected_before_counting stays true); step_async after one that threw while unpacking from another process.")
m("C89","partial",["LCP.Skel."+x for x in ["diagnostics_do_not_interfere_partial","quiet_diagnostics_never_interfere","temperature_diagnostic_interferes","precipitation_diagnostic_interferes"]],"Proved for every history, all physics: for all diagnostics but pressure, temperature, humidity and precipitation rate without restriction; for those four when step_async runs before the next step_cond (or, for the first three, right after init or step_async). Elsewhere false, with witnesses. Assumes dry th or const_p (otherwise C83) and, without ice, that terminal velocities of all droplets are recomputed (no droplet of wet radius zero). Histories in which step_async throws halfway are excluded.")
m("C90","partial",["LCP.Skel."+x for x in ["report_is_spec","report_ignores_earlier_diagnostics","outbuf_twice_after_moment","sorted_after_init_and_steps","mass_density_depends_on_earlier_diagnostics","outbuf_twice_after_temperature_differs"]],"Proved for select-narrow-moment-read. False for mass density spectra and for a second reading after diagnostics that fill all cells, with witnesses.")
m("C91","partial",["LCP.Kernel."+x for x in ["tables_ok","efficiency_in_range","library_kernels_nonneg","pinsky_is_hall_beyond","davis_is_hall_beyond","vohl_is_davis_below","large_drops_miss_small_ones","gravitational_table_stray_entry","gravitational_equal_drops","cumulonimbus_table_dip"]],"Bounds and agreement of tables proved for all radii. Two clauses are false, with witnesses: equal drops of 8 micrometers have efficiency 0.042 in the gravitational table, and drops from 300 micrometers on never collect droplets below 14 micrometers (all tables but Vohl's).")
m("C92","partial",["LCP.MultiGpu.ring_ok","LCP.MultiGpu.exchange_no_race_partial","LCP.MultiGpu.exchange_delivers_partial","LCP.MultiGpu.exchange_no_deadlock","LCP.MultiGpu.exchange_terminates","LCP.MultiGpu.exchange_completes","LCP.MultiGpu.exchange_race_on_growth"],
  "absence of races and delivery proved for steps in which no device has to enlarge its buffers; deadlock freedom and termination always; with enlarging there is a race, because nothing orders a device's resize of its incoming buffers after its neighbour's first copy into them (exchange_race_on_growth)")
m("C93","proved",["LCP.Barrier.barrier_safe","LCP.Barrier.barrier_live","LCP.Barrier.barrier_one_call","LCP.Barrier.barrier_broken_after_2_32"],
  "proved for the first 2^32 generations; after that the barrier lets threads through at once because the generation is remembered in an unsigned int (barrier_broken_after_2_32). In the library each barrier lives for one step (five rounds), which is covered")
m("C94","partial",["LCP.MultiGpu.multi_puddle","LCP.MultiGpu.outbuf_by_reference","LCP.MultiGpu.fillHost_cells","LCP.MultiGpu.multi_outbuf_partial","LCP.MultiGpu.multi_outbuf_ignores_diagnostics","LCP.MultiGpu.multi_outbuf_wrong"],
  "diag_puddle and the offsets are right; outbuf is not: std::bind stores a copy of the host vector, the copy is filled, and the unfilled pooled vector is returned, so the result does not depend on the diagnostic (multi_outbuf_wrong)")
m("C95","partial",[IN+"search_sound",IN+"search_finds",IN+"search_unimodal",IN+"search_throws_iff",IN+"search_lognormal",IN+"search_never_ends"],"All but the last clause proved. Last clause refuted: if no radius has a particle per super-droplet, the loop does not end (search_never_ends; in floating point until the radius overflows and a NaN is converted to an integer).")
m("C96","proved",[IN+"const_multi_range",IN+"const_multi_outside",IN+"const_multi_number",IN+"const_multi_lognormal",IN+"integrate_error",IN+"radius_probability",IN+"integrate_short"],"The position of the maximum is what boost's brent_find_minima returns, arbitrary in the model; the claims are relative to it. Integration error for distributions with bounded slope, ranges of at least one bin (1e-4 in ln r).")
m("C97","partial",[IN+"tail_adjacent",IN+"tail_user_throws"],"Proved when the tail is accepted; with the range given by the user it never is (tail_user_throws), although the options pass the sanity check.")
m("C98","proved",["LCP.Common."+x for x in ["lognormal_moment","lognormal_number","lognormal_number_radius","lognormal_forms","lognormal_shape","lognormal_negative","hydrostatic_ref","hydrostatic_balance","hydrostatic_anti","sgs_lengths"]],"For stdev < 1 the log-normal functions are negative and nothing is reported (lognormal_negative); hydrostatic::p only up to the height where the pressure reaches zero.")
PY="LCP.Py."
m("C99","partial",[PY+x for x in ["array_cells_partial","array_cells_relaxed_partial","array_read_partial","array_faces_x","array_faces_y","array_faces_z","profile_cells","profile_in_bounds_iff","extents_unchecked","short_array_read_out_of_bounds","overflow_iff","parcel_2d_overflow","one_column_1d","single_column_2d_wrong","single_column_3d_wrong","skipped_and_refused","vertical_column","outbuf_len","profile_write_race"]],"Right entries proved for freshly laid out arrays (cells and faces) and for every C-contiguous array if there are two or more columns (and rows in 3D). Refuted otherwise: zeros((5,1)).T in a single-column set-up is read one level too low (single_column_2d_wrong, single_column_3d_wrong); extents are never checked, so short arrays are read past their end (profile_in_bounds_iff, extents_unchecked); arrays with too many dimensions corrupt memory before the check that would refuse them (overflow_iff); x Courant numbers are refused in 1D with one column (one_column_1d); th and rv given as profiles are overwritten by an arbitrary column (profile_write_race).")
m("C100","partial",[PY+x for x in ["call_ok","names_aligned","init_names_shifted","init_keywords_wrong","init_th_not_by_name","init_p_not_by_name","init_positional_partial","set_distros_replaces","set_sizes_replaces","set_profile_replaces","set_kernel_params_appends","kernel_params_twice","set_modes_2m_appends"]],"Proved for sync_in, step_sync, step_cond and the options but two. Refuted: init lacks the name of the pressure, so the names th, rv, rhod belong to rv, rhod, p (init_keywords_wrong); kernel_parameters and the modes of blk_2m are appended to instead of replaced.")
m("C101","partial",[BM+x for x in ["rk_terminates_partial","rk_infinite_loop","no_run_of_unbounded","rk_terminates_const_p","rk_total_const_p","rk_terminates_th_dry","rk_total_th_dry","rk_result"]],"For every thermodynamic closure the loop ends within 4(rv+rc+rr)/r_eps+4 passes if a condensation step never raises the saturation mixing ratio by more than 1.5 r_eps; this is discharged from conditions on the initial cell alone for the constant-pressure variant with at most 10 g/kg of water (rk_terminates_const_p) and for the default dry-potential-temperature variant, where the pressure changes too, with at most 8 g/kg of water (rk_terminates_th_dry). Without it the loop can run for ever (rk_infinite_loop: linear saturation curve as steep as near 313 K). Missing: warmer, moister air with the exact saturation curve, where neither termination nor an endless run is shown.")
m("C102","partial",[IN+x for x in ["wet_equilibrium","equilibrium_stationary","limited_grows","init_wet_which","supersaturated_bracket"]],"Existence, uniqueness and accuracy proved where the limited humidity is below one; opts_init.RH_max >= 1 with supersaturated air is not rejected and reverses the search interval (supersaturated_bracket).")
m("C103","partial",["LCP.Src."+x for x in ["water_added","water_not_conserved","water_other_cells","water_conserved_if_called_partial"]],"False: the calls that would take the water from the vapour are commented out; exactly the water of the new droplets appears (water_added, water_not_conserved). With the calls made the claim holds (water_conserved_if_called_partial, without ice).")
RU="LCP.Run."
m("C104","proved",[RU+"run_good",RU+"run_inside",RU+"run_count"],"shared-memory runs, condensation in any of its four ways (off, per-cell, per-particle with or without mixing, adaptive), no ice, no chemistry; positions: droplets do not overshoot a periodic wall to the left by more than ten domain lengths (C17) and, with recycling, the population clears (C09)")
m("C105","proved",[RU+"run_dry",RU+"run_number",RU+"run_water",RU+"run_total_water",RU+"run_dry_closed",RU+"how_ok",RU+"exRun_budgets"],"shared-memory runs, condensation in any of its four ways, no ice, no chemistry; water: without mixing and with adaptive substeps always, otherwise where the air masses of all the substeps agree (C58, C60 have the counterexamples)")
m("C106","partial",[RU+"step_completes_partial",RU+"run_continues_partial",RU+"near_moved",RU+"emptied_run_stuck",RU+"recycled_run_stuck"],"Proved for 2D and 3D shared-memory runs of any length in which coalescence is off while there are no super-droplets, the flow is calm and recycling, if on, can clear the dead; condensation in any of its four ways. False otherwise, with reachable witnesses: after the last droplet rained out the pair loop runs from begin to begin-1; with recycling, dead super-droplets stay below the ground and are converted to cell indices.")
m("C107","partial",[RU+x for x in ["drun_good","drun_dry","drun_number","drun_water","drun_inside_partial","drun_inside_of_displacements","exDRun"]],"budgets and well-formedness of whole runs on any number of subdomains, for every run that completes; missing: an exchange may fail although memory suffices (C29: buffers sized by outgoing counts, n_sd_max checked before removal), attributes of chemistry are not exchanged at all, droplets crossing more than one subdomain end up outside (all shown as counterexamples elsewhere); recycling in MPI runs and ice are not in the run model")
IC="LCP.Icicle."
m("C108","proved",[IC+"driver_safe",IC+"driver_terminates",IC+"driver_output",IC+"whole_driver",IC+"async_only_gpu"],"two-thread transition system (main program of hook_ante_loop/hook_post_step, background step_async completing at any moment, future valid/invalid/ready, destruction order); library = protocol model of C20; time step numbers as seen by hook_post_step start at 0 or 1 (libmpdata++ is not in the repository)")
m("C109","partial",[IC+"spinup_no_rain",IC+"after_spinup",IC+"no_spinup",IC+"rhMax_lost",IC+"spinup_opts_sub",IC+"relaxing_ok_partial",IC+"relaxing_after",IC+"setRain_false",IC+"setRain_true",IC+"relaxing_unset",IC+"relax_contracts",IC+"blk1m_spinup",IC+"blk2m_spinup",IC+"chem_switches_partial",IC+"chem_forced_on"],"proved for rain formation of all four schemes; false in the code: with a negative spin-up the relaxation goals are used uninitialised (relaxing_unset), the end of the spin-up switches aqueous reactions on although the user switched them off (chem_forced_on), and the supersaturation limit is set to 44 whatever it was (rhMax_lost)")
m("C110","partial",[IC+"nondivergent",IC+"periodic",IC+"walls",IC+"speed",IC+"lagrangian_domain",IC+"bottom_velocity",IC+"bottom_closed_partial",IC+"bottom_leak",IC+"rhod_anti",IC+"gcz_formula",IC+"downdraught",IC+"downdraught_leak",IC+"bottom_not_closed"],"everything proved except the last clause, which is false in the code: the momenta half a step below and above the bottom are divided by different densities, so in downdraughts the air carries super-droplets out of the domain (downdraught_leak, bottom_not_closed for the default setup); with equal densities it does not (bottom_closed_partial)")
m("C111","partial",[RU+"critical_current_partial",RU+"condensation_uses_critical_partial",RU+"critical_never_wrong",RU+"critical_after_coalescence",RU+"source_never_critical",RU+"blank_never_activates",RU+"source_witness",RU+"chemistry_witness",RU+"short_step_leaves_blank",RU+"short_step_witness"],"Proved for all runs without sources, relaxation and chemistry whose time steps leave activation substeps in use.  False otherwise: new super-droplets get a critical radius only after the next coalescence (never if coalescence is off) and are never given activation substeps until then; chemistry changes dry radii without invalidating; with opts.dt so short that sstp_cond_act becomes 1, collided droplets are left without one.  Without chemistry a stored value is never wrong, only missing.")
MP="LCP.Mpi."
m("C112","partial",[MP+"mpi_run_partial",MP+"mpi_budget_partial",MP+"run_ends",MP+"bulkRun_spec",MP+"exchange_repr",MP+"narrow",MP+"late_send"],"Proved for every schedule, any number of processes >= 2 and any number of steps without a halo (all advection schemes but pred_corr), and with a halo if subdomains are at least as wide as the halo and every step has advection. In the remaining cases the claim is false, because the requests of xchng_courants are never waited for (late_send) or send and receive buffers overlap (narrow)")
m("C113","partial",[MP+"mpi_courants_partial",MP+"inUse_window",MP+"haloed_field",MP+"bulkCour_eq",MP+"narrow",MP+"late_send"],"Proved for periodic domains (halos at links between processes: haloed_field also for open ends) if subdomains are at least as wide as the halo and every step has advection; otherwise false: narrow, late_send")
FL="LCP.Float."
m("C114","partial",[FL+"cell_single_exact",FL+"cell_single",FL+"cell_single_in_range",FL+"cell_single_recip_in_range",FL+"cell_in_range_partial",FL+"cell_double_out_of_range",FL+"quotient_gap"],
  "Proved in full for single precision (where the division is done in double). In double precision proved when nx*dx is exactly representable; otherwise false: 17 cells of 3.2, position 54.4 gets index 17 (cell_double_out_of_range).")
m("C115","partial",[FL+"periodic_from_zero",FL+"periodic_closed_partial",FL+"periodic_then_cell",FL+"periodic_error",FL+"fmod_mem",FL+"periodic_hits_upper_wall",FL+"periodic_moves_interior"],
  "With x0 = 0 the result is in [0,x1), in any precision. With x0 > 0 the upper wall itself can be returned (periodic_hits_upper_wall), and droplets inside the domain are moved by rounding errors of the added ten domain lengths, even across the domain (periodic_moves_interior).")
m("C116","partial",[FL+"guard_double_partial",FL+"shift_column",FL+"guard_single_at_top",FL+"guard_single_wrong_cell"],
  "Double precision: proved for droplets put back. Single precision: the correction of 1e-8 of a layer is always below the resolution, the droplet is left exactly at the top (guard_single_at_top) and if z1 = nz*dz in the wrong column (guard_single_wrong_cell).")
m("C117","partial",[FL+"curand_below_one_partial",FL+"curand_reaches_one",FL+"place_single_closed_partial",FL+"place_reaches_end"],
  "Closed cell proved in single precision; the upper end is reachable (place_reaches_end), and on GPUs the random number 1 is returned in single precision (curand_reaches_one).")
m("C118","partial",[FL+"land_in_domain",FL+"land_one_rounding",FL+"land_left",FL+"land_right",FL+"land_left_cell",FL+"land_outside"],
  "Proved for subdomains whose limits are below 2^(p-10) (16384 m in single precision), or 2^(p-12) if the domain does not start at zero. False for longer ones: above 16384 m the half-millimetre correction is itself rounded away, for every such subdomain (land_outside).")
m("C119","partial",[FL+"sub_interior",FL+"sub_last_partial",FL+"sub_last_exact_partial",FL+"sub_last_out_of_range"],
  "Proved for all devices but the last, and for the last one if nx*dx and n_bfr*dx are representable; in general the index is at most one too large (sub_last_partial), and it can be: seven columns of 0.7 on two devices (sub_last_out_of_range).")
m("C120","partial",[FL+"sstp_pos",FL+"sstp_short",FL+"sstp_at_most_one_more",FL+"sstp_same_dt_partial",FL+"sstp_same_dt_exact_partial",FL+"sstp_same_dt_pow_two",FL+"sstp_changed_by_default_dt"],
  "All proved except the last part: setting opts.dt to the default may add a substep (0.3 s, 7 substeps: sstp_changed_by_default_dt); proved that it adds none if the product is representable, and at most one otherwise.")
m("C121","partial",[FL+"moment_error",FL+"moment_order",FL+"moment_zero_iff",FL+"count_exact_partial",FL+"count_stagnates",FL+"count_order_dependent"],
  "Error bound, order bound and zero test proved in full (no underflow in the model). The number of droplets is exact and order independent up to 2^p droplets; beyond this it is not: count_stagnates, count_order_dependent.")
m("C122","partial",[IC+"documented_understood",IC+"accepted_documented_partial",IC+"missing_bar_accepted"],"every documented string is understood as meant; strings with as many '|' as ':' are accepted only if documented. False for the others: without '|' an integer second radius doubles as the moment number (find returns npos, kept as -1). lexical_cast is a parameter; white space is removed before the grammar (the skipper)")
B2="LCP.Blk2m."
m("C123","partial",[B2+"cloud_spectrum",B2+"rain_spectrum",B2+"tau_cloud",B2+"tau_rain_partial",B2+"rain_ventilation_scale",B2+"rain_ventilation_wrong"],"number, mass, mean radii and the relaxation time of cloud proved; for rain the relaxation time is the integral for the fall speed a D^b with the coefficients of the code, but these are for micrometres and cm/s and are used with metres: the fall speed of the mean drop in the ventilation is off by 10^(2-18 beta), ten thousand times too slow for half-millimetre drops (rain_ventilation_wrong)")
m("C124","proved",[B2+"n_c_p_counts",B2+"noBarrier_iff",B2+"activated_mono",B2+"activation_step"],"")
m("C125","proved",[BM+"autoconversion_law",BM+"collection_law",BM+"evaporation_law",BM+"vTerm_law",BM+"spectra",BM+"phase_thresholds",BM+"ice_speeds"],"")
m("C126","proved",[FL+"coal_drift",FL+"sub_drift",FL+"coal_absorption"],"coal_absorption: the loss is systematic, in single precision the aerosol of every further droplet collected by a drop can vanish entirely")
m("C127","proved",[FL+"kappa_range",FL+"trips_eq",FL+"kapLoop_exact"],"without contraction of products and sums")
m("C128","partial",["LCP.DiagApi.diagnostics_by_name","LCP.DiagApi.absent_refused","LCP.DiagApi.absent_unnoticed","LCP.DiagApi.stale_answer"],"proved for existing attributes and for absent ice and chemistry; false for absent turbulent velocities (read from an empty vector) and absent time in cloud (previous answer returned): absent_unnoticed, stale_answer")
m("C129","partial",["LCP.Bulk.cellwise","LCP.Bulk.forEach_defined_iff","LCP.Bulk.column_defined","LCP.Bulk.python_calls","LCP.Bulk.warm_field"],"different sizes are not refused: the loop is out of bounds exactly then (forEach_defined_iff, python_calls); the rest is proved")
m("C130","proved",[FL+"settle_drift",FL+"settle_stuck",FL+"haze_stuck"],"settle_stuck: the bound is reached, small droplets high up never move in single precision")
m("C131","proved",[FL+"water_drift",FL+"call_drift",FL+"vapour_stuck",FL+"water_from_nowhere"],"vapour_stuck: changes below half a unit in the last place of the vapour are lost for ever; no ice")
AR="LCP.Arrays."
m("C132","partial",[AR+"init_safe_iff",AR+"syncIn_safe",AR+"stepCond_safe_iff",AR+"stepAsync_safe_iff",AR+"addSd_safe",AR+"count_adjust",AR+"turbCoal_hole",AR+"turbCond_hole",AR+"noCcn_chem_hole",AR+"plane_hole",AR+"noX_hole",AR+"act_hole"],"Characterised exactly (iff) per call: safe unless one of six accepted option combinations, each with a witness. Courant number arrays and temporary pools are treated elsewhere (C45, C87, C88).")
m("C133","partial",[B2+x for x in ["collection_partial","spread_meaning","cloud_without_droplets","slow_collection","drizzle_number","collection_wrong","droplets_gone"]],"Drizzle part proved. Droplet loss proved exactly, with a factor greater than 1 where the claim has 1 (collection_wrong, droplets_gone are witnesses).")
m("C134","partial",[DM+x for x in ["recycled_exchange_grows","removed_exchange_count","recycled_exchange_budget","recycled_run_count","recycled_run_ends","recycled_run_fails"]],
  "Partial because the claim fails in the code: the number grows by everything received (recycled_exchange_grows, recycled_run_count) and the run ends (recycled_run_ends; for every n_sd_max a run with nothing but motion that fails: recycled_run_fails). What holds: totals are conserved by exchange plus recycling whatever the sorts (recycled_exchange_budget), and without recycling the number is what it should be (removed_exchange_count).")
m("C135","partial",[FL+x for x in ["rain_nearly_nonneg_partial","rain_nonneg_pow_two_partial","rain_rates_finite_partial","double_moment_recovers","rain_below_zero","negative_rain_is_nan","evaporation_then_nan"]],
  "Partial because the claim fails: rain_below_zero (every precision, order of magnitude, contraction), negative_rain_is_nan, evaporation_then_nan (two calls). What holds: relative bound on the deficit, exactness for power-of-two time steps, finite tendencies while rain is not negative, recovery of the double-moment scheme. The evaporation asked for enters as an arbitrary number (NaN for negative rain); overflow and underflow are not modelled.")
SE="LCP.Seed."
m("C136","partial",[SE+x for x in ["life_eq","same_start","same_rest","words_in_order","keys_are_radii_again","first_shuffle_by_offset","all_processes_alike","slabs_repeat"]],"Reproducibility proved for every generator and every adaptive sequence of requests of initialisation without normal numbers (there are none). The claim that numbers are new after initialisation, and differ between processes, is false in the code (negations proved for every generator: keys_are_radii_again, first_shuffle_by_offset, all_processes_alike, slabs_repeat). Host generator only; final rounding of uniform numbers not modelled; statistics of std::mt19937 not modelled.")
m("C137","proved",["LCP.Common."+x for x in ["tetens_pressure","tetens_mixing_ratio","tetens_drier","temperature_of_theta","pressure_of_gases"]],"Over liquid water; real arithmetic. tetens_drier: the differences are not negligible, air saturated by one option is 0.29 per cent dry by the other at 40 degrees.")
m("C138","partial",[FL+x for x in ["puddle_volume","puddle_grows","puddle_number","light_rain_lost","puddle_saturates","drizzle_lost"]],"Relative error and monotonicity proved for every run; numbers exact up to 2^p droplets. The last clause is false in the code: time steps adding less than half a unit in the last place are lost without limit (light_rain_lost), and a run in which no time step yields 2^j never shows more than 2^(j+p) (puddle_saturates, drizzle_lost: two to the 25 droplets in single precision). No overflow or underflow.")
m("C139","partial",["LCP.Distmem."+x for x in ["sends_fit","buffers_never_shrink","reals_fit","half_column_fits_partial","exchange_succeeds_partial","whole_column_does_not_fit"]],"What a subdomain sends always fits its own buffers.  Receiving is only guaranteed up to half of an evenly filled column: buffers are enlarged by the sender's own counts, so a neighbour's larger message does not fit (whole_column_does_not_fit, and buffer_too_small of C29).")
SB = "LCP.Substeps."
m("C140","partial",[SB+"coal_whole_step",SB+"chem_whole_step",SB+"adjust_pos",SB+"no_substeps",SB+"zero_is_default"],"Proved for numbers of substeps of at least one. Refuted for zero and negative ones, which no check rejects: nothing is computed (no_substeps). A time step of zero is taken as the default one (zero_is_default).")
NM = "LCP.Py.Names."
m("C141","partial",[NM+t for t in ["output_enum_iff","puddle_dict","bcnd_keys_named","species_named","species_complete","kernel_complete","kernel_named_partial","long_named_differently"]],"Proved but for one kernel: Long's kernel is \"long\" in Python and \"Long\" in kernel_name (long_named_differently).")
m("C142","partial",["LCP.Icicle.Choices."+t for t in ["documented_runs_partial","undocumented_never_runs","onishi_never_runs","onishi_needs_switch","unknown_scheme_runs"]],"False in two ways: Onishi's two kernels, both in the help text, always throw (the driver gives two parameters, the library takes one, and turbulent coalescence, which they need, is never switched on): onishi_never_runs, onishi_needs_switch; without assertions an unknown advection scheme runs as the implicit one: unknown_scheme_runs. Proved: all other documented combinations run as named, and unknown kernels and fall speeds never run.")
m("C143","partial",["LCP.NanCheck."+t for t in ["nancheck_iff","debug_returns_iff","release_never_stops","other_droplets_checked","count_is_one","last_droplet_unchecked"]],"False in two details: the number of invalid values printed is always 1 (they are added as booleans): count_is_one; after collisions the last super-droplet's chemicals are left out: last_droplet_unchecked. Everything else is proved.")
m("C144","partial",["LCP.Launch."+t for t in ["made_is_requested","missing_throws","several_refused_partial","single_made","mpi_edges","crashes_unpaired","other_launcher_unnoticed"]],"Several processes are noticed only if one of four launchers started them: with another launcher every process takes itself for the only one (other_launcher_unnoticed); a rank variable without its size variable is undefined behaviour, atoi(NULL) (crashes_unpaired). The rest is proved.")
#--MORE--
if __name__=="__main__":
    with open("/verif/MANIFEST.json","w") as f: json.dump(dict(claims=M),f,indent=1)
    print(len(M))
