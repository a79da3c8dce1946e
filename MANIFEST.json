{
 "claims": [
  {
   "property": "C01",
   "status": "proved",
   "theorems": [
    "LCP.Coal.coal_conserves_dry_volume"
   ],
   "note": ""
  },
  {
   "property": "C02",
   "status": "proved",
   "theorems": [
    "LCP.Coal.coal_conserves_liquid_volume"
   ],
   "note": ""
  },
  {
   "property": "C03",
   "status": "proved",
   "theorems": [
    "LCP.Coal.coal_multiplicity_never_wraps",
    "LCP.Coal.coal_droplet_number_nonincreasing",
    "LCP.Coal.coal_fitsU64"
   ],
   "note": ""
  },
  {
   "property": "C04",
   "status": "proved",
   "theorems": [
    "LCP.Coal.coal_schedule_independent",
    "LCP.Coal.coal_is_local"
   ],
   "note": ""
  },
  {
   "property": "C05",
   "status": "proved",
   "theorems": [
    "LCP.Coal.coal_conserves_chem",
    "LCP.Coal.coal_conserves_kappa_volume"
   ],
   "note": ""
  },
  {
   "property": "C06",
   "status": "proved",
   "theorems": [
    "LCP.Coal.candidate_pair_count",
    "LCP.Coal.scaled_pairs_represent_all_pairs"
   ],
   "note": ""
  },
  {
   "property": "C07",
   "status": "proved",
   "theorems": [
    "LCP.Coal.coal_invalidates_cache",
    "LCP.Coal.coal_no_stale_vt"
   ],
   "note": ""
  },
  {
   "property": "C08",
   "status": "proved",
   "theorems": [
    "LCP.Rcyc.rcyc_conserves",
    "LCP.Rcyc.rcyc_count",
    "LCP.Rcyc.rcyc_clones"
   ],
   "note": ""
  },
  {
   "property": "C09",
   "status": "partial",
   "theorems": [
    "LCP.Rcyc.rcyc_no_zeros_partial",
    "LCP.Rcyc.rcyc_zeros_survive"
   ],
   "note": "The full claim is false: when more than half of the super-droplets are dead, none has multiplicity 1 and the run is not purely constant-multiplicity, dead ones survive (rcyc_zeros_survive)."
  },
  {
   "property": "C10",
   "status": "proved",
   "theorems": [
    "LCP.Remove.remove_keeps_exactly_live",
    "LCP.Remove.remove_fits"
   ],
   "note": ""
  },
  {
   "property": "C11",
   "status": "proved",
   "theorems": [
    "LCP.Grid.ravel_unravel",
    "LCP.Grid.unravel_ravel",
    "LCP.Grid.ravel_injective"
   ],
   "note": ""
  },
  {
   "property": "C12",
   "status": "proved",
   "theorems": [
    "LCP.Grid.position_determines_cell"
   ],
   "note": ""
  },
  {
   "property": "C13",
   "status": "proved",
   "theorems": [
    "LCP.Diag.sort_ok",
    "LCP.Diag.shuffle_ok",
    "LCP.Diag.count_ok",
    "LCP.Diag.count_le_nCell"
   ],
   "note": ""
  },
  {
   "property": "C14",
   "status": "proved",
   "theorems": [
    "LCP.Diag.radius_moment",
    "LCP.Diag.attribute_moment",
    "LCP.Diag.sd_conc"
   ],
   "note": ""
  },
  {
   "property": "C15",
   "status": "proved",
   "theorems": [
    "LCP.Diag.selections_ok",
    "LCP.Diag.cons_without_selection",
    "LCP.Diag.dryRng_wants",
    "LCP.Diag.wetRng_wants",
    "LCP.Diag.abutting_ranges"
   ],
   "note": ""
  },
  {
   "property": "C16",
   "status": "partial",
   "theorems": [
    "LCP.Diag.outbuf_twice_partial",
    "LCP.Diag.outbuf_field_partial",
    "LCP.Diag.outbuf_field_twice_wrong"
   ],
   "note": "True for moments and counts; false for fields (pressure, temperature, RH, ...) when some cell is empty: outbuf() re-counts and overwrites count_ijk, so the second read is scrambled (outbuf_field_twice_wrong)."
  },
  {
   "property": "C30",
   "status": "partial",
   "theorems": [
    "LCP.Grid.dv_is_intersection_volume_partial",
    "LCP.Grid.dv_sum_partial",
    "LCP.Grid.dv_full_domain",
    "LCP.Grid.dv_outside_positive",
    "LCP.Grid.dv_sum_wrong"
   ],
   "note": "True for cells meeting the domain in every direction with extents inside the grid; cells outside the domain get a wrong (possibly positive) volume, so the sum claim fails in general."
  },
  {
   "property": "C31",
   "status": "partial",
   "theorems": [
    "LCP.Grid.faces_3d",
    "LCP.Grid.faces_2d",
    "LCP.Grid.faces_3d_shared",
    "LCP.Grid.faces_2d_shared",
    "LCP.Grid.left_face_1d_partial",
    "LCP.Grid.right_face_1d_wrong",
    "LCP.Grid.halo_columns"
   ],
   "note": "Proved in 2D and 3D; in 1D the right face index equals the left face index (the code adds nz = 0), right_face_1d_wrong."
  },
  {
   "property": "C43",
   "status": "partial",
   "theorems": [
    "LCP.Diag.mass_dens_partial",
    "LCP.Diag.mass_dens_wrong"
   ],
   "note": "True when the non-empty cells are an initial segment of the grid; false otherwise, because count_num (compact) is indexed by cell number."
  },
  {
   "property": "C17",
   "status": "partial",
   "theorems": [
    "LCP.Bcnd.periodic_inside",
    "LCP.Bcnd.periodic_partial",
    "LCP.Bcnd.periodic_whole",
    "LCP.Bcnd.periodic_wrong",
    "LCP.Bcnd.bcnd_periodic_side",
    "LCP.Bcnd.bcnd_periodic_topbot"
   ],
   "note": "True for positions up to ten domain lengths to the left and any distance to the right; false further left, periodic_wrong."
  },
  {
   "property": "C18",
   "status": "proved",
   "theorems": [
    "LCP.Bcnd.bcnd_removes_leavers",
    "LCP.Bcnd.bcnd_open_positions",
    "LCP.Bcnd.bcnd_survivors_inside"
   ],
   "note": ""
  },
  {
   "property": "C19",
   "status": "proved",
   "theorems": [
    "LCP.Bcnd.puddle_budget",
    "LCP.Bcnd.puddle_gain",
    "LCP.Bcnd.puddle_monotone",
    "LCP.Bcnd.puddle_monotone_history"
   ],
   "note": ""
  },
  {
   "property": "C20",
   "status": "partial",
   "theorems": [
    "LCP.Step.protocol_order",
    "LCP.Step.wrong_order_refused",
    "LCP.Step.no_deadlock",
    "LCP.Step.sync_after_failed_init",
    "LCP.Step.async_throw_consumes",
    "LCP.Step.async_half_done"
   ],
   "note": "Order enforced for successful calls; false after failures: a failed init opens sync_in, and a step_async that throws on an option mismatch consumes the pending step (sync_after_failed_init, async_throw_consumes, async_half_done)."
  },
  {
   "property": "C21",
   "status": "proved",
   "theorems": [
    "LCP.Step.adjustOne_ok",
    "LCP.Step.adjust_ok"
   ],
   "note": ""
  },
  {
   "property": "C22",
   "status": "partial",
   "theorems": [
    "LCP.Step.sstp_coal_forgotten",
    "LCP.Step.sstp_coal_witness",
    "LCP.Step.sstp_coal_partial"
   ],
   "note": "The full claim is false: the adapted number of coalescence substeps is overwritten at the next step."
  },
  {
   "property": "C23",
   "status": "proved",
   "theorems": [
    "LCP.Pool.guards_disjoint",
    "LCP.Pool.all_free",
    "LCP.Pool.acquire_iff"
   ],
   "note": ""
  },
  {
   "property": "C24",
   "status": "partial",
   "theorems": [
    "LCP.Pool.adve_pool_partial",
    "LCP.Pool.adve_pool_exhausted"
   ],
   "note": "False for the predictor-corrector scheme in 1D/2D without options enlarging the pool (adve_pool_exhausted)."
  },
  {
   "property": "C36",
   "status": "proved",
   "theorems": [
    "LCP.Step.source_cadence",
    "LCP.Step.source_off",
    "LCP.Step.source_once"
   ],
   "note": ""
  },
  {
   "property": "C44",
   "status": "partial",
   "theorems": [
    "LCP.Pool.diag_pool_partial",
    "LCP.Pool.diag_pool_exhausted"
   ],
   "note": "False for pools of one vector (parcel or 1D, default options)."
  },
  {
   "property": "C25",
   "status": "partial",
   "theorems": [
    "LCP.E2L.scalar_map",
    "LCP.E2L.sync_in_partial",
    "LCP.E2L.sync_out_partial",
    "LCP.E2L.sync_roundtrip_partial",
    "LCP.E2L.devices_disjoint",
    "LCP.E2L.courant_x_map",
    "LCP.E2L.courant_y_map",
    "LCP.E2L.courant_z_map",
    "LCP.E2L.profile_broadcast",
    "LCP.E2L.single_column_wrong"
   ],
   "note": "Holds for every padded array with x or y strictly slowest; false for y-slowest dense arrays over a single column in x (equal strides), single_column_wrong."
  },
  {
   "property": "C26",
   "status": "partial",
   "theorems": [
    "LCP.E2L.halo_y_partial",
    "LCP.E2L.halo_z_partial",
    "LCP.E2L.halo_x_actual",
    "LCP.E2L.halo_x_wrong",
    "LCP.E2L.mpi_halo_partial",
    "LCP.E2L.profile_halo_out_of_bounds"
   ],
   "note": "y and z Courant numbers and the MPI exchange (all components) give the periodic extension; the x halo filled locally wraps with period nx+1 faces (halo_x_wrong)."
  },
  {
   "property": "C27",
   "status": "proved",
   "theorems": [
    "LCP.Distmem.partition_contiguous",
    "LCP.Distmem.partition_exact",
    "LCP.Distmem.partition_nonempty",
    "LCP.Distmem.partition_sum",
    "LCP.Distmem.domain_start_beyond_first_part"
   ],
   "note": "Columns form an exact partition. Remark: the Lagrangian domain of a part ignores x0 when x0 lies beyond the first part (domain_start_beyond_first_part)."
  },
  {
   "property": "C28",
   "status": "proved",
   "theorems": [
    "LCP.Distmem.source_tiles",
    "LCP.Distmem.source_inside"
   ],
   "note": ""
  },
  {
   "property": "C29",
   "status": "partial",
   "theorems": [
    "LCP.Distmem.exchange_identity_partial",
    "LCP.Distmem.exchange_budget_partial",
    "LCP.Distmem.exchange_inside_partial",
    "LCP.Distmem.buffer_too_small",
    "LCP.Distmem.check_before_removal"
   ],
   "note": "Every successful exchange keeps all live super-droplets with translated positions; but the exchange can fail: receive buffers are sized by the receiver's own outgoing counts (buffer_too_small) and n_sd_max is checked before removal of the sent ones (check_before_removal). Chemical masses are not exchanged under MPI."
  },
  {
   "property": "C32",
   "status": "partial",
   "theorems": [
    "LCP.Adve.euler_step",
    "LCP.Adve.implicit_step",
    "LCP.Adve.predCorr_step",
    "LCP.Adve.uniform_shift",
    "LCP.Adve.uniform_shift_predCorr",
    "LCP.Adve.expl_no_crossing",
    "LCP.Adve.impl_no_crossing_own_partial",
    "LCP.Adve.impl_no_crossing_partial",
    "LCP.Adve.impl_crosses",
    "LCP.Adve.adve_1d_wrong",
    "LCP.Adve.adve_1d_crosses"
   ],
   "note": "Displacements and uniform flow proved in 2D/3D for all schemes; no-crossing proved for the explicit scheme, for the implicit one at the cell's own faces or |C|<=1/3. False: implicit scheme across a neighbouring closed face (impl_crosses), and in 1D, where the right face is ignored (adve_1d_wrong, adve_1d_crosses)."
  },
  {
   "property": "C45",
   "status": "partial",
   "theorems": [
    "LCP.Adve.adve_reads_stored",
    "LCP.Adve.faces_in_bounds",
    "LCP.Adve.fallback",
    "LCP.Adve.adve_step_stored_partial",
    "LCP.Adve.stale_courants"
   ],
   "note": "Proved for every step whose sync_in is given Courant numbers, after any history. False when a later sync_in is called without them: the fallback to euler is skipped and memory behind the array is read (stale_courants)."
  },
  {
   "property": "C56",
   "status": "proved",
   "theorems": [
    "LCP.Adve.transport_spec",
    "LCP.Adve.transport_predCorr",
    "LCP.Adve.faster_falls_lower",
    "LCP.Adve.kAfter_level"
   ],
   "note": ""
  },
  {
   "property": "C33",
   "status": "partial",
   "theorems": [
    "LCP.Init.initial_position_partial",
    "LCP.Init.outside_domain"
   ],
   "note": "Proved for cells overlapping the Lagrangian domain; super-droplets are also created in cells outside it, possibly with positive multiplicity, and get positions in neither the cell nor the domain (outside_domain)."
  },
  {
   "property": "C34",
   "status": "proved",
   "theorems": [
    "LCP.Init.cells_assigned",
    "LCP.Init.stratified",
    "LCP.Init.radii_distinct"
   ],
   "note": ""
  },
  {
   "property": "C35",
   "status": "partial",
   "theorems": [
    "LCP.Init.multiplier_exact_partial",
    "LCP.Init.single_distro_partial",
    "LCP.Init.multiplier_le_partial",
    "LCP.Init.count_total_partial",
    "LCP.Init.multiplier_wrong",
    "LCP.Init.multiplier_div_zero"
   ],
   "note": "Exact for a single distribution; in general false: the count is truncated while the divisor is rounded, the quotient sd_conc/divisor is an integer division (multiplier_wrong), and it may divide by zero (multiplier_div_zero)."
  },
  {
   "property": "C46",
   "status": "proved",
   "theorems": [
    "LCP.Init.number_single",
    "LCP.Init.number_sizes"
   ],
   "note": ""
  },
  {
   "property": "C37",
   "status": "partial",
   "theorems": [
    "LCP.Rlx.relax_target_partial",
    "LCP.Rlx.relax_partial",
    "LCP.Rlx.relax_cells",
    "LCP.Rlx.horSum_eq",
    "LCP.Rlx.overshoot",
    "LCP.Rlx.kappa_outside"
   ],
   "note": "Proved for any list of distributions with separate kappa ranges and an integer rlx_sd_per_bin; false for fractional rlx_sd_per_bin (overshoot: 2.5x) and for kappa outside its own range (kappa_outside)."
  },
  {
   "property": "C47",
   "status": "proved",
   "theorems": [
    "LCP.Common.Tdry_spec",
    "LCP.Common.std_dry_inverse",
    "LCP.Common.p_v_pDry",
    "LCP.Common.std_dry_same_state",
    "LCP.Common.hess",
    "LCP.Common.d_th_hess",
    "LCP.Common.clausius_clapeyron",
    "LCP.Common.clausius_clapeyron_ice",
    "LCP.Common.triple_point",
    "LCP.Common.p_vsi_lt_p_vs",
    "LCP.Common.saturated_iff",
    "LCP.Common.r_vs_pos",
    "LCP.Common.r_vsi_lt_r_vs"
   ],
   "note": ""
  },
  {
   "property": "C48",
   "status": "partial",
   "theorems": [
    "LCP.Common.rw3_eq_bracket",
    "LCP.Common.rw3_eq_exists",
    "LCP.Common.rw3_eq_unique",
    "LCP.Common.koehler_deriv",
    "LCP.Common.rw3_cr_is_max",
    "LCP.Common.rw3_cr_bracket",
    "LCP.Common.rw3_cr_exists",
    "LCP.Common.rw3_cr_bracket_fails",
    "LCP.Common.kelvin_law",
    "LCP.Common.kelvin_effect",
    "LCP.Toms.rw3_eq_accuracy",
    "LCP.Toms.rw3_eq_range",
    "LCP.Toms.rw3_cr_accuracy"
   ],
   "note": "Equilibrium radius: proved (uniqueness for kappa <= 30). Critical radius: the bracket is valid exactly under the stated inequality and invalid for very large dry radii (rw3_cr_bracket_fails)."
  },
  {
   "property": "C38",
   "status": "partial",
   "theorems": [
    "LCP.Blk1m.nwt_conserves",
    "LCP.Blk1m.nwt_outcome",
    "LCP.Blk1m.nwt_saturated",
    "LCP.Blk1m.rk_conserves",
    "LCP.Blk1m.rk_result",
    "LCP.Blk1m.rk_off",
    "LCP.Blk1m.adj_conserves",
    "LCP.Blk1m.rk_negative_vapour",
    "LCP.Blk1m.rk_rain_untouched",
    "LCP.Blk1m.rk_rain_evaporates",
    "LCP.Blk1m.nwt_one",
    "LCP.Blk1m.nwt_converged",
    "LCP.Blk1m.rk4_exact"
   ],
   "note": "Conservation, sign and outcome proved for both adjustments; the RK4 variant needs a non-negative saturation mixing ratio (p > p_vs), otherwise vapour becomes negative (rk_negative_vapour). Termination of the RK4 loop: C101."
  },
  {
   "property": "C39",
   "status": "proved",
   "theorems": [
    "LCP.Blk1m.column_budget",
    "LCP.Blk1m.column_flux_down",
    "LCP.Blk1m.column_off",
    "LCP.Blk1m.column_total",
    "LCP.Blk1m.column_nonneg",
    "LCP.Blk1m.columnRain_flux",
    "LCP.Blk1m.column_budget_species",
    "LCP.Blk2m.column_budget",
    "LCP.Blk2m.colLoop_budget",
    "LCP.Blk2m.column_nonneg_all",
    "LCP.Blk2m.column_off",
    "LCP.Blk2m.column_total",
    "LCP.Blk2m.column_flux"
   ],
   "note": "blk_1m and blk_2m columns."
  },
  {
   "property": "C40",
   "status": "partial",
   "theorems": [
    "LCP.Blk1m.warm_conserves",
    "LCP.Blk1m.revap_conserves",
    "LCP.Blk1m.ice_conserves",
    "LCP.Blk1m.ice_throws_iff",
    "LCP.Blk1m.ice_all_off",
    "LCP.Blk1m.onCells_iff",
    "LCP.Blk1m.Tp_isSome",
    "LCP.Blk1m.revp_ignored",
    "LCP.Blk1m.revp_ignored_effect",
    "LCP.Blk1m.warm_rates",
    "LCP.Blk1m.warm_off"
   ],
   "note": "Conservation proved; the option revp does not disable rain evaporation (revp_ignored)."
  },
  {
   "property": "C41",
   "status": "partial",
   "theorems": [
    "LCP.Blk1m.warm_nonneg_partial",
    "LCP.Blk1m.revap_nonneg_partial",
    "LCP.Blk1m.ice_nonneg_partial",
    "LCP.Blk1m.rates_nonneg",
    "LCP.Blk1m.warm_negative",
    "LCP.Blk1m.ice_negative_cloud",
    "LCP.Blk1m.sublimation_negative",
    "LCP.Blk1m.hetA_limits"
   ],
   "note": "Non-negativity holds under explicit time-step limits; false in general (three witnesses)."
  },
  {
   "property": "C49",
   "status": "proved",
   "theorems": [
    "LCP.Toms.solve_bracket",
    "LCP.Toms.solve_accuracy",
    "LCP.Toms.solveDbl_accuracy",
    "LCP.Toms.solveFlt_accuracy",
    "LCP.Toms.solve_endpoint"
   ],
   "note": ""
  },
  {
   "property": "C50",
   "status": "partial",
   "theorems": [
    "LCP.Blk1m.koenig_in_bounds_iff",
    "LCP.Blk1m.koenig_oob_weight",
    "LCP.Blk1m.koenig_range",
    "LCP.Blk1m.coeffAlpha_nonneg",
    "LCP.Blk1m.coeffBeta_range",
    "LCP.Blk1m.koenig_interpolates",
    "LCP.Blk1m.koenig_limits",
    "LCP.Blk1m.koenig_table"
   ],
   "note": "False for T <= 242.16 K (koenig_in_bounds_iff): one entry past the end is read; its interpolation weight is zero in exact arithmetic."
  },
  {
   "property": "C42",
   "status": "partial",
   "theorems": [
    "LCP.Sanity.accepted_iff",
    "LCP.Sanity.accepted_documented_partial",
    "LCP.Sanity.accepted_grid",
    "LCP.Sanity.init_once",
    "LCP.Sanity.good_accepted",
    "LCP.Sanity.mixLen_unchecked",
    "LCP.Sanity.both_concs_accepted",
    "LCP.Sanity.x1_unchecked",
    "LCP.Sanity.sedi_1d_accepted"
   ],
   "note": "accepted_iff characterises acceptance completely; false parts: only the first entry of SGS_mix_len is checked (std::min on iterators), x1 not checked, product of sd_conc and sd_const_multi wraps, layouts not enforced."
  },
  {
   "property": "C51",
   "status": "partial",
   "theorems": [
    "LCP.Blk2m.cell_water",
    "LCP.Blk2m.cell_water_partial",
    "LCP.Blk2m.cell_latent",
    "LCP.Blk2m.cell_throws_iff",
    "LCP.Blk2m.cond_evap_sign",
    "LCP.Blk2m.water_created",
    "LCP.Blk2m.rain_only_evaporates",
    "LCP.Blk2m.all_off",
    "LCP.Blk2m.cond_off"
   ],
   "note": "Latent heat proved. Water: exact budget proved (cell_water); conservation itself is false when accretion is limited (water_created)."
  },
  {
   "property": "C52",
   "status": "partial",
   "theorems": [
    "LCP.Blk2m.cell_nonneg",
    "LCP.Blk2m.cell_rc_partial",
    "LCP.Blk2m.column_nonneg_all",
    "LCP.Blk2m.rc_negative"
   ],
   "note": "Rain water and both numbers proved; cloud water can become negative (rc_negative) but not below minus its value."
  },
  {
   "property": "C53",
   "status": "proved",
   "theorems": [
    "LCP.Blk2m.v_term_m_mean",
    "LCP.Blk2m.v_term_n_mean",
    "LCP.Blk2m.spectrum_mass",
    "LCP.Blk2m.v_term_range",
    "LCP.Blk2m.reference_density"
   ],
   "note": ""
  },
  {
   "property": "C54",
   "status": "proved",
   "theorems": [
    "LCP.Coal.pair_result",
    "LCP.Coal.collisions_mean",
    "LCP.Coal.colNo0_close",
    "LCP.Coal.increase_iff"
   ],
   "note": ""
  },
  {
   "property": "C55",
   "status": "proved",
   "theorems": [
    "LCP.Step.syncIn_iff",
    "LCP.Step.stepCond_iff",
    "LCP.Step.stepAsync_iff"
   ],
   "note": ""
  },
  {
   "property": "C57",
   "status": "partial",
   "theorems": [
    "LCP.Vterm.reversed_rate",
    "LCP.Vterm.reversed_growth",
    "LCP.Vterm.exMarked_shrinks",
    "LCP.Cond.advanceG_bounds",
    "LCP.Cond.advance_direction_partial",
    "LCP.Cond.advanceG_strict",
    "LCP.Cond.advance_grows_partial",
    "LCP.Cond.equilibrium",
    "LCP.Cond.many_steps",
    "LCP.Cond.drw2dt_sign",
    "LCP.Cond.drw2dt_vent",
    "LCP.Cond.dry_grows",
    "LCP.Cond.drw2dt_law",
    "LCP.Cond.maxwell_mason",
    "LCP.Cond.maxwell_mason_ice",
    "LCP.Cond.advanceG_accuracy",
    "LCP.Cond.advance_accuracy",
    "LCP.Cond.advanceD_eq",
    "LCP.Cond.advance_ice",
    "LCP.Cond.advanceIce_props",
    "LCP.Cond.beta_range",
    "LCP.Cond.beta_anti",
    "LCP.Cond.Nu_mono",
    "LCP.Cond.numDbl_ok"
   ],
   "note": "Direction of growth is proved for droplets with a non-negative stored velocity. Refuted otherwise: a droplet larger than about 25 um that collected another one in the last sub-step of the previous step has stored velocity -1 and shrinks in supersaturated air (reversed_growth). Bounds and dry-core limit hold in both cases. Real arithmetic; temperatures up to 1000 K; the debug-build NaN checks are not modelled."
  },
  {
   "property": "C58",
   "status": "partial",
   "theorems": [
    "LCP.Cond.percell_water",
    "LCP.Cond.percell_conserved_partial",
    "LCP.Cond.percell_not_conserved",
    "LCP.Cond.percell_empty",
    "LCP.Cond.percell_radii",
    "LCP.Cond.percell_substep",
    "LCP.Cond.percell_heat_ice",
    "LCP.Cond.percell_saved"
   ],
   "note": "Everything proved except that the water budget is exact only with the condensate before the step converted at the first substep's density: with substeps and a changed density field total water changes (percell_not_conserved); conservation proved otherwise (percell_conserved_partial)."
  },
  {
   "property": "C59",
   "status": "proved",
   "theorems": [
    "LCP.Cond.humidity_cc",
    "LCP.Cond.humidity_density",
    "LCP.Cond.humidity_ice",
    "LCP.Cond.humidity_mono",
    "LCP.Cond.visc_pos",
    "LCP.Cond.lambda_pos",
    "LCP.Cond.percell_direction"
   ],
   "note": ""
  },
  {
   "property": "C60",
   "status": "proved",
   "theorems": [
    "LCP.Cond.perpart_nomix_water",
    "LCP.Cond.perpart_nomix_independent",
    "LCP.Cond.perpart_substep",
    "LCP.Cond.perpart_mix_water",
    "LCP.Cond.perpart_mix_order",
    "LCP.Cond.perpart_mix_conserved_partial",
    "LCP.Cond.perpart_mix_not_conserved",
    "LCP.Cond.perpart_radii",
    "LCP.Cond.perpart_saved"
   ],
   "note": "Everything in the statement is proved. Beyond it, exact conservation of total water, which a user would expect also with mixing, holds only where the super-droplets' previous density equals the cell's (perpart_mix_conserved_partial); otherwise it is false (perpart_mix_not_conserved). Also: the latent heat without mixing is taken at the temperature of the previous step."
  },
  {
   "property": "C61",
   "status": "partial",
   "theorems": [
    "LCP.Cond.adaptive_history",
    "LCP.Cond.Chosen.unique",
    "LCP.Cond.History.unique",
    "LCP.Cond.adaptive_as_max",
    "LCP.Cond.adaptive_as_act",
    "LCP.Cond.adaptive_as_one",
    "LCP.Cond.adaptive_ambient_partial",
    "LCP.Cond.adaptive_overshoot",
    "LCP.Cond.overshoot_reachable",
    "LCP.Cond.adaptive_water",
    "LCP.Cond.adaptive_radii",
    "LCP.Cond.adaptive_saved"
   ],
   "note": "Proved, except that 'exactly the ambient change of the step is applied' holds only for droplets that do not both meet the tolerance and cross their critical radius (adaptive_ambient_partial); for those 1+1/2^j times the change is applied (adaptive_overshoot, reachable for every growing droplet: overshoot_reachable)."
  },
  {
   "property": "C62",
   "status": "proved",
   "theorems": [
    "LCP.Ice.nucl_melt",
    "LCP.Ice.percell_phase",
    "LCP.Ice.phases_always",
    "LCP.Ice.frozen_ok",
    "LCP.Ice.melt_frozen",
    "LCP.Ice.melt_below_dry",
    "LCP.Ice.sublimation_floor"
   ],
   "note": "Outcome of every super-droplet, mass, heat and the phase invariant over any history (Step: freezing/melting, per-cell condensation/deposition - the only scheme accepted with ice - and anything that keeps sizes and phases). Finding: an ice particle that sublimated below its dry size melts to a droplet smaller than its dry particle (melt_below_dry, sublimation_floor)."
  },
  {
   "property": "C63",
   "status": "partial",
   "theorems": [
    "LCP.Ice.Tfreeze_ge_iff",
    "LCP.Ice.Tfreeze_law",
    "LCP.Ice.Tfreeze_none",
    "LCP.Ice.activeBy_mono",
    "LCP.Ice.pFreeze_eq",
    "LCP.Ice.pFreeze_mem",
    "LCP.Ice.pFreeze_split",
    "LCP.Ice.pFreeze_split_list",
    "LCP.Ice.pFreeze_mono_dt",
    "LCP.Ice.pFreeze_mono_insol",
    "LCP.Ice.pFreeze_law",
    "LCP.Ice.Jhet_cold",
    "LCP.Ice.initTfreeze_first_partial",
    "LCP.Ice.initTfreeze_old",
    "LCP.Ice.initTfreeze_stale",
    "LCP.Ice.initTfreeze_equal"
   ],
   "note": "The laws are proved; that every new super-droplet uses its own random number holds for the first distribution only (initTfreeze_first_partial): later the random numbers are written to the start of the temporary array but read from behind the existing super-droplets (initTfreeze_stale: the temperatures do not depend on the numbers drawn)."
  },
  {
   "property": "C64",
   "status": "partial",
   "theorems": [
    "LCP.Turb.turb_moments",
    "LCP.Turb.turb_stationary",
    "LCP.Turb.turb_relaxes",
    "LCP.Turb.turb_limit",
    "LCP.Turb.turb_step_length",
    "LCP.Turb.tke_law",
    "LCP.Turb.tau_law",
    "LCP.Turb.calm",
    "LCP.Turb.turb_step",
    "LCP.Turb.ss_relax",
    "LCP.Turb.ss_relax_partial",
    "LCP.Turb.ss_diverges"
   ],
   "note": "Velocities: all proved. Supersaturation: the tendency is explicit, hence its equilibrium is approached only if the time step is shorter than twice the relaxation time (ss_relax_partial); with a longer one the perturbation is driven away (ss_diverges)."
  },
  {
   "property": "C65",
   "status": "proved",
   "theorems": [
    "LCP.Chem.henry_equilibrium",
    "LCP.Chem.henry_between",
    "LCP.Chem.henryFun_nonneg",
    "LCP.Chem.henry_steps",
    "LCP.Chem.henry_rate",
    "LCP.Chem.inEquilibrium_iff"
   ],
   "note": "Surroundings of one droplet held fixed; the exchange with the cell is C66."
  },
  {
   "property": "C66",
   "status": "partial",
   "theorems": [
    "LCP.Chem.henry_budget",
    "LCP.Chem.henry_conserved_partial",
    "LCP.Chem.henry_creates"
   ],
   "note": "Exact budget proved for all states. Conservation fails if the droplets of a cell could take up more than the gas there is within the step (mixing ratio set to zero, excess created): henry_creates gives a state; henry_conserved_partial proves conservation if dt * sum(n k V) <= cell volume."
  },
  {
   "property": "C67",
   "status": "partial",
   "theorems": [
    "LCP.Chem.neutral_unique",
    "LCP.Chem.dissociated_iff",
    "LCP.Chem.dissoc_range",
    "LCP.Chem.dissoc_neutral",
    "LCP.Chem.flag_iff",
    "LCP.Chem.flag_pos",
    "LCP.Chem.dissoc_alkaline",
    "LCP.Chem.ammonia_droplet"
   ],
   "note": "Neutrality up to the tolerance of the root finder (double precision, relative 2^-22 or 10/2^25 mol/l) if the neutral pH is between -1 and 8. False for alkaline droplets: they are given at least 5 mol/l of H+ and are excluded from chemistry from then on (dissoc_alkaline, ammonia_droplet)."
  },
  {
   "property": "C68",
   "status": "proved",
   "theorems": [
    "LCP.Chem.react_rates",
    "LCP.Chem.rates_bounds",
    "LCP.Chem.react_stoichiometry",
    "LCP.Chem.react_dry",
    "LCP.Chem.react_nonneg",
    "LCP.Chem.react_proceeds",
    "LCP.Chem.cleanup_id"
   ],
   "note": "boost::numeric::odeint::runge_kutta4 is modelled as the classical scheme."
  },
  {
   "property": "C69",
   "status": "partial",
   "theorems": [
    "LCP.Chem.step_no_loss",
    "LCP.Chem.step_conserves_partial",
    "LCP.Chem.step_sound",
    "LCP.Chem.gas_substeps",
    "LCP.Chem.ozone_not_substepped"
   ],
   "note": "No loss proved for all; conservation with equality under the no-sweep condition of C66. Each substep sees an equal part of the change only if density is passed at each step: otherwise ozone is not substepped (ozone_not_substepped)."
  },
  {
   "property": "C70",
   "status": "proved",
   "theorems": [
    "LCP.Chem.init_composition",
    "LCP.Chem.sulfate_le_dry",
    "LCP.Chem.coal_conserves_rest"
   ],
   "note": ""
  },
  {
   "property": "C71",
   "status": "proved",
   "theorems": [
    "LCP.Kernel.geometric_law",
    "LCP.Kernel.golovin_law",
    "LCP.Kernel.long_law",
    "LCP.Kernel.efficiency_law",
    "LCP.Kernel.kval_symm",
    "LCP.Kernel.init_accepts",
    "LCP.Kernel.kernel_nonneg",
    "LCP.Kernel.same_speed_no_collisions",
    "LCP.Kernel.long_small_no_collisions"
   ],
   "note": "Kernels other than the two turbulent ones (C73). The tables of efficiencies are parameters with 20301 non-negative entries, as counted in the source."
  },
  {
   "property": "C72",
   "status": "partial",
   "theorems": [
    "LCP.Kernel.eff_bilinear",
    "LCP.Kernel.eff_node",
    "LCP.Kernel.eff_bounds",
    "LCP.Kernel.eff_large",
    "LCP.Kernel.eff_symm",
    "LCP.Kernel.init_tables",
    "LCP.Kernel.float_reads_outside"
   ],
   "note": "Proved for double precision. False in single precision: r_max - 1e-6 is rounded to r_max, so for every drop of 1.1 mm or more the code reads outside of the table (float_reads_outside)."
  },
  {
   "property": "C73",
   "status": "partial",
   "theorems": [
    "LCP.Kernel.onishi_law_partial",
    "LCP.Kernel.onishi_still",
    "LCP.Kernel.onishi_ge_still_partial",
    "LCP.Kernel.wang_ge_one_partial",
    "LCP.Kernel.nogravWith_ge",
    "LCP.Kernel.wang_equal_radii_outside",
    "LCP.Kernel.wang_100_outside",
    "LCP.Kernel.onishi_equal_radii",
    "LCP.Kernel.enhancement_ignores_dissipation",
    "LCP.Kernel.enhancement_in_still_air",
    "LCP.Kernel.gMono_spec",
    "LCP.Kernel.nograv_law_partial",
    "LCP.Kernel.clustering_depends_on_partner",
    "LCP.Kernel.kolmogorov_is_one",
    "LCP.Kernel.kolmogorov_wrong",
    "LCP.Kernel.turbulent_rate_too_low"
   ],
   "note": "Symmetry (kval_symm), definedness and the lower bound proved for droplets of different sizes. False: equal radii up to 100 um and a collector of exactly 100 um read outside of the table of enhancement factors; the factor is chosen with the Reynolds number instead of the dissipation rate; the exponent 1/4 of the Kolmogorov length is an integer division; the turbulent part is not multiplied by the multiplicity."
  },
  {
   "property": "C74",
   "status": "proved",
   "theorems": [
    "LCP.Vterm.beard76_stokes",
    "LCP.Vterm.beard76_mid",
    "LCP.Vterm.beard76_large",
    "LCP.Vterm.beard76_pos",
    "LCP.Vterm.gravity",
    "LCP.Vterm.khvorostyanov_law",
    "LCP.Vterm.khvB_slope",
    "LCP.Vterm.khvorostyanov_shape",
    "LCP.Vterm.shape_constant",
    "LCP.Vterm.khvorostyanov_pos",
    "LCP.Vterm.beard77v0_law",
    "LCP.Vterm.beard77v0_pos",
    "LCP.Vterm.beard77fact_ref",
    "LCP.Vterm.reference_density",
    "LCP.Vterm.beard77fact_small",
    "LCP.Vterm.beard77fact_small_mono",
    "LCP.Vterm.beard77fact_large",
    "LCP.Vterm.beard77fact_pos",
    "LCP.Vterm.dlnr_lt",
    "LCP.Vterm.vt0Bin_lt",
    "LCP.Vterm.fast_law",
    "LCP.Vterm.vtLiquid_pos",
    "LCP.Vterm.vtIce_pos"
   ],
   "note": "Real arithmetic."
  },
  {
   "property": "C75",
   "status": "partial",
   "theorems": [
    "LCP.Vterm.coal_velocities",
    "LCP.Vterm.sedimentation_partial",
    "LCP.Vterm.sedimentation_no_coal",
    "LCP.Vterm.collectors_rise",
    "LCP.Vterm.rises",
    "LCP.Vterm.reversed_rate",
    "LCP.Vterm.reversed_growth",
    "LCP.Vterm.exMarked_shrinks"
   ],
   "note": "Proved: the collision kernels always see current velocities; sedimentation uses current velocities for all super-droplets that did not collect others in the last coalescence sub-step. Refuted: collectors of the last sub-step keep the marker -1 m/s, so they rise in sedimentation and are ventilated with a negative Reynolds number in the next condensation."
  },
  {
   "property": "C76",
   "status": "partial",
   "theorems": [
    "LCP.Src.source_cells",
    "LCP.Src.source_needs_2d",
    "LCP.Src.simple_source_partial",
    "LCP.Src.amount_close",
    "LCP.Src.source_ignores_dt",
    "LCP.Src.source_wrong_rate"
   ],
   "note": "Proved with the time since the previous activation counted in opts_init.dt; refuted if the time step differs from it (variable time step): source_wrong_rate."
  },
  {
   "property": "C77",
   "status": "partial",
   "theorems": [
    "LCP.Src.matching_partial",
    "LCP.Src.buffers_suffice",
    "LCP.Src.emissions_ge",
    "LCP.Src.picked_nodup",
    "LCP.Src.clash",
    "LCP.Src.clash_excess"
   ],
   "note": "Proved for populations without clashes (the last occupied interval of a cell differing from the first one of the next occupied cell). Refuted in general: runs are formed by interval number only, so runs of neighbouring cells merge (clash, clash_excess); proved for all populations: in total no fewer emissions than intervals, arrays large enough, no super-droplet raised twice."
  },
  {
   "property": "C78",
   "status": "partial",
   "theorems": [
    "LCP.Src.added_old",
    "LCP.Src.added_new",
    "LCP.Src.added_complete",
    "LCP.Src.added_blank",
    "LCP.Src.blank_first_substep",
    "LCP.Src.complete_first_substep",
    "LCP.Src.blank_temperature",
    "LCP.Src.blank_humidity",
    "LCP.Src.blank_never_activates"
   ],
   "note": "Existing super-droplets are unaffected (proved). Refuted for new ones: their saved surroundings are zero, so the first substep is in air with 1/sstp of the cell's properties (blank_first_substep), at >= 1e11 times the relative humidity (blank_humidity); critical radius unknown (-1) until coalescence. complete_first_substep: with the surroundings saved the claim would hold."
  },
  {
   "property": "C79",
   "status": "partial",
   "theorems": [
    "LCP.Src.stored_departure_partial",
    "LCP.Src.stored_level_below",
    "LCP.Src.stored_two_columns_off",
    "LCP.Src.stored_out_of_range",
    "LCP.Src.raised_two_columns_off",
    "LCP.Src.never_matched",
    "LCP.Src.raised_outside",
    "LCP.Src.stored_level",
    "LCP.Src.count_overflow"
   ],
   "note": "Refuted: Euler and implicit schemes use the departure cell (proved, which is the right one for super-droplets that stay in their cell); predictor-corrector uses a cell two columns off even in still air, out of range for the last two columns (stored_two_columns_off, raised_outside, count_overflow)."
  },
  {
   "property": "C80",
   "status": "partial",
   "theorems": [
    "LCP.SortFlag.readers_up_to_date_partial",
    "LCP.SortFlag.upToDate_statistic",
    "LCP.SortFlag.relaxation_after_source",
    "LCP.SortFlag.readers_out_of_date",
    "LCP.SortFlag.readers_out_of_date_matching",
    "LCP.SortFlag.exists_runs"
   ],
   "note": "Proved for all histories except steps in which the source creates or matches super-droplets, relaxation runs and advection is not predictor-corrector. There it is false: the flag is not lowered by the source (post_adding_SD is commented out), so relaxation counts super-droplet 0 in cell 0 in place of each new one (relaxation_after_source) and may produce more entries than cells (readers_out_of_date)."
  },
  {
   "property": "C81",
   "status": "partial",
   "theorems": [
    "LCP.Rlx.random_inside_iff",
    "LCP.Rlx.random_storage_partial",
    "LCP.Rlx.random_past_end",
    "LCP.Rlx.random_past_storage",
    "LCP.Rlx.toInit_eq"
   ],
   "note": "Refuted: n_dims numbers per created super-droplet are written into a vector with one entry per super-droplet. Exact condition proved (random_inside_iff), a sufficient bound on n_sd_max against leaving the storage (random_storage_partial), and witnesses for both overruns."
  },
  {
   "property": "C82",
   "status": "partial",
   "theorems": [
    "LCP.Room.add_throws_iff",
    "LCP.Room.no_overrun_partial",
    "LCP.Room.broken_for_good",
    "LCP.Room.matching_throws_early",
    "LCP.Room.matching_adds"
   ],
   "note": "Proved up to the first exception. After it the object is broken for good (n_part was raised before the check): broken_for_good. The matching source throws although matched candidates would need no room: matching_throws_early."
  },
  {
   "property": "C83",
   "status": "partial",
   "theorems": [
    "LCP.Activ.rw_ge_rc",
    "LCP.Activ.RH_ge_Sc",
    "LCP.Activ.incloud_time",
    "LCP.Activ.updateIncloud_ev",
    "LCP.Activ.coal_ev",
    "LCP.Activ.air_current_partial",
    "LCP.Activ.activation_stale",
    "LCP.Activ.diagnostic_changes_incloud",
    "LCP.Activ.th_std_without_pressure",
    "LCP.Activ.critical_exists",
    "LCP.Activ.critical_unique"
   ],
   "note": "Selection against the maximum of the Koehler curve and in-cloud time against the history of the droplets: proved. Refuted: that the air is the one last passed: diag_rw_ge_rc, diag_RH_ge_Sc and step_cond use T and RH of the last hskpng_Tpr, so after sync_in they are stale (activation_stale), and calling diag_temperature changes the in-cloud time recorded later (diagnostic_changes_incloud); proved when step_async or a diagnostic refreshing the air comes in between (air_current_partial). With th_dry=false and const_p=false, accepted by the checks, T is 0 for ever (th_std_without_pressure)."
  },
  {
   "property": "C84",
   "status": "partial",
   "theorems": [
    "LCP.VelDiv.vel_div_partial",
    "LCP.VelDiv.vel_div_other_dt",
    "LCP.VelDiv.vel_div_1d",
    "LCP.VelDiv.vel_div_0d",
    "LCP.VelDiv.vel_div_in_bounds"
   ],
   "note": "Proved in 2D and 3D with any halo if the Courant numbers are for opts_init.dt. Wrong by tau/dt for another time step; always zero in 1D; old data in 0D."
  },
  {
   "property": "C85",
   "status": "partial",
   "theorems": [
    "LCP.Rates.precip_rate",
    "LCP.Rates.precip_rate_unselected",
    "LCP.Rates.precip_rate_succeeds",
    "LCP.Rates.precip_rate_ice",
    "LCP.Rates.ice_mix_ratio",
    "LCP.Rates.ice_off",
    "LCP.Rates.max_rw_partial",
    "LCP.Rates.max_rw_merged",
    "LCP.Rates.precip_rate_writes"
   ],
   "note": "Fluxes and mixing ratio proved. diag_max_rw proved as long as cell numbers are exact in real_t; refuted in single precision above 2^24 cells, where keys are compared as floats and neighbouring cells merge (max_rw_merged). diag_precip_rate has a side effect on later condensation: it refreshes velocities marked as invalid (precip_rate_writes)."
  },
  {
   "property": "C86",
   "status": "partial",
   "theorems": [
    "LCP.Attr.get_attr",
    "LCP.Attr.sizes",
    "LCP.Attr.meaningful_ok",
    "LCP.Attr.meaningless_throws_partial",
    "LCP.Attr.turbulent_moments_ub",
    "LCP.Attr.incloud_silent"
   ],
   "note": "get_attr proved (coordinates of absent dimensions are returned as zeros). Refuted for diagnostics: moments of turbulent velocities without turbulence read an empty array (turbulent_moments_ub); in-cloud time moments silently do nothing in release builds when not recorded (incloud_silent)."
  },
  {
   "property": "C87",
   "status": "partial",
   "theorems": [
    "LCP.PoolApi.no_pool_exhausted_partial",
    "LCP.PoolApi.usual_run_fine",
    "LCP.PoolApi.no_guard_constructed_twice",
    "LCP.PoolApi.exhausts_chem_exact",
    "LCP.PoolApi.exhausts_diag_before_cond",
    "LCP.PoolApi.exhausts_pred_corr",
    "LCP.PoolApi.exhausts_parcel"
   ],
   "note": "Proved for all histories of any length in which every call meets the condition `safe` (and no call follows a failed init or a failed distributed-memory step_async). Outside it is false, with witnesses: chemistry with per-particle substepping (first step_cond), a selecting diagnostic between sync_in and step_cond with per-particle substepping and mixing, predictor-corrector advection in 1D/2D or with chemistry, diag_rw_ge_rc/diag_RH_ge_Sc/diag_precip_rate/in-cloud time in 0D and 1D."
  },
  {
   "property": "C88",
   "status": "partial",
   "theorems": [
    "LCP.PoolApi.no_released_array_used_partial",
    "LCP.PoolApi.usual_run_fine",
    "LCP.PoolApi.derefs_no_ccn",
    "LCP.PoolApi.derefs_moment_after_sync",
    "LCP.PoolApi.derefs_after_unpack_throw"
   ],
   "note": "Proved for the same histories as C87. Outside it is false, with witnesses: no droplets at init, then the first step_async with advection; a moment asked for after sync_in when the selection was made before it (selected_before_counting stays true); step_async after one that threw while unpacking from another process."
  },
  {
   "property": "C89",
   "status": "partial",
   "theorems": [
    "LCP.Skel.diagnostics_do_not_interfere_partial",
    "LCP.Skel.quiet_diagnostics_never_interfere",
    "LCP.Skel.temperature_diagnostic_interferes",
    "LCP.Skel.precipitation_diagnostic_interferes"
   ],
   "note": "Proved for every history, all physics: for all diagnostics but pressure, temperature, humidity and precipitation rate without restriction; for those four when step_async runs before the next step_cond (or, for the first three, right after init or step_async). Elsewhere false, with witnesses. Assumes dry th or const_p (otherwise C83) and, without ice, that terminal velocities of all droplets are recomputed (no droplet of wet radius zero). Histories in which step_async throws halfway are excluded."
  },
  {
   "property": "C90",
   "status": "partial",
   "theorems": [
    "LCP.Skel.report_is_spec",
    "LCP.Skel.report_ignores_earlier_diagnostics",
    "LCP.Skel.outbuf_twice_after_moment",
    "LCP.Skel.sorted_after_init_and_steps",
    "LCP.Skel.mass_density_depends_on_earlier_diagnostics",
    "LCP.Skel.outbuf_twice_after_temperature_differs"
   ],
   "note": "Proved for select-narrow-moment-read. False for mass density spectra and for a second reading after diagnostics that fill all cells, with witnesses."
  },
  {
   "property": "C91",
   "status": "partial",
   "theorems": [
    "LCP.Kernel.tables_ok",
    "LCP.Kernel.efficiency_in_range",
    "LCP.Kernel.library_kernels_nonneg",
    "LCP.Kernel.pinsky_is_hall_beyond",
    "LCP.Kernel.davis_is_hall_beyond",
    "LCP.Kernel.vohl_is_davis_below",
    "LCP.Kernel.large_drops_miss_small_ones",
    "LCP.Kernel.gravitational_table_stray_entry",
    "LCP.Kernel.gravitational_equal_drops",
    "LCP.Kernel.cumulonimbus_table_dip"
   ],
   "note": "Bounds and agreement of tables proved for all radii. Two clauses are false, with witnesses: equal drops of 8 micrometers have efficiency 0.042 in the gravitational table, and drops from 300 micrometers on never collect droplets below 14 micrometers (all tables but Vohl's)."
  },
  {
   "property": "C92",
   "status": "partial",
   "theorems": [
    "LCP.MultiGpu.ring_ok",
    "LCP.MultiGpu.exchange_no_race_partial",
    "LCP.MultiGpu.exchange_delivers_partial",
    "LCP.MultiGpu.exchange_no_deadlock",
    "LCP.MultiGpu.exchange_terminates",
    "LCP.MultiGpu.exchange_completes",
    "LCP.MultiGpu.exchange_race_on_growth"
   ],
   "note": "absence of races and delivery proved for steps in which no device has to enlarge its buffers; deadlock freedom and termination always; with enlarging there is a race, because nothing orders a device's resize of its incoming buffers after its neighbour's first copy into them (exchange_race_on_growth)"
  },
  {
   "property": "C93",
   "status": "proved",
   "theorems": [
    "LCP.Barrier.barrier_safe",
    "LCP.Barrier.barrier_live",
    "LCP.Barrier.barrier_one_call",
    "LCP.Barrier.barrier_broken_after_2_32"
   ],
   "note": "proved for the first 2^32 generations; after that the barrier lets threads through at once because the generation is remembered in an unsigned int (barrier_broken_after_2_32). In the library each barrier lives for one step (five rounds), which is covered"
  },
  {
   "property": "C94",
   "status": "partial",
   "theorems": [
    "LCP.MultiGpu.multi_puddle",
    "LCP.MultiGpu.outbuf_by_reference",
    "LCP.MultiGpu.fillHost_cells",
    "LCP.MultiGpu.multi_outbuf_partial",
    "LCP.MultiGpu.multi_outbuf_ignores_diagnostics",
    "LCP.MultiGpu.multi_outbuf_wrong"
   ],
   "note": "diag_puddle and the offsets are right; outbuf is not: std::bind stores a copy of the host vector, the copy is filled, and the unfilled pooled vector is returned, so the result does not depend on the diagnostic (multi_outbuf_wrong)"
  },
  {
   "property": "C95",
   "status": "partial",
   "theorems": [
    "LCP.Init.search_sound",
    "LCP.Init.search_finds",
    "LCP.Init.search_unimodal",
    "LCP.Init.search_throws_iff",
    "LCP.Init.search_lognormal",
    "LCP.Init.search_never_ends"
   ],
   "note": "All but the last clause proved. Last clause refuted: if no radius has a particle per super-droplet, the loop does not end (search_never_ends; in floating point until the radius overflows and a NaN is converted to an integer)."
  },
  {
   "property": "C96",
   "status": "proved",
   "theorems": [
    "LCP.Init.const_multi_range",
    "LCP.Init.const_multi_outside",
    "LCP.Init.const_multi_number",
    "LCP.Init.const_multi_lognormal",
    "LCP.Init.integrate_error",
    "LCP.Init.radius_probability",
    "LCP.Init.integrate_short"
   ],
   "note": "The position of the maximum is what boost's brent_find_minima returns, arbitrary in the model; the claims are relative to it. Integration error for distributions with bounded slope, ranges of at least one bin (1e-4 in ln r)."
  },
  {
   "property": "C97",
   "status": "partial",
   "theorems": [
    "LCP.Init.tail_adjacent",
    "LCP.Init.tail_user_throws"
   ],
   "note": "Proved when the tail is accepted; with the range given by the user it never is (tail_user_throws), although the options pass the sanity check."
  },
  {
   "property": "C98",
   "status": "proved",
   "theorems": [
    "LCP.Common.lognormal_moment",
    "LCP.Common.lognormal_number",
    "LCP.Common.lognormal_number_radius",
    "LCP.Common.lognormal_forms",
    "LCP.Common.lognormal_shape",
    "LCP.Common.lognormal_negative",
    "LCP.Common.hydrostatic_ref",
    "LCP.Common.hydrostatic_balance",
    "LCP.Common.hydrostatic_anti",
    "LCP.Common.sgs_lengths"
   ],
   "note": "For stdev < 1 the log-normal functions are negative and nothing is reported (lognormal_negative); hydrostatic::p only up to the height where the pressure reaches zero."
  },
  {
   "property": "C99",
   "status": "partial",
   "theorems": [
    "LCP.Py.array_cells_partial",
    "LCP.Py.array_cells_relaxed_partial",
    "LCP.Py.array_read_partial",
    "LCP.Py.array_faces_x",
    "LCP.Py.array_faces_y",
    "LCP.Py.array_faces_z",
    "LCP.Py.profile_cells",
    "LCP.Py.profile_in_bounds_iff",
    "LCP.Py.extents_unchecked",
    "LCP.Py.short_array_read_out_of_bounds",
    "LCP.Py.overflow_iff",
    "LCP.Py.parcel_2d_overflow",
    "LCP.Py.one_column_1d",
    "LCP.Py.single_column_2d_wrong",
    "LCP.Py.single_column_3d_wrong",
    "LCP.Py.skipped_and_refused",
    "LCP.Py.vertical_column",
    "LCP.Py.outbuf_len",
    "LCP.Py.profile_write_race"
   ],
   "note": "Right entries proved for freshly laid out arrays (cells and faces) and for every C-contiguous array if there are two or more columns (and rows in 3D). Refuted otherwise: zeros((5,1)).T in a single-column set-up is read one level too low (single_column_2d_wrong, single_column_3d_wrong); extents are never checked, so short arrays are read past their end (profile_in_bounds_iff, extents_unchecked); arrays with too many dimensions corrupt memory before the check that would refuse them (overflow_iff); x Courant numbers are refused in 1D with one column (one_column_1d); th and rv given as profiles are overwritten by an arbitrary column (profile_write_race)."
  },
  {
   "property": "C100",
   "status": "partial",
   "theorems": [
    "LCP.Py.call_ok",
    "LCP.Py.names_aligned",
    "LCP.Py.init_names_shifted",
    "LCP.Py.init_keywords_wrong",
    "LCP.Py.init_th_not_by_name",
    "LCP.Py.init_p_not_by_name",
    "LCP.Py.init_positional_partial",
    "LCP.Py.set_distros_replaces",
    "LCP.Py.set_sizes_replaces",
    "LCP.Py.set_profile_replaces",
    "LCP.Py.set_kernel_params_appends",
    "LCP.Py.kernel_params_twice",
    "LCP.Py.set_modes_2m_appends"
   ],
   "note": "Proved for sync_in, step_sync, step_cond and the options but two. Refuted: init lacks the name of the pressure, so the names th, rv, rhod belong to rv, rhod, p (init_keywords_wrong); kernel_parameters and the modes of blk_2m are appended to instead of replaced."
  },
  {
   "property": "C101",
   "status": "partial",
   "theorems": [
    "LCP.Blk1m.rk_terminates_partial",
    "LCP.Blk1m.rk_infinite_loop",
    "LCP.Blk1m.no_run_of_unbounded",
    "LCP.Blk1m.rk_terminates_const_p",
    "LCP.Blk1m.rk_total_const_p",
    "LCP.Blk1m.rk_terminates_th_dry",
    "LCP.Blk1m.rk_total_th_dry",
    "LCP.Blk1m.rk_result"
   ],
   "note": "For every thermodynamic closure the loop ends within 4(rv+rc+rr)/r_eps+4 passes if a condensation step never raises the saturation mixing ratio by more than 1.5 r_eps; this is discharged from conditions on the initial cell alone for the constant-pressure variant with at most 10 g/kg of water (rk_terminates_const_p) and for the default dry-potential-temperature variant, where the pressure changes too, with at most 8 g/kg of water (rk_terminates_th_dry). Without it the loop can run for ever (rk_infinite_loop: linear saturation curve as steep as near 313 K). Missing: warmer, moister air with the exact saturation curve, where neither termination nor an endless run is shown."
  },
  {
   "property": "C102",
   "status": "partial",
   "theorems": [
    "LCP.Init.wet_equilibrium",
    "LCP.Init.equilibrium_stationary",
    "LCP.Init.limited_grows",
    "LCP.Init.init_wet_which",
    "LCP.Init.supersaturated_bracket"
   ],
   "note": "Existence, uniqueness and accuracy proved where the limited humidity is below one; opts_init.RH_max >= 1 with supersaturated air is not rejected and reverses the search interval (supersaturated_bracket)."
  },
  {
   "property": "C103",
   "status": "partial",
   "theorems": [
    "LCP.Src.water_added",
    "LCP.Src.water_not_conserved",
    "LCP.Src.water_other_cells",
    "LCP.Src.water_conserved_if_called_partial"
   ],
   "note": "False: the calls that would take the water from the vapour are commented out; exactly the water of the new droplets appears (water_added, water_not_conserved). With the calls made the claim holds (water_conserved_if_called_partial, without ice)."
  },
  {
   "property": "C104",
   "status": "proved",
   "theorems": [
    "LCP.Run.run_good",
    "LCP.Run.run_inside",
    "LCP.Run.run_count"
   ],
   "note": "shared-memory runs, condensation in any of its four ways (off, per-cell, per-particle with or without mixing, adaptive), no ice, no chemistry; positions: droplets do not overshoot a periodic wall to the left by more than ten domain lengths (C17) and, with recycling, the population clears (C09)"
  },
  {
   "property": "C105",
   "status": "proved",
   "theorems": [
    "LCP.Run.run_dry",
    "LCP.Run.run_number",
    "LCP.Run.run_water",
    "LCP.Run.run_total_water",
    "LCP.Run.run_dry_closed",
    "LCP.Run.how_ok",
    "LCP.Run.exRun_budgets"
   ],
   "note": "shared-memory runs, condensation in any of its four ways, no ice, no chemistry; water: without mixing and with adaptive substeps always, otherwise where the air masses of all the substeps agree (C58, C60 have the counterexamples)"
  },
  {
   "property": "C106",
   "status": "partial",
   "theorems": [
    "LCP.Run.step_completes_partial",
    "LCP.Run.run_continues_partial",
    "LCP.Run.near_moved",
    "LCP.Run.emptied_run_stuck",
    "LCP.Run.recycled_run_stuck"
   ],
   "note": "Proved for 2D and 3D shared-memory runs of any length in which coalescence is off while there are no super-droplets, the flow is calm and recycling, if on, can clear the dead; condensation in any of its four ways. False otherwise, with reachable witnesses: after the last droplet rained out the pair loop runs from begin to begin-1; with recycling, dead super-droplets stay below the ground and are converted to cell indices."
  },
  {
   "property": "C107",
   "status": "partial",
   "theorems": [
    "LCP.Run.drun_good",
    "LCP.Run.drun_dry",
    "LCP.Run.drun_number",
    "LCP.Run.drun_water",
    "LCP.Run.drun_inside_partial",
    "LCP.Run.drun_inside_of_displacements",
    "LCP.Run.exDRun"
   ],
   "note": "budgets and well-formedness of whole runs on any number of subdomains, for every run that completes; missing: an exchange may fail although memory suffices (C29: buffers sized by outgoing counts, n_sd_max checked before removal), attributes of chemistry are not exchanged at all, droplets crossing more than one subdomain end up outside (all shown as counterexamples elsewhere); recycling in MPI runs and ice are not in the run model"
  },
  {
   "property": "C108",
   "status": "proved",
   "theorems": [
    "LCP.Icicle.driver_safe",
    "LCP.Icicle.driver_terminates",
    "LCP.Icicle.driver_output",
    "LCP.Icicle.whole_driver",
    "LCP.Icicle.async_only_gpu"
   ],
   "note": "two-thread transition system (main program of hook_ante_loop/hook_post_step, background step_async completing at any moment, future valid/invalid/ready, destruction order); library = protocol model of C20; time step numbers as seen by hook_post_step start at 0 or 1 (libmpdata++ is not in the repository)"
  },
  {
   "property": "C109",
   "status": "partial",
   "theorems": [
    "LCP.Icicle.spinup_no_rain",
    "LCP.Icicle.after_spinup",
    "LCP.Icicle.no_spinup",
    "LCP.Icicle.rhMax_lost",
    "LCP.Icicle.spinup_opts_sub",
    "LCP.Icicle.relaxing_ok_partial",
    "LCP.Icicle.relaxing_after",
    "LCP.Icicle.setRain_false",
    "LCP.Icicle.setRain_true",
    "LCP.Icicle.relaxing_unset",
    "LCP.Icicle.relax_contracts",
    "LCP.Icicle.blk1m_spinup",
    "LCP.Icicle.blk2m_spinup",
    "LCP.Icicle.chem_switches_partial",
    "LCP.Icicle.chem_forced_on"
   ],
   "note": "proved for rain formation of all four schemes; false in the code: with a negative spin-up the relaxation goals are used uninitialised (relaxing_unset), the end of the spin-up switches aqueous reactions on although the user switched them off (chem_forced_on), and the supersaturation limit is set to 44 whatever it was (rhMax_lost)"
  },
  {
   "property": "C110",
   "status": "partial",
   "theorems": [
    "LCP.Icicle.nondivergent",
    "LCP.Icicle.periodic",
    "LCP.Icicle.walls",
    "LCP.Icicle.speed",
    "LCP.Icicle.lagrangian_domain",
    "LCP.Icicle.bottom_velocity",
    "LCP.Icicle.bottom_closed_partial",
    "LCP.Icicle.bottom_leak",
    "LCP.Icicle.rhod_anti",
    "LCP.Icicle.gcz_formula",
    "LCP.Icicle.downdraught",
    "LCP.Icicle.downdraught_leak",
    "LCP.Icicle.bottom_not_closed"
   ],
   "note": "everything proved except the last clause, which is false in the code: the momenta half a step below and above the bottom are divided by different densities, so in downdraughts the air carries super-droplets out of the domain (downdraught_leak, bottom_not_closed for the default setup); with equal densities it does not (bottom_closed_partial)"
  },
  {
   "property": "C111",
   "status": "partial",
   "theorems": [
    "LCP.Run.critical_current_partial",
    "LCP.Run.condensation_uses_critical_partial",
    "LCP.Run.critical_never_wrong",
    "LCP.Run.critical_after_coalescence",
    "LCP.Run.source_never_critical",
    "LCP.Run.blank_never_activates",
    "LCP.Run.source_witness",
    "LCP.Run.chemistry_witness",
    "LCP.Run.short_step_leaves_blank",
    "LCP.Run.short_step_witness"
   ],
   "note": "Proved for all runs without sources, relaxation and chemistry whose time steps leave activation substeps in use.  False otherwise: new super-droplets get a critical radius only after the next coalescence (never if coalescence is off) and are never given activation substeps until then; chemistry changes dry radii without invalidating; with opts.dt so short that sstp_cond_act becomes 1, collided droplets are left without one.  Without chemistry a stored value is never wrong, only missing."
  },
  {
   "property": "C112",
   "status": "partial",
   "theorems": [
    "LCP.Mpi.mpi_run_partial",
    "LCP.Mpi.mpi_budget_partial",
    "LCP.Mpi.run_ends",
    "LCP.Mpi.bulkRun_spec",
    "LCP.Mpi.exchange_repr",
    "LCP.Mpi.narrow",
    "LCP.Mpi.late_send"
   ],
   "note": "Proved for every schedule, any number of processes >= 2 and any number of steps without a halo (all advection schemes but pred_corr), and with a halo if subdomains are at least as wide as the halo and every step has advection. In the remaining cases the claim is false, because the requests of xchng_courants are never waited for (late_send) or send and receive buffers overlap (narrow)"
  },
  {
   "property": "C113",
   "status": "partial",
   "theorems": [
    "LCP.Mpi.mpi_courants_partial",
    "LCP.Mpi.inUse_window",
    "LCP.Mpi.haloed_field",
    "LCP.Mpi.bulkCour_eq",
    "LCP.Mpi.narrow",
    "LCP.Mpi.late_send"
   ],
   "note": "Proved for periodic domains (halos at links between processes: haloed_field also for open ends) if subdomains are at least as wide as the halo and every step has advection; otherwise false: narrow, late_send"
  },
  {
   "property": "C114",
   "status": "partial",
   "theorems": [
    "LCP.Float.cell_single_exact",
    "LCP.Float.cell_single",
    "LCP.Float.cell_single_in_range",
    "LCP.Float.cell_single_recip_in_range",
    "LCP.Float.cell_in_range_partial",
    "LCP.Float.cell_double_out_of_range",
    "LCP.Float.quotient_gap"
   ],
   "note": "Proved in full for single precision (where the division is done in double). In double precision proved when nx*dx is exactly representable; otherwise false: 17 cells of 3.2, position 54.4 gets index 17 (cell_double_out_of_range)."
  },
  {
   "property": "C115",
   "status": "partial",
   "theorems": [
    "LCP.Float.periodic_from_zero",
    "LCP.Float.periodic_closed_partial",
    "LCP.Float.periodic_then_cell",
    "LCP.Float.periodic_error",
    "LCP.Float.fmod_mem",
    "LCP.Float.periodic_hits_upper_wall",
    "LCP.Float.periodic_moves_interior"
   ],
   "note": "With x0 = 0 the result is in [0,x1), in any precision. With x0 > 0 the upper wall itself can be returned (periodic_hits_upper_wall), and droplets inside the domain are moved by rounding errors of the added ten domain lengths, even across the domain (periodic_moves_interior)."
  },
  {
   "property": "C116",
   "status": "partial",
   "theorems": [
    "LCP.Float.guard_double_partial",
    "LCP.Float.shift_column",
    "LCP.Float.guard_single_at_top",
    "LCP.Float.guard_single_wrong_cell"
   ],
   "note": "Double precision: proved for droplets put back. Single precision: the correction of 1e-8 of a layer is always below the resolution, the droplet is left exactly at the top (guard_single_at_top) and if z1 = nz*dz in the wrong column (guard_single_wrong_cell)."
  },
  {
   "property": "C117",
   "status": "partial",
   "theorems": [
    "LCP.Float.curand_below_one_partial",
    "LCP.Float.curand_reaches_one",
    "LCP.Float.place_single_closed_partial",
    "LCP.Float.place_reaches_end"
   ],
   "note": "Closed cell proved in single precision; the upper end is reachable (place_reaches_end), and on GPUs the random number 1 is returned in single precision (curand_reaches_one)."
  },
  {
   "property": "C118",
   "status": "partial",
   "theorems": [
    "LCP.Float.land_in_domain",
    "LCP.Float.land_one_rounding",
    "LCP.Float.land_left",
    "LCP.Float.land_right",
    "LCP.Float.land_left_cell",
    "LCP.Float.land_outside"
   ],
   "note": "Proved for subdomains whose limits are below 2^(p-10) (16384 m in single precision), or 2^(p-12) if the domain does not start at zero. False for longer ones: above 16384 m the half-millimetre correction is itself rounded away, for every such subdomain (land_outside)."
  },
  {
   "property": "C119",
   "status": "partial",
   "theorems": [
    "LCP.Float.sub_interior",
    "LCP.Float.sub_last_partial",
    "LCP.Float.sub_last_exact_partial",
    "LCP.Float.sub_last_out_of_range"
   ],
   "note": "Proved for all devices but the last, and for the last one if nx*dx and n_bfr*dx are representable; in general the index is at most one too large (sub_last_partial), and it can be: seven columns of 0.7 on two devices (sub_last_out_of_range)."
  },
  {
   "property": "C120",
   "status": "partial",
   "theorems": [
    "LCP.Float.sstp_pos",
    "LCP.Float.sstp_short",
    "LCP.Float.sstp_at_most_one_more",
    "LCP.Float.sstp_same_dt_partial",
    "LCP.Float.sstp_same_dt_exact_partial",
    "LCP.Float.sstp_same_dt_pow_two",
    "LCP.Float.sstp_changed_by_default_dt"
   ],
   "note": "All proved except the last part: setting opts.dt to the default may add a substep (0.3 s, 7 substeps: sstp_changed_by_default_dt); proved that it adds none if the product is representable, and at most one otherwise."
  },
  {
   "property": "C121",
   "status": "partial",
   "theorems": [
    "LCP.Float.moment_error",
    "LCP.Float.moment_order",
    "LCP.Float.moment_zero_iff",
    "LCP.Float.count_exact_partial",
    "LCP.Float.count_stagnates",
    "LCP.Float.count_order_dependent"
   ],
   "note": "Error bound, order bound and zero test proved in full (no underflow in the model). The number of droplets is exact and order independent up to 2^p droplets; beyond this it is not: count_stagnates, count_order_dependent."
  },
  {
   "property": "C122",
   "status": "partial",
   "theorems": [
    "LCP.Icicle.documented_understood",
    "LCP.Icicle.accepted_documented_partial",
    "LCP.Icicle.missing_bar_accepted"
   ],
   "note": "every documented string is understood as meant; strings with as many '|' as ':' are accepted only if documented. False for the others: without '|' an integer second radius doubles as the moment number (find returns npos, kept as -1). lexical_cast is a parameter; white space is removed before the grammar (the skipper)"
  },
  {
   "property": "C123",
   "status": "partial",
   "theorems": [
    "LCP.Blk2m.cloud_spectrum",
    "LCP.Blk2m.rain_spectrum",
    "LCP.Blk2m.tau_cloud",
    "LCP.Blk2m.tau_rain_partial",
    "LCP.Blk2m.rain_ventilation_scale",
    "LCP.Blk2m.rain_ventilation_wrong"
   ],
   "note": "number, mass, mean radii and the relaxation time of cloud proved; for rain the relaxation time is the integral for the fall speed a D^b with the coefficients of the code, but these are for micrometres and cm/s and are used with metres: the fall speed of the mean drop in the ventilation is off by 10^(2-18 beta), ten thousand times too slow for half-millimetre drops (rain_ventilation_wrong)"
  },
  {
   "property": "C124",
   "status": "proved",
   "theorems": [
    "LCP.Blk2m.n_c_p_counts",
    "LCP.Blk2m.noBarrier_iff",
    "LCP.Blk2m.activated_mono",
    "LCP.Blk2m.activation_step"
   ],
   "note": ""
  },
  {
   "property": "C125",
   "status": "proved",
   "theorems": [
    "LCP.Blk1m.autoconversion_law",
    "LCP.Blk1m.collection_law",
    "LCP.Blk1m.evaporation_law",
    "LCP.Blk1m.vTerm_law",
    "LCP.Blk1m.spectra",
    "LCP.Blk1m.phase_thresholds",
    "LCP.Blk1m.ice_speeds"
   ],
   "note": ""
  },
  {
   "property": "C126",
   "status": "proved",
   "theorems": [
    "LCP.Float.coal_drift",
    "LCP.Float.sub_drift",
    "LCP.Float.coal_absorption"
   ],
   "note": "coal_absorption: the loss is systematic, in single precision the aerosol of every further droplet collected by a drop can vanish entirely"
  },
  {
   "property": "C127",
   "status": "proved",
   "theorems": [
    "LCP.Float.kappa_range",
    "LCP.Float.trips_eq",
    "LCP.Float.kapLoop_exact"
   ],
   "note": "without contraction of products and sums"
  },
  {
   "property": "C128",
   "status": "partial",
   "theorems": [
    "LCP.DiagApi.diagnostics_by_name",
    "LCP.DiagApi.absent_refused",
    "LCP.DiagApi.absent_unnoticed",
    "LCP.DiagApi.stale_answer"
   ],
   "note": "proved for existing attributes and for absent ice and chemistry; false for absent turbulent velocities (read from an empty vector) and absent time in cloud (previous answer returned): absent_unnoticed, stale_answer"
  },
  {
   "property": "C129",
   "status": "partial",
   "theorems": [
    "LCP.Bulk.cellwise",
    "LCP.Bulk.forEach_defined_iff",
    "LCP.Bulk.column_defined",
    "LCP.Bulk.python_calls",
    "LCP.Bulk.warm_field"
   ],
   "note": "different sizes are not refused: the loop is out of bounds exactly then (forEach_defined_iff, python_calls); the rest is proved"
  },
  {
   "property": "C130",
   "status": "proved",
   "theorems": [
    "LCP.Float.settle_drift",
    "LCP.Float.settle_stuck",
    "LCP.Float.haze_stuck"
   ],
   "note": "settle_stuck: the bound is reached, small droplets high up never move in single precision"
  },
  {
   "property": "C131",
   "status": "proved",
   "theorems": [
    "LCP.Float.water_drift",
    "LCP.Float.call_drift",
    "LCP.Float.vapour_stuck",
    "LCP.Float.water_from_nowhere"
   ],
   "note": "vapour_stuck: changes below half a unit in the last place of the vapour are lost for ever; no ice"
  },
  {
   "property": "C132",
   "status": "partial",
   "theorems": [
    "LCP.Arrays.init_safe_iff",
    "LCP.Arrays.syncIn_safe",
    "LCP.Arrays.stepCond_safe_iff",
    "LCP.Arrays.stepAsync_safe_iff",
    "LCP.Arrays.addSd_safe",
    "LCP.Arrays.count_adjust",
    "LCP.Arrays.turbCoal_hole",
    "LCP.Arrays.turbCond_hole",
    "LCP.Arrays.noCcn_chem_hole",
    "LCP.Arrays.plane_hole",
    "LCP.Arrays.noX_hole",
    "LCP.Arrays.act_hole"
   ],
   "note": "Characterised exactly (iff) per call: safe unless one of six accepted option combinations, each with a witness. Courant number arrays and temporary pools are treated elsewhere (C45, C87, C88)."
  },
  {
   "property": "C133",
   "status": "partial",
   "theorems": [
    "LCP.Blk2m.collection_partial",
    "LCP.Blk2m.spread_meaning",
    "LCP.Blk2m.cloud_without_droplets",
    "LCP.Blk2m.slow_collection",
    "LCP.Blk2m.drizzle_number",
    "LCP.Blk2m.collection_wrong",
    "LCP.Blk2m.droplets_gone"
   ],
   "note": "Drizzle part proved. Droplet loss proved exactly, with a factor greater than 1 where the claim has 1 (collection_wrong, droplets_gone are witnesses)."
  },
  {
   "property": "C134",
   "status": "partial",
   "theorems": [
    "LCP.Distmem.recycled_exchange_grows",
    "LCP.Distmem.removed_exchange_count",
    "LCP.Distmem.recycled_exchange_budget",
    "LCP.Distmem.recycled_run_count",
    "LCP.Distmem.recycled_run_ends",
    "LCP.Distmem.recycled_run_fails"
   ],
   "note": "Partial because the claim fails in the code: the number grows by everything received (recycled_exchange_grows, recycled_run_count) and the run ends (recycled_run_ends; for every n_sd_max a run with nothing but motion that fails: recycled_run_fails). What holds: totals are conserved by exchange plus recycling whatever the sorts (recycled_exchange_budget), and without recycling the number is what it should be (removed_exchange_count)."
  },
  {
   "property": "C135",
   "status": "partial",
   "theorems": [
    "LCP.Float.rain_nearly_nonneg_partial",
    "LCP.Float.rain_nonneg_pow_two_partial",
    "LCP.Float.rain_rates_finite_partial",
    "LCP.Float.double_moment_recovers",
    "LCP.Float.rain_below_zero",
    "LCP.Float.negative_rain_is_nan",
    "LCP.Float.evaporation_then_nan"
   ],
   "note": "Partial because the claim fails: rain_below_zero (every precision, order of magnitude, contraction), negative_rain_is_nan, evaporation_then_nan (two calls). What holds: relative bound on the deficit, exactness for power-of-two time steps, finite tendencies while rain is not negative, recovery of the double-moment scheme. The evaporation asked for enters as an arbitrary number (NaN for negative rain); overflow and underflow are not modelled."
  },
  {
   "property": "C136",
   "status": "partial",
   "theorems": [
    "LCP.Seed.life_eq",
    "LCP.Seed.same_start",
    "LCP.Seed.same_rest",
    "LCP.Seed.words_in_order",
    "LCP.Seed.keys_are_radii_again",
    "LCP.Seed.first_shuffle_by_offset",
    "LCP.Seed.all_processes_alike",
    "LCP.Seed.slabs_repeat"
   ],
   "note": "Reproducibility proved for every generator and every adaptive sequence of requests of initialisation without normal numbers (there are none). The claim that numbers are new after initialisation, and differ between processes, is false in the code (negations proved for every generator: keys_are_radii_again, first_shuffle_by_offset, all_processes_alike, slabs_repeat). Host generator only; final rounding of uniform numbers not modelled; statistics of std::mt19937 not modelled."
  },
  {
   "property": "C137",
   "status": "proved",
   "theorems": [
    "LCP.Common.tetens_pressure",
    "LCP.Common.tetens_mixing_ratio",
    "LCP.Common.tetens_drier",
    "LCP.Common.temperature_of_theta",
    "LCP.Common.pressure_of_gases"
   ],
   "note": "Over liquid water; real arithmetic. tetens_drier: the differences are not negligible, air saturated by one option is 0.29 per cent dry by the other at 40 degrees."
  },
  {
   "property": "C138",
   "status": "partial",
   "theorems": [
    "LCP.Float.puddle_volume",
    "LCP.Float.puddle_grows",
    "LCP.Float.puddle_number",
    "LCP.Float.light_rain_lost",
    "LCP.Float.puddle_saturates",
    "LCP.Float.drizzle_lost"
   ],
   "note": "Relative error and monotonicity proved for every run; numbers exact up to 2^p droplets. The last clause is false in the code: time steps adding less than half a unit in the last place are lost without limit (light_rain_lost), and a run in which no time step yields 2^j never shows more than 2^(j+p) (puddle_saturates, drizzle_lost: two to the 25 droplets in single precision). No overflow or underflow."
  },
  {
   "property": "C139",
   "status": "partial",
   "theorems": [
    "LCP.Distmem.sends_fit",
    "LCP.Distmem.buffers_never_shrink",
    "LCP.Distmem.reals_fit",
    "LCP.Distmem.half_column_fits_partial",
    "LCP.Distmem.exchange_succeeds_partial",
    "LCP.Distmem.whole_column_does_not_fit"
   ],
   "note": "What a subdomain sends always fits its own buffers.  Receiving is only guaranteed up to half of an evenly filled column: buffers are enlarged by the sender's own counts, so a neighbour's larger message does not fit (whole_column_does_not_fit, and buffer_too_small of C29)."
  },
  {
   "property": "C140",
   "status": "partial",
   "theorems": [
    "LCP.Substeps.coal_whole_step",
    "LCP.Substeps.chem_whole_step",
    "LCP.Substeps.adjust_pos",
    "LCP.Substeps.no_substeps",
    "LCP.Substeps.zero_is_default"
   ],
   "note": "Proved for numbers of substeps of at least one. Refuted for zero and negative ones, which no check rejects: nothing is computed (no_substeps). A time step of zero is taken as the default one (zero_is_default)."
  },
  {
   "property": "C141",
   "status": "partial",
   "theorems": [
    "LCP.Py.Names.output_enum_iff",
    "LCP.Py.Names.puddle_dict",
    "LCP.Py.Names.bcnd_keys_named",
    "LCP.Py.Names.species_named",
    "LCP.Py.Names.species_complete",
    "LCP.Py.Names.kernel_complete",
    "LCP.Py.Names.kernel_named_partial",
    "LCP.Py.Names.long_named_differently"
   ],
   "note": "Proved but for one kernel: Long's kernel is \"long\" in Python and \"Long\" in kernel_name (long_named_differently)."
  },
  {
   "property": "C142",
   "status": "partial",
   "theorems": [
    "LCP.Icicle.Choices.documented_runs_partial",
    "LCP.Icicle.Choices.undocumented_never_runs",
    "LCP.Icicle.Choices.onishi_never_runs",
    "LCP.Icicle.Choices.onishi_needs_switch",
    "LCP.Icicle.Choices.unknown_scheme_runs"
   ],
   "note": "False in two ways: Onishi's two kernels, both in the help text, always throw (the driver gives two parameters, the library takes one, and turbulent coalescence, which they need, is never switched on): onishi_never_runs, onishi_needs_switch; without assertions an unknown advection scheme runs as the implicit one: unknown_scheme_runs. Proved: all other documented combinations run as named, and unknown kernels and fall speeds never run."
  },
  {
   "property": "C143",
   "status": "partial",
   "theorems": [
    "LCP.NanCheck.nancheck_iff",
    "LCP.NanCheck.debug_returns_iff",
    "LCP.NanCheck.release_never_stops",
    "LCP.NanCheck.other_droplets_checked",
    "LCP.NanCheck.count_is_one",
    "LCP.NanCheck.last_droplet_unchecked"
   ],
   "note": "False in two details: the number of invalid values printed is always 1 (they are added as booleans): count_is_one; after collisions the last super-droplet's chemicals are left out: last_droplet_unchecked. Everything else is proved."
  },
  {
   "property": "C144",
   "status": "partial",
   "theorems": [
    "LCP.Launch.made_is_requested",
    "LCP.Launch.missing_throws",
    "LCP.Launch.several_refused_partial",
    "LCP.Launch.single_made",
    "LCP.Launch.mpi_edges",
    "LCP.Launch.crashes_unpaired",
    "LCP.Launch.other_launcher_unnoticed"
   ],
   "note": "Several processes are noticed only if one of four launchers started them: with another launcher every process takes itself for the only one (other_launcher_unnoticed); a rank variable without its size variable is undefined behaviour, atoi(NULL) (crashes_unpaired). The rest is proved."
  }
 ]
}