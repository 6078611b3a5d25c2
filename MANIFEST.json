{
 "claims": [
  {
   "property": "C01",
   "status": "proved",
   "theorems": [
    "PvDer.Events.C01_lists_canonical"
   ],
   "note": ""
  },
  {
   "property": "C02",
   "status": "proved",
   "theorems": [
    "PvDer.Events.C02_stored_within_limits"
   ],
   "note": ""
  },
  {
   "property": "C03",
   "status": "proved",
   "theorems": [
    "PvDer.Events.C03_map_update",
    "PvDer.Events.C03_add_solar",
    "PvDer.Events.C03_add_grid",
    "PvDer.Events.C03_add_load"
   ],
   "note": ""
  },
  {
   "property": "C04",
   "status": "proved",
   "theorems": [
    "PvDer.Events.C04_add_solar",
    "PvDer.Events.C04_add_grid",
    "PvDer.Events.C04_add_load"
   ],
   "note": ""
  },
  {
   "property": "C05",
   "status": "partial",
   "theorems": [
    "PvDer.Events.C05_remove_partial",
    "PvDer.Events.C05_remove_solar_fails",
    "PvDer.Events.C05_remove_all_raises"
   ],
   "note": "Proved for grid and load events, every reachable schedule. The rest of the claim is false of the code and refuted: remove_solar_event always raises NameError and removes nothing; clearing all solar or load events empties the list and then raises AttributeError."
  },
  {
   "property": "C06",
   "status": "partial",
   "theorems": [
    "PvDer.Events.C06_totals_partial",
    "PvDer.Events.C06_totals_stale",
    "PvDer.Events.C06_totals_nonempty"
   ],
   "note": "Proved for every history without a clearing call, and for every history as long as the list is not empty (grid total: always). False in general: C06_totals_stale."
  },
  {
   "property": "C07",
   "status": "proved",
   "theorems": [
    "PvDer.Events.C07_solar_playback",
    "PvDer.Events.C07_load_playback",
    "PvDer.Events.C07_no_future",
    "PvDer.Events.C07_solar_catchup",
    "PvDer.Events.C07_load_catchup",
    "PvDer.Events.C07_jump_lags"
   ],
   "note": ""
  },
  {
   "property": "C08",
   "status": "proved",
   "theorems": [
    "PvDer.Events.C08_grid_playback"
   ],
   "note": ""
  },
  {
   "property": "C09",
   "status": "proved",
   "theorems": [
    "PvDer.Events.C09_grid_angle",
    "PvDer.Events.C09_user_angle_after_window"
   ],
   "note": ""
  },
  {
   "property": "C10",
   "status": "proved",
   "theorems": [
    "PvDer.Events.C10_queries_do_not_fail",
    "PvDer.Events.C10_removal_breaks_query"
   ],
   "note": ""
  },
  {
   "property": "C11",
   "status": "proved",
   "theorems": [
    "PvDer.Events.C11_results_from_schedule",
    "PvDer.Events.C11_results_within_limits"
   ],
   "note": ""
  },
  {
   "property": "C12",
   "status": "partial",
   "theorems": [
    "PvDer.Events.C12_spec_is_shared",
    "PvDer.Events.C12_isolation_partial",
    "PvDer.Events.C12_update_spec",
    "PvDer.Events.C12_own_calls",
    "PvDer.Events.C12_update_spec_exact"
   ],
   "note": "Proved for all interleavings of calls other than update_events_spec. The full claim is false for every process state (C12_spec_is_shared): the specification dictionary is a class attribute."
  },
  {
   "property": "C13",
   "status": "proved",
   "theorems": [
    "PvDer.Events.C13_insolation_ramp",
    "PvDer.Events.C13_voltage_ramp_never_works"
   ],
   "note": ""
  },
  {
   "property": "C14",
   "status": "proved",
   "theorems": [
    "PvDer.Events.C14_random_events_feasible"
   ],
   "note": ""
  },
  {
   "property": "C15",
   "status": "proved",
   "theorems": [
    "PvDer.Events.C15_merged_complete_ordered"
   ],
   "note": ""
  },
  {
   "property": "C16",
   "status": "proved",
   "theorems": [
    "PvDer.RT.C16_lv_trip_iff",
    "PvDer.RT.C16_lv_trip_iff_increasing"
   ],
   "note": ""
  },
  {
   "property": "C17",
   "status": "proved",
   "theorems": [
    "PvDer.RT.C17_hv_trip_iff",
    "PvDer.RT.C17_hv_trip_iff_increasing"
   ],
   "note": ""
  },
  {
   "property": "C18",
   "status": "proved",
   "theorems": [
    "PvDer.RT.C18_vrt_trip_latched_step",
    "PvDer.RT.C18_trip_latched"
   ],
   "note": ""
  },
  {
   "property": "C19",
   "status": "proved",
   "theorems": [
    "PvDer.RT.C19_healthy_never_trips"
   ],
   "note": ""
  },
  {
   "property": "C20",
   "status": "proved",
   "theorems": [
    "PvDer.RT.C20_old_time_noop",
    "PvDer.RT.C20_before_stable",
    "PvDer.RT.C20_reevaluation_idempotent",
    "PvDer.RT.C20_second_run_is_blind"
   ],
   "note": ""
  },
  {
   "property": "C21",
   "status": "proved",
   "theorems": [
    "PvDer.RT.C21_lv_cessation_allowed",
    "PvDer.RT.C21_hv_cessation_allowed"
   ],
   "note": ""
  },
  {
   "property": "C22",
   "status": "partial",
   "theorems": [
    "PvDer.RT.C22_example",
    "PvDer.RT.C22_cessation_kept_partial",
    "PvDer.RT.C22_single_zone",
    "PvDer.RT.C22_deeper_zone_clears_flag",
    "PvDer.RT.C22_hv_cessation_kept_partial",
    "PvDer.RT.C22_hv_single_zone"
   ],
   "note": "Proved for evaluations in which no running zone timer sees recovery, and in full for one zone. The full claim is false with two zones (C22_deeper_zone_clears_flag)."
  },
  {
   "property": "C23",
   "status": "proved",
   "theorems": [
    "PvDer.RT.C23_zone_independent",
    "PvDer.RT.C23_hv_zone_independent",
    "PvDer.RT.C23_order_irrelevant",
    "PvDer.RT.C23_hv_order_irrelevant"
   ],
   "note": ""
  },
  {
   "property": "C24",
   "status": "proved",
   "theorems": [
    "PvDer.RT.C24_lower_voltage_trips",
    "PvDer.RT.C24_higher_voltage_trips"
   ],
   "note": ""
  },
  {
   "property": "C25",
   "status": "proved",
   "theorems": [
    "PvDer.RT.C25_check_accepts_iff_feasible",
    "PvDer.RT.C25_rejection_is_value_error"
   ],
   "note": ""
  },
  {
   "property": "C26",
   "status": "proved",
   "theorems": [
    "PvDer.RT.C26_no_simultaneous_lv_hv",
    "PvDer.RT.C26_lv_nested",
    "PvDer.RT.C26_hv_nested"
   ],
   "note": ""
  },
  {
   "property": "C27",
   "status": "partial",
   "theorems": [
    "PvDer.RT.C27_tripped_stays_disconnected_partial",
    "PvDer.RT.C27_frequency_logic_reconnects",
    "PvDer.RT.C27_tripped_stays_until_frequency_trip_partial"
   ],
   "note": "Proved for every run with the frequency logic off (the default). False with it on: C27_frequency_logic_reconnects."
  },
  {
   "property": "C28",
   "status": "proved",
   "theorems": [
    "PvDer.RT.C28_disconnect_needs_flag_and_delay"
   ],
   "note": ""
  },
  {
   "property": "C29",
   "status": "partial",
   "theorems": [
    "PvDer.RT.C29_continuous_flag_partial",
    "PvDer.RT.C29_stale_timer"
   ],
   "note": "Proved for runs in which the flag, once set, stays set (trips). False in general: C29_stale_timer."
  },
  {
   "property": "C30",
   "status": "proved",
   "theorems": [
    "PvDer.RT.C30_flagged_disconnects"
   ],
   "note": ""
  },
  {
   "property": "C31",
   "status": "proved",
   "theorems": [
    "PvDer.RT.C31_reconnect_needs_undisturbed_delay"
   ],
   "note": ""
  },
  {
   "property": "C32",
   "status": "proved",
   "theorems": [
    "PvDer.RT.C32_recovered_reconnects"
   ],
   "note": ""
  },
  {
   "property": "C33",
   "status": "proved",
   "theorems": [
    "PvDer.RT.C33_disconnected_refs_zero"
   ],
   "note": ""
  },
  {
   "property": "C34",
   "status": "partial",
   "theorems": [
    "PvDer.RT.C34_volt_var_lost",
    "PvDer.RT.C34_volt_var_lost_witness",
    "PvDer.RT.C34_volt_var_kept_partial"
   ],
   "note": "The claim is false of every run that disconnects (C34_volt_var_lost, universally quantified); the partial theorem is the part without disconnection."
  },
  {
   "property": "C35",
   "status": "proved",
   "theorems": [
    "PvDer.RT.C35_no_assertion",
    "PvDer.RT.C35_frequency_trip_raises",
    "PvDer.RT.C35_frequency_trip_never_disconnects"
   ],
   "note": ""
  },
  {
   "property": "C36",
   "status": "proved",
   "theorems": [
    "PvDer.RT.C36_lf_trip_iff",
    "PvDer.RT.C36_sustained_low_frequency_trips"
   ],
   "note": ""
  },
  {
   "property": "C37",
   "status": "proved",
   "theorems": [
    "PvDer.VoltVar.C37_qlimit_capability",
    "PvDer.VoltVar.C37_qlimit_any_power",
    "PvDer.VoltVar.C37_reference_within_capability",
    "PvDer.VoltVar.C37_held_reference_exceeds_limit"
   ],
   "note": ""
  },
  {
   "property": "C38",
   "status": "proved",
   "theorems": [
    "PvDer.VoltVar.C38_follows_curve",
    "PvDer.VoltVar.C38_corner_points",
    "PvDer.VoltVar.C38_monotone"
   ],
   "note": ""
  },
  {
   "property": "C39",
   "status": "proved",
   "theorems": [
    "PvDer.VoltVar.C39_zero_outside",
    "PvDer.VoltVar.C39_active_inside",
    "PvDer.VoltVar.C39_fringe_holds",
    "PvDer.VoltVar.C39_old_time"
   ],
   "note": ""
  },
  {
   "property": "C40",
   "status": "proved",
   "theorems": [
    "PvDer.VoltVar.C40_reference_bounded"
   ],
   "note": ""
  },
  {
   "property": "C41",
   "status": "proved",
   "theorems": [
    "PvDer.Ramp.C41_ramp_limited",
    "PvDer.Ramp.C41_spec_deterministic",
    "PvDer.Ramp.C41_same_time",
    "PvDer.Ramp.C41_back_in_time_jumps"
   ],
   "note": ""
  },
  {
   "property": "C42",
   "status": "proved",
   "theorems": [
    "PvDer.Ramp.C42_slope_bounded",
    "PvDer.Ramp.C42_reaches_command",
    "PvDer.Ramp.C42_single_phase_never_records",
    "PvDer.Ramp.C42_single_phase_unbounded"
   ],
   "note": ""
  },
  {
   "property": "C43",
   "status": "proved",
   "theorems": [
    "PvDer.VdcRef.C43_add",
    "PvDer.VdcRef.C43_canonical_feasible",
    "PvDer.VdcRef.C43_one_instance",
    "PvDer.VdcRef.C43_shared_between_instances",
    "PvDer.VdcRef.C43_shared_breaks_counter"
   ],
   "note": ""
  },
  {
   "property": "C44",
   "status": "proved",
   "theorems": [
    "PvDer.VdcRef.C44_playback",
    "PvDer.VdcRef.C44_no_future",
    "PvDer.VdcRef.C44_total_matches"
   ],
   "note": ""
  },
  {
   "property": "C45",
   "status": "partial",
   "theorems": [
    "PvDer.VdcRef.C45_ramp_partial",
    "PvDer.VdcRef.C45_short_ramp",
    "PvDer.VdcRef.C45_negative_step_always_fails",
    "PvDer.VdcRef.C45_second_ramp_fails",
    "PvDer.VdcRef.C45_refuted"
   ],
   "note": "Proved for the first ramp with a positive stored step, both directions. The second use after a downward ramp always fails (C45_second_ramp_fails), and a negative step always fails (C45_negative_step_always_fails)."
  },
  {
   "property": "C46",
   "status": "proved",
   "theorems": [
    "PvDer.VdcRef.C46_mpp_clamped",
    "PvDer.VdcRef.C46_polyval_cubic",
    "PvDer.VdcRef.C46_inverted_limits",
    "PvDer.VdcRef.C46_mppt_setpoint_not_clamped",
    "PvDer.VdcRef.C46_setpoint_per_unit"
   ],
   "note": ""
  },
  {
   "property": "C47",
   "status": "proved",
   "theorems": [
    "PvDer.Phasor.C47_phase_shift",
    "PvDer.Phasor.C47_angle"
   ],
   "note": ""
  },
  {
   "property": "C48",
   "status": "proved",
   "theorems": [
    "PvDer.Phasor.C48_round_trip_abc",
    "PvDer.Phasor.C48_round_trip_dq0"
   ],
   "note": ""
  },
  {
   "property": "C49",
   "status": "partial",
   "theorems": [
    "PvDer.Phasor.C49_symmetrical_invertible",
    "PvDer.Phasor.C49_symmetrical_surjective",
    "PvDer.Phasor.C49_sequence_sum_partial",
    "PvDer.Phasor.C49_negative_sequence_wrong",
    "PvDer.Phasor.C49_balanced"
   ],
   "note": "Invertibility and surjectivity proved; the sum reproduces phase a always and phases b, c iff the negative sequence vanishes (the iff is C49_sequence_sum_partial / C49_negative_sequence_wrong). The full claim is false of the code."
  },
  {
   "property": "C50",
   "status": "proved",
   "theorems": [
    "PvDer.Phasor.C50_rms_ordered",
    "PvDer.Phasor.C50_balanced",
    "PvDer.Phasor.C50_min_eq_iff"
   ],
   "note": ""
  },
  {
   "property": "C51",
   "status": "proved",
   "theorems": [
    "PvDer.Phasor.C51_limit_complex",
    "PvDer.Phasor.C51_limit_complex_default",
    "PvDer.Phasor.C51_bad_limits",
    "PvDer.Phasor.C51_negative_high"
   ],
   "note": ""
  },
  {
   "property": "C52",
   "status": "proved",
   "theorems": [
    "PvDer.Phasor.C52_three_phase_power",
    "PvDer.Phasor.C52_dq_power",
    "PvDer.Phasor.C52_park_power"
   ],
   "note": ""
  },
  {
   "property": "C53",
   "status": "proved",
   "theorems": [
    "PvDer.Phasor.C53_pll_input",
    "PvDer.Phasor.C53_pll_lock",
    "PvDer.Phasor.C53_pll_three_phase",
    "PvDer.Phasor.C53_pll_unbalanced",
    "PvDer.Phasor.C53_frequency"
   ],
   "note": ""
  },
  {
   "property": "C54",
   "status": "proved",
   "theorems": [
    "PvDer.Circuit.C54_kirchhoff",
    "PvDer.Circuit.C54_denominator",
    "PvDer.Circuit.C54_single_phase_other",
    "PvDer.Circuit.C54_external"
   ],
   "note": ""
  },
  {
   "property": "C55",
   "status": "proved",
   "theorems": [
    "PvDer.Circuit.C55_power_balance",
    "PvDer.Circuit.C55_losses_nonneg",
    "PvDer.Circuit.C55_three_phase"
   ],
   "note": ""
  },
  {
   "property": "C56",
   "status": "proved",
   "theorems": [
    "PvDer.PV.C56_photocurrent",
    "PvDer.PV.C56_nonneg",
    "PvDer.PV.C56_positive_iff",
    "PvDer.PV.C56_zero_outside",
    "PvDer.PV.C56_monotone_insolation",
    "PvDer.PV.C56_default_module",
    "PvDer.PV.C56_class_constants"
   ],
   "note": ""
  },
  {
   "property": "C57",
   "status": "proved",
   "theorems": [
    "PvDer.Ode.C57_antiwindup_single_phase",
    "PvDer.Ode.C57_antiwindup_three_phase",
    "PvDer.Ode.C57_antiwindup_no_filter",
    "PvDer.Ode.C57_antiwindup_numba",
    "PvDer.Ode.C57_antiwindup_balanced",
    "PvDer.Ode.C57_antiwindup_single_phase_constant_vdc",
    "PvDer.Ode.C57_antiwindup_three_phase_constant_vdc"
   ],
   "note": ""
  },
  {
   "property": "C58",
   "status": "partial",
   "theorems": [
    "PvDer.Ode.SinglePhase.C58_single_phase_jacobian_partial",
    "PvDer.Ode.SinglePhase.C58_total_derivative",
    "PvDer.Ode.SinglePhase.C58_wrong_sign",
    "PvDer.Ode.SinglePhase.C58_wrong_entry",
    "PvDer.Ode.SinglePhase.C58_history_independent"
   ],
   "note": "Every entry except (iaI,wte) proved to be the exact partial derivative; that entry has the wrong sign in the code (C58_wrong_sign)."
  },
  {
   "property": "C59",
   "status": "partial",
   "theorems": [
    "PvDer.Ode.ThreePhase.C59_three_phase_jacobian_partial",
    "PvDer.Ode.ThreePhase.C59_exact_constant",
    "PvDer.Ode.ThreePhase.C59_exact_rows",
    "PvDer.Ode.ThreePhase.C59_filter_entry_missing",
    "PvDer.Ode.ThreePhase.C59_history_independent",
    "PvDer.Ode.ThreePhaseNoVrmsFilter.C59_no_filter_jacobian"
   ],
   "note": "Every entry except (Vrms_filter,Vrms_filter) proved (up to the decimal truncation of sqrt(3)/2, exactly for the model with the exact constant, C59_exact_constant); that entry is left zero in the code (C59_filter_entry_missing)."
  },
  {
   "property": "C60",
   "status": "proved",
   "theorems": [
    "PvDer.Ode.C60_dc_link_no_filter",
    "PvDer.Ode.C60_dc_link_numba",
    "PvDer.Ode.C60_dc_link_balanced",
    "PvDer.Ode.C60_example",
    "PvDer.Ode.C60_dc_link_single",
    "PvDer.Ode.C60_dc_link_three",
    "PvDer.Ode.C60_dc_link_all"
   ],
   "note": ""
  },
  {
   "property": "C61",
   "status": "proved",
   "theorems": [
    "PvDer.Ode.C61_steady_state_no_filter",
    "PvDer.Ode.C61_steady_state_numba",
    "PvDer.Ode.C61_steady_state_balanced",
    "PvDer.Ode.C61_steady_state_single_constant_vdc",
    "PvDer.Ode.C61_steady_state_three_constant_vdc",
    "PvDer.Ode.C61_frequency_lock_three",
    "PvDer.Ode.C61_frequency_lock_no_filter",
    "PvDer.Ode.C61_frequency_lock_numba",
    "PvDer.Ode.C61_frequency_lock_balanced",
    "PvDer.Ode.C61_frequency_lock_single_constant_vdc",
    "PvDer.Ode.C61_frequency_lock_three_constant_vdc",
    "PvDer.Ode.C61_steady_state_single",
    "PvDer.Ode.C61_frequency_lock",
    "PvDer.Ode.C61_steady_state_three"
   ],
   "note": ""
  },
  {
   "property": "C62",
   "status": "proved",
   "theorems": [
    "PvDer.Sim.C62_order",
    "PvDer.Sim.C62_jacobian_order",
    "PvDer.Sim.C62_columns",
    "PvDer.Sim.C62_initial",
    "PvDer.Sim.C62_initial_example"
   ],
   "note": ""
  },
  {
   "property": "C63",
   "status": "partial",
   "theorems": [
    "PvDer.Sim.C63_continues",
    "PvDer.Sim.C63_three_phase_partial",
    "PvDer.Sim.C63_three_phase_stale",
    "PvDer.Sim.C63_three_phase_stale_example",
    "PvDer.Sim.C63_two_calls",
    "PvDer.Sim.C63_after_get_trajectories",
    "PvDer.Sim.C63_split_run",
    "PvDer.Sim.C63_split_run_example"
   ],
   "note": "Proved for every class but the one with an RMS filter state; for that class all but the last entry (C63_three_phase_partial) and the last entry is provably stale (C63_three_phase_stale)."
  },
  {
   "property": "C64",
   "status": "proved",
   "theorems": [
    "PvDer.Sim.C64_content",
    "PvDer.Sim.C64_keys",
    "PvDer.Sim.C64_lengths",
    "PvDer.Sim.C64_nothing_collected",
    "PvDer.Sim.C64_time_strictly_increasing",
    "PvDer.Sim.C64_example"
   ],
   "note": ""
  },
  {
   "property": "C65",
   "status": "proved",
   "theorems": [
    "PvDer.Grid.C65_unbalance_kept",
    "PvDer.Grid.C65_magnitudes",
    "PvDer.Grid.C65_change_only_forward",
    "PvDer.Grid.C65_times_monotone",
    "PvDer.Grid.C65_follows",
    "PvDer.Grid.C65_phasor",
    "PvDer.Grid.C65_rms_at_construction",
    "PvDer.Grid.C65_end_to_end",
    "PvDer.Grid.C65_step_back_ignored",
    "PvDer.Grid.C65_rms_not_updated",
    "PvDer.Grid.C65_example"
   ],
   "note": ""
  },
  {
   "property": "C66",
   "status": "partial",
   "theorems": [
    "PvDer.Config.C66_precedence",
    "PvDer.Config.C66_types",
    "PvDer.Config.C66_wrong_type_rejected",
    "PvDer.Config.C66_setup",
    "PvDer.Config.C66_arguments",
    "PvDer.Config.C66_unlisted_keyword_ignored",
    "PvDer.Config.C66_overridable",
    "PvDer.Config.C66_all_declared",
    "PvDer.Config.C66_accepts",
    "PvDer.Config.C66_kinds",
    "PvDer.Config.C66_impedance",
    "PvDer.Config.C66_wrong_kwarg_accepted",
    "PvDer.Config.C66_kwarg_ignored",
    "PvDer.Config.C66_parent_unusable",
    "PvDer.Config.C66_setup_partial"
   ],
   "note": "Resolution step proved for all four sources. The whole set-up has the claim only for parent-free configurations and listed keywords; named parents always end in AttributeError, unlisted keywords are ignored, and wrong-typed keywords are dropped silently (all refutations universally quantified or by witness)."
  },
  {
   "property": "C67",
   "status": "proved",
   "theorems": [
    "PvDer.Config.C67_source",
    "PvDer.Config.C67_fill",
    "PvDer.Config.C67_delays",
    "PvDer.Config.C67_complete",
    "PvDer.Config.C67_inline_wins",
    "PvDer.Config.C67_dangling",
    "PvDer.Config.C67_defaults_pass",
    "PvDer.Config.C67_precedence",
    "PvDer.Config.C67_check_rejects",
    "PvDer.Config.C67_check_total"
   ],
   "note": ""
  },
  {
   "property": "C68",
   "status": "partial",
   "theorems": [
    "PvDer.Config.C68_dispatch_partial",
    "PvDer.Config.C68_short_names_rejected"
   ],
   "note": "Exact characterisation of the dispatch for every string; false for two class names, which raise NameError, and for all documented short names, which raise ValueError."
  },
  {
   "property": "C69",
   "status": "proved",
   "theorems": [
    "PvDer.Config.C69_check_voltage",
    "PvDer.Config.C69_error"
   ],
   "note": ""
  },
  {
   "property": "C70",
   "status": "proved",
   "theorems": [
    "PvDer.Params.C70_example",
    "PvDer.Params.C70_other_ids",
    "PvDer.Params.C70_update",
    "PvDer.Params.C70_unknown_type",
    "PvDer.Params.C70_unknown_parameter_accepted",
    "PvDer.Params.C70_initialize",
    "PvDer.Params.C70_initialize_from_self",
    "PvDer.Params.C70_create_needs_default",
    "PvDer.Params.C70_get_all",
    "PvDer.Params.C70_get_one"
   ],
   "note": ""
  },
  {
   "property": "C71",
   "status": "proved",
   "theorems": [
    "PvDer.Params.C71_round_trip",
    "PvDer.Params.C71_types_merged",
    "PvDer.Params.C71_dotted_name",
    "PvDer.Params.C71_load_failure",
    "PvDer.Params.C71_save_other_format"
   ],
   "note": ""
  },
  {
   "property": "C72",
   "status": "proved",
   "theorems": [
    "PvDer.Circuit.C72_base_consistent",
    "PvDer.Circuit.C72_per_unit_laws",
    "PvDer.Circuit.C72_default_positive"
   ],
   "note": ""
  },
  {
   "property": "C73",
   "status": "proved",
   "theorems": [
    "PvDer.Plot.C73_labels",
    "PvDer.Plot.C73_available",
    "PvDer.Plot.C73_failures",
    "PvDer.Plot.C73_all_phases_shows_one",
    "PvDer.Plot.C73_units",
    "PvDer.Plot.C73_compare",
    "PvDer.Plot.C73_compare_example"
   ],
   "note": ""
  },
  {
   "property": "C74",
   "status": "proved",
   "theorems": [
    "PvDer.PV.C74_root_is_maximum",
    "PvDer.PV.C74_root_unique",
    "PvDer.PV.C74_root_exists"
   ],
   "note": ""
  },
  {
   "property": "C75",
   "status": "proved",
   "theorems": [
    "PvDer.Ode.ThreePhaseNumba.C75_numba_same_derivatives",
    "PvDer.Ode.ThreePhaseNumba.C75_numba_same_derivatives_disconnected",
    "PvDer.Ode.ThreePhaseNumba.C75_numba_same_jacobian",
    "PvDer.Ode.ThreePhaseNumba.C75_numba_same_layout",
    "PvDer.Ode.ThreePhaseNumba.C75_same_as_three_phase",
    "PvDer.Numba.C75_kernels_same_derivatives",
    "PvDer.Numba.C75_kernels_same_derivatives_disconnected",
    "PvDer.Numba.C75_kernels_same_attributes",
    "PvDer.Numba.C75_utilities_agree",
    "PvDer.Numba.C75_relative_phase_degrees",
    "PvDer.Numba.C75_line_voltage",
    "PvDer.Numba.C75_stand_alone_sums",
    "PvDer.Numba.C75_limit_complex",
    "PvDer.Numba.C75_ppv"
   ],
   "note": ""
  },
  {
   "property": "C76",
   "status": "proved",
   "theorems": [
    "PvDer.Ode.C76_same_quantities",
    "PvDer.Ode.C76_common_rows",
    "PvDer.Ode.C76_derivatives",
    "PvDer.Ode.C76_solution_lifts",
    "PvDer.Ode.C76_saturated_differs"
   ],
   "note": ""
  },
  {
   "property": "C77",
   "status": "partial",
   "theorems": [
    "PvDer.Ode.ThreePhaseBalanced.C77_balanced_partial",
    "PvDer.Ode.ThreePhaseBalanced.C77_balanced_exact",
    "PvDer.Ode.ThreePhaseBalanced.C77_balanced_factor_three",
    "PvDer.Ode.ThreePhaseBalanced.C77_balanced_wrong",
    "PvDer.Ode.ThreePhaseBalanced.C77_balanced_uaI_iaI",
    "PvDer.Ode.SinglePhaseConstantVdc.C77_const_vdc_single_partial",
    "PvDer.Ode.SinglePhaseConstantVdc.C77_const_vdc_single_active_power",
    "PvDer.Ode.SinglePhaseConstantVdc.C77_const_vdc_single_wrong",
    "PvDer.Ode.SinglePhaseConstantVdc.C77_const_vdc_single_sign",
    "PvDer.Ode.ThreePhaseConstantVdc.C77_const_vdc_three_partial",
    "PvDer.Ode.ThreePhaseConstantVdc.C77_const_vdc_three_derivatives",
    "PvDer.Ode.ThreePhaseConstantVdc.C77_const_vdc_three_active_power",
    "PvDer.Ode.ThreePhaseConstantVdc.C77_const_vdc_three_reactive_power",
    "PvDer.Ode.ThreePhaseConstantVdc.C77_const_vdc_three_pll"
   ],
   "note": "Exact list of right and wrong entries for the balanced and both constant-Vdc classes; the wrong entries are refuted with the exact discrepancy."
  },
  {
   "property": "C78",
   "status": "proved",
   "theorems": [
    "PvDer.Ode.C78_energy_no_filter",
    "PvDer.Ode.C78_energy_numba",
    "PvDer.Ode.C78_energy_balanced",
    "PvDer.Ode.C78_energy_single_constant_vdc",
    "PvDer.Ode.C78_energy_three_constant_vdc",
    "PvDer.Ode.C78_example",
    "PvDer.Ode.C78_energy_single",
    "PvDer.Ode.C78_energy_three"
   ],
   "note": ""
  },
  {
   "property": "C79",
   "status": "partial",
   "theorems": [
    "PvDer.Sim.C79_single_phase",
    "PvDer.Sim.C79_single_phase_constant_vdc",
    "PvDer.Sim.C79_three_phase",
    "PvDer.Sim.C79_no_filter",
    "PvDer.Sim.C79_numba",
    "PvDer.Sim.C79_three_phase_constant_vdc",
    "PvDer.Sim.C79_balanced",
    "PvDer.Sim.C79_filtered_rms",
    "PvDer.Sim.C79_standalone_lv",
    "PvDer.Sim.C79_standalone_hv",
    "PvDer.Sim.C79_standalone_grid_power_single",
    "PvDer.Sim.C79_grid_power_series_wrong",
    "PvDer.Sim.C79_load_power_series",
    "PvDer.Sim.C79_grid_power_series_factor",
    "PvDer.Sim.C79_grid_power_series_example"
   ],
   "note": "The three-phase stand-alone grid power series is wrong in the code (C79_grid_power_series_wrong); all other series are proved."
  },
  {
   "property": "C80",
   "status": "proved",
   "theorems": [
    "PvDer.Sim.C80_grid",
    "PvDer.Sim.C80_example",
    "PvDer.Sim.C80_bounds",
    "PvDer.Sim.C80_second_solver_unavailable"
   ],
   "note": ""
  },
  {
   "property": "C81",
   "status": "proved",
   "theorems": [
    "PvDer.Sim.C81_accepts",
    "PvDer.Sim.C81_rejects",
    "PvDer.Sim.C81_voltages"
   ],
   "note": ""
  },
  {
   "property": "C82",
   "status": "partial",
   "theorems": [
    "PvDer.Config.C82_single_phase_unconstructible",
    "PvDer.Config.C82_three_phase_specs_partial",
    "PvDer.Config.C82_wrapper_classes",
    "PvDer.Config.C82_wrapper_named",
    "PvDer.Config.C82_constructs",
    "PvDer.Config.C82_wrapper_constructs",
    "PvDer.Config.C82_example",
    "PvDer.Config.C82_example_args"
   ],
   "note": "Proved for all five three-phase classes (C82_constructs) and for the three classes the wrapper can give (C82_wrapper_constructs), for every file, complete configuration and argument set. False for the single-phase classes (C82_single_phase_unconstructible) and for the wrapper with the other four (C82_wrapper_classes). The model ends at initialize_grid_measurements; later steps of the constructor are the subject of C89-C92."
  },
  {
   "property": "C83",
   "status": "proved",
   "theorems": [
    "PvDer.Config.C83_standalone_grid",
    "PvDer.Config.C83_external_grid"
   ],
   "note": ""
  },
  {
   "property": "C84",
   "status": "proved",
   "theorems": [
    "PvDer.Config.C84_initial_state_keywords_ignored",
    "PvDer.Config.C84_xQ0_refuted"
   ],
   "note": ""
  },
  {
   "property": "C85",
   "status": "partial",
   "theorems": [
    "PvDer.RT.C85_own_table_independent",
    "PvDer.RT.C85_disabled_independent",
    "PvDer.RT.C85_voltage_independent",
    "PvDer.RT.C85_shared_table_refuted",
    "PvDer.RT.C85_shared_table_masks_trip",
    "PvDer.RT.C85_independent_partial"
   ],
   "note": "Proved when the frequency tables are distinct objects or the frequency logic is off, for every interleaving; false with the default shared table (C85_shared_table_refuted)."
  },
  {
   "property": "C86",
   "status": "proved",
   "theorems": [
    "PvDer.RT.C86_on",
    "PvDer.RT.C86_off_noop",
    "PvDer.RT.C86_not_restored",
    "PvDer.RT.C86_affects_sharers",
    "PvDer.RT.C86_affects_defaults",
    "PvDer.RT.C86_others_unaffected"
   ],
   "note": ""
  },
  {
   "property": "C87",
   "status": "proved",
   "theorems": [
    "PvDer.RT.C87_lv_cessation_exact",
    "PvDer.RT.C87_hv_cessation_exact"
   ],
   "note": ""
  },
  {
   "property": "C88",
   "status": "proved",
   "theorems": [
    "PvDer.Ode.SS.C88_single_exact",
    "PvDer.Ode.SS.C88_unbalanced_exact",
    "PvDer.Ode.SS.C88_unbalanced_points",
    "PvDer.Ode.SS.C88_unbalanced_points_other",
    "PvDer.Ode.SS.C88_balance_term_vanishes",
    "PvDer.Ode.SS.C88_balance_term_at_zero",
    "PvDer.Ode.SS.C88_rotating_single",
    "PvDer.Ode.SS.C88_operating_point_exists",
    "PvDer.Ode.SS.C88_stand_alone_pll_not_at_rest",
    "PvDer.Ode.SS.C88_operating_point_exists_three",
    "PvDer.Ode.SS.C88_rotating_three",
    "PvDer.Ode.SS.C88_rotating_no_filter",
    "PvDer.Ode.SS.C88_rotating_numba",
    "PvDer.Ode.SS.C88_steady_single",
    "PvDer.Ode.SS.C88_steady_single_constant_Vdc",
    "PvDer.Ode.SS.C88_steady_three",
    "PvDer.Ode.SS.C88_balanced_option_currents",
    "PvDer.Ode.SS.C88_balanced_option_needs_balanced_grid",
    "PvDer.Ode.SS.C88_steady_balanced",
    "PvDer.Ode.SS.C88_steady_three_constant_Vdc",
    "PvDer.Ode.SS.C88_rotating_balanced",
    "PvDer.Ode.SS.C88_rotating_single_constant_Vdc",
    "PvDer.Ode.SS.C88_rotating_three_constant_Vdc"
   ],
   "note": ""
  },
  {
   "property": "C89",
   "status": "proved",
   "theorems": [
    "PvDer.FreqEst.C89_example",
    "PvDer.FreqEst.C89_estimate_telescopes",
    "PvDer.FreqEst.C89_estimate_from_angle",
    "PvDer.FreqEst.C89_estimate_bounded",
    "PvDer.FreqEst.C89_constant_angle",
    "PvDer.FreqEst.C89_frequency_offset_accumulates",
    "PvDer.FreqEst.C89_offset_wrong",
    "PvDer.FreqEst.C89_wrap",
    "PvDer.FreqEst.C89_source"
   ],
   "note": ""
  },
  {
   "property": "C90",
   "status": "proved",
   "theorems": [
    "PvDer.Ratings.C90_rated_power",
    "PvDer.Ratings.C90_rated_power_phasors",
    "PvDer.Ratings.C90_reference_voltage",
    "PvDer.Ratings.C90_current_limit",
    "PvDer.Ratings.C90_ramp_gradients",
    "PvDer.Ratings.C90_filter",
    "PvDer.Ratings.C90_transformer",
    "PvDer.Ratings.C90_load_inductance_wrong",
    "PvDer.Ratings.C90_no_load",
    "PvDer.Ratings.C90_turns_ratio"
   ],
   "note": ""
  },
  {
   "property": "C91",
   "status": "proved",
   "theorems": [
    "PvDer.Ratings.C91_example",
    "PvDer.Ratings.C91_capacitor_message",
    "PvDer.Ratings.C91_inductor_message_inverted"
   ],
   "note": ""
  },
  {
   "property": "C92",
   "status": "partial",
   "theorems": [
    "PvDer.Ratings.C92_output_power_partial",
    "PvDer.Ratings.C92_other_three_phase_wrong",
    "PvDer.Ratings.C92_filter_loss_steady",
    "PvDer.Ratings.C92_filter_loss_transient"
   ],
   "note": "Output power errors proved zero for single-phase classes and SolarPVDERThreePhase; for the other three-phase classes the printed error is exactly two thirds of the power (C92_other_three_phase_wrong). Filter loss error: zero in steady state, not in transients (C92_filter_loss_transient)."
  },
  {
   "property": "C93",
   "status": "proved",
   "theorems": [
    "PvDer.Eval.C93_pv_power_follows_schedule",
    "PvDer.Eval.C93_C94_example"
   ],
   "note": ""
  },
  {
   "property": "C94",
   "status": "proved",
   "theorems": [
    "PvDer.Eval.C94_load_follows_schedule",
    "PvDer.Eval.C94_jacobian_keeps_load",
    "PvDer.Eval.C94_numba_load_change_raises",
    "PvDer.Eval.C94_numba_example"
   ],
   "note": ""
  },
  {
   "property": "C95",
   "status": "proved",
   "theorems": [
    "PvDer.Eval.C95_derivative_history_free",
    "PvDer.Eval.C95_derivative_with_schedule",
    "PvDer.Eval.C95_example",
    "PvDer.Eval.C95_history_matters_after_trip"
   ],
   "note": ""
  },
  {
   "property": "C96",
   "status": "proved",
   "theorems": [
    "PvDer.Eval.C96_sees_minimum",
    "PvDer.Eval.C96_sees_average",
    "PvDer.Eval.C96_sees_single",
    "PvDer.Eval.C96_sees_balanced",
    "PvDer.Eval.C96_sees_filtered",
    "PvDer.Eval.C96_lv_trip_iff",
    "PvDer.Eval.C96_hv_trip_iff",
    "PvDer.Eval.C96_healthy_stays_connected",
    "PvDer.Eval.C96_trip_cuts_output",
    "PvDer.Eval.C96_example"
   ],
   "note": ""
  },
  {
   "property": "C97",
   "status": "proved",
   "theorems": [
    "PvDer.Eval.C97_references_after_reconnection",
    "PvDer.Eval.C97_undisturbed",
    "PvDer.Eval.C97_soft_start",
    "PvDer.Eval.C97_example"
   ],
   "note": ""
  },
  {
   "property": "C98",
   "status": "proved",
   "theorems": [
    "PvDer.Eval.C98_filtered_frozen",
    "PvDer.Eval.C98_filtered_blind",
    "PvDer.Eval.C98_filtered_never_trips",
    "PvDer.Eval.C98_bad_measurement_raises",
    "PvDer.Eval.C98_unused_measurement_harmless",
    "PvDer.Eval.C98_example"
   ],
   "note": ""
  },
  {
   "property": "C99",
   "status": "proved",
   "theorems": [
    "PvDer.Eval.C99_no_exception",
    "PvDer.Eval.C99_events_good"
   ],
   "note": ""
  },
  {
   "property": "C100",
   "status": "proved",
   "theorems": [
    "PvDer.Naming.C100_name_determines_instance",
    "PvDer.Naming.C100_names_unique",
    "PvDer.Naming.C100_name_form",
    "PvDer.Naming.C100_example"
   ],
   "note": ""
  },
  {
   "property": "C101",
   "status": "partial",
   "theorems": [
    "PvDer.SimInit.C101_accepts_partial",
    "PvDer.SimInit.C101_rejects_with_ValueError",
    "PvDer.SimInit.C101_second_solver_never_works",
    "PvDer.SimInit.C101_unknown_solver",
    "PvDer.SimInit.C101_example"
   ],
   "note": "Proved for the default solver. False for the other two kinds of solver argument: ode-vode-bdf always raises AttributeError (C101_second_solver_never_works) and an unknown solver raises AttributeError instead of the AssertionError with its message (C101_unknown_solver)."
  },
  {
   "property": "C102",
   "status": "proved",
   "theorems": [
    "PvDer.Session.C102_failure_reported",
    "PvDer.Session.C102_success_reported",
    "PvDer.Session.C102_exception_propagates",
    "PvDer.Session.C102_example"
   ],
   "note": ""
  },
  {
   "property": "C103",
   "status": "proved",
   "theorems": [
    "PvDer.Session.C103_grid_starts_with_last_voltage",
    "PvDer.Session.C103_next_run_starts_at_last_evaluation",
    "PvDer.Session.C103_failed_run_keeps_counters",
    "PvDer.Session.C103_failed_run_desynchronises",
    "PvDer.Session.C103_grid_memory",
    "PvDer.Session.C103_example",
    "PvDer.Session.C103_counters_reset",
    "PvDer.Session.C103_every_run_follows_schedule",
    "PvDer.Session.C103_every_run_follows_load"
   ],
   "note": "The exceptions named in the statement are theorems: C103_grid_starts_with_last_voltage and witness C103_grid_memory, C103_next_run_starts_at_last_evaluation, C103_failed_run_keeps_counters and witness C103_failed_run_desynchronises."
  },
  {
   "property": "C104",
   "status": "proved",
   "theorems": [
    "PvDer.Session.C104_weather_series",
    "PvDer.Session.C104_grid_and_load_series",
    "PvDer.Session.C104_example",
    "PvDer.Session.C104_loop_mode_refuted"
   ],
   "note": "Outside loop mode. In loop mode the claim is false: C104_loop_mode_refuted."
  },
  {
   "property": "C105",
   "status": "proved",
   "theorems": [
    "PvDer.Session.C105_no_exception",
    "PvDer.Session.C105_example"
   ],
   "note": ""
  },
  {
   "property": "C106",
   "status": "proved",
   "theorems": [
    "PvDer.Session.C106_reported_voltages_agree",
    "PvDer.Session.C106_frequency_input",
    "PvDer.Session.C106_balanced_class_differs",
    "PvDer.Session.C106_reported_pv_power",
    "PvDer.Session.C106_external_voltages_reported",
    "PvDer.Session.C106_grid_left_at_last_sample",
    "PvDer.Session.C106_example"
   ],
   "note": "The balanced class on an unbalanced source is excluded; there the difference is computed by C106_balanced_class_differs."
  },
  {
   "property": "C107",
   "status": "proved",
   "theorems": [
    "PvDer.Session.C107_run_is_history_free",
    "PvDer.Session.C107_with_jacobian",
    "PvDer.Session.C107_same_solution",
    "PvDer.Session.C107_example"
   ],
   "note": ""
  },
  {
   "property": "C108",
   "status": "proved",
   "theorems": [
    "PvDer.Ode.C108_pll_locks_single",
    "PvDer.Ode.C108_pll_locks_single_constant_vdc",
    "PvDer.Ode.C108_pll_locks_three",
    "PvDer.Ode.C108_pll_locks_three_no_filter",
    "PvDer.Ode.C108_pll_locks_three_numba",
    "PvDer.Ode.C108_pll_locks_three_constant_vdc",
    "PvDer.Ode.C108_pll_locks_balanced",
    "PvDer.Ode.C108_needs_damping",
    "PvDer.Ode.C108_example"
   ],
   "note": ""
  },
  {
   "property": "C109",
   "status": "proved",
   "theorems": [
    "PvDer.Ode.C109_filter_between",
    "PvDer.Ode.C109_step_response",
    "PvDer.Ode.C109_detection_delay",
    "PvDer.Ode.C109_recovery_delay",
    "PvDer.Ode.C109_example"
   ],
   "note": ""
  },
  {
   "property": "C110",
   "status": "proved",
   "theorems": [
    "PvDer.Ode.C110_stays_balanced_three",
    "PvDer.Ode.C110_stays_balanced_three_no_filter",
    "PvDer.Ode.C110_stays_balanced_three_numba",
    "PvDer.Ode.C110_stays_balanced_three_constant_vdc",
    "PvDer.Ode.C110_is_balanced_model",
    "PvDer.Ode.SS.C110_example"
   ],
   "note": ""
  },
  {
   "property": "C111",
   "status": "proved",
   "theorems": [
    "PvDer.Ode.C111_no_windup_single",
    "PvDer.Ode.C111_no_windup_single_constant_vdc",
    "PvDer.Ode.C111_no_windup_three",
    "PvDer.Ode.C111_no_windup_three_no_filter",
    "PvDer.Ode.C111_no_windup_three_numba",
    "PvDer.Ode.C111_no_windup_balanced",
    "PvDer.Ode.C111_no_windup_three_constant_vdc",
    "PvDer.Ode.C111_example"
   ],
   "note": ""
  },
  {
   "property": "C112",
   "status": "proved",
   "theorems": [
    "PvDer.Ode.C112_current_dies_single",
    "PvDer.Ode.C112_current_dies_three",
    "PvDer.Ode.C112_current_dies_three_no_filter",
    "PvDer.Ode.C112_current_dies_three_numba",
    "PvDer.Ode.C112_current_dies_balanced",
    "PvDer.Ode.C112_current_dies_single_constant_vdc",
    "PvDer.Ode.C112_current_dies_three_constant_vdc",
    "PvDer.Ode.C112_settles_single",
    "PvDer.Ode.C112_settles_three",
    "PvDer.Ode.C112_settles_three_no_filter",
    "PvDer.Ode.C112_settles_three_numba",
    "PvDer.Ode.C112_settles_balanced",
    "PvDer.Ode.C112_settles_single_constant_vdc",
    "PvDer.Ode.C112_settles_three_constant_vdc",
    "PvDer.Ode.C112_example"
   ],
   "note": ""
  },
  {
   "property": "C113",
   "status": "proved",
   "theorems": [
    "PvDer.Ode.C113_depends_single",
    "PvDer.Ode.C113_unique_single",
    "PvDer.Ode.C113_starts_single",
    "PvDer.Ode.C113_exists_single",
    "PvDer.Ode.C113_depends_three",
    "PvDer.Ode.C113_unique_three",
    "PvDer.Ode.C113_starts_three",
    "PvDer.Ode.C113_exists_three",
    "PvDer.Ode.C113_depends_three_no_filter",
    "PvDer.Ode.C113_unique_three_no_filter",
    "PvDer.Ode.C113_starts_three_no_filter",
    "PvDer.Ode.C113_exists_three_no_filter",
    "PvDer.Ode.C113_depends_three_numba",
    "PvDer.Ode.C113_unique_three_numba",
    "PvDer.Ode.C113_starts_three_numba",
    "PvDer.Ode.C113_exists_three_numba",
    "PvDer.Ode.C113_depends_balanced",
    "PvDer.Ode.C113_unique_balanced",
    "PvDer.Ode.C113_starts_balanced",
    "PvDer.Ode.C113_exists_balanced",
    "PvDer.Ode.C113_depends_single_constant_vdc",
    "PvDer.Ode.C113_unique_single_constant_vdc",
    "PvDer.Ode.C113_starts_single_constant_vdc",
    "PvDer.Ode.C113_exists_single_constant_vdc",
    "PvDer.Ode.C113_depends_three_constant_vdc",
    "PvDer.Ode.C113_unique_three_constant_vdc",
    "PvDer.Ode.C113_starts_three_constant_vdc",
    "PvDer.Ode.C113_exists_three_constant_vdc",
    "PvDer.Ode.C113_example_start",
    "PvDer.Ode.C113_example_unique"
   ],
   "note": ""
  },
  {
   "property": "C114",
   "status": "proved",
   "theorems": [
    "PvDer.Ode.SS.C114_unbalance_largest_difference",
    "PvDer.Ode.SS.C114_unbalance",
    "PvDer.Ode.SS.C114_unbalance_example",
    "PvDer.Ode.SS.C114_relative_phase_range",
    "PvDer.Ode.SS.C114_relative_phase_turns",
    "PvDer.Ode.SS.C114_relative_phase_invariant",
    "PvDer.Ode.SS.C114_relative_phase_exchange",
    "PvDer.Ode.SS.C114_folded_phase",
    "PvDer.Ode.SS.C114_balance_term_zero_iff",
    "PvDer.Ode.SS.C114_relative_phase_example"
   ],
   "note": ""
  },
  {
   "property": "C115",
   "status": "proved",
   "theorems": [
    "PvDer.SeriesTools.C115_first_sample_below",
    "PvDer.SeriesTools.C115_falling_reports",
    "PvDer.SeriesTools.C115_rising_reports_first_sample",
    "PvDer.SeriesTools.C115_flat_reports_nothing",
    "PvDer.SeriesTools.C115_crossing_bracketed",
    "PvDer.SeriesTools.C115_first_order_underestimates",
    "PvDer.SeriesTools.C115_first_order_report",
    "PvDer.SeriesTools.C115_example",
    "PvDer.SeriesTools.C115_limit_series",
    "PvDer.SeriesTools.C115_limit_series_bounds"
   ],
   "note": ""
  },
  {
   "property": "C116",
   "status": "proved",
   "theorems": [
    "PvDer.Ode.SS.C116_stays_single",
    "PvDer.Ode.SS.C116_near_single",
    "PvDer.Ode.SS.C116_stays_three",
    "PvDer.Ode.SS.C116_near_three",
    "PvDer.Ode.SS.C116_stays_no_filter",
    "PvDer.Ode.SS.C116_near_no_filter",
    "PvDer.Ode.SS.C116_stays_numba",
    "PvDer.Ode.SS.C116_near_numba",
    "PvDer.Ode.SS.C116_stays_balanced",
    "PvDer.Ode.SS.C116_near_balanced",
    "PvDer.Ode.SS.C116_stays_single_constant_Vdc",
    "PvDer.Ode.SS.C116_near_single_constant_Vdc",
    "PvDer.Ode.SS.C116_stays_three_constant_Vdc",
    "PvDer.Ode.SS.C116_near_three_constant_Vdc",
    "PvDer.Ode.SS.C116_example"
   ],
   "note": ""
  },
  {
   "property": "C117",
   "status": "proved",
   "theorems": [
    "PvDer.Ode.C117_settles_single",
    "PvDer.Ode.C117_settles_three",
    "PvDer.Ode.C117_settles_three_no_filter",
    "PvDer.Ode.C117_settles_three_numba",
    "PvDer.Ode.C117_settles_balanced",
    "PvDer.Ode.C117_settles_single_constant_vdc",
    "PvDer.Ode.C117_settles_three_constant_vdc",
    "PvDer.Ode.C117_operating_point_single",
    "PvDer.Ode.C117_operating_point_three",
    "PvDer.Ode.C117_operating_point_three_no_filter",
    "PvDer.Ode.C117_operating_point_three_numba",
    "PvDer.Ode.C117_operating_point_balanced",
    "PvDer.Ode.C117_operating_point_single_constant_vdc",
    "PvDer.Ode.C117_operating_point_three_constant_vdc",
    "PvDer.Ode.C117_example"
   ],
   "note": ""
  },
  {
   "property": "C118",
   "status": "proved",
   "theorems": [
    "PvDer.Ode.C118_tracks_single",
    "PvDer.Ode.C118_tracks_three",
    "PvDer.Ode.C118_tracks_three_no_filter",
    "PvDer.Ode.C118_tracks_three_numba",
    "PvDer.Ode.C118_tracks_balanced",
    "PvDer.Ode.C118_tracks_single_constant_vdc",
    "PvDer.Ode.C118_tracks_three_constant_vdc",
    "PvDer.Ode.C118_steady_grid_single_constant_vdc",
    "PvDer.Ode.C118_steady_grid_three_constant_vdc",
    "PvDer.Ode.C118_example"
   ],
   "note": ""
  },
  {
   "property": "C119",
   "status": "proved",
   "theorems": [
    "PvDer.RT.C119_log_faithful",
    "PvDer.RT.C119_trip_explained",
    "PvDer.RT.C119_trip_iff_logged",
    "PvDer.RT.C119_connection_read",
    "PvDer.RT.C119_disconnection_explained",
    "PvDer.RT.C119_reconnection_explained",
    "PvDer.RT.C119_chronological",
    "PvDer.RT.C119_log_example",
    "PvDer.RT.C119_silent_frequency_zone"
   ],
   "note": ""
  },
  {
   "property": "C120",
   "status": "proved",
   "theorems": [
    "PvDer.Events.C120_solar_step_back",
    "PvDer.Events.C120_load_step_back",
    "PvDer.Events.C120_grid_step_back",
    "PvDer.Events.C120_small_step_back",
    "PvDer.Events.C120_example_steps",
    "PvDer.Events.C120_step_back_shows_future",
    "PvDer.Events.C120_shared_object",
    "PvDer.Eval.C120_pv_power_step_back",
    "PvDer.Eval.C120_example_run"
   ],
   "note": ""
  },
  {
   "property": "C121",
   "status": "proved",
   "theorems": [
    "PvDer.Ode.C121_time_origin_single",
    "PvDer.Ode.C121_time_origin_three",
    "PvDer.Ode.C121_half_periods_three",
    "PvDer.Ode.C121_time_origin_three_no_filter",
    "PvDer.Ode.C121_half_periods_three_no_filter",
    "PvDer.Ode.C121_time_origin_three_numba",
    "PvDer.Ode.C121_half_periods_three_numba",
    "PvDer.Ode.C121_time_origin_balanced",
    "PvDer.Ode.C121_time_origin_single_constant_vdc",
    "PvDer.Ode.C121_time_origin_three_constant_vdc",
    "PvDer.Ode.C121_half_periods_three_constant_vdc",
    "PvDer.Ode.C121_frequency_step_depends_on_time",
    "PvDer.Ode.C121_frequency_step_jump",
    "PvDer.Ode.C121_frequency_step_example",
    "PvDer.Ode.C121_phase_reference_matters",
    "PvDer.Ode.C121_example"
   ],
   "note": ""
  },
  {
   "property": "C122",
   "status": "proved",
   "theorems": [
    "PvDer.LogRead.C122_read_back",
    "PvDer.LogRead.C122_filter",
    "PvDer.LogRead.C122_filter_raises",
    "PvDer.LogRead.C122_entry_per_line",
    "PvDer.LogRead.C122_text_error_blocks",
    "PvDer.LogRead.C122_text_error_messages",
    "PvDer.LogRead.C122_separator_shift",
    "PvDer.LogRead.C122_colon_moves",
    "PvDer.LogRead.C122_line_break_blocks",
    "PvDer.LogRead.C122_exceptions_logged",
    "PvDer.LogRead.C122_exception_places",
    "PvDer.LogRead.C122_example",
    "PvDer.LogRead.C122_unreadable_example",
    "PvDer.LogRead.C122_shift_example"
   ],
   "note": ""
  },
  {
   "property": "C123",
   "status": "proved",
   "theorems": [
    "PvDer.Measured.C123_single_phase",
    "PvDer.Measured.C123_three_phase",
    "PvDer.Measured.C123_balanced",
    "PvDer.Measured.C123_stand_alone",
    "PvDer.Measured.C123_single_phase_line_voltage",
    "PvDer.Measured.C123_measurements_total",
    "PvDer.Measured.C123_model_powers",
    "PvDer.Measured.C123_filter_losses_single",
    "PvDer.Measured.C123_filter_losses_three"
   ],
   "note": ""
  },
  {
   "property": "C124",
   "status": "proved",
   "theorems": [
    "PvDer.Ode.SinglePhaseConstantVdc.C124_rest",
    "PvDer.Ode.SinglePhaseConstantVdc.C124_settles_single_constant_vdc",
    "PvDer.Ode.ThreePhaseNoVrmsFilter.C124_rest_no_filter",
    "PvDer.Ode.ThreePhaseNoVrmsFilter.C124_settles_no_filter",
    "PvDer.Ode.ThreePhaseNumba.C124_rest_numba",
    "PvDer.Ode.ThreePhaseNumba.C124_settles_numba",
    "PvDer.Ode.ThreePhaseConstantVdc.C124_rest_three_constant_vdc",
    "PvDer.Ode.ThreePhaseConstantVdc.C124_settles_three_constant_vdc",
    "PvDer.Ode.ThreePhaseConstantVdc.C124_shipped_three_constant_vdc",
    "PvDer.Ode.ThreePhase.C124_rest_three",
    "PvDer.Ode.ThreePhase.C124_settles_three",
    "PvDer.Ode.ThreePhase.C124_shipped_three_50",
    "PvDer.Ode.ThreePhase.C124_shipped_three_250",
    "PvDer.Ode.ThreePhaseNoVrmsFilter.C124_shipped_no_filter_50",
    "PvDer.Ode.ThreePhaseNoVrmsFilter.C124_shipped_no_filter_250",
    "PvDer.Ode.ThreePhaseNumba.C124_shipped_numba_50",
    "PvDer.Ode.ThreePhaseNumba.C124_shipped_numba_250",
    "PvDer.Ode.SinglePhase.C124_rest_single",
    "PvDer.Ode.SinglePhase.C124_settles_single",
    "PvDer.Ode.ThreePhaseBalanced.C124_rest_balanced",
    "PvDer.Ode.ThreePhaseBalanced.C124_settles_balanced",
    "PvDer.Ode.SinglePhase.C124_shipped_single",
    "PvDer.Ode.ThreePhaseBalanced.C124_shipped_balanced",
    "PvDer.Ode.SinglePhaseConstantVdc.C124_shipped_single_constant_vdc",
    "PvDer.Config.Shipped.C124_from_file_50",
    "PvDer.Config.Shipped.C124_from_file_250",
    "PvDer.Config.Shipped.C124_from_file_no_filter_50",
    "PvDer.Config.Shipped.C124_from_file_no_filter_250",
    "PvDer.Config.Shipped.C124_from_file_balanced",
    "PvDer.Config.Shipped.C124_from_file_three_constant_vdc"
   ],
   "note": ""
  },
  {
   "property": "C125",
   "status": "proved",
   "theorems": [
    "PvDer.JacCheck.C125_verdict",
    "PvDer.Ode.SinglePhase.C125_single",
    "PvDer.Ode.SinglePhase.C125_blind",
    "PvDer.Ode.ThreePhaseBalanced.C125_balanced",
    "PvDer.Ode.ThreePhaseBalanced.C125_balanced_where",
    "PvDer.Ode.ThreePhaseBalanced.C125_balanced_fails",
    "PvDer.Ode.SinglePhaseConstantVdc.C125_const_vdc_single",
    "PvDer.Ode.SinglePhaseConstantVdc.C125_const_vdc_single_where",
    "PvDer.Ode.SinglePhaseConstantVdc.C125_const_vdc_single_fails",
    "PvDer.Ode.ThreePhaseConstantVdc.C125_const_vdc_three",
    "PvDer.Ode.ThreePhaseConstantVdc.C125_const_vdc_three_where",
    "PvDer.Ode.ThreePhaseConstantVdc.C125_const_vdc_three_fails",
    "PvDer.Ode.ThreePhase.C125_three_phase",
    "PvDer.Ode.ThreePhase.C125_three_phase_fails",
    "PvDer.Ode.ThreePhaseNoVrmsFilter.C125_no_filter_passes",
    "PvDer.Ode.ThreePhaseNumba.C125_numba_same"
   ],
   "note": ""
  },
  {
   "property": "C126",
   "status": "proved",
   "theorems": [
    "PvDer.Recorded.C126_rms",
    "PvDer.Recorded.C126_duty_lengths",
    "PvDer.Recorded.C126_rms_lengths",
    "PvDer.Recorded.C126_terminal_voltage",
    "PvDer.Recorded.C126_angles",
    "PvDer.Recorded.C126_balanced_angles",
    "PvDer.Recorded.C126_power_transfer",
    "PvDer.Recorded.C126_lossless_balanced",
    "PvDer.Recorded.C126_resistance_ignored"
   ],
   "note": ""
  },
  {
   "property": "C127",
   "status": "proved",
   "theorems": [
    "PvDer.Eval.C127_first_reconnection",
    "PvDer.Eval.C127_restored_reference",
    "PvDer.Eval.C127_restored",
    "PvDer.Eval.C127_infeasible_voltage_aborts",
    "PvDer.Eval.C127_second_reconnection",
    "PvDer.Eval.C127_example",
    "PvDer.Eval.C127_constant_dc_ignores_schedule",
    "PvDer.Eval.C127_constant_dc_example",
    "PvDer.Eval.C127_only_reconnection_raises",
    "PvDer.Eval.C127_second_example",
    "PvDer.Eval.C127_only_reconnection_example"
   ],
   "note": ""
  },
  {
   "property": "C128",
   "status": "proved",
   "theorems": [
    "PvDer.Eval.C128_reference",
    "PvDer.Eval.C128_within_rating",
    "PvDer.Eval.C128_old_time",
    "PvDer.Eval.C128_bounded",
    "PvDer.Eval.C128_lost_after_disconnection",
    "PvDer.Eval.C128_example"
   ],
   "note": ""
  },
  {
   "property": "C129",
   "status": "proved",
   "theorems": [
    "PvDer.Eval.C129_clocks",
    "PvDer.Eval.C129_frozen",
    "PvDer.Eval.C129_volt_var_on",
    "PvDer.Eval.C129_volt_var_clock",
    "PvDer.Eval.C129_volt_var_frozen",
    "PvDer.Session.C129_second_run_unprotected",
    "PvDer.Session.C129_second_run_volt_var",
    "PvDer.Session.C129_example",
    "PvDer.Session.C129_volt_var_example"
   ],
   "note": ""
  },
  {
   "property": "C130",
   "status": "proved",
   "theorems": [
    "PvDer.Config.C130_starts_fresh",
    "PvDer.Config.C130_lv_trip_as_configured",
    "PvDer.Config.C130_hv_trip_as_configured",
    "PvDer.Config.C130_healthy_as_configured",
    "PvDer.Config.C130_accepted_frequency_levels",
    "PvDer.Config.C130_accepted_settings_feasible",
    "PvDer.Config.C130_cessation_only_if_configured",
    "PvDer.Config.C130_default_lv_trip",
    "PvDer.Config.C130_default_hv_trip",
    "PvDer.Config.C130_delays_as_configured",
    "PvDer.Config.C130_preset_breach_disables",
    "PvDer.Config.C130_example_constructs",
    "PvDer.Config.C130_example_trips"
   ],
   "note": ""
  },
  {
   "property": "C131",
   "status": "proved",
   "theorems": [
    "PvDer.Config.C131_configured",
    "PvDer.Config.C131_accepted_iff",
    "PvDer.Config.C131_constants",
    "PvDer.Config.C131_simulation_constants",
    "PvDer.Config.C131_unused_constants",
    "PvDer.Config.Shipped.C131_shipped_50",
    "PvDer.Config.Shipped.C131_shipped_50_accepted",
    "PvDer.Config.Shipped.C131_shipped_250",
    "PvDer.Config.Shipped.C131_shipped_250_accepted",
    "PvDer.Config.Shipped.C131_shipped_balanced",
    "PvDer.Config.Shipped.C131_shipped_balanced_accepted",
    "PvDer.Config.Shipped.C131_shipped_single",
    "PvDer.Config.Shipped.C131_shipped_single_accepted",
    "PvDer.Config.Shipped.C131_shipped_single_constant_vdc",
    "PvDer.Config.Shipped.C131_shipped_single_constant_vdc_accepted",
    "PvDer.Config.Shipped.C131_shipped_three_constant_vdc",
    "PvDer.Config.Shipped.C131_shipped_three_constant_vdc_accepted",
    "PvDer.Config.Shipped.C131_example",
    "PvDer.Config.Shipped.C131_example_constant_vdc"
   ],
   "note": ""
  },
  {
   "property": "C132",
   "status": "partial",
   "theorems": [
    "PvDer.Config.Shipped.C132_example",
    "PvDer.Config.C132_three_partial",
    "PvDer.Config.C132_no_filter_partial",
    "PvDer.Config.C132_numba_partial",
    "PvDer.Config.C132_balanced_partial",
    "PvDer.Config.C132_single_partial",
    "PvDer.Config.C132_single_constant_vdc_partial",
    "PvDer.Config.C132_three_constant_vdc_partial",
    "PvDer.Config.C132_filter_not_in_seconds",
    "PvDer.Config.C132_link_not_in_seconds",
    "PvDer.Config.C132_energy_three",
    "PvDer.Config.C132_refuted_three"
   ],
   "note": "False as stated: the per-unit inductance and capacitance contain 2\u03c0\u00b760 but the derivatives are not multiplied by it, so the filter and DC link run 2\u03c0\u00b760 times slower than in seconds (C132_*_partial give the exact scaled law for all seven classes, C132_refuted_three and C132_*_not_in_seconds refute the law in seconds)."
  },
  {
   "property": "C133",
   "status": "partial",
   "theorems": [
    "PvDer.Config.Shipped.C133_constructs",
    "PvDer.Config.Shipped.C133_parents_fail",
    "PvDer.Config.Shipped.C133_wrapper_iff",
    "PvDer.Config.Shipped.C133_entries_partial"
   ],
   "note": "Four of the ten shipped DER entries construct (C133_constructs, C133_entries_partial); three fail for their parent reference, three because single-phase classes cannot be constructed; the wrapper gives three (C133_wrapper_iff)."
  },
  {
   "property": "C134",
   "status": "partial",
   "theorems": [
    "PvDer.Config.C134_min_ridethrough_partial",
    "PvDer.Config.C134_default_rides_through",
    "PvDer.Config.Shipped.C134_shipped_lv_trip",
    "PvDer.Config.Shipped.C134_shipped_cessation",
    "PvDer.Config.Shipped.C134_shipped_start",
    "PvDer.Config.Shipped.C134_shipped_trips_early"
   ],
   "note": "Proved for every configuration in which no t_threshold is shorter than the t_min_ridethrough of its level (C134_min_ridethrough_partial), hence for the default settings. False of the shipped settings LVRT_1547cat3 (C134_shipped_trips_early), whose exact behaviour is stated."
  },
  {
   "property": "C135",
   "status": "partial",
   "theorems": [
    "PvDer.Display.C135_module",
    "PvDer.Display.C135_ratings",
    "PvDer.Display.C135_circuit_partial",
    "PvDer.Display.C135_circuit_constVdc",
    "PvDer.Display.C135_gains",
    "PvDer.Display.C135_gains_constVdc",
    "PvDer.Display.C135_unknown",
    "PvDer.Display.C135_all",
    "PvDer.Display.C135_example"
   ],
   "note": "Module, ratings and gains: in full, all classes. Circuit parameters: proved for the classes with a DC link (C135_circuit_partial); in the two constant-Vdc classes the display raises (C135_circuit_constVdc), and so does \"all\"."
  },
  {
   "property": "C136",
   "status": "partial",
   "theorems": [
    "PvDer.Display.C136_three_partial",
    "PvDer.Display.C136_single",
    "PvDer.Display.C136_neutral",
    "PvDer.Display.C136_neutral_wrong",
    "PvDer.Display.C136_unknown"
   ],
   "note": "Proved except that the displayed neutral PCC voltage is that of the inverter terminals: C136_neutral_wrong (exact iff in C136_neutral)."
  },
  {
   "property": "C137",
   "status": "partial",
   "theorems": [
    "PvDer.Display.C137_anomaly_partial",
    "PvDer.Display.C137_anomaly_missed",
    "PvDer.Display.C137_flags",
    "PvDer.Display.C137_flags_healthy",
    "PvDer.Display.C137_settings_lv",
    "PvDer.Display.C137_settings_hv",
    "PvDer.Display.C137_settings_lf",
    "PvDer.Display.C137_per_unit_ignored",
    "PvDer.Display.C137_unknown",
    "PvDer.Display.C137_flags_example",
    "PvDer.Display.C137_example",
    "PvDer.Display.C137_anomaly_refuted"
   ],
   "note": "Proved for settings and flags of low voltage, high voltage and low frequency and for the anomaly report of low-voltage levels whose timer runs (C137_anomaly_partial). False in full: tripped and high-voltage levels are never reported (C137_anomaly_missed, C137_anomaly_refuted), the per-unit switch is ignored (C137_per_unit_ignored), HFRT is rejected (C137_unknown)."
  },
  {
   "property": "C138",
   "status": "proved",
   "theorems": [
    "PvDer.Display.C138_references",
    "PvDer.Display.C138_events"
   ],
   "note": ""
  },
  {
   "property": "C139",
   "status": "partial",
   "theorems": [
    "PvDer.Display.C139_debug_partial",
    "PvDer.Display.C139_debug_other",
    "PvDer.Display.C139_refuted"
   ],
   "note": "Proved for the switches that change nothing (C139_debug_partial); two switches always abort the evaluation and two more do so outside stand-alone operation (C139_refuted)."
  },
  {
   "property": "C140",
   "status": "proved",
   "theorems": [
    "PvDer.Config.C140_constructed_evaluates",
    "PvDer.Config.C140_constructed_session",
    "PvDer.Config.C140_session_after_module",
    "PvDer.Config.Shipped.C140_shipped_start",
    "PvDer.Config.Shipped.C140_shipped_session",
    "PvDer.Config.Shipped.C140_example"
   ],
   "note": ""
  },
  {
   "property": "C141",
   "status": "partial",
   "theorems": [
    "PvDer.PvModule.C141_created_partial",
    "PvDer.PvModule.C141_created_from",
    "PvDer.PvModule.C141_fit_discards_insolation",
    "PvDer.PvModule.C141_fit_points",
    "PvDer.PvModule.C141_table_error",
    "PvDer.PvModule.C141_configured_insolation_unused",
    "PvDer.PvModule.C141_example"
   ],
   "note": "False in full: the polynomial fit leaves every DER at 100 % insolation (C141_fit_discards_insolation) and a simulation never uses the configured insolation (C141_configured_insolation_unused). fsolve and polyfit are arbitrary functions."
  },
  {
   "property": "C142",
   "status": "proved",
   "theorems": [
    "PvDer.Session.C142_no_exception",
    "PvDer.Session.C142_every_run_follows_schedule",
    "PvDer.Session.C142_every_run_follows_load",
    "PvDer.Session.C142_isolated",
    "PvDer.Session.C142_loop_mode_refuted",
    "PvDer.Session.C142_example"
   ],
   "note": ""
  },
  {
   "property": "C143",
   "status": "proved",
   "theorems": [
    "PvDer.Session.C143_no_exception",
    "PvDer.Session.C143_one_history",
    "PvDer.Session.C143_lv_trip_iff",
    "PvDer.Session.C143_hv_trip_iff",
    "PvDer.Session.C143_healthy_stays_connected",
    "PvDer.Session.C143_inputs",
    "PvDer.Session.C143_follows_schedule",
    "PvDer.Session.C143_example",
    "PvDer.Session.C143_example_schedule"
   ],
   "note": ""
  },
  {
   "property": "C144",
   "status": "proved",
   "theorems": [
    "PvDer.RT.C144_lv_trip_iff",
    "PvDer.RT.C144_hv_trip_iff",
    "PvDer.RT.C144_off_means_off",
    "PvDer.RT.C144_trip_latched",
    "PvDer.RT.C144_frequency_irrelevant",
    "PvDer.RT.C144_off_during_cessation",
    "PvDer.RT.C144_example",
    "PvDer.Eval.C144_in_a_simulation",
    "PvDer.Eval.C144_both_off_in_a_simulation",
    "PvDer.Eval.C144_example_simulation"
   ],
   "note": ""
  },
  {
   "property": "C145",
   "status": "proved",
   "theorems": [
    "PvDer.Phasor.C145_phase_power",
    "PvDer.Phasor.C145_three_phase_power",
    "PvDer.Phasor.C145_single_phase_ripple",
    "PvDer.Phasor.C145_balanced_power_constant",
    "PvDer.Phasor.C145_rms",
    "PvDer.Phasor.C145_three_phase_rms",
    "PvDer.Phasor.C145_example"
   ],
   "note": ""
  },
  {
   "property": "C146",
   "status": "proved",
   "theorems": [
    "PvDer.Events.C146_solar",
    "PvDer.Events.C146_load",
    "PvDer.Events.C146_solar_tidy",
    "PvDer.Events.C146_load_tidy",
    "PvDer.Events.C146_example",
    "PvDer.Events.C146_hasty_is_behind"
   ],
   "note": ""
  },
  {
   "property": "C147",
   "status": "proved",
   "theorems": [
    "PvDer.Session.C147_schedule",
    "PvDer.Session.C147_follows_schedule",
    "PvDer.Session.C147_no_exception",
    "PvDer.Session.C147_lv_trip_iff",
    "PvDer.Session.C147_hv_trip_iff",
    "PvDer.Session.C147_example"
   ],
   "note": ""
  },
  {
   "property": "C148",
   "status": "proved",
   "theorems": [
    "PvDer.Events.C148_schedule",
    "PvDer.Events.C148_harmless",
    "PvDer.Events.C148_fatal",
    "PvDer.Events.C148_premature",
    "PvDer.Events.C148_cases",
    "PvDer.Events.C148_reset_repairs",
    "PvDer.Events.C148_example"
   ],
   "note": ""
  },
  {
   "property": "C149",
   "status": "proved",
   "theorems": [
    "PvDer.Ode.C149_within",
    "PvDer.Ode.C149_sun_limit",
    "PvDer.Ode.C149_energy_single",
    "PvDer.Ode.C149_current_single",
    "PvDer.Ode.C149_energy_three",
    "PvDer.Ode.C149_current_three",
    "PvDer.Ode.C149_energy_three_no_filter",
    "PvDer.Ode.C149_current_three_no_filter",
    "PvDer.Ode.C149_energy_three_numba",
    "PvDer.Ode.C149_current_three_numba",
    "PvDer.Ode.C149_energy_balanced",
    "PvDer.Ode.C149_current_balanced",
    "PvDer.Ode.C149_current_single_constant_vdc",
    "PvDer.Ode.C149_current_three_constant_vdc",
    "PvDer.Ode.C149_example",
    "PvDer.Ode.C149_current_example"
   ],
   "note": ""
  },
  {
   "property": "C150",
   "status": "partial",
   "theorems": [
    "PvDer.Ode.C150_open_circuit",
    "PvDer.Ode.C150_ceiling_single_partial",
    "PvDer.Ode.C150_ceiling_three_partial",
    "PvDer.Ode.C150_ceiling_three_no_filter_partial",
    "PvDer.Ode.C150_ceiling_three_numba_partial",
    "PvDer.Ode.C150_ceiling_balanced_partial",
    "PvDer.Ode.C150_feeds_beyond",
    "PvDer.Ode.C150_overcharges",
    "PvDer.Ode.C150_shipped",
    "PvDer.Ode.C150_example"
   ],
   "note": "False in full: the panel power is computed at min(Vdcmpp_max, Vdc), so where the open-circuit voltage is above Vdcmpp_max the panel feeds at every DC voltage (C150_feeds_beyond, C150_overcharges); true of the shipped 10 kVA and 50 kVA modules (C150_shipped), explicit unbounded run in C150_example. Proved where the open-circuit voltage is within the range (C150_ceiling_*_partial), as for the 250 kVA module."
  },
  {
   "property": "C151",
   "status": "partial",
   "theorems": [
    "PvDer.Session.C151_source_follows_schedule",
    "PvDer.Session.C151_last_change",
    "PvDer.Session.C151_no_exception",
    "PvDer.Session.C151_follows_beyond",
    "PvDer.Session.C151_stale_before",
    "PvDer.Session.C151_shared_source_refuted",
    "PvDer.Session.C151_example"
   ],
   "note": "False in full: evaluations before the last change of the source in an earlier run compute with the voltage of that change (C151_stale_before, C151_shared_source_refuted). Proved for every evaluation not before the latest earlier evaluation (C151_source_follows_schedule, C151_follows_beyond)."
  },
  {
   "property": "C152",
   "status": "partial",
   "theorems": [
    "PvDer.LogFile.C152_file_exact",
    "PvDer.LogFile.C152_begins_with_last",
    "PvDer.LogFile.C152_clean_iff",
    "PvDer.LogFile.C152_creation_erases",
    "PvDer.LogFile.C152_last_verbosity",
    "PvDer.LogFile.C152_reading",
    "PvDer.LogFile.C152_append_copies",
    "PvDer.LogFile.C152_log",
    "PvDer.LogFile.C152_first_model_refuted",
    "PvDer.LogFile.C152_mixed_verbosity_refuted",
    "PvDer.LogFile.C152_example"
   ],
   "note": "False in full: creating a model empties the file and leaves the earlier handlers writing at their old places (C152_first_model_refuted, C152_clean_iff, C152_reading; with mixed verbosities also C152_mixed_verbosity_refuted). Proved: the exact content of the file for any history with one verbosity, that it begins with the records since the last creation, the behaviour when appending, and log()."
  },
  {
   "property": "C153",
   "status": "partial",
   "theorems": [
    "PvDer.Session.C153_reset_recovers",
    "PvDer.Session.C153_reset_recovers_load",
    "PvDer.Session.C153_after_failures",
    "PvDer.Session.C153_right_beyond",
    "PvDer.Session.C153_stale_before",
    "PvDer.Session.C153_example"
   ],
   "note": "False in full: a run that the solver reports as failed leaves the schedules advanced (C153_after_failures with C153_stale_before; witness C103_failed_run_desynchronises). Proved: exactly what the next run sees (C153_after_failures), correctness from the latest failed time on (C153_right_beyond) and, with reset_event_counters() in between, after any failure (C153_reset_recovers, C153_reset_recovers_load)."
  },
  {
   "property": "C154",
   "status": "partial",
   "theorems": [
    "PvDer.Wiring.C154_one_of_each",
    "PvDer.Wiring.C154_source_frozen",
    "PvDer.Wiring.C154_grid_events_ignored",
    "PvDer.Wiring.C154_source_of_the_simulation",
    "PvDer.Wiring.C154_schedule_without_effect",
    "PvDer.Wiring.C154_report_follows_simulation",
    "PvDer.Wiring.C154_weather_of_the_der",
    "PvDer.Wiring.C154_no_exception",
    "PvDer.Wiring.C154_same_schedules_refuted",
    "PvDer.Wiring.C154_reported_not_simulated_refuted"
   ],
   "note": "False in full: witnesses C154_same_schedules_refuted and C154_reported_not_simulated_refuted. Proved: with one events object and one grid the wired model is the session model (C154_one_of_each); for every other wiring what the DER computes with (C154_source_frozen, C154_grid_events_ignored, C154_schedule_without_effect, C154_weather_of_the_der), what is reported (C154_report_follows_simulation) and that nothing raises (C154_no_exception)."
  },
  {
   "property": "C155",
   "status": "proved",
   "theorems": [
    "PvDer.Eval.C155_low_voltage_trips_in_time",
    "PvDer.Eval.C155_high_voltage_trips_in_time",
    "PvDer.Eval.C155_recovery_prevents_low_voltage_trip",
    "PvDer.Eval.C155_recovery_prevents_high_voltage_trip",
    "PvDer.Eval.C155_short_dip",
    "PvDer.Eval.C155_short_swell",
    "PvDer.Eval.C155_stays_connected",
    "PvDer.Eval.C155_output_cut_in_time",
    "PvDer.Eval.C155_example",
    "PvDer.Eval.C155_unseen_recovery",
    "PvDer.Eval.C155_example_recovery",
    "PvDer.Eval.C155_example_connected"
   ],
   "note": ""
  },
  {
   "property": "C156",
   "status": "proved",
   "theorems": [
    "PvDer.RT.C156_flags_called_off",
    "PvDer.RT.C156_reconnects_in_time",
    "PvDer.RT.C156_example",
    "PvDer.RT.C156_exactly_at_the_level",
    "PvDer.Eval.C156_back_in_time"
   ],
   "note": ""
  },
  {
   "property": "C157",
   "status": "proved",
   "theorems": [
    "PvDer.RT.C157_demanded_in_time",
    "PvDer.RT.C157_ceases_in_time",
    "PvDer.RT.C157_example",
    "PvDer.RT.C157_crossing_refuted",
    "PvDer.Eval.C157_output_cut_in_time",
    "PvDer.Eval.C157_example_der"
   ],
   "note": ""
  },
  {
   "property": "C158",
   "status": "proved",
   "theorems": [
    "PvDer.Events.C158_grid",
    "PvDer.Events.C158_grid_tidy",
    "PvDer.Events.C158_example",
    "PvDer.Events.C158_hasty_is_behind"
   ],
   "note": ""
  },
  {
   "property": "C159",
   "status": "proved",
   "theorems": [
    "PvDer.Events.C159_schedule",
    "PvDer.Events.C159_harmless",
    "PvDer.Events.C159_fatal",
    "PvDer.Events.C159_premature",
    "PvDer.Events.C159_reset_repairs",
    "PvDer.Events.C159_example"
   ],
   "note": ""
  },
  {
   "property": "C160",
   "status": "proved",
   "theorems": [
    "PvDer.VdcRef.C160_first_references_only",
    "PvDer.VdcRef.C160_foreign_schedule",
    "PvDer.VdcRef.C160_second_evaluation_fails",
    "PvDer.VdcRef.C160_single_foreign_reference",
    "PvDer.VdcRef.C160_ramp_disturbs_others",
    "PvDer.VdcRef.C160_example_cut_off",
    "PvDer.VdcRef.C160_example_fails",
    "PvDer.Eval.C160_equations_fail",
    "PvDer.Eval.C160_equations_example"
   ],
   "note": ""
  },
  {
   "property": "C161",
   "status": "proved",
   "theorems": [
    "PvDer.VdcRef.C161_answers",
    "PvDer.VdcRef.C161_tidy",
    "PvDer.VdcRef.C161_example"
   ],
   "note": ""
  },
  {
   "property": "C162",
   "status": "proved",
   "theorems": [
    "PvDer.Eval.C162_evaluations",
    "PvDer.Session.C162_after_run",
    "PvDer.Session.C162_second_run",
    "PvDer.Session.C162_second_run_starts_wrong",
    "PvDer.Session.C162_example"
   ],
   "note": ""
  },
  {
   "property": "C163",
   "status": "proved",
   "theorems": [
    "PvDer.Config.C163_setup_messages",
    "PvDer.Config.C163_type_found",
    "PvDer.Config.C163_never_raises",
    "PvDer.Config.C163_not_rejected",
    "PvDer.Config.C163_counts_of_class",
    "PvDer.Config.C163_silenced",
    "PvDer.Config.C163_silent",
    "PvDer.Config.C163_three_phase_never_silent",
    "PvDer.Config.C163_shipped"
   ],
   "note": ""
  },
  {
   "property": "C164",
   "status": "proved",
   "theorems": [
    "PvDer.Config.C164_only_known_entries",
    "PvDer.Config.C164_misspelt_parameter",
    "PvDer.Config.C164_misspelt_top_level",
    "PvDer.Config.C164_other_designs",
    "PvDer.Config.C164_default_instead",
    "PvDer.Config.C164_known_entries_matter",
    "PvDer.Config.C164_example",
    "PvDer.Config.C164_example_same",
    "PvDer.Config.C164_shipped"
   ],
   "note": ""
  }
 ]
}