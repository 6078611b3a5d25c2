{
 "C05": {
  "note": "Proved for grid and load events, every reachable schedule. The rest of the claim is false of the code and refuted: remove_solar_event always raises NameError and removes nothing; clearing all solar or load events empties the list and then raises AttributeError.",
  "status": "partial"
 },
 "C06": {
  "note": "Proved for every history without a clearing call, and for every history as long as the list is not empty (grid total: always). False in general: C06_totals_stale.",
  "status": "partial"
 },
 "C101": {
  "note": "Proved for the default solver. False for the other two kinds of solver argument: ode-vode-bdf always raises AttributeError (C101_second_solver_never_works) and an unknown solver raises AttributeError instead of the AssertionError with its message (C101_unknown_solver).",
  "status": "partial"
 },
 "C103": {
  "note": "The exceptions named in the statement are theorems: C103_grid_starts_with_last_voltage and witness C103_grid_memory, C103_next_run_starts_at_last_evaluation, C103_failed_run_keeps_counters and witness C103_failed_run_desynchronises."
 },
 "C104": {
  "note": "Outside loop mode. In loop mode the claim is false: C104_loop_mode_refuted."
 },
 "C106": {
  "note": "The balanced class on an unbalanced source is excluded; there the difference is computed by C106_balanced_class_differs."
 },
 "C12": {
  "note": "Proved for all interleavings of calls other than update_events_spec. The full claim is false for every process state (C12_spec_is_shared): the specification dictionary is a class attribute.",
  "status": "partial"
 },
 "C22": {
  "note": "Proved for evaluations in which no running zone timer sees recovery, and in full for one zone. The full claim is false with two zones (C22_deeper_zone_clears_flag).",
  "status": "partial"
 },
 "C27": {
  "note": "Proved for every run with the frequency logic off (the default). False with it on: C27_frequency_logic_reconnects.",
  "status": "partial"
 },
 "C29": {
  "note": "Proved for runs in which the flag, once set, stays set (trips). False in general: C29_stale_timer.",
  "status": "partial"
 },
 "C34": {
  "note": "The claim is false of every run that disconnects (C34_volt_var_lost, universally quantified); the partial theorem is the part without disconnection.",
  "status": "partial"
 },
 "C45": {
  "note": "Proved for the first ramp with a positive stored step, both directions. The second use after a downward ramp always fails (C45_second_ramp_fails), and a negative step always fails (C45_negative_step_always_fails).",
  "status": "partial"
 },
 "C49": {
  "note": "Invertibility and surjectivity proved; the sum reproduces phase a always and phases b, c iff the negative sequence vanishes (the iff is C49_sequence_sum_partial / C49_negative_sequence_wrong). The full claim is false of the code.",
  "status": "partial"
 },
 "C58": {
  "note": "Every entry except (iaI,wte) proved to be the exact partial derivative; that entry has the wrong sign in the code (C58_wrong_sign).",
  "status": "partial"
 },
 "C59": {
  "note": "Every entry except (Vrms_filter,Vrms_filter) proved (up to the decimal truncation of sqrt(3)/2, exactly for the model with the exact constant, C59_exact_constant); that entry is left zero in the code (C59_filter_entry_missing).",
  "status": "partial"
 },
 "C63": {
  "note": "Proved for every class but the one with an RMS filter state; for that class all but the last entry (C63_three_phase_partial) and the last entry is provably stale (C63_three_phase_stale).",
  "status": "partial"
 },
 "C66": {
  "note": "Resolution step proved for all four sources. The whole set-up has the claim only for parent-free configurations and listed keywords; named parents always end in AttributeError, unlisted keywords are ignored, and wrong-typed keywords are dropped silently (all refutations universally quantified or by witness).",
  "status": "partial"
 },
 "C68": {
  "note": "Exact characterisation of the dispatch for every string; false for two class names, which raise NameError, and for all documented short names, which raise ValueError.",
  "status": "partial"
 },
 "C77": {
  "note": "Exact list of right and wrong entries for the balanced and both constant-Vdc classes; the wrong entries are refuted with the exact discrepancy.",
  "status": "partial"
 },
 "C79": {
  "note": "The three-phase stand-alone grid power series is wrong in the code (C79_grid_power_series_wrong); all other series are proved.",
  "status": "partial"
 },
 "C82": {
  "note": "Proved for all five three-phase classes (C82_constructs) and for the three classes the wrapper can give (C82_wrapper_constructs), for every file, complete configuration and argument set. False for the single-phase classes (C82_single_phase_unconstructible) and for the wrapper with the other four (C82_wrapper_classes). The model ends at initialize_grid_measurements; later steps of the constructor are the subject of C89-C92.",
  "status": "partial"
 },
 "C85": {
  "note": "Proved when the frequency tables are distinct objects or the frequency logic is off, for every interleaving; false with the default shared table (C85_shared_table_refuted).",
  "status": "partial"
 },
 "C92": {
  "note": "Output power errors proved zero for single-phase classes and SolarPVDERThreePhase; for the other three-phase classes the printed error is exactly two thirds of the power (C92_other_three_phase_wrong). Filter loss error: zero in steady state, not in transients (C92_filter_loss_transient).",
  "status": "partial"
 },
 "C132": {
  "note": "False as stated: the per-unit inductance and capacitance contain 2\u03c0\u00b760 but the derivatives are not multiplied by it, so the filter and DC link run 2\u03c0\u00b760 times slower than in seconds (C132_*_partial give the exact scaled law for all seven classes, C132_refuted_three and C132_*_not_in_seconds refute the law in seconds).",
  "status": "partial"
 },
 "C133": {
  "note": "Four of the ten shipped DER entries construct (C133_constructs, C133_entries_partial); three fail for their parent reference, three because single-phase classes cannot be constructed; the wrapper gives three (C133_wrapper_iff).",
  "status": "partial"
 },
 "C141": {
  "note": "False in full: the polynomial fit leaves every DER at 100 % insolation (C141_fit_discards_insolation) and a simulation never uses the configured insolation (C141_configured_insolation_unused). fsolve and polyfit are arbitrary functions.",
  "status": "partial"
 },
 "C150": {
  "note": "False in full: the panel power is computed at min(Vdcmpp_max, Vdc), so where the open-circuit voltage is above Vdcmpp_max the panel feeds at every DC voltage (C150_feeds_beyond, C150_overcharges); true of the shipped 10 kVA and 50 kVA modules (C150_shipped), explicit unbounded run in C150_example. Proved where the open-circuit voltage is within the range (C150_ceiling_*_partial), as for the 250 kVA module.",
  "status": "partial"
 },
 "C151": {
  "note": "False in full: evaluations before the last change of the source in an earlier run compute with the voltage of that change (C151_stale_before, C151_shared_source_refuted). Proved for every evaluation not before the latest earlier evaluation (C151_source_follows_schedule, C151_follows_beyond).",
  "status": "partial"
 },
 "C152": {
  "note": "False in full: creating a model empties the file and leaves the earlier handlers writing at their old places (C152_first_model_refuted, C152_clean_iff, C152_reading; with mixed verbosities also C152_mixed_verbosity_refuted). Proved: the exact content of the file for any history with one verbosity, that it begins with the records since the last creation, the behaviour when appending, and log().",
  "status": "partial"
 },
 "C153": {
  "note": "False in full: a run that the solver reports as failed leaves the schedules advanced (C153_after_failures with C153_stale_before; witness C103_failed_run_desynchronises). Proved: exactly what the next run sees (C153_after_failures), correctness from the latest failed time on (C153_right_beyond) and, with reset_event_counters() in between, after any failure (C153_reset_recovers, C153_reset_recovers_load).",
  "status": "partial"
 },
 "C154": {
  "note": "False in full: witnesses C154_same_schedules_refuted and C154_reported_not_simulated_refuted. Proved: with one events object and one grid the wired model is the session model (C154_one_of_each); for every other wiring what the DER computes with (C154_source_frozen, C154_grid_events_ignored, C154_schedule_without_effect, C154_weather_of_the_der), what is reported (C154_report_follows_simulation) and that nothing raises (C154_no_exception).",
  "status": "partial"
 },
 "C134": {
  "note": "Proved for every configuration in which no t_threshold is shorter than the t_min_ridethrough of its level (C134_min_ridethrough_partial), hence for the default settings. False of the shipped settings LVRT_1547cat3 (C134_shipped_trips_early), whose exact behaviour is stated.",
  "status": "partial"
 },
 "C135": {
  "note": "Module, ratings and gains: in full, all classes. Circuit parameters: proved for the classes with a DC link (C135_circuit_partial); in the two constant-Vdc classes the display raises (C135_circuit_constVdc), and so does \"all\".",
  "status": "partial"
 },
 "C136": {
  "note": "Proved except that the displayed neutral PCC voltage is that of the inverter terminals: C136_neutral_wrong (exact iff in C136_neutral).",
  "status": "partial"
 },
 "C137": {
  "note": "Proved for settings and flags of low voltage, high voltage and low frequency and for the anomaly report of low-voltage levels whose timer runs (C137_anomaly_partial). False in full: tripped and high-voltage levels are never reported (C137_anomaly_missed, C137_anomaly_refuted), the per-unit switch is ignored (C137_per_unit_ignored), HFRT is rejected (C137_unknown).",
  "status": "partial"
 },
 "C139": {
  "note": "Proved for the switches that change nothing (C139_debug_partial); two switches always abort the evaluation and two more do so outside stand-alone operation (C139_refuted).",
  "status": "partial"
 }
}