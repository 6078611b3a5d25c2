{"id": "C01", "title": "Event lists stay canonical", "statement": "After any sequence of add_*/remove_*/query/reset calls on a SimulationEvents instance, including calls that raise, each of the solar, grid and load event lists is strictly increasing in T (so it holds at most one event per time stamp).", "quantifier": "every finite history of API calls with any arguments, starting from a new instance", "why_tests_cant": "the number and order of calls is unbounded; grid queries also rewrite the list", "anchors": ["pvder/simulation_events.py:add_solar_event", "pvder/simulation_events.py:add_grid_event", "pvder/simulation_events.py:add_load_event", "pvder/simulation_events.py:remove_grid_event", "pvder/simulation_events.py:remove_load_event", "pvder/simulation_events.py:grid_events"]}
{"id": "C02", "title": "Stored events are within limits", "statement": "Every solar event stored has insolation within the configured min..max and temperature within 250..375 K; every grid event has voltage and frequency within the configured min..max; every load event has non-negative resistance. No history of calls can put an out-of-limit event into a schedule.", "quantifier": "every finite history of API calls under a fixed events_spec", "why_tests_cant": "limits must survive every interleaving, including the event rewriting done by grid queries", "anchors": ["pvder/simulation_events.py:add_solar_event", "pvder/simulation_events.py:add_grid_event", "pvder/simulation_events.py:add_load_event", "pvder/simulation_events.py:grid_events"]}
{"id": "C03", "title": "Add is last-write-wins on the time stamp", "statement": "An accepted add_*_event(T, v) makes the schedule equal to the previous one with T mapped to v: the event at T is replaced, every other time stamp keeps its event, and nothing is duplicated.", "quantifier": "every reachable schedule, every T and every value", "why_tests_cant": "must hold for every schedule content and position of T", "anchors": ["pvder/simulation_events.py:add_solar_event", "pvder/simulation_events.py:add_grid_event", "pvder/simulation_events.py:add_load_event"]}
{"id": "C04", "title": "Add rejects exactly the infeasible events and then changes nothing", "statement": "add_*_event raises ValueError exactly when the value is outside limits; when it raises the schedule, totals and counters are unchanged.", "quantifier": "every state and every argument", "why_tests_cant": "boundary and atomicity over all values and states", "anchors": ["pvder/simulation_events.py:add_solar_event", "pvder/simulation_events.py:add_grid_event", "pvder/simulation_events.py:add_load_event"]}
{"id": "C05", "title": "Remove deletes exactly one time stamp", "statement": "remove_*_event(T) makes the schedule equal to the previous one without T; all other events stay. (True of grid and load events; remove_solar_event refers to an undefined name and always raises, leaving the event in place.)", "quantifier": "every reachable schedule and every T", "why_tests_cant": "must hold for every schedule; the solar variant fails on every input", "anchors": ["pvder/simulation_events.py:remove_grid_event", "pvder/simulation_events.py:remove_load_event", "pvder/simulation_events.py:remove_solar_event"]}
{"id": "C06", "title": "Event totals match the lists", "statement": "solar_events_total, grid_events_total, load_events_total and events_total always equal the lengths of the lists (and their sum).", "quantifier": "every history of API calls", "why_tests_cant": "a single forgotten update on any path breaks it; REMOVE_ALL raises half-way and does break it", "anchors": ["pvder/simulation_events.py:update_event_totals", "pvder/simulation_events.py:remove_solar_event", "pvder/simulation_events.py:remove_load_event"]}
{"id": "C07", "title": "Solar and load schedules are played back in order", "statement": "When a schedule is queried at non-decreasing times that do not jump over more than one event at once, every solar_events(t)/load_events(t) call returns the value of the latest event with T<=t, and the default before the first event. (For larger jumps the returned value lags; the lag is at most one event per call and disappears after as many calls as there are events.)", "quantifier": "every schedule, every non-decreasing dense query sequence of any length", "why_tests_cant": "correctness depends on the history of the private counter, over all query sequences", "anchors": ["pvder/simulation_events.py:solar_events", "pvder/simulation_events.py:load_events", "pvder/simulation_events.py:reset_event_counters"]}
{"id": "C08", "title": "Grid schedule is played back in order", "statement": "Under the same query discipline grid_events(t) returns the voltage magnitude and frequency of the latest grid event with T<=t and the defaults before the first event, although queries rewrite the stored angle.", "quantifier": "every grid schedule, every non-decreasing dense query sequence", "why_tests_cant": "queries mutate the schedule they read", "anchors": ["pvder/simulation_events.py:grid_events"]}
{"id": "C09", "title": "Grid angle follows the frequency", "statement": "With angle override, once an event has been activated the stored and returned angle is angle_previous + 2*pi*(f - f_previous)*del_t: user supplied angles are ignored and along any dense playback the angle of the k-th event is default + 2*pi*del_t*(f_k - f_default), independent of the path of frequencies.", "quantifier": "every grid schedule and dense playback finishing before the override window closes", "why_tests_cant": "telescoping over arbitrary many events", "anchors": ["pvder/simulation_events.py:grid_events"]}
{"id": "C10", "title": "Schedule queries do not fail", "statement": "A solar, grid or load query never raises on an instance whose history contains no removal. (After a removal the private counter may point past the end of the list and the query raises IndexError.)", "quantifier": "every history of add/query/reset calls and every t", "why_tests_cant": "counter/list-length relation over all histories", "anchors": ["pvder/simulation_events.py:solar_events", "pvder/simulation_events.py:grid_events", "pvder/simulation_events.py:load_events", "pvder/simulation_events.py:remove_grid_event", "pvder/simulation_events.py:remove_load_event"]}
{"id": "C11", "title": "Query results come from the schedule", "statement": "Whatever the counter state and whichever time is queried, a query that returns yields the default value or the value of one of the stored events, so insolation, temperature, voltage, frequency and load delivered to the model are always within limits.", "quantifier": "every reachable state and every t, in any time order", "why_tests_cant": "ODE solvers query at arbitrary, also decreasing, times", "anchors": ["pvder/simulation_events.py:solar_events", "pvder/simulation_events.py:grid_events", "pvder/simulation_events.py:load_events"]}
{"id": "C12", "title": "Event specification isolation", "statement": "Changing the event limits of one SimulationEvents instance does not change what another instance accepts. (False: the specification dictionary is shared by the class.)", "quantifier": "every pair of instances and every events_spec", "why_tests_cant": "aliasing between instances, depends on creation history", "anchors": ["pvder/simulation_events.py:update_events_spec", "pvder/simulation_events.py:_events_spec"]}
{"id": "C13", "title": "Insolation ramp stays feasible and hits its target", "statement": "insolation_ramp from a feasible insolation to a feasible target adds only events between the two values, at strictly increasing times in [tstart,tstop), never raises, starts at the present value and (if it has at least two points) ends at the target.", "quantifier": "every start, target in limits, every tstart<tstop and tstep>0", "why_tests_cant": "number of points unbounded; convexity argument over all of them", "anchors": ["pvder/simulation_events.py:insolation_ramp"]}
{"id": "C14", "title": "Random events are always feasible", "statement": "create_random_events never produces an event that add_*_event rejects.", "quantifier": "every outcome of the random generator in [0,1), every times list", "why_tests_cant": "all random outcomes", "anchors": ["pvder/simulation_events.py:create_random_insolation_events", "pvder/simulation_events.py:create_random_voltage_events"]}
{"id": "C15", "title": "Merged event list is complete and ordered", "statement": "simulation_events_list contains exactly the solar, grid and load events, ordered by time.", "quantifier": "every reachable state", "why_tests_cant": "all schedules", "anchors": ["pvder/simulation_events.py:simulation_events_list"]}
{"id": "C16", "title": "Low-voltage trip happens exactly when a zone is exceeded", "statement": "After any run of the ride-through logic the LVRT trip flag is set if and only if for some configured zone there are two evaluations i<j with V below the zone threshold at both, V never above the threshold in between, and t_j - t_i greater than the zone's time threshold.", "quantifier": "every zone table, every strictly increasing sequence of evaluation times and every voltage trajectory", "why_tests_cant": "quantifies over all voltage histories; timers carry state between evaluations", "anchors": ["pvder/DER_features.py:LVRT", "pvder/DER_features.py:update_ridethrough_flags"]}
{"id": "C17", "title": "High-voltage trip happens exactly when a zone is exceeded", "statement": "Mirror image of C16 for HVRT.", "quantifier": "as C16", "why_tests_cant": "as C16", "anchors": ["pvder/DER_features.py:HVRT", "pvder/DER_features.py:update_ridethrough_flags"]}
{"id": "C18", "title": "Trips are latched", "statement": "Once DER_TRIP (or LVRT_TRIP/HVRT_TRIP) is set it stays set whatever voltages and times follow.", "quantifier": "every continuation of every history", "why_tests_cant": "unbounded continuations", "anchors": ["pvder/DER_features.py:update_ridethrough_flags", "pvder/DER_features.py:LVRT", "pvder/DER_features.py:HVRT"]}
{"id": "C19", "title": "Healthy voltage never trips", "statement": "If every measured voltage lies between the highest LV threshold and the lowest HV threshold (inclusive of equality), then no ride-through flag is ever raised and the DER stays connected.", "quantifier": "every trajectory inside the continuous operation region, of any length, with the frequency ride-through in its default state (off)", "why_tests_cant": "universal over trajectories", "anchors": ["pvder/DER_features.py:update_ridethrough_flags", "pvder/DER_features.py:disconnect_or_reconnect"]}
{"id": "C20", "title": "Ride-through is inactive before t_stable and for non-advancing time", "statement": "Evaluations with t <= t_stable, or with t not greater than the last evaluated time, change no ride-through timer or flag; re-evaluating the model (e.g. for the Jacobian) at the same or an earlier time is a no-op.", "quantifier": "every state and every t", "why_tests_cant": "solver call patterns are arbitrary", "anchors": ["pvder/DER_features.py:update_ridethrough_flags", "pvder/DER_features.py:LVRT", "pvder/DER_features.py:HVRT"]}
{"id": "C21", "title": "Momentary cessation is only entered when allowed", "statement": "Momentary cessation is raised only by a zone in momentary_cessation mode in which the voltage has been continuously not above threshold for at least t_min_ridethrough and at most t_threshold seconds.", "quantifier": "every history", "why_tests_cant": "history-dependent", "anchors": ["pvder/DER_features.py:LVRT", "pvder/DER_features.py:HVRT"]}
{"id": "C22", "title": "Momentary cessation lasts as long as the voltage anomaly", "statement": "While the measured voltage stays beyond the threshold of the zone that raised momentary cessation, the momentary cessation flag stays set. (False with several zones: recovery above a deeper zone's threshold clears the common flag; proved for steps in which no zone recovers.)", "quantifier": "every zone table and history", "why_tests_cant": "interaction between zones through one shared flag", "anchors": ["pvder/DER_features.py:LVRT", "pvder/DER_features.py:HVRT"]}
{"id": "C23", "title": "Zones are independent", "statement": "The timer and the breach status of a zone depend only on that zone's settings and the voltage history, not on the other zones, their order or the cessation flag; permuting the zone table permutes the result and yields the same trip decision.", "quantifier": "every zone table, permutation and history", "why_tests_cant": "combinatorial over tables", "anchors": ["pvder/DER_features.py:LVRT", "pvder/DER_features.py:HVRT"]}
{"id": "C24", "title": "Worse voltage never delays a trip", "statement": "If one voltage trajectory is pointwise below another, an LVRT trip under the higher one implies an LVRT trip under the lower one by the same evaluation (dually for HVRT).", "quantifier": "every pair of trajectories sampled at the same times", "why_tests_cant": "hyperproperty over pairs of histories", "anchors": ["pvder/DER_features.py:LVRT", "pvder/DER_features.py:HVRT"]}
{"id": "C25", "title": "Ride-through settings check accepts exactly the feasible tables", "statement": "check_VRT_settings succeeds iff every LV threshold is in (0,1), LV thresholds are non-increasing, every HV threshold in (1,1.5), HV thresholds non-decreasing, every t_threshold in (0,100), every mode is known, cessation delay >= 1/120 s and restore delay >= 0.1 s.", "quantifier": "every pair of zone tables and delays", "why_tests_cant": "tables of any length", "anchors": ["pvder/DER_features.py:check_VRT_settings"]}
{"id": "C26", "title": "Feasible tables cannot time LV and HV together", "statement": "With an accepted settings table and positive reference voltage no measured voltage violates an LV and an HV zone at once, and violating a deeper LV (HV) zone violates all shallower ones.", "quantifier": "every accepted table and voltage", "why_tests_cant": "all tables", "anchors": ["pvder/DER_features.py:check_VRT_settings", "pvder/DER_features.py:LVRT", "pvder/DER_features.py:HVRT"]}
{"id": "C27", "title": "A tripped DER never reconnects", "statement": "If the DER is tripped and disconnected, it stays disconnected for every continuation.", "quantifier": "every continuation", "why_tests_cant": "unbounded continuations", "anchors": ["pvder/DER_features.py:disconnect_or_reconnect", "pvder/DER_features.py:DER_reconnect_logic"]}
{"id": "C28", "title": "Disconnection needs a flag and respects the cessation delay timer", "statement": "A connected DER is disconnected by an evaluation only if a trip or cessation flag is set then, and a flagged evaluation at least output_cessation_delay earlier started the timer.", "quantifier": "every history", "why_tests_cant": "timer is carried through state", "anchors": ["pvder/DER_features.py:disconnect_or_reconnect", "pvder/DER_features.py:DER_disconnect_logic"]}
{"id": "C29", "title": "Disconnection needs a continuous flag for the cessation delay", "statement": "A DER is disconnected only if the trip/cessation flag was set at all evaluations during the preceding output_cessation_delay. (False: the timer is not cleared when the flag clears, so a later anomaly disconnects instantly.)", "quantifier": "every history", "why_tests_cant": "counterexample needs a specific two-fault history", "anchors": ["pvder/DER_features.py:DER_disconnect_logic", "pvder/DER_features.py:disconnect_or_reconnect"]}
{"id": "C30", "title": "A flagged DER does disconnect", "statement": "A connected DER whose trip or cessation flag is set at every evaluation is disconnected at the first evaluation at least output_cessation_delay after the first flagged one.", "quantifier": "every evaluation sequence, with the frequency ride-through in its default state (off)", "why_tests_cant": "liveness over all sequences", "anchors": ["pvder/DER_features.py:disconnect_or_reconnect", "pvder/DER_features.py:DER_disconnect_logic"]}
{"id": "C31", "title": "Reconnection only after an undisturbed restore delay", "statement": "A disconnected DER reconnects only if, for more than output_restore_delay seconds of evaluations, neither trip nor momentary cessation was set.", "quantifier": "every history, with the frequency ride-through in its default state (off; switched on it reconnects by itself, see C27)", "why_tests_cant": "history-dependent", "anchors": ["pvder/DER_features.py:disconnect_or_reconnect", "pvder/DER_features.py:DER_reconnect_logic"]}
{"id": "C32", "title": "A recovered DER does reconnect", "statement": "A disconnected, untripped DER that sees no cessation flag reconnects at the first evaluation more than output_restore_delay after its first healthy evaluation.", "quantifier": "every evaluation sequence, with the frequency ride-through in its default state (off)", "why_tests_cant": "liveness", "anchors": ["pvder/DER_features.py:disconnect_or_reconnect", "pvder/DER_features.py:DER_reconnect_logic"]}
{"id": "C33", "title": "Disconnected DER has zero references", "statement": "Whenever disconnect_or_reconnect leaves the DER disconnected, Q_ref and all current references and Ppv are zero, Vdc_ref equals the present Vdc, and Volt-VAR is disabled.", "quantifier": "every state and t", "why_tests_cant": "all paths", "anchors": ["pvder/DER_features.py:DER_disconnect", "pvder/DER_features.py:disconnect_or_reconnect"]}
{"id": "C34", "title": "Reconnection restores Volt-VAR", "statement": "After a temporary disconnection the Volt-VAR function enabled by the user is active again. (False: it is disabled for ever.)", "quantifier": "every history with a disconnection", "why_tests_cant": "absence over all continuations", "anchors": ["pvder/DER_features.py:DER_disconnect", "pvder/DER_utilities.py:update_Qref"]}
{"id": "C35", "title": "Disconnect/reconnect logic never hits its own assertions", "statement": "disconnect_or_reconnect never raises an assertion error in any state; the low-frequency logic, when enabled, does raise one after its trip while the DER is connected, and a frequency trip never disconnects the DER.", "quantifier": "every state and t", "why_tests_cant": "unreachability", "anchors": ["pvder/DER_features.py:DER_disconnect_logic", "pvder/DER_features.py:DER_reconnect_logic", "pvder/DER_features.py:FRT"]}
{"id": "C36", "title": "Low-frequency trip characterisation", "statement": "LFRT trip is set only if for some zone the PLL frequency was below F_LF when the timer started, never above F_LF+0.02 since, and at or below F_LF at least t_LF_limit seconds after; and a frequency that stays below F_LF for t_LF_limit seconds does trip.", "quantifier": "every frequency history and zone table", "why_tests_cant": "history-dependent with hysteresis", "anchors": ["pvder/DER_features.py:FRT"]}
{"id": "C37", "title": "Volt-VAR reference is within the reactive capability", "statement": "Every Q reference computed from the Volt-VAR curve satisfies |Q| <= Qlimit, with 0 <= Qlimit <= sqrt(S^2-P^2), so P^2+Q^2 <= Snominal^2 whenever |P| <= Snominal.", "quantifier": "every voltage, power, current and rating", "why_tests_cant": "continuum of operating points", "anchors": ["pvder/DER_features.py:Qlimit_calc", "pvder/DER_features.py:Q_Volt_VAR_inject", "pvder/DER_features.py:Q_Volt_VAR_absorb", "pvder/DER_features.py:Volt_VAR_logic"]}
{"id": "C38", "title": "Volt-VAR sign and monotonicity", "statement": "With no active limit, Volt-VAR injects (Q>=0) in the low-voltage segment, absorbs (Q<=0) in the high-voltage segment, Q is non-increasing in voltage within each segment and follows the IEEE 1547 category B points (0.92,+0.44),(0.98,0),(1.02,0),(1.08,-0.44).", "quantifier": "every voltage and rating", "why_tests_cant": "continuum", "anchors": ["pvder/DER_features.py:initialize_Volt_VAR", "pvder/DER_features.py:Q_Volt_VAR_inject", "pvder/DER_features.py:Q_Volt_VAR_absorb"]}
{"id": "C39", "title": "Volt-VAR is zero outside its operating range", "statement": "For a voltage outside both (dead-band extended) segments the reference becomes 0 and the controller is inactive; inside, it becomes active; in the dead-band fringe it holds the previous reference; at non-advancing time it returns the previous reference and changes nothing.", "quantifier": "every state, voltage and t", "why_tests_cant": "continuum and state", "anchors": ["pvder/DER_features.py:Volt_VAR_logic"]}
{"id": "C40", "title": "Volt-VAR keeps its reference bounded over any run", "statement": "Starting from a zero reference, along any run of Volt-VAR evaluations |Q_ref| <= 0.44*Snominal.", "quantifier": "every run of evaluations with any voltages and powers", "why_tests_cant": "held values carry over unboundedly many steps", "anchors": ["pvder/DER_features.py:Volt_VAR_logic", "pvder/DER_utilities.py:update_Qref"]}
{"id": "C41", "title": "Current reference ramp limit", "statement": "For advancing time the ramp limiter moves each component of the reference towards the command by at most max_gradient*(t - t_previous), never overshoots, and reaches the command exactly when the required slope is within the limit.", "quantifier": "every previous reference, command, gradient >= 0 and time step", "why_tests_cant": "continuum", "anchors": ["pvder/DER_utilities.py:get_ramp_limited_iref", "pvder/DER_utilities.py:get_iref_actual"]}
{"id": "C42", "title": "Ramp limiter over a run", "statement": "Over any run of limiter evaluations that also records the evaluation time, the total change of the reference between two evaluations is at most max_gradient times the elapsed time. (The three-phase model records the time; the single-phase model never does, so its limiter does not bound the slope.)", "quantifier": "every run", "why_tests_cant": "accumulation over runs", "anchors": ["pvder/DER_components_three_phase.py:update_iref", "pvder/DER_components_single_phase.py:update_iref", "pvder/DER_utilities.py:get_ramp_limited_iref"]}
{"id": "C43", "title": "DC reference schedule is canonical and feasible", "statement": "After any sequence of add_Vdc_ref calls the DC reference list is strictly increasing in time and every stored reference lies between Vdcmpp_min and Vdcmpp_max; infeasible references are rejected and leave the list unchanged.", "quantifier": "every call history", "why_tests_cant": "histories", "anchors": ["pvder/DER_utilities.py:add_Vdc_ref"]}
{"id": "C44", "title": "DC reference playback", "statement": "Queried at non-decreasing times that skip at most one entry at a time, get_Vdc_ref returns the latest reference with t<=query time, and the present reference before the first entry.", "quantifier": "every list and dense query sequence", "why_tests_cant": "histories", "anchors": ["pvder/DER_utilities.py:get_Vdc_ref"]}
{"id": "C45", "title": "Downward DC ramp works every time", "statement": "Vdc_ref_ramp towards a lower set-point yields a descending list of references each time it is used. (False on the second use: the step sign is flipped again.)", "quantifier": "every sequence of ramps", "why_tests_cant": "needs call history", "anchors": ["pvder/DER_utilities.py:Vdc_ref_ramp"]}
{"id": "C46", "title": "MPP reference is clamped", "statement": "MPP_table always returns a reference in [Vdcmpp_min, Vdcmpp_max]/Vdcbase.", "quantifier": "every insolation/operating point", "why_tests_cant": "continuum", "anchors": ["pvder/DER_utilities.py:MPP_table"]}
{"id": "C47", "title": "Phase shift operators", "statement": "Ub_calc and Uc_calc preserve magnitude, are mutually inverse, and Ua+Ub_calc(Ua)+Uc_calc(Ua)=0 for every phasor.", "quantifier": "every complex phasor", "why_tests_cant": "continuum", "anchors": ["pvder/utility_functions.py:Ub_calc", "pvder/utility_functions.py:Uc_calc"]}
{"id": "C48", "title": "Park transform round trip", "statement": "dq0_to_abc(abc_to_dq0(a,b,c,wt),wt) = (a,b,c) and conversely, for all values and angles.", "quantifier": "every triple and angle", "why_tests_cant": "continuum", "anchors": ["pvder/utility_functions.py:abc_to_dq0", "pvder/utility_functions.py:dq0_to_abc"]}
{"id": "C49", "title": "Symmetrical components", "statement": "phasor_to_symmetrical is invertible; zero + positive + negative sequence phasors of every phase sum to the original phasors. (False for phases b and c: the negative sequence is rotated the wrong way; true for phase a, and for all phases iff the negative sequence component vanishes.)", "quantifier": "every unbalanced phasor triple", "why_tests_cant": "continuum", "anchors": ["pvder/utility_functions.py:phasor_to_symmetrical", "pvder/utility_functions.py:phasor_to_zero_sequence", "pvder/utility_functions.py:phasor_to_positive_sequence", "pvder/utility_functions.py:phasor_to_negative_sequence"]}
{"id": "C50", "title": "RMS measures are ordered", "statement": "Urms_min_calc <= Urms_calc <= max phase rms, all are non-negative, and they coincide with the single phase rms for balanced phasors.", "quantifier": "every triple of phasors", "why_tests_cant": "continuum", "anchors": ["pvder/utility_functions.py:Urms_calc", "pvder/utility_functions.py:Urms_min_calc", "pvder/utility_functions.py:Urms_calc_1phase"]}
{"id": "C51", "title": "limit_complex bounds the magnitude", "statement": "With 0 <= low < high the result has magnitude in [low, high], keeps the phase, and is the identity inside the limits. With the default arguments (-1,1) it clips to the unit disc.", "quantifier": "every complex number", "why_tests_cant": "continuum", "anchors": ["pvder/utility_functions.py:limit_complex"]}
{"id": "C52", "title": "Balanced three-phase power", "statement": "For balanced voltages and currents the three-phase apparent power is three times the single-phase one and the time-domain dq power agrees.", "quantifier": "every pair of phasors", "why_tests_cant": "continuum", "anchors": ["pvder/utility_functions.py:S_calc", "pvder/DER_components_three_phase.py:S_calc"]}
{"id": "C53", "title": "PLL input", "statement": "For the single-phase model the d-component seen by the PLL is |va|*sin(w t + angle(va) - wte): zero exactly when the angle difference is a multiple of pi (phase lock, or the opposite phase) and bounded by |va|.", "quantifier": "every phasor, time and PLL angle", "why_tests_cant": "continuum", "anchors": ["pvder/DER_components_single_phase.py:update_inverter_frequency", "pvder/utility_functions.py:phasor_to_time_1phase", "pvder/utility_functions.py:alpha_beta_to_d_q"]}
{"id": "C54", "title": "Standalone circuit equation", "statement": "In stand-alone mode the computed PCC voltage satisfies Kirchhoff's laws of the transformer/line/load circuit for every current, impedance and grid voltage (non-zero denominators).", "quantifier": "every complex operating point", "why_tests_cant": "continuum", "anchors": ["pvder/DER_utilities.py:va_calc", "pvder/DER_utilities.py:vb_calc", "pvder/DER_utilities.py:vc_calc"]}
{"id": "C55", "title": "Stand-alone power balance", "statement": "PCC power = load power + line/transformer losses + power into the grid source, for every operating point.", "quantifier": "every operating point", "why_tests_cant": "continuum", "anchors": ["pvder/DER_components_single_phase.py:S_PCC_calc", "pvder/DER_components_single_phase.py:S_load1_calc", "pvder/DER_components_single_phase.py:S_G_calc", "pvder/DER_utilities.py:va_calc"]}
{"id": "C56", "title": "PV power is non-negative and monotone", "statement": "PV module power is >= 0 for all inputs, non-decreasing in insolation, zero at and below zero DC voltage, and zero above the open-circuit voltage.", "quantifier": "every insolation, temperature>0, DC voltage", "why_tests_cant": "continuum", "anchors": ["pvder/DER_components.py:Ppv_calc", "pvder/DER_components.py:Iph_calc", "pvder/utility_functions.py:Ppv_calc"]}
{"id": "C57", "title": "Anti-windup never pushes outwards", "statement": "When a controller output magnitude exceeds its limit, no integrator component moves away from zero: derivative and state never have the same non-zero sign; inside the limit the integrator is the plain PI integrator.", "quantifier": "every state and gain", "why_tests_cant": "continuum", "anchors": ["pvder/DER_components_single_phase.py:ODE_model", "pvder/DER_components_three_phase.py:ODE_model"]}
{"id": "C58", "title": "Single-phase Jacobian is the derivative of the ODE model", "statement": "Each entry returned by jac_ODE_model is the partial derivative of the corresponding ODE_model component (connected mode, no saturation, external grid voltage). (False for entry (iaI,wte): wrong sign.)", "quantifier": "every state and parameter set with Lf,C,Vdc != 0", "why_tests_cant": "continuum", "anchors": ["pvder/DER_components_single_phase.py:ODE_model", "pvder/DER_components_single_phase.py:jac_ODE_model"]}
{"id": "C59", "title": "Three-phase Jacobian is the derivative of the ODE model", "statement": "As above for the three-phase model (entries with sqrt(3)/2 up to its decimal truncation). (False for (Vrms_filter,Vrms_filter), which is left 0.)", "quantifier": "every state and parameter set", "why_tests_cant": "continuum", "anchors": ["pvder/DER_components_three_phase.py:ODE_model", "pvder/DER_components_three_phase.py:jac_ODE_model"]}
{"id": "C60", "title": "DC link energy balance", "statement": "The DC link derivative satisfies d/dt(C*Vdc^2/2) = Ppv - P_inverter, and steady state of the DC link holds iff PV power equals inverter power.", "quantifier": "every state with Vdc, C != 0", "why_tests_cant": "continuum", "anchors": ["pvder/DER_components_single_phase.py:ODE_model", "pvder/DER_components_three_phase.py:ODE_model"]}
{"id": "C61", "title": "Equilibrium characterisation", "statement": "In unsaturated connected operation all derivatives except that of the PLL angle are zero iff in every phase the terminal voltage balances the filter, the compensator is at rest and the current equals its reference, the inverter power equals the PV power, Vdc=Vdc_ref (classes with a DC link state), Q=Q_ref, the PLL input is zero and the RMS filter (if any) is at its input; a solution that stays there has its PLL at exactly the grid frequency.", "quantifier": "every state", "why_tests_cant": "continuum", "anchors": ["pvder/DER_components_single_phase.py:ODE_model"]}
{"id": "C62", "title": "State layout is consistent", "statement": "The order of states in y0, the order unpacked by the ODE model, the Jacobian index table and collect_states agree for every model type; the index table is a bijection onto 0..n-1.", "quantifier": "every model type and state", "why_tests_cant": "every model must be consistent at every index", "anchors": ["pvder/DER_check_and_initialize.py:initialize_jacobian", "pvder/dynamic_simulation.py:collect_states", "pvder/dynamic_simulation.py:y0", "pvder/DER_components_single_phase.py:y0", "pvder/DER_components_three_phase.py:y0"]}
{"id": "C63", "title": "Loop mode continues from the last state", "statement": "In loop mode each interval starts from exactly the last state of the preceding one. (False for the filtered RMS voltage state of the three-phase model.)", "quantifier": "every number of intervals and every solver output", "why_tests_cant": "depends on all intervals", "anchors": ["pvder/dynamic_simulation.py:collect_last_states", "pvder/dynamic_simulation.py:collect_states", "pvder/dynamic_simulation.py:y0"]}
{"id": "C64", "title": "Trajectories have equal length and contiguous time", "statement": "After any number of loop-mode intervals all stored trajectories have the same length and the time vector has no duplicated joints; its length is 1 + sum of (len-1).", "quantifier": "every number of intervals of every length", "why_tests_cant": "unbounded intervals", "anchors": ["pvder/dynamic_simulation.py:collect_last_states", "pvder/dynamic_simulation.py:collect_full_trajectory", "pvder/dynamic_simulation.py:invert_arrays"]}
{"id": "C65", "title": "Grid source follows events only forward in time", "statement": "Grid.steady_state_model changes voltage or frequency only when the scheduled value differs and t is not earlier than the previous change; phases b and c keep the configured unbalance ratios.", "quantifier": "every event history", "why_tests_cant": "histories", "anchors": ["pvder/grid_components.py:steady_state_model"]}
{"id": "C66", "title": "Parameter precedence", "statement": "A DER parameter resolves to the keyword argument if given, else the DER config entry, else the parent config entry, else the template default; values of wrong type raise.", "quantifier": "every combination of sources", "why_tests_cant": "combinatorial", "anchors": ["pvder/DER_check_and_initialize.py:update_DER_config", "pvder/DER_check_and_initialize.py:update_DER_parameter", "pvder/DER_components.py:get_DER_arguments"]}
{"id": "C67", "title": "Ride-through configuration precedence", "statement": "An inline ride-through 'config' overrides 'config_id', which overrides the default; missing timer fields are filled in without touching present ones.", "quantifier": "every configuration", "why_tests_cant": "combinatorial", "anchors": ["pvder/DER_features.py:update_RT_config"]}
{"id": "C68", "title": "Model dispatch", "statement": "create_DER_model returns an instance of the class named by the model type for each supported type and raises ValueError otherwise. (False for two advertised types, which fail with NameError.)", "quantifier": "every model type string", "why_tests_cant": "all strings", "anchors": ["pvder/DER_wrapper.py:DERModel"]}
{"id": "C69", "title": "DC voltage sufficiency check", "statement": "check_voltage accepts only ratings for which the required duty cycle does not exceed its limit: the DC rating and minimum MPP voltage suffice for the rated AC voltage, and the config voltage deviates at most 10 percent.", "quantifier": "every rating", "why_tests_cant": "continuum", "anchors": ["pvder/DER_check_and_initialize.py:check_voltage"]}
{"id": "C70", "title": "Parameter dictionaries are independent", "statement": "initialize/update_parameter_dict for one parameter ID never changes the entries of other IDs; updating replaces exactly the given keys of the given type. (Unknown parameter names are silently stored, initialising an ID from itself erases it, and only instances whose ID is the class default can create dictionaries.)", "quantifier": "every parameter store and update", "why_tests_cant": "all stores", "anchors": ["pvder/DER_utilities.py:initialize_parameter_dict", "pvder/DER_utilities.py:update_parameter_dict"]}
{"id": "C71", "title": "Parameter save/load round trip", "statement": "Loading a saved parameter dictionary restores the merged view of it. (The separate types are not restored: loading writes every key into all five dictionaries; IDs with dots are truncated.)", "quantifier": "every parameter store", "why_tests_cant": "all stores", "anchors": ["pvder/DER_utilities.py:save_parameter_dictionary", "pvder/DER_utilities.py:load_parameter_dictionary"]}
{"id": "C72", "title": "Per-unit base consistency", "statement": "Base quantities satisfy Zbase*Ibase=Vbase, Sbase=Vbase*Ibase, Lbase*wbase=Zbase, Cbase*Zbase*wbase=1 and converting an impedance, inductance and capacitance to per unit and back is the identity.", "quantifier": "every positive base", "why_tests_cant": "continuum", "anchors": ["pvder/grid_components.py:BaseValues", "pvder/DER_check_and_initialize.py:initialize_circuit_parameters"]}
{"id": "C73", "title": "Plot groups are labelled consistently", "statement": "A plot call that returns has drawn every curve with exactly one label, the label names the quantity drawn and the unit is that of the quantity, and all curves are as long as the time axis. The plot types that return are exactly a fixed list per grid mode; every other advertised type raises whatever the data (active power types outside stand-alone mode, smoothed and imbalance types, 'voltage').", "quantifier": "every plot type and mode", "why_tests_cant": "finite table times mode; mislabelling not visible in tests", "anchors": ["pvder/simulation_utilities.py:group_quantities_for_plotting"]}
{"id": "C74", "title": "MPP equation root is the maximum power point", "statement": "Every root of the equation solved for the maximum power point voltage maximises the module power over all DC voltages, and there is at most one non-negative root.", "quantifier": "every module with positive constants, insolation with non-negative photocurrent, temperature > 0, voltage", "why_tests_cant": "continuum", "anchors": ["pvder/DER_components.py:Vdcmpp", "pvder/DER_components.py:Ppv_calc"]}
{"id": "C75", "title": "The compiled three-phase model agrees with the plain one", "statement": "The numba variant returns, for every state, parameter set and input, connected or disconnected, the same derivatives, the same Jacobian and the same state layout as the three-phase class without RMS filter.", "quantifier": "every state, parameter set, input and connection state", "why_tests_cant": "continuum; two hand-maintained copies of the same 23 equations", "anchors": ["pvder/DER_components_three_phase_numba.py:ODE_model", "pvder/DER_components_three_phase_numba.py:jac_ODE_model", "pvder/DER_components_three_phase_no_Vrms_filter.py:ODE_model", "pvder/DER_components_three_phase_no_Vrms_filter.py:jac_ODE_model"]}
{"id": "C76", "title": "The balanced model is the three-phase model on balanced trajectories", "statement": "While no controller output exceeds its limit, every trajectory of the balanced class, with phases b and c obtained by rotation, is a trajectory of the three-phase class under balanced grid voltages; phase a, DC link, Q controller and PLL derivatives always agree. (False for phases b and c when saturated: the component-wise anti-windup is not rotation symmetric.)", "quantifier": "every solution, parameter set and input", "why_tests_cant": "trajectories over a continuum", "anchors": ["pvder/DER_components_three_phase_balanced.py:ODE_model", "pvder/DER_components_three_phase_balanced.py:update_voltages", "pvder/DER_components_three_phase_no_Vrms_filter.py:ODE_model"]}
{"id": "C77", "title": "Jacobians of the balanced and constant-Vdc classes", "statement": "Each entry returned by jac_ODE_model is the partial derivative of the corresponding ODE_model component. (False for a list of entries; the others are proved.)", "quantifier": "every state and parameter set", "why_tests_cant": "continuum", "anchors": ["pvder/DER_components_three_phase_balanced.py:jac_ODE_model", "pvder/DER_components_single_phase_constant_Vdc.py:jac_ODE_model", "pvder/DER_components_three_phase_constant_Vdc.py:jac_ODE_model"]}
{"id": "C78", "title": "Total energy balance", "statement": "The energy stored in DC link and filter inductors changes at the rate PV power minus PCC power minus filter losses, for every state, in all classes with a DC link; in the constant-Vdc classes the energy in the filter inductors changes at the rate inverter power minus PCC power minus filter losses.", "quantifier": "every state, parameter set and input", "why_tests_cant": "continuum", "anchors": ["pvder/DER_components_single_phase.py:ODE_model", "pvder/DER_components_three_phase.py:ODE_model"]}
{"id": "C79", "title": "Reported time series equal the model's own quantities", "statement": "Every voltage, current, power and RMS time series the simulation object reports after a run equals, at each stored sample, the quantity the DER model itself computes at that state. (False for the three-phase stand-alone grid power series: the factor 1/2 is applied to phase a only.)", "quantifier": "every stored state, parameter set, model class and grid mode", "why_tests_cant": "every sample of every run over a continuum", "anchors": ["pvder/dynamic_simulation.py:time_series_inv_terminal_voltage", "pvder/dynamic_simulation.py:time_series_PCC_LV_side_voltage", "pvder/dynamic_simulation.py:time_series_S", "pvder/dynamic_simulation.py:time_series_RMS", "pvder/dynamic_simulation.py:time_series_standalone_grid"]}
{"id": "C80", "title": "The solution grid covers the horizon", "statement": "The time grid handed to the solver starts at tStart, is strictly increasing with constant spacing tInc, and its last point lies in [tStop, tStop+tInc). (The second advertised solver, 'ode-vode-bdf', cannot be constructed.)", "quantifier": "every tStart < tStop and tInc > 0", "why_tests_cant": "continuum", "anchors": ["pvder/dynamic_simulation.py:t_calc", "pvder/dynamic_simulation.py:initialize_solver"]}
{"id": "C81", "title": "Loop-mode argument validation", "statement": "A loop-mode run_simulation call is rejected with ValueError, keeping the previous voltages, unless phase A voltage, initial state and times have the right types; otherwise phase A is the given voltage, the unbalanced classes also take phases B and C as given, the balanced class derives a balanced set from phase A, and single-phase classes leave B and C alone.", "quantifier": "every argument combination", "why_tests_cant": "combinatorial", "anchors": ["pvder/dynamic_simulation.py:run_simulation", "pvder/dynamic_simulation.py:update_grid_measurements"]}
{"id": "C82", "title": "Every model class can be constructed", "statement": "Constructing a DER through its class or through the DERModel wrapper with a complete, parent-free configuration and the grid arguments of its mode succeeds and yields an instance of that class with the configured values. (False for both single-phase classes, which end in KeyError for every configuration, and the wrapper can only ever give three of the classes.)", "quantifier": "every configuration, argument set and class", "why_tests_cant": "combinatorial", "anchors": ["pvder/DER_check_and_initialize.py:setup_DER", "pvder/DER_check_and_initialize.py:initialize_basic_specs", "pvder/DER_components.py:creation_message", "pvder/DER_wrapper.py:DERModel"]}
{"id": "C83", "title": "Grid arguments are required and attached", "statement": "In stand-alone mode a DER is attached to the given grid model and otherwise to the given phase voltages; a missing grid model or voltage is rejected before the DER can be simulated.", "quantifier": "every argument set and class", "why_tests_cant": "combinatorial", "anchors": ["pvder/DER_components.py:attach_grid_model", "pvder/DER_components.py:initialize_grid_measurements"]}
{"id": "C84", "title": "Initial states come from the configuration", "statement": "The initial state vector is the one in the configuration; the documented initial-state keyword arguments never change it.", "quantifier": "every configuration and argument set", "why_tests_cant": "all argument sets", "anchors": ["pvder/DER_check_and_initialize.py:initialize_states"]}
{"id": "C85", "title": "Instances are independent", "statement": "The ride-through, connection and reference state of a DER after any interleaving of evaluations of several DERs in one process equals its state after its own evaluations alone. (False for low-frequency ride-through with default settings: all instances share the module-level table.)", "quantifier": "every number of instances, configuration and interleaving", "why_tests_cant": "all interleavings", "anchors": ["pvder/DER_features.py:VRT_initialize", "pvder/DER_features.py:FRT_initialize", "pvder/DER_features.py:FRT", "pvder/DER_check_and_initialize.py:update_DER_config"]}
{"id": "C86", "title": "Instantaneous frequency trip switch", "statement": "Switching FRT_INSTANTANEOUS_TRIP on sets both low-frequency limits to half a second in the table the DER uses: exactly the DERs sharing that table (all those with default settings) see it and no other DER changes. Switching it off changes nothing, so the configured limits are never restored.", "quantifier": "every table, instance and sharing", "why_tests_cant": "histories and aliasing", "anchors": ["pvder/DER_features.py:FRT_INSTANTANEOUS_TRIP"]}
{"id": "C87", "title": "The momentary cessation flag is determined by the voltage history", "statement": "At every evaluation the low-voltage (high-voltage) cessation flag is on exactly when some untripped cessation zone has been continuously violated for at least its minimum and at most its trip time, now or at an earlier evaluation since which no violated untripped zone has seen the voltage recover past its threshold.", "quantifier": "every voltage history, zone table and time step", "why_tests_cant": "histories of unbounded length", "anchors": ["pvder/DER_features.py:LVRT", "pvder/DER_features.py:HVRT"]}
{"id": "C88", "title": "Steady-state initialisation starts at rest", "statement": "If the residual minimised by the steady-state initialisation is zero at the returned point, the initial states make every derivative vanish except the angle, which runs at 60 Hz, and the model stays there. (True only if the returned point is also the last one evaluated, the PCC voltage has angle 0, and the currents are symmetric: with unbalanced duty cycles allowed, and in stand-alone mode, the DER does not start at rest; on an unbalanced grid the balanced option never has residual zero.)", "quantifier": "every parameter set, operating point, optimiser result and model class", "why_tests_cant": "continuum and an arbitrary external optimiser", "anchors": ["pvder/DER_check_and_initialize.py:power_error_calc", "pvder/DER_check_and_initialize.py:steady_state_calc", "pvder/DER_check_and_initialize.py:initialize_states"]}
{"id": "C89", "title": "Grid frequency estimate", "statement": "With use_frequency_estimate the reported grid frequency is nominal for a constant voltage angle and its deviation from nominal is bounded by the angle change over the estimation interval. It does not follow a sustained frequency offset: each offset interval adds the full offset again, and a phase angle crossing 180 degrees shifts the estimate by a full turn per interval.", "quantifier": "every history of voltages and times", "why_tests_cant": "histories of unbounded length", "anchors": ["pvder/DER_utilities.py:wgrid_calc", "pvder/DER_utilities.py:wgrid_estimate", "pvder/DER_utilities.py:wgrid_estimate_calc"]}
{"id": "C90", "title": "Ratings are consistent", "statement": "Rated voltage, current and power agree (per phase V*I/2 times the number of phases is the rated power, in SI and per unit), the reference RMS voltage is what a symmetric nominal voltage measures, the current limit is the overload factor times rated current and the per-unit filter and transformer impedances are those of the SI elements. (False for the load inductance, which is computed from the transformer.)", "quantifier": "every rating and positive base", "why_tests_cant": "continuum", "anchors": ["pvder/DER_check_and_initialize.py:initialize_inverter_ratings", "pvder/DER_check_and_initialize.py:initialize_circuit_parameters"]}
{"id": "C91", "title": "Circuit parameter check messages", "statement": "The DC link capacitor is reported acceptable exactly when its capacitance is at least the value recommended for the rated ripple. The inductor message is the opposite of what a user needs: the inductor is reported acceptable exactly when it is smaller than the minimum, that is when the current ripple exceeds a tenth of the rated current.", "quantifier": "every rating", "why_tests_cant": "continuum", "anchors": ["pvder/DER_check_and_initialize.py:check_circuit_parameters"]}
{"id": "C92", "title": "validate_model error terms", "statement": "validate_model's inverter power error compares the same power computed two ways, and is zero for every state; the filter loss error is zero in steady state. (The loss error is not zero during transients, and the per-phase expression is not used for other three-phase classes.)", "quantifier": "every state", "why_tests_cant": "continuum", "anchors": ["pvder/DER_utilities.py:validate_model"]}
{"id": "C93", "title": "PV power follows the insolation schedule", "statement": "Through a whole run, with any interleaving of derivative and Jacobian evaluations at forward times that do not jump over more than one insolation event, every evaluation of every model class uses the insolation and temperature scheduled for its time; while connected the PV power is the PV curve at these values, while disconnected it is zero.", "quantifier": "every class, configuration, event schedule and call sequence", "why_tests_cant": "histories of unbounded length", "anchors": ["pvder/DER_utilities.py:update_Ppv", "pvder/simulation_events.py:solar_events", "pvder/dynamic_simulation.py:ODE_model"]}
{"id": "C94", "title": "The load follows the load schedule", "statement": "In stand-alone mode every derivative evaluation uses the load impedance scheduled for its time and the terminal voltage is the circuit solution for it. (The numba class raises AttributeError at every load change; Jacobian evaluations keep the last load.)", "quantifier": "every class, configuration, schedule and call sequence", "why_tests_cant": "histories of unbounded length", "anchors": ["pvder/DER_utilities.py:update_Zload1", "pvder/simulation_events.py:load_events", "pvder/dynamic_simulation.py:ODE_model"]}
{"id": "C95", "title": "With default features a simulation solves one differential equation", "statement": "With Volt-VAR, external reactive power, ramp limiter, frequency estimate and DC schedule off, and a healthy voltage, the derivative returned for a state and a time does not depend on the evaluations made before, in whatever order and at whatever times a solver makes them. (After a trip it does.)", "quantifier": "every class, parameter set and call history", "why_tests_cant": "histories of unbounded length", "anchors": ["pvder/dynamic_simulation.py:ODE_model", "pvder/DER_utilities.py:update_iref", "pvder/DER_features.py:disconnect_or_reconnect"]}
{"id": "C96", "title": "Ride-through end to end", "statement": "From the terminal voltages passed to the simulation to the output: the DER trips exactly when the measured voltage stays beyond a zone threshold longer than the zone allows, a DER that sees only healthy voltages stays connected, and after a trip and the disconnection delay all results are computed with zero PV power and zero references for ever.", "quantifier": "every class, measurement type, zone table and call sequence", "why_tests_cant": "histories of unbounded length", "anchors": ["pvder/DER_features.py:update_ridethrough_flags", "pvder/DER_features.py:disconnect_or_reconnect", "pvder/dynamic_simulation.py:ODE_model"]}
{"id": "C97", "title": "References after a reconnection", "statement": "A DER that never disconnects keeps its DC and external reactive power references; with the ramp limiter a three-phase DER restarts from zero current within the gradient. (After a reconnection the DC reference stays at the DC voltage of the last disconnected evaluation and external reactive power and Volt-VAR are lost.)", "quantifier": "every class, configuration and call sequence", "why_tests_cant": "histories of unbounded length", "anchors": ["pvder/DER_features.py:DER_disconnect", "pvder/DER_features.py:DER_reconnect_logic", "pvder/DER_utilities.py:update_Vdc_ref", "pvder/DER_utilities.py:update_Qref"]}
{"id": "C98", "title": "Voltage measurement selection", "statement": "The ride-through logic sees the voltage selected by Vrms_measurement_type. (With 'filtered' in the six classes without filter state it only ever sees the value stored before the run; if there is none, AttributeError; an invalid type raises ValueError only once an enabled voltage function needs it.)", "quantifier": "every class, type and call sequence", "why_tests_cant": "histories of unbounded length", "anchors": ["pvder/DER_features.py:get_Vrms_measured", "pvder/DER_features.py:update_ridethrough_flags"]}
{"id": "C99", "title": "Evaluations do not raise", "statement": "With default settings (frequency ride-through and DC ramp off, angles from frequency, a usable measurement type) and any events added before, no evaluation of a run raises, in whatever order, at whatever times and with whatever state vectors a solver calls the methods.", "quantifier": "every class except numba with load, every schedule and call sequence", "why_tests_cant": "histories of unbounded length", "anchors": ["pvder/dynamic_simulation.py:ODE_model", "pvder/dynamic_simulation.py:jac_ODE_model"]}
{"id": "C100", "title": "Instance names are unique", "statement": "In one process, no two DER models, grids, event objects, simulations or results objects ever carry the same name, whatever identifiers the user chooses and whichever constructor calls fail; the n-th instance of a class carries the number n.", "quantifier": "every history of constructor calls and every identifier string", "why_tests_cant": "histories of unbounded length and arbitrary identifiers", "anchors": ["pvder/utility_classes.py:name_instance", "pvder/grid_components.py:Grid.__init__"]}
{"id": "C101", "title": "Arguments of the simulation constructor", "statement": "DynamicSimulation accepts exactly the documented combinations: a listed solver, a class with a Jacobian if jacFlag is set, a grid model in stand-alone mode; anything else is rejected with an explaining ValueError or AssertionError. (False for the solver: ode-vode-bdf never works and an unknown solver gives AttributeError.)", "quantifier": "every argument tuple, including every solver and class name", "why_tests_cant": "arbitrary strings", "anchors": ["pvder/dynamic_simulation.py:__init__", "pvder/simulation_utilities.py:initialize_solver", "pvder/dynamic_simulation.py:check_jac_availability"]}
{"id": "C102", "title": "Solver failures are reported", "statement": "A run whose solver reports failure in some interval (method indicator 0 or above 2) raises ValueError, sets SOLVER_CONVERGENCE to False, appends exactly one entry with the time and code of the first failing interval, and leaves the earlier reported series alone; a run without a failing code sets SOLVER_CONVERGENCE to True, appends nothing and stores the solver's rows; an exception inside an evaluation reaches the caller.", "quantifier": "every solver, as an adaptive strategy that evaluates the model where it likes and returns any rows and codes", "why_tests_cant": "arbitrary solver behaviour", "anchors": ["pvder/simulation_utilities.py:check_simulation", "pvder/simulation_utilities.py:call_ODE_solver", "pvder/dynamic_simulation.py:run_simulation"]}
{"id": "C103", "title": "Repeated simulations replay the schedules", "statement": "In a session of any number of simulations that return normally and event additions, removals and enabling in between, every simulation plays the insolation and load schedules that the editing calls produce from the beginning, as if no simulation had been run before; event and reference counters are zero afterwards and the schedules unchanged. What is not restarted: the grid source keeps its last voltage until the simulated time passes the time of its last change, the next run starts from the states of the last evaluation, and a failed run keeps its counters.", "quantifier": "every sequence of runs and edits, every solver", "why_tests_cant": "unbounded sessions, arbitrary solvers", "anchors": ["pvder/dynamic_simulation.py:run_simulation", "pvder/simulation_events.py:reset_event_counters", "pvder/grid_components.py:steady_state_model", "pvder/dynamic_simulation.py:initialize_y0_t"]}
{"id": "C104", "title": "Reported schedule series", "statement": "After a run with collection the reported insolation, PV power, grid voltage, grid frequency and load impedance at each reported time are the scheduled ones for that time (PV power: of the module under the scheduled weather at the DC voltage of the state row), if the reported times do not jump over more than one event. (False in loop mode, where counters are not reset before the series are computed.)", "quantifier": "every schedule, every solver, every state rows, every list of reported times", "why_tests_cant": "unbounded schedules and times", "anchors": ["pvder/dynamic_simulation.py:time_series_Ppv", "pvder/dynamic_simulation.py:time_series_standalone_grid", "pvder/dynamic_simulation.py:time_series_Zload1"]}
{"id": "C105", "title": "Sessions do not raise", "statement": "With default settings, any sequence of simulations with a solver that reports no failure and of event additions, removals and enabling calls between them has no exception in any run_simulation call, with or without collection of the series.", "quantifier": "every sequence of runs and edits, every solver", "why_tests_cant": "unbounded sessions", "anchors": ["pvder/dynamic_simulation.py:run_simulation", "pvder/dynamic_simulation.py:collect_full_trajectory", "pvder/simulation_events.py:grid_events"]}
{"id": "C106", "title": "Reported voltages and PLL quantities are those of the model", "statement": "The PCC voltages and the PLL quantities vd and we the tool reports for a time and state row are those the model itself computes at that time and state with the same source, load and frequency. (False of phases b and c of the balanced class on an unbalanced source; PV power is reported as if the DER were connected.)", "quantifier": "every class except the balanced one, every configuration, state, time and hidden state", "why_tests_cant": "continuous quantities, arbitrary hidden state", "anchors": ["pvder/dynamic_simulation.py:time_series_PCC_LV_side_voltage", "pvder/dynamic_simulation.py:time_series_PLL", "pvder/DER_utilities.py:update_voltages"]}
{"id": "C107", "title": "A step of a co-simulation does not depend on the past", "statement": "With history-dependent features off and healthy voltage, the solution a solver returns for an interval is determined by initial state, measurements and solver alone, whatever evaluations were made before by earlier steps, with other voltages, or by other runs.", "quantifier": "every solver, with or without Jacobian, every history of healthy evaluations, every class", "why_tests_cant": "histories of unbounded length, arbitrary solvers", "anchors": ["pvder/dynamic_simulation.py:run_simulation", "pvder/DER_utilities.py:update_Ppv", "pvder/DER_features.py:disconnect_or_reconnect"]}
{"id": "C108", "title": "The phase-locked loop locks", "statement": "Under a constant balanced PCC voltage of constant frequency and with positive PLL gains, in every simulation and from every initial state, the reported PLL voltage error goes to zero and the PLL frequency estimate goes to the grid frequency, for all seven classes, connected or not; if the initial error is below the pull-out bound the PLL angle never slips a cycle and converges to the grid angle.", "quantifier": "every solution, class, voltage, frequency, positive gains, initial state and connection history", "why_tests_cant": "limits over unbounded time, continuum of states", "anchors": ["pvder/DER_components_single_phase.py:ODE_model", "pvder/DER_components_three_phase.py:ODE_model", "pvder/DER_utilities.py:update_inverter_frequency"]}
{"id": "C109", "title": "Lag of the filtered RMS voltage", "statement": "The filtered RMS voltage of the three-phase class stays between its initial value and the extremes of the measured voltage, approaches a constant voltage exponentially with time constant Tfilter_Vrms, and so crosses a ride-through threshold exactly a logarithmic delay after a voltage step.", "quantifier": "every solution, voltage history, filter constant and threshold", "why_tests_cant": "continuous time, all histories", "anchors": ["pvder/DER_components_three_phase.py:ODE_model", "pvder/DER_features.py:get_Vrms_measured"]}
{"id": "C110", "title": "Balanced operation stays balanced", "statement": "A three-phase inverter whose currents and controller states are balanced at the beginning of a simulation in a balanced grid stays balanced, connected or not, as long as the modulation of phase a is below its limit; and its phase a then follows the balanced model.", "quantifier": "every solution, parameter set, balanced voltage history and connection history", "why_tests_cant": "continuous time, all trajectories", "anchors": ["pvder/DER_components_three_phase.py:ODE_model", "pvder/DER_components_three_phase_no_Vrms_filter.py:ODE_model", "pvder/DER_components_three_phase_numba.py:ODE_model", "pvder/DER_components_three_phase_constant_Vdc.py:ODE_model", "pvder/DER_components_three_phase_balanced.py:ODE_model"]}
{"id": "C111", "title": "Controller integrators cannot wind up", "statement": "Along every solution of every class, connected or not, including solutions that slide along a limiter, as long as the control errors stay within some bound each controller state stays within a bound that depends only on that error bound, the limits and the initial value, however long the error lasts.", "quantifier": "every solution, parameter set, class, error bound, voltage and connection history", "why_tests_cant": "continuous time, unbounded duration", "anchors": ["pvder/DER_components_single_phase.py:ODE_model", "pvder/DER_components_three_phase.py:ODE_model", "pvder/DER_components_three_phase_no_Vrms_filter.py:ODE_model", "pvder/DER_components_three_phase_numba.py:ODE_model", "pvder/DER_components_single_phase_constant_Vdc.py:ODE_model", "pvder/DER_components_three_phase_constant_Vdc.py:ODE_model", "pvder/DER_components_three_phase_balanced.py:ODE_model"]}
{"id": "C112", "title": "After a disconnection the currents die out", "statement": "A DER disconnected by a trip or by momentary cessation and left at a constant terminal voltage, balanced or not: as long as the energy stored at the moment of disconnection leaves room below the modulation limit, its currents and current errors tend to zero, its currents stay bounded by the stored energy, modulation never reaches its limit, the DC voltage stays close to its initial value and settles, and the inverter voltage settles at the terminal voltage.", "quantifier": "every solution, class, parameter set with integrator slower than its filter, terminal voltage, PLL behaviour and initial state", "why_tests_cant": "continuous time, infinite horizon", "anchors": ["pvder/DER_components_single_phase.py:ODE_model", "pvder/DER_components_three_phase.py:ODE_model", "pvder/DER_components_three_phase_no_Vrms_filter.py:ODE_model", "pvder/DER_components_three_phase_numba.py:ODE_model", "pvder/DER_components_single_phase_constant_Vdc.py:ODE_model", "pvder/DER_components_three_phase_constant_Vdc.py:ODE_model", "pvder/DER_components_three_phase_balanced.py:ODE_model", "pvder/grid_components.py:DER_disconnect"]}
{"id": "C113", "title": "A trajectory is determined by its initial state", "statement": "As long as no limiter is active and the DC voltage is positive: two trajectories of the same model with the same inputs and the same initial state are equal, a small error in the initial state grows at most exponentially, and with continuous inputs a trajectory exists, for some time from every such state, and until it reaches the boundary of any given compact set of such states.", "quantifier": "every class, parameter set, bounded input history, connection history, trajectory and perturbation", "why_tests_cant": "all pairs of trajectories over continuous time", "anchors": ["pvder/DER_components_single_phase.py:ODE_model", "pvder/DER_components_three_phase.py:ODE_model", "pvder/DER_components_three_phase_no_Vrms_filter.py:ODE_model", "pvder/DER_components_three_phase_numba.py:ODE_model", "pvder/DER_components_single_phase_constant_Vdc.py:ODE_model", "pvder/DER_components_three_phase_constant_Vdc.py:ODE_model", "pvder/DER_components_three_phase_balanced.py:ODE_model"]}
{"id": "C114", "title": "Unbalance and relative phase measure what they say", "statement": "The unbalance of three positive magnitudes is the largest pairwise difference relative to their mean: in [0,3), zero exactly for equal magnitudes, independent of the order of phases and of the unit. The relative phase of two phasors lies in [0,2pi), turns the direction of the second into the first, is unchanged by scaling and common rotation and becomes the complement when the phasors are exchanged; folded, it is the unsigned angle between them. The balance term of the steady-state objective vanishes exactly for a balanced triple of duty cycles, in positive or negative sequence.", "quantifier": "all positive magnitudes; all phasors", "why_tests_cant": "equalities over all real and complex inputs; the angle wraps around, which samples miss", "anchors": ["pvder/utility_functions.py::Uunbalance_calc", "pvder/utility_functions.py::relative_phase_calc", "pvder/DER_check_and_initialize.py::power_error_calc"]}
{"id": "C115", "title": "Time constants and limits of recorded series", "statement": "The time-constant tool reports exactly the first recorded sample below 37 % of the first plus 63 % of the last value, always reports for a series that ends lower than it starts, brackets the crossing of a decreasing response by one sampling interval, and for a first-order decay never reports more than the true constant plus one sampling interval. Limiting a recorded series equals limiting each sample with the limiter of the model. (Defect shown: for a rising series the first sample is reported.)", "quantifier": "all series of all lengths, all decaying exponentials and sampling grids", "why_tests_cant": "quantifies over all series and sampling grids", "anchors": ["pvder/utility_functions.py::find_first_order_time_constant", "pvder/utility_functions.py::limit_complex_time_series", "pvder/utility_functions.py::limit_complex"]}
{"id": "C116", "title": "A simulation started from the steady state stays there", "statement": "If the steady-state calculation finds an exact operating point on a stiff symmetric grid of angle zero and 60 Hz, with the duty cycle and the reference current below their limits, then whatever solves the model from the computed initial state keeps every state constant except the PLL angle, which turns at 60 Hz; and a start near that state stays near it, its deviation growing at most exponentially. All seven classes.", "quantifier": "all parameters, operating points, horizons and solutions", "why_tests_cant": "a statement about all solutions of a nonlinear differential equation; a test sees one numerical trajectory with discretisation error", "anchors": ["pvder/DER_check_and_initialize.py::steady_state_calc", "pvder/DER_check_and_initialize.py::power_error_calc", "pvder/DER_components_single_phase.py::ODE_model", "pvder/DER_components_three_phase.py::ODE_model", "pvder/DER_components_three_phase_balanced.py::ODE_model", "pvder/DER_components_single_phase_constant_Vdc.py::ODE_model", "pvder/DER_components_three_phase_constant_Vdc.py::ODE_model"]}
{"id": "C117", "title": "A simulation that settles has no static error", "statement": "Whenever the states of a connected DER under constant inputs and a constant symmetric grid converge (the PLL angle excepted, it turns) with neither limiter active in the limit, then in the limit: every phase current equals its reference, the filtered current error is zero, the DC voltage equals its reference (classes with a DC controller), the reactive power at the PCC equals its reference, the inverter delivers the PV power, the PLL runs at the grid frequency and the inverter voltage is the terminal voltage plus the drop over the filter. At 60 Hz the limit is exactly an operating point with zero residual of the steady-state calculation, and equals the state the initialisation computes from it. All seven classes.", "quantifier": "all parameters with non-zero integrator gains, all inputs, all solutions that converge", "why_tests_cant": "a limit statement about all solutions of a nonlinear differential equation", "anchors": ["pvder/DER_components_single_phase.py::ODE_model", "pvder/DER_components_three_phase.py::ODE_model", "pvder/DER_components_three_phase_balanced.py::ODE_model", "pvder/DER_components_single_phase_constant_Vdc.py::ODE_model", "pvder/DER_components_three_phase_constant_Vdc.py::ODE_model", "pvder/DER_components_three_phase_numba.py::ODE_model", "pvder/DER_check_and_initialize.py::steady_state_calc", "pvder/DER_check_and_initialize.py::power_error_calc"]}
{"id": "C118", "title": "Currents follow a reference that settles", "statement": "Along every simulation of each of the seven model classes (connected, disconnected or switching between the two, balanced grid or not) whose DC voltage, PLL frequency, terminal voltages and current reference converge and whose duty cycle is below its limit from some time on: every phase current converges to its reference, the filtered current error to zero, and the duty cycle to the value that balances the terminal voltage and the drop over the filter. On a steady symmetric grid the frequency converges by itself, so with a constant DC voltage only the reference has to settle. Condition: positive filter elements and an integrator slower than the input filter (true of all shipped gains).", "quantifier": "all parameters, inputs, connection histories and solutions", "why_tests_cant": "an asymptotic statement about all solutions of a time-varying differential equation", "anchors": ["pvder/DER_components_single_phase.py::ODE_model", "pvder/DER_components_three_phase.py::ODE_model", "pvder/DER_components_three_phase_balanced.py::ODE_model", "pvder/DER_components_single_phase_constant_Vdc.py::ODE_model", "pvder/DER_components_three_phase_constant_Vdc.py::ODE_model", "pvder/DER_components_three_phase_numba.py::ODE_model", "pvder/DER_components_three_phase_no_Vrms_filter.py::ODE_model"]}
{"id": "C119", "title": "The event log is a faithful account", "statement": "Starting from construction, for every sequence of evaluations in any time order: the messages written about ride-through zones, momentary cessation, trips, disconnection and reconnection are written only when their conditions hold, with the true elapsed time, and they determine the final timers, marks and flags completely; so no timer starts or stops, no zone trips and the DER is neither disconnected nor reconnected without a message. Every trip, disconnection and reconnection message is preceded by the message that started its timer exactly the announced time earlier, at least the configured delay ago, without another message about that timer in between; a zone trips at most once; disconnections and reconnections alternate; messages appear in the order of their times. (Defect shown: a frequency zone under a key other than 1, 2, 3 acts silently.)", "quantifier": "all settings, zone tables, evaluation histories", "why_tests_cant": "quantifies over all evaluation histories, including the out-of-order evaluations a solver makes", "anchors": ["pvder/DER_features.py:print_VRT_events", "pvder/DER_features.py:print_LFRT_events", "pvder/DER_features.py:print_reconnect_events", "pvder/DER_features.py:LVRT", "pvder/DER_features.py:HVRT", "pvder/DER_features.py:FRT", "pvder/DER_features.py:DER_disconnect_logic", "pvder/DER_features.py:DER_reconnect_logic", "pvder/DER_features.py:disconnect_or_reconnect", "pvder/DER_features.py:update_ridethrough_flags"]}
{"id": "C120", "title": "Schedules under solver step-backs", "statement": "Query times in any order (a variable-step solver retries a rejected step at an earlier time; several models may share one events object), each query passing at most one new event: every query of the insolation, grid and load schedule succeeds and returns the value scheduled for its time, or for a time between it and an earlier query. It is exactly the value for its own time if nothing, or only the last event, was passed after it (insolation and load: also if it precedes the schedule); in every other case it is the value of an event still in the future at that time, and the counters never recover. The same holds for the insolation used by the evaluations of a simulation.", "quantifier": "all schedules reached by any history, all finite sequences of query times in any order", "why_tests_cant": "quantifies over all schedules and all orders of query times, which depend on the solver's step control", "anchors": ["pvder/simulation_events.py::solar_events", "pvder/simulation_events.py::grid_events", "pvder/simulation_events.py::load_events", "pvder/simulation_events.py::reset_event_counters"]}
{"id": "C121", "title": "The time origin does not matter at constant frequency", "statement": "With a constant grid frequency, delaying the start of a simulation and all its inputs by any time delays the whole simulation by that time and changes nothing else but the PLL angle, which is ahead by frequency times delay (unbalanced terminal voltages in the three-phase classes: for delays of a multiple of half a grid period). When the frequency changes the statement is false, and exactly how is stated: the same frequency step is a different phase jump at another time. Nor can the angle of the grid voltage be chosen freely: the current reference is tied to angle zero.", "quantifier": "every class, solution, delay, input and connection history", "why_tests_cant": "continuous time, arbitrary trajectories", "anchors": ["pvder/DER_components_single_phase.py:ODE_model", "pvder/DER_components_three_phase.py:ODE_model", "pvder/DER_components_three_phase_balanced.py:ODE_model", "pvder/DER_components_single_phase_constant_Vdc.py:ODE_model", "pvder/DER_components_three_phase_constant_Vdc.py:ODE_model", "pvder/DER_components.py:update_inverter_frequency"]}
{"id": "C122", "title": "The log can be read back", "statement": "After a session that starts with an empty log file, get_logs returns exactly one entry per record of at least the log level, in order, saying what the record says, and a filter dictionary selects exactly the matching entries, as long as no item contains a line break or '::' or ends with a colon and records of level ERROR carry the error dictionary. An exception leaves one entry per guarded function it passes, innermost first, naming that function and its file, and reaches the caller unchanged. (Outside these conditions: a text message of level ERROR, which the tool itself writes for an unknown DER identifier, makes get_logs raise from then on whatever is written later; a '::' in an identifier cuts messages silently.)", "quantifier": "every sequence of records, log level, filter and exception depth", "why_tests_cant": "unbounded sequences of arbitrary text", "anchors": ["pvder/exceptionutil.py:get_logs", "pvder/exceptionutil.py:exception_handler", "pvder/exceptionutil.py:set_logger", "pvder/logutil.py:LogUtil", "pvder/DER_components.py:get_DER_config"]}
{"id": "C123", "title": "Measured power, voltage and current fit together", "statement": "At every instant of every class: in a single-phase class the magnitude of the inverter and PCC power is RMS voltage times RMS current; in a three-phase class the PCC power is the sum of the phase powers and no power exceeds three times RMS voltage times RMS current, with equality in balanced operation, where line-to-line RMS voltages are sqrt(3) times the RMS voltage; with the current at rest, the real power lost between inverter and PCC is exactly the filter resistance times the squared RMS current (times three); no measurement raises, except that the line-to-line method of a single-phase model always raises AttributeError.", "quantifier": "every terminal voltage, current, load and grid voltage, balanced or not; every class", "why_tests_cant": "a quantitative identity over all complex phasors; tests compare with constants", "anchors": ["pvder/DER_components_single_phase.py:S_calc", "pvder/DER_components_three_phase.py:S_calc", "pvder/DER_components_three_phase.py:Vrms_calc", "pvder/DER_components_three_phase_balanced.py:S_calc", "pvder/DER_components_single_phase.py:Vabrms_calc", "pvder/DER_components_three_phase.py:Irms_calc", "pvder/DER_components.py:update_RMS"]}
{"id": "C124", "title": "The closed loop is stable around its operating point", "statement": "At constant grid voltage and frequency, constant weather and references, zero reactive power demand, and below the limiters, each of the seven models has an operating point that is a solution of its equations (the grid takes the PV power less the filter losses, at the DC reference), and it is locally exponentially stable: there are a radius, an overshoot and a rate such that every solution starting within the radius approaches it at that rate, all states included. Proved whenever explicit inequalities between gains, filter, DC link and operating point hold, and these are shown to hold for the shipped units (10, 50 and 250 kVA) over their whole range of grid voltage, frequency, DC reference and load (PV module not far from its maximum power point).", "quantifier": "all parameters satisfying the inequalities; all solutions starting near; the shipped units over continuous ranges of operating conditions", "why_tests_cant": "stability is a statement about all solutions for all time of a nonlinear differential equation; a simulation shows one trajectory for a finite time", "anchors": ["pvder/DER_components_single_phase.py::ODE_model", "pvder/DER_components_three_phase_balanced.py::ODE_model", "pvder/DER_components_single_phase_constant_Vdc.py::ODE_model", "pvder/DER_components_three_phase.py::ODE_model", "pvder/DER_components_three_phase_no_Vrms_filter.py::ODE_model", "pvder/DER_components_three_phase_numba.py::ODE_model", "pvder/DER_components_three_phase_constant_Vdc.py::ODE_model", "config_der.json"]}
{"id": "C125", "title": "What the Jacobian self-check reports", "statement": "check_jacobian reports every entry of the matrix that is wrong by at least its tolerance 0.01 plus the error of a central difference with step 1e-6, and no entry that is wrong by less than 0.01 minus that error; so a report is never an artefact of the difference formula. For the single-phase model in normal operation the report is exactly: the entry (iaI, wte), whose sign is wrong in the code, when the in-phase current is large enough to make it visible, and nothing else; at small current (such as at start-up) it passes although that entry is wrong. The other models are reported as follows in normal operation. Constant-DC-voltage single-phase: the same entry and the missing or misplaced active power feedback (at most thirteen entries), so that the check fails also at start-up. Three-phase: only the missing diagonal entry of the RMS voltage filter, for every filter constant up to 100 s. Three-phase without that filter: the check passes; the compiled (numba) model agrees with it. Balanced: only the power flows of the two mirrored phases (at most ten entries), visible even without current. Constant-DC-voltage three-phase: an entry exactly when it misses the derivative by the tolerance, only entries of the PLL angle and of the power feedback, and the check fails for every reactive power controlled inverter.", "quantifier": "all states, inputs and parameters; any derivative method that is three times differentiable along the coordinate; for each model all states in normal operation", "why_tests_cant": "A test calls it at the initial state of a few instances, where the current is zero and the wrong entry cannot be seen.", "anchors": ["pvder/DER_check_and_initialize.py: check_jacobian", "pvder/DER_components_single_phase.py: jac_ODE_model, ODE_model"]}
{"id": "C126", "title": "Recorded RMS values and phase angles", "statement": "After a run the recorded RMS series are, at every point of the trajectory and in every class, what the RMS measurement methods of the instance return there; series of unequal length are rejected; each recorded angle lies in (-pi, pi] and with the RMS value gives back the phasor; in balanced operation the angles of phases b and c are those of phase a plus or minus a third of a turn, up to a whole turn; the line power a user can ask for is one third of the active power flowing into the grid when the voltages are balanced and the line is lossless, and it ignores the resistance of the line.", "quantifier": "all trajectories (any length), classes, stand-alone or not, line impedances", "why_tests_cant": "A test compares a few points of one run; the agreement is at every point of every trajectory.", "anchors": ["pvder/dynamic_simulation.py: time_series_RMS, time_series_phase_angle, time_series_inv_terminal_voltage, time_series_power_transfer", "pvder/utility_functions.py: Urms_time_series, Uphrms_time_series, Uabsolute_time_series, Vinv_terminal_time_series, m_time_series"]}
{"id": "C127", "title": "Restoring the DC voltage set-point on reconnection", "statement": "With restore_Vdc switched on, at the first reconnection the DC voltage reference continues from the DC voltage of the last evaluation before it, and a staircase is scheduled from there to the set-point: one step of the configured height (2 V by default) per step time (0.5 s), never beyond the set-point. At every later evaluation that finds and leaves the DER connected the reference is the value of the staircase for its time, whatever happened in between, and once the staircase is over it is the set-point. What is false of the code is stated exactly: a DC voltage more than a step outside the permitted range makes the reconnecting evaluation raise ValueError, which aborts the simulation; a second reconnection raises IndexError if the first staircase went down by more than one step, and otherwise jumps to the set-point without a ramp. The classes with a constant DC voltage never read the schedule: while connected they keep the reference they were constructed with; no other evaluation than a reconnecting one raises.", "quantifier": "every class with a DC controller, every history of evaluations (times, states, grid voltages) before and after, every configuration of limits, step and set-point", "why_tests_cant": "an effect over an unbounded number of evaluations that depends on ride-through history and the DC voltage at one instant", "anchors": ["pvder/DER_features.py:disconnect_or_reconnect", "pvder/DER_utilities.py:Vdc_ref_ramp", "pvder/DER_utilities.py:update_Vdc_ref", "pvder/DER_utilities.py:get_Vdc_ref"]}
{"id": "C128", "title": "Volt-VAR in a running simulation", "statement": "With Volt-VAR control on, every evaluation at a new time that leaves the DER connected uses the reactive power reference of the droop curve for the measured voltage (per unit of its reference): the linear value between 0.92 and 0.98 and between 1.02 and 1.08, cut at the spare capacity, which is the root of rated power squared minus active power squared less the reactive power of the output filter; the previous reference in the four margins of 0.01 next to these ranges; zero elsewhere. Inside the ranges active and reactive power together, filter included, stay within the rating, and in every history the reference never exceeds 44 percent of the rating. Evaluations at old times keep the reference. What is false of the code is stated too: one disconnection switches Volt-VAR off for good, also after reconnection.", "quantifier": "every class, every history of evaluations (times, states, voltages)", "why_tests_cant": "an effect over an unbounded number of evaluations; tests look at one call of the curve", "anchors": ["pvder/DER_features.py:Volt_VAR_logic", "pvder/DER_features.py:Qlimit_calc", "pvder/DER_utilities.py:update_Qref"]}
{"id": "C129", "title": "Ride-through and Volt-VAR in repeated runs", "statement": "The logic clocks of ride-through, connection and Volt-VAR are at least the latest time evaluated so far and no simulation resets them. So in a session of simulations and event edits any further run is, up to the latest time already evaluated, unprotected: whatever voltages and frequencies it brings, no timer starts, nothing trips, disconnects or reconnects, and the Volt-VAR reference stays frozen. Concretely a DER that trips at zero voltage when fresh stays connected through the same fault in a second run.", "quantifier": "every class, all sessions of simulations (any solver) and edits, all settings and inputs of the further run", "why_tests_cant": "a history property: any number of runs, any solver", "anchors": ["pvder/DER_features.py:update_ridethrough_flags", "pvder/DER_features.py:disconnect_or_reconnect", "pvder/DER_features.py:Volt_VAR_logic", "pvder/dynamic_simulation.py:run_simulation"]}
{"id": "C130", "title": "Configured ride-through settings are obeyed", "statement": "For every configuration file, DER identifier and keyword arguments with which construction succeeds, every simulation obeys exactly the settings of the blocks the configuration designates (its own, the one it refers to by name, or the default): the DER trips on low or high voltage iff the measured RMS voltage in volts stayed beyond the threshold (configured fraction of the configured rated voltage) of one of the levels for longer than that level's configured time, counted after the configured t_stable; it enters momentary cessation only if a level is configured for it; it stays connected if the voltage never leaves the band; the delays and the restore flag are the configured ones or the documented defaults (with no settings at all: 0.88/5 s, 0.7/3.5 s, 0.5/1 s and 1.06/1 s, 1.12/0.5 s). Construction succeeds only with feasible settings. Limit stated exactly: a level whose block presets threshold_breach is accepted and never trips.", "quantifier": "every configuration file, identifier, arguments, class, history of evaluations (times, states, voltages)", "why_tests_cant": "configuration files and evaluation histories are unbounded; a test uses one file and one voltage profile", "anchors": ["pvder/DER_components.py:initialize_DER", "pvder/DER_check_and_initialize.py:update_RT_config", "pvder/DER_features.py:VRT_initialize", "pvder/DER_features.py:FRT_initialize", "pvder/DER_features.py:check_VRT_settings", "pvder/DER_features.py:LVRT", "pvder/DER_features.py:HVRT"]}
{"id": "C131", "title": "Configured electrical parameters are the constants of the equations", "statement": "For every class, configuration file, DER identifier and keyword arguments with which construction gets through its electrical initialisation, every constant in the equations and in the simulation (filter resistance, inductance and DC capacitance in per unit, controller gains, current limit, PV string sizes, DC voltage range, transformer impedance, rated power, gradient limits) is the configured number \u2014 keyword argument for the three ratings, else the file's entry, else the class default \u2014 in per unit on the 500 V, 50 kVA, 60 Hz base; initialisation is accepted iff the rated voltage fits the DC voltages at the steady-state duty cycle and, when not stand-alone, the external voltage is within 10 % of the rating; constants a class does not have influence neither its equations nor its Jacobian. For the shipped 50, 250, 50_balanced, 10 and 10_constantVdc entries this gives the numeric units, and with C124 the closed loop built from the file settles.", "quantifier": "every class, file, DER identifier, keyword arguments, external voltage", "why_tests_cant": "the map from configuration to equation constants passes through lookups, defaults, type filters and per-unit conversion for every parameter and class", "anchors": ["pvder/DER_check_and_initialize.py:initialize_DER_model", "pvder/DER_check_and_initialize.py:initialize_inverter_ratings", "pvder/DER_check_and_initialize.py:initialize_circuit_parameters", "pvder/DER_check_and_initialize.py:initialize_controller_gains", "pvder/DER_check_and_initialize.py:check_voltage", "pvder/DER_components.py:initialize_module_parameters"]}
{"id": "C132", "title": "Filter and DC-link equations in physical units", "statement": "With the configured inductance L (henry), resistance R (ohm) and capacitance C (farad), and currents, voltages and powers converted to amperes, volts and watts, the state derivatives satisfy L dI/dt = Vt - V - R I - j w L I in each phase and C Vdc dVdc/dt = Ppv - P on the DC link, with t in seconds.", "quantifier": "every class, configuration, state and input", "why_tests_cant": "the law must hold at every state and for every configured parameter set; a comparison run would need an independent reference simulator", "anchors": ["pvder/DER_components_single_phase.py:ODE_model", "pvder/DER_components_three_phase.py:ODE_model", "pvder/DER_components_three_phase_balanced.py:ODE_model", "pvder/DER_check_and_initialize.py:initialize_circuit_parameters", "pvder/grid_components.py:BaseValues"]}
{"id": "C133", "title": "Shipped configurations can be instantiated", "statement": "Every DER entry of the shipped config_der.json can be instantiated with well-typed arguments and the grid data of its mode, in the class it names, and through the wrapper; every parameter then has the argument's value if given, else the file's, else the class default.", "quantifier": "every shipped entry, class and argument set", "why_tests_cant": "quantifies over all argument sets; the shipped tests use a few entries only", "anchors": ["pvder/DER_check_and_initialize.py:setup_DER", "pvder/DER_check_and_initialize.py:initialize_basic_specs", "pvder/DER_check_and_initialize.py:get_DER_parent_config", "pvder/DER_wrapper.py:DERModel"]}
{"id": "C134", "title": "Minimum ride-through times are guaranteed", "statement": "A dip (swell) that lasts less than the configured minimum ride-through time of every level it crosses neither starts momentary cessation nor disconnects the DER: t_min_ridethrough is a time the DER is guaranteed to ride through. This holds of every configuration in which no level's t_threshold is shorter than its t_min_ridethrough, in particular of the default settings. It is false of the shipped settings LVRT_1547cat3 (used by 50, 250, 50_balanced): their levels 1 and 3 trip after 5 s and 0.25 s although they declare minimum ride-through times of 20 s and 1 s, and never enter the momentary cessation they are configured for; construction accepts them without a word. The exact behaviour under the shipped settings is stated.", "quantifier": "every configuration file, identifier, arguments, class, history of evaluations (times, states, voltages)", "why_tests_cant": "quantifies over all voltage histories and configurations; a test sees one profile", "anchors": ["pvder/DER_features.py:LVRT", "pvder/DER_features.py:HVRT", "pvder/DER_features.py:check_VRT_settings", "pvder/DER_check_and_initialize.py:update_RT_config", "config_der.json"]}
{"id": "C135", "title": "Displayed parameters are the configured ones", "statement": "show_PV_DER_parameters displays, for every class, configuration and argument set with which construction gets through, the configured module data, ratings (with the peak voltages they imply), filter and DC-link values in farad, henry and ohm, and the gains of exactly the controllers the class has; 'all' is the four parts one after the other; unknown kinds are rejected.", "quantifier": "every class, configuration file, identifier and argument set", "why_tests_cant": "quantifies over all configurations; a per-unit conversion with the wrong base shows in no state", "anchors": ["pvder/DER_utilities.py:show_PV_DER_parameters", "pvder/DER_check_and_initialize.py:initialize_circuit_parameters"]}
{"id": "C136", "title": "Displayed states fit together in physical units", "statement": "The four displays of show_PV_DER_states agree with each other at every state: inverter voltages are duty cycle times half the DC voltage, powers half the sum of voltage times conjugate current, RMS values those of the displayed phasors, neutral values the sums of the displayed phases.", "quantifier": "every state, class kind and base", "why_tests_cant": "relations between printed numbers for all states", "anchors": ["pvder/DER_utilities.py:show_PV_DER_states"]}
{"id": "C137", "title": "Displayed ride-through state and settings", "statement": "After construction and after every sequence of evaluations show_RT_settings displays the switches, flags, rated voltage in volts and, level by level, the configured thresholds and times (per unit or in volts as requested), for low and high voltage and frequency; show_RT_flags displays the trip flag iff some level's time limit was exceeded, cessation only after a cessation level's minimum ride-through time, and disconnection only when the output is cut; check_anomaly reports exactly the levels whose threshold is violated at present and since when.", "quantifier": "every configuration, evaluation history and level", "why_tests_cant": "the report is a function of the whole voltage history", "anchors": ["pvder/DER_features.py:show_RT_settings", "pvder/DER_features.py:check_anomaly", "pvder/DER_features.py:show_RT_flags"]}
{"id": "C138", "title": "Displayed schedules are the schedules", "statement": "show_references displays, in the order of time, exactly the last acceptable reference added for each time, in volts as given, and their number. show_events never fails and displays every solar, grid and load event once, in the order of time, with its values, and the numbers of solar and grid events.", "quantifier": "every sequence of additions and every event table", "why_tests_cant": "quantifies over all histories of additions", "anchors": ["pvder/DER_utilities.py:show_references", "pvder/simulation_events.py:show_events"]}
{"id": "C139", "title": "Debug output does not disturb a simulation", "statement": "Switching on any of the debug switches of a simulation leaves every derivative evaluation, hence the whole simulation, as it is without.", "quantifier": "every combination of switches, mode and evaluation", "why_tests_cant": "all combinations of switches and modes", "anchors": ["pvder/dynamic_simulation.py:debug_simulation", "pvder/dynamic_simulation.py:ODE_model"]}
{"id": "C140", "title": "What constructs also runs", "statement": "A DER that the constructor accepts \u2014 any configuration file, identifier, class and arguments \u2014 evaluates and simulates without exception: any sequence of derivative and Jacobian evaluations at any states, times and grid voltages, and any session of simulations and event edits with solvers that report no failure, provided its settings do not ask for the DC voltage ramp on reconnection, its measurement type is one its class supports, angle override is at its default and the compiled class has no load. Every usable configuration of the shipped file meets these conditions with every accepted argument set, so that from the file to the last simulation nothing raises.", "quantifier": "every configuration file, identifier, class, argument set, sequence of evaluations, solver, session and event schedule", "why_tests_cant": "composition of configuration handling with histories of evaluations of unbounded length, in all classes", "anchors": ["pvder/DER_components.py:initialize_DER", "pvder/DER_check_and_initialize.py:update_DER_config", "pvder/DER_features.py:RT_initialize", "pvder/dynamic_simulation.py:run_simulation", "pvder/dynamic_simulation.py:ODE_model", "config_der.json"]}
{"id": "C141", "title": "Configured insolation; fitting the maximum power point", "statement": "A DER configured with a solar insolation is created at that insolation and simulated at it until a solar event changes it; the polynomial for the maximum power point is fitted to the voltages of maximum power at 10 to 100 % insolation, and the reference taken from it is not further from the true one than the polynomial is.", "quantifier": "every configuration, class, option and evaluation history", "why_tests_cant": "all insolations and all histories; two objects that differ in one option must be compared", "anchors": ["pvder/DER_components.py:PVModule.__init__", "pvder/DER_components.py:fit_MPP_poly", "pvder/DER_utilities.py:MPP_table", "pvder/DER_utilities.py:update_Ppv"]}
{"id": "C142", "title": "Several simulations sharing one events object", "statement": "One events object can be passed to any number of simulations, of any of the DER classes. Outside loop mode: in any sequence of run_simulation() calls of the simulations (with solvers that report no failure) and of calls that add, remove or enable events, no call raises; every run of every simulation plays the common insolation schedule, and in stand-alone mode the common load schedule, from its beginning, as the editing calls alone made it; and simulations fed with external voltages do not influence each other: each is as if it had been alone with the events object. In loop mode this fails: a step of one DER advances the playback position of all others, so that a second DER advanced over the same interval can compute with the insolation of a later event.", "quantifier": "all families of simulations (any number, any classes), all solvers, all sequences of runs and event edits", "why_tests_cant": "a test runs a few simulations in one order; the claim is about every interleaving of runs of any number of simulations", "anchors": ["pvder/simulation_events.py:SimulationEvents", "pvder/dynamic_simulation.py:run_simulation", "pvder/dynamic_simulation.py:DynamicSimulation.__init__"]}
{"id": "C143", "title": "A co-simulation in loop mode is one history", "statement": "In loop mode, for any number of run_simulation calls with any voltages, initial states and intervals: no call raises if the solver reports no failure; every evaluation of a call uses the voltages given with this call, and the grid frequency the DER was constructed with (no call changes it); the voltage ride-through timers run on from call to call, so that a trip is decided as if the evaluations of all calls belonged to one simulation, with or without collection of series, and a DER that only sees healthy voltages stays connected; and the insolation schedule is played once through all calls: an evaluation that is not earlier than the times asked before computes the PV power from the weather scheduled for its time.", "quantifier": "all co-simulations: numbers of calls, voltages, initial states, intervals, solvers; all seven classes; all schedules and zone tables", "why_tests_cant": "a test makes a few calls with one voltage series; the claim is about every sequence of calls and about events and dips that fall across calls", "anchors": ["pvder/dynamic_simulation.py:run_simulation", "pvder/dynamic_simulation.py:update_grid_measurements", "pvder/simulation_events.py:solar_events", "pvder/DER_features.py:update_ridethrough_flags"]}
{"id": "C144", "title": "Ride-through functions that are switched off and on", "statement": "LVRT_ENABLE, HVRT_ENABLE and LFRT_ENABLE may be assigned at any time. However they are switched: a voltage function trips exactly when, among the samples taken while it was on, two lie beyond a zone threshold further apart than the zone allows with no watched sample on the healthy side in between; if every evaluation sees a voltage that is healthy for the functions that are on at that moment, no flag is set, nothing raises and the DER stays connected, whatever the voltage does to the functions that are off; while the frequency function is off the frequency has no influence at all; switching a function off does not undo its trip. Switching off is not a reset: a timer that was running counts the pause, and a DER switched off during a momentary cessation stays disconnected for ever.", "quantifier": "all zone tables and settings, all interleavings of evaluations (any times, voltages, frequencies) and assignments of the three flags", "why_tests_cant": "a test fixes the flags before a run; the claim is about every interleaving of assignments and evaluations, of any length", "anchors": ["pvder/DER_features.py:update_ridethrough_flags", "pvder/DER_features.py:LVRT", "pvder/DER_features.py:HVRT", "pvder/DER_features.py:disconnect_or_reconnect"]}
{"id": "C145", "title": "Reported powers and RMS values are those of the waveforms", "statement": "phasor_to_time turns the phasors of the model into waveforms of time. For all phasors, every nonzero angular frequency and every starting time: the reported active power (S_calc, S_PCC_calc; three-phase, balanced or not) is the mean over a period of the instantaneous power of the waveforms, the reported reactive power of a phase the mean of the current times the voltage a quarter period earlier; in a balanced system the instantaneous power is constant and equal to the reported one, in one phase it swings about it with twice the frequency and the apparent power as amplitude; the reported RMS values (Urms_calc, Urms_calc_1phase) are the roots of the mean squares of the waveforms, whose peak is the magnitude of the phasor.", "quantifier": "all complex phasors, all nonzero frequencies, all times", "why_tests_cant": "a test compares a few sampled values; the claim is an identity between integrals over a period and the reported quantities for all phasors", "anchors": ["pvder/utility_functions.py:phasor_to_time", "pvder/utility_functions.py:S_calc", "pvder/utility_functions.py:Urms_calc", "pvder/utility_functions.py:Urms_calc_1phase", "pvder/utility_functions.py:phasor_to_time_1phase"]}
{"id": "C146", "title": "Events added while a simulation is running", "statement": "When events are added to the insolation or load schedule between queries (queries going forward in time, from reset counters, no clearing, removal, reset or switching), no query fails and none shows a future event: each shows exactly the value that was due k events ago, where k starts at 0, each query reduces k plus the number of newly due events by one (not below 0), replacing an existing event leaves k, adding an event in the past adds one, and adding to a schedule whose events are all past makes k at least 1. So if events are only added ahead of the latest query, no query jumps over more than one event and there is a query between each addition and the next event, every answer is the value of the current schedule; otherwise the first query after an added event can still show the previous value.", "quantifier": "every reachable state, every interleaving of API calls and queries of any length, every schedule", "why_tests_cant": "the playback counter is not adjusted when events are added, so the answer depends on the whole interleaving of additions and queries", "anchors": ["pvder/simulation_events.py:solar_events", "pvder/simulation_events.py:load_events", "pvder/simulation_events.py:add_solar_event", "pvder/simulation_events.py:add_load_event"]}
{"id": "C147", "title": "Editing the schedules in the middle of a co-simulation", "statement": "In a loop-mode co-simulation in which the host also calls methods of the events object between the calls: additions, queries, enabling and resetting never make a later call raise; the insolation schedule in force is always the original one updated by the accepted additions (the last one per time stamp); an evaluation not earlier than the times asked so far uses the weather of the schedule in force and computes the PV power from it, provided events are only added after the latest time asked, no query passes more than one event and the first query after an addition is not earlier than the latest time asked and passes none; and the voltage trip flags are what the evaluations of all calls, as one history, demand, whatever edits come in between.", "quantifier": "every model type, every sequence of loop-mode calls and edits, every solver, every voltages, states and intervals", "why_tests_cant": "the counters of the events object are never reset in loop mode nor adjusted by additions; the outcome depends on the whole interleaving of calls, evaluations and edits", "anchors": ["pvder/dynamic_simulation.py:DynamicSimulation.run_simulation", "pvder/simulation_events.py:add_solar_event", "pvder/simulation_events.py:solar_events"]}
{"id": "C148", "title": "Removing a load event while a simulation is running", "statement": "remove_load_event(T) called between two load queries of a run (the latest at time a) always leaves exactly the other events scheduled. What the later queries of that run answer depends on what is left: if nothing was scheduled at T, or T and another event are still to come, or nothing is left, every later answer is the value of the remaining schedule; if an event was removed and at most one (none, if T was itself still to come) of the remaining ones is still to come, every later query at or after the first remaining event raises IndexError, until the counters are reset or an event is added; if a past event was removed and at least two are still to come, the first of these takes effect at once instead of at its time (unless no past event is left), and from its time on the answers are right. There is no other case. After a reset of the counters the remaining schedule is played back correctly.", "quantifier": "every reachable schedule, every tidy history of calls during the run, every time removed, every later queries (any order in the failing case, dense in the others)", "why_tests_cant": "the playback position is a counter that removal does not adjust: the outcome depends on the number of past and pending events at the moment of the call", "anchors": ["pvder/simulation_events.py:remove_load_event", "pvder/simulation_events.py:load_events"]}
{"id": "C149", "title": "Currents and DC voltage stay bounded during any disturbance", "statement": "Whatever the controllers, limiters, references, frequency and connection commands do: the energy stored in the DC link capacitor and the filter inductors grows at most at the rate Pmax + n*Vm^2/(8*Rf), where Pmax bounds the panel power, Vm the grid voltage and n is the number of phases, which bounds DC voltage and currents at every time; and the current of a phase is at most its initial value decayed with the filter time constant plus what the largest voltage across the filter drives through the filter resistance.", "quantifier": "every class, parameter set, solution of the electrical states (controller states arbitrary functions), input and connection history, time", "why_tests_cant": "all disturbances over continuous time", "anchors": ["pvder/DER_components_single_phase.py:ODE_model", "pvder/DER_components_three_phase.py:ODE_model", "pvder/DER_utilities.py:Vdc_actual", "pvder/DER_components.py:Ppv_calc"]}
{"id": "C150", "title": "The DC voltage does not exceed the open-circuit voltage of the panel", "statement": "While the inverter does not draw power from the grid, the DC voltage stays at or below the open-circuit voltage of the panel, or below its initial value if that was higher.", "quantifier": "every class with DC link dynamics, parameter set, sunlight, solution and connection history", "why_tests_cant": "continuous time and all inputs; needs a nearly disconnected inverter at high DC voltage", "anchors": ["pvder/DER_components_single_phase.py:ODE_model", "pvder/DER_components_three_phase.py:ODE_model", "pvder/DER_utilities.py:Vdc_actual", "pvder/DER_components.py:Ppv_calc"]}
{"id": "C151", "title": "Stand-alone simulations see the scheduled grid voltage", "statement": "In stand-alone mode every evaluation of a simulation, of derivatives or Jacobian, computes with the voltage magnitude and frequency scheduled for its time, with the configured unbalance ratios, also when the simulation is repeated and when several DERs share one grid source and one events object. (False for evaluations before the last change of the source in an earlier run, of whichever DER: they compute with the voltage of that change. True from the latest time evaluated in earlier runs on, in particular in the first run.)", "quantifier": "every class, parameter set, schedule, sequence of simulations and edits, forward evaluation times that do not jump over more than one event", "why_tests_cant": "all histories of simulations sharing objects", "anchors": ["pvder/grid_components.py:steady_state_model", "pvder/simulation_events.py:grid_events", "pvder/dynamic_simulation.py:ODE_model", "pvder/DER_check_and_initialize.py:attach_grid_model"]}
{"id": "C152", "title": "The log keeps what was logged when models are created", "statement": "The log file holds every record of at least the chosen verbosity, once, whole and in order, however many models are created. (False in full: creating a model empties the file and adds one more handler, and the earlier handlers go on writing at the places they had reached, so that from the first model on the file also holds torn copies and zero bytes, and get_logs raises or returns entries that stand for no record. True: with one verbosity throughout, the file begins with the records logged since the last creation, whole, once and in order, and holds nothing else exactly if nothing was logged before that creation or nothing since; with appending nothing is lost and every record is there once per handler. The verbosity of the last model holds for all. log() at level ERROR raises the exception being handled again, AttributeError if there is none.)", "quantifier": "every number of models, every sequence of records between creations, every earlier file content", "why_tests_cant": "unbounded histories of creations and records", "anchors": ["pvder/exceptionutil.py:set_logger", "pvder/exceptionutil.py:log", "pvder/utility_classes.py:initialize_logger", "pvder/logutil.py:LogUtil", "pvder/defaults.py:logConfig"]}
{"id": "C153", "title": "Repeating a simulation that failed", "statement": "After any history of simulations, failing at any point or not, and of edits of the schedules, the next simulation computes at each evaluation with the weather and load scheduled for its time. (False after a run that the solver reported as failed: the schedules are not rewound, and before the latest time of the failed runs the weather can be that of an event still to come. True from that time on; and true throughout, whatever failed, if reset_event_counters() is called before.)", "quantifier": "every class, parameter set, schedule, sequence of failing and succeeding runs and edits, every solver", "why_tests_cant": "all histories and all places where a run can fail", "anchors": ["pvder/dynamic_simulation.py:run_simulation", "pvder/simulation_utilities.py:check_simulation", "pvder/simulation_events.py:reset_event_counters", "pvder/simulation_events.py:solar_events", "pvder/simulation_events.py:load_events"]}
{"id": "C154", "title": "Which events and grid object a simulation uses", "statement": "A simulation is given an events object, a DER and, stand-alone, a grid, and the DER and the grid were each given objects of their own: the trajectory and the report follow the schedule of the events object and the source of the grid given to the simulation. (True if all of them share one events object and one grid. If the DER was created with another grid, its source never changes, in any simulation; if with another events object, the schedule given to the simulation has no effect on the trajectory but is what the report shows, and the DER's own schedule is never rewound, so that even with the same schedule in both the second simulation computes with the weather of later events.)", "quantifier": "every assignment of events objects and grids to the simulation, DER and grids, every class, parameter set, schedule, solver, sequence of runs", "why_tests_cant": "all ways of connecting the objects and all histories", "anchors": ["pvder/dynamic_simulation.py:DynamicSimulation.__init__", "pvder/dynamic_simulation.py:run_simulation", "pvder/grid_components.py:Grid", "pvder/simulation_events.py:reset_event_counters", "pvder/simulation_events.py:SimulationEvents"]}
{"id": "C155", "title": "Accuracy of the trip times", "statement": "If the solver's evaluations are never more than d apart, a voltage that stays beyond a level with time threshold T trips the DER at the latest T + 2d after it went beyond (later than t_stable), and T + 3d plus the disconnection delay after it nothing is fed in any more; a dip no longer than T never trips, wherever the evaluations fall; and dips do not add up if the voltage recovers for at least d within T (within the minimum ride-through time for the DER to stay connected). A recovery shorter than d may pass unseen.", "quantifier": "every class, measurement, zone table, d, voltage history and sequence of evaluations including solver step-backs", "why_tests_cant": "all places where evaluations can fall relative to the voltage disturbance", "anchors": ["pvder/DER_features.py:LVRT", "pvder/DER_features.py:HVRT", "pvder/DER_features.py:update_ridethrough_flags", "pvder/DER_features.py:DER_disconnect_logic", "pvder/dynamic_simulation.py:ODE_model"]}
{"id": "C156", "title": "How soon a DER is back after a disturbance", "statement": "If the solver's evaluations are never more than d apart and after a time b (later than t_stable) every evaluation sees a voltage strictly on the healthy side of all levels, then from the first such evaluation on no cessation flag is set, and the DER is connected, and stays so, at the latest 2d plus the restore delay after b, unless it has tripped; whatever happened before. (A voltage that comes back exactly to a level does not count.)", "quantifier": "every class, measurement, zone table, delay, d, voltage history before b and sequence of evaluations including solver step-backs", "why_tests_cant": "all histories before the recovery and all places where evaluations can fall", "anchors": ["pvder/DER_features.py:LVRT", "pvder/DER_features.py:HVRT", "pvder/DER_features.py:update_ridethrough_flags", "pvder/DER_features.py:DER_reconnect_logic"]}
{"id": "C157", "title": "How soon a DER ceases to operate", "statement": "If the solver's evaluations are never more than d apart, and from a time a (later than t_stable) on every evaluation sees a voltage on the wrong side of the level of a momentary cessation zone and on one and the same side of every other level of the same kind, then the DER is told to cease operation from the first evaluation after a + d + the zone's minimum time on, and it is disconnected, with all references and the PV power zero, once a + 2d + minimum time + disconnection delay has been reached. (A voltage that crosses other levels can delay this.)", "quantifier": "every class, measurement, zone table, delay, d, voltage history before a and sequence of evaluations including solver step-backs", "why_tests_cant": "all histories before the dip and all places where evaluations can fall", "anchors": ["pvder/DER_features.py:LVRT", "pvder/DER_features.py:HVRT", "pvder/DER_features.py:update_ridethrough_flags", "pvder/DER_features.py:DER_disconnect_logic", "pvder/DER_features.py:DER_disconnect"]}
{"id": "C158", "title": "Grid events added while a simulation is running", "statement": "When grid events are added between grid queries (queries going forward in time, from reset counters, angles overridden as by default, no removal, reset or switching), no grid query fails and none shows a future event: each answers with exactly the voltage magnitude and frequency that were due k events ago, where k starts at 0, each query reduces k plus the number of newly due events by one (not below 0), replacing an existing event leaves k, adding an event in the past adds one, and adding to a schedule whose events are all past makes k at least 1. So if events are only added ahead of the latest query, no query jumps over more than one event and there is a query between each addition and the next event, every answer is magnitude and frequency of the current schedule; otherwise the first query after an added event can still show the previous ones. Refused additions and calls that concern the other schedules have no influence.", "quantifier": "every state reachable under fixed limits, every interleaving of API calls and queries of any length, every schedule", "why_tests_cant": "the playback counter is not adjusted when events are added, and every query rewrites the event it passes, so the answer depends on the whole interleaving", "anchors": ["pvder/simulation_events.py:grid_events", "pvder/simulation_events.py:add_grid_event"]}
{"id": "C159", "title": "Removing a grid event while a simulation is running", "statement": "remove_grid_event(T) called between two grid queries of a run (the latest at time a) always leaves exactly the other events scheduled. If nothing was scheduled at T, or T and another event are still to come, or nothing is left, every later answer is magnitude and frequency of the remaining schedule; if an event was removed and at most one (none, if T was itself still to come) of the remaining ones is still to come, every later grid query raises IndexError, at whatever time, until the counters are reset or an event is added; if a past event was removed and at least two are still to come, the first of these takes effect at once instead of at its time, and from its time on the answers are right. After a reset of the counters the remaining schedule is played back correctly.", "quantifier": "every schedule reachable under fixed limits, every tidy history of calls during the run, every time removed, every later queries (any order in the failing case, tidy or dense in the others)", "why_tests_cant": "the playback position is a counter that removal does not adjust: the outcome depends on the number of past and pending events at the moment of the call", "anchors": ["pvder/simulation_events.py:remove_grid_event", "pvder/simulation_events.py:grid_events"]}
{"id": "C160", "title": "DC voltage references are shared by all DERs of a process", "statement": "All DER models of a process share one schedule of DC link voltage references, but each keeps its own count of it. A DER that scheduled a reference successfully when n references were scheduled in all, and none since, follows in every later run exactly the n earliest references of the common schedule (its own or another DER's, whatever its own limits) and ignores the others, its own included. A DER that never scheduled one keeps its own reference before the earliest common reference; its first evaluation from then on takes that reference; and each later evaluation raises UnboundLocalError before the time of the latest common reference and takes the latest from then on; so with references at two times the second evaluation between them fails, with a single one nothing fails.", "quantifier": "all histories of calls on any number of DERs with any limits, all later query sequences (forward, not jumping over two references, for the first part), all classes with DC reference and all other events for the equations", "why_tests_cant": "needs two DERs in one process and arbitrary histories of both; the failure shows up in the DER the user did not touch", "anchors": ["pvder/DER_utilities.py:add_Vdc_ref", "pvder/DER_utilities.py:get_Vdc_ref", "pvder/DER_utilities.py:update_Vdc_ref", "pvder/DER_utilities.py:Vdc_ref_list"]}
{"id": "C161", "title": "DC voltage references added while a simulation is running", "statement": "When feasible references are added between queries of the DC voltage reference (queries going forward in time, from a reset counter, one DER in the process), no query fails and each answers with the reference that was due exactly k references ago: k is 0 at the start, grows by one when a reference is added at or before the latest time asked or to a schedule that was already exhausted, and shrinks by one with each query that finds no newly due reference; replacing a reference or trying an infeasible one changes nothing. In tidy use (references only added after the latest time asked, no query passing two references, one query between an addition and the next reference) every answer is the latest reference at or before the query time.", "quantifier": "all limits, all earlier histories of the DER, all interleavings of additions (feasible or not) and forward queries", "why_tests_cant": "interleavings of additions and solver evaluations are unbounded", "anchors": ["pvder/DER_utilities.py:add_Vdc_ref", "pvder/DER_utilities.py:get_Vdc_ref", "pvder/DER_utilities.py:update_Vdc_ref"]}
{"id": "C162", "title": "The DC link voltage reference within a simulation and in the next one", "statement": "As long as a DER (class with a DC link voltage reference, default reconnection, fresh reference counter) stays connected, every evaluation of a simulation whose times go forward and pass at most one scheduled reference at a time works with the latest scheduled reference at or before its time, and before the first one with the reference the DER had when the simulation began. A completed simulation keeps the schedule and resets the counter, so a repeated simulation replays the schedule; but until the first scheduled time it works with the last reference of the previous simulation (if that reached the schedule, with its last reference reached), not with the reference the DER was created with.", "quantifier": "all classes with a DC link reference, parameters, schedules, solvers and evaluation sequences, all settings of the second simulation", "why_tests_cant": "evaluation sequences and schedules are unbounded", "anchors": ["pvder/DER_utilities.py:get_Vdc_ref", "pvder/DER_utilities.py:update_Vdc_ref", "pvder/DER_utilities.py:reset_reference_counters", "pvder/dynamic_simulation.py:run_simulation"]}
{"id": "C163", "title": "Which configuration mismatches the set-up reports", "statement": "A set-up that succeeds logs that the model type is another one exactly when the configuration names another class than the one constructed; that the number of phases (of equations) is invalid exactly when the configuration has such an entry and it differs from the number of the class; and that the phases (the initial states) of the template do not match exactly when the resolved number of phases (of equations) is not that of the template's phases (initial states). None of these rejects the configuration or raises, and the instance works with the counts of its class whatever is configured. So a set-up is silent exactly when the configuration names the class and has no other counts - except for the three-phase model with RMS filter, which is never silent, because its template counts 24 equations and lists 23 initial states. With verbosity CRITICAL nothing is seen.", "quantifier": "all model classes, configuration files, design identifiers and keyword arguments for which the set-up succeeds", "why_tests_cant": "The set of configurations is infinite; tests use the shipped ones.", "anchors": ["pvder/DER_components.py:check_model_type", "pvder/DER_components.py:check_basic_specs", "pvder/DER_components.py:setup_DER", "pvder/templates.py:DER_design_template"]}
{"id": "C164", "title": "Misspelt and unknown configuration entries are ignored", "statement": "The set-up of a design - arguments, parameters, ride-through settings, line impedance, exception and messages - depends only on the entries the class knows: the parameters of its template, the required ratings, the argument names, the ride-through entries and the ride-through blocks referred to. Anything else in the file (an entry under a misspelt name, an unknown section, another design) changes nothing and raises nothing; a parameter missing under its right name then gets the argument or the template default. Every known parameter does matter. In the shipped file exactly two entries are ignored by the class their design names: C_actual and the initial xDC of 10_constantVdc.", "quantifier": "all model classes, files, designs, keyword arguments and changes of unknown entries", "why_tests_cant": "The set of possible entries is infinite, and absence of an effect cannot be tested.", "anchors": ["pvder/DER_components.py:create_DER_config", "pvder/DER_components.py:setup_DER", "pvder/DER_check_and_initialize.py:update_DER_config", "pvder/DER_check_and_initialize.py:update_DER_parameter", "pvder/DER_features.py:update_RT_config"]}
