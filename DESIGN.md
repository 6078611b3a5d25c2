# Formal model of the SolarPV-DER simulation tool — design

## Trusted base

* Lean 4.33.0 kernel; Mathlib (definitions of ℝ, ℂ, `HasDerivAt`, lists, ordered fields).
* Axioms: every property theorem depends on at most `propext`, `Classical.choice`, `Quot.sound`
  (checked with `#print axioms`; see "Axioms" at the end).
* The faithfulness of the hand-written model to the Python text: every model definition cites file and lines in /repo.

## Modelling conventions

* **Numbers.** Python floats are modelled by exact numbers: the discrete logic is generic over a linearly ordered field `K`
  (instantiated with ℚ for computable examples/counterexamples and covering ℝ); the electrical part uses ℝ and ℂ.
  Not modelled: rounding, overflow, NaN/inf. Equality tests such as `t_start == 0.0` are exact on both sides.
* **Exceptions.** Every function of the tool wraps its body in `try/except: LogUtil.exception_handler()`, which logs and re-raises
  (pvder/exceptionutil.py 95-105). A raising call is modelled by an explicit `Err` result *together with the state it leaves behind*,
  because mutations made before the exception persist.
* **Mutable objects** become structures, methods become functions returning the new structure; loops become folds or recursion;
  Python's "remove while iterating" loop is modelled index by index, not idealised.
* **Histories** are lists of operations/evaluations; `run` is a left fold. Properties quantify over all lists.
* **Logging, printing, plotting, file access** are dropped (no effect on results), except where they are the subject (C119, C122).
* **External**: SciPy `odeint`/`ode`, `fsolve`, `minimize` and the random generator are arbitrary parameters: theorems quantify
  over every output they may produce.

## Layout

`lean/Verif/Model/*` model (cites the source), `lean/Verif/Spec/*` independent specifications, `lean/Verif/Lemmas/*` helper lemmas,
`lean/Verif/Props/*` the property theorems (names `Cnn_…`) with non-vacuity examples beside them.

## Plan per property

| ID | What is modelled | How it is proved |
|----|------------------|------------------|
| C01 | `SimulationEvents` state (3 lists, totals, counters, flags), every public mutator and query, index-wise removal loop | invariant by induction over op lists |
| C02 | as C01 | invariant (list elements within limits), under a fixed spec |
| C03, C05 | as C01 | refinement: `abs list : K → Option value`; add = map update, remove = map erase; solar remove: negation (always raises) |
| C04 | add functions with `Err` result | decision logic; error branch leaves state equal |
| C06 | totals fields | invariant over ops other than REMOVE_ALL + counterexample for REMOVE_ALL (`_partial` + negation) |
| C07, C08 | query functions with counters | invariant counter = min(n-1, #events ≤ last t); spec `lookup` = last event ≤ t; catch-up theorem by induction; negation witness for jumps |
| C09 | grid query incl. rewriting of angles | telescoping invariant |
| C10, C11 | queries with IndexError | invariant counter < n without removals; witness with removal; membership lemma |
| C12 | class-level spec cell + two instances | negation by witness; partial: creation without spec leaves limits |
| C13, C14 | `np.arange`, `np.linspace` as exact sequences; random value as parameter in [0,1) | convexity, induction over points |
| C15 | merge sort of three lists | permutation + sortedness |
| C16–C24 | LVRT/HVRT loop over a zone list, t_stable, lock | per-zone history characterisation by induction on the reversed history; flags as folds; C22 negation + partial |
| C25, C26 | check_VRT_settings loop with prefix-sorted check | equivalence with declarative predicate by induction |
| C27–C35 | disconnect_or_reconnect, disconnect, reconnect | inductive invariants over evaluation lists; witnesses for C29, C34 |
| C36 | FRT | invariants/characterisation |
| C37–C40 | Volt-VAR (ℝ for sqrt; rational curve constants) | real inequalities; invariant over runs |
| C41, C42 | ramp limiter | ordered-field inequalities; induction over runs; witness for single phase |
| C43–C46 | Vdc reference list | as C01/C07; witness for ramp sign |
| C47–C53 | utility_functions over ℂ | algebra with cube roots of unity, trigonometric identities |
| C54, C55 | va_calc, powers | field algebra in ℂ |
| C56 | PV module | exp monotonicity |
| C57–C61 | ODE_model / jac_ODE_model | case analysis; `HasDerivAt` for each entry; negations for the wrong entries |
| C62–C64 | y0 / varInd / collect_states / loop bookkeeping | list lemmas, induction over intervals |
| C65 | Grid.steady_state_model | invariants |
| C66–C68 | configuration resolution, dispatch | decision logic over string-keyed maps |
| C69 | check_voltage | iff with declarative predicate |
| C70, C71 | parameter dictionaries as finite maps | frame theorems, round trip |
| C72 | base values | field algebra |
| C73 | plot group table | full table |
| C74 | `fsolve` residual of the PV model, `ppv` over ℝ | derivative of P(V) computed with `HasDerivAt`; strict concavity gives uniqueness; `fsolve` result is an arbitrary root |
| C75 | the array-based (numba) right-hand side, generated from the text like the plain one; the 46 compiled kernels one by one and the attribute updates that call them (`Model/Numba.lean`) | pointwise equality of the two generated functions; equality of the attributes each kernel leaves with those of the plain class |
| C76 | balanced class right-hand side | algebra: the balanced vector field is the three-phase one restricted to the invariant subspace |
| C77 | Jacobians of the balanced and constant-Vdc classes | as C58/C59: `HasDerivAt` per entry, negations for wrong entries |
| C78 | stored energy of filter and DC link along any solution | derivative of the energy functional |
| C79 | `collect_solution`, `*_time_series` functions of dynamic_simulation.py | list induction: sample k = model quantity at state k |
| C80, C81 | `t_calc`, loop-mode argument checks | floor arithmetic over an archimedean field; decision logic |
| C82–C84 | constructor chain: templates, configuration file, keywords, grid arguments, y0 | Except-monad proofs over all files and keywords |
| C85 | class-level/aliased dictionaries as an explicit heap | frame theorem for all interleavings + witness |
| C86, C87 | FRT switch, cessation flags | characterisation by history |
| C88 | `steady_state_calc` objective, result as arbitrary exact root | algebra: root of the residual ⇒ right-hand side zero |
| C89 | frequency estimator | recurrence, exact on constant frequency |
| C90–C92 | ratings, message and validation printouts | field algebra, string decisions |
| C93–C99 | `Model/Eval.lean`: one whole call of ODE_model/jac with all hidden state, in program order | simulation between the whole evaluation and each sub-model, induction over arbitrary call sequences |
| C100 | `count` iterators and instance names | injectivity of decimal printing |
| C101 | simulation constructor | decision logic |
| C102–C107 | `Model/Session.lean`: run_simulation with an adversarial solver (any finite, adaptive sequence of ODE/Jacobian calls and any answer), resets, collection | induction over the solver's strategy and over the list of runs |
| C108 | PLL equations of all seven generated classes (`Props/Pll.lean`) | Lyapunov function of the phase error (`Lemmas/Pll.lean`), Barbalat; below the pull-out energy no cycle slip and angle convergence |
| C109 | the `Vrms` row of the three-phase class | exact solution of the filter equation, comparison (`Props/RmsFilter.lean`) |
| C110 | the three phases of the four classes with phase states | the difference of two phases satisfies a linear equation, Gronwall (`Lemmas/PhaseDefect.lean`); a continuation argument covers phases b and c being below the modulation limit |
| C111 | controller rows of all seven generated classes (`Props/Windup.lean`) | barrier argument on right derivatives: beyond the bound the limited row never points outwards; covers sliding solutions |
| C112 | current, controller and DC rows of all seven generated classes, disconnected (`Lemmas/Decay.lean`, `Props/DiesOut.lean`) | shifted energy (filter current, controller states, capacitor) decreases along solutions; continuation argument keeps modulation below its limit; Barbalat-type argument for the limits. Explicit solution as example |
| C113 | all rows of all seven generated classes, connected or not (`Lemmas/LocLip.lean`, `Props/WellPosed.lean`) | compositional proof that the rows are bounded and Lipschitz near unsaturated states, uniformly in time; Gronwall with a continuation argument; Picard–Lindelöf for a cut-off field |
| C114 | `Uunbalance_calc`, `relative_phase_calc`, the fold and balance term of `power_error_calc` (`Props/Measures.lean`) | order case analysis; floor bounds, polar form |
| C115 | `find_first_order_time_constant`, `limit_complex_time_series` (`Model/SeriesTools.lean`, `Props/SeriesTools.lean`) | characterisation of `find?`, logarithm bounds |
| C116 | steady-state calculation and all seven ODE models (`Props/SteadyStays.lean`) | equilibrium (C88, extended to the remaining three classes) plus uniqueness and continuous dependence (C113) |
| C117 | all seven ODE models and the steady-state calculation (`Props/Settles.lean`, `Lemmas/Settle.lean`) | a convergent function with convergent derivative has derivative limit zero; applied to every row, with C57 (limiters inactive) and C108 (PLL lock) |
| C118 | all seven ODE models (`Props/Tracks.lean`, `Lemmas/Track.lean`) | strict Lyapunov function with a cross term for one phase, vanishing multiplicative and additive disturbances, comparison lemma |
| C119 | the messages written by the ride-through and connection logic (`Model/RTLog.lean`) over the model of that logic | a separate specification of how to read a log (`Spec/RTLog.lean`); simulation of the state by the messages, by induction over zones and histories (`Lemmas/RTLog.lean`, `Props/RTLog.lean`) |
| C120 | the schedule queries of `Model/Basic.lean`, `Model/Events.lean` at times in any order, and the evaluations of `Model/Eval.lean` | the counter equals the number of entries up to the latest time asked (capped); case analysis of a query behind it; induction over the query times (`Props/StepBack.lean`); concrete refutation of the naive reading |
| C121 | the right-hand sides of all seven classes with absolute time and grid frequency as inputs (`Model/OdeEnv.lean`) | the PLL input depends on time and PLL angle only through `w t - wte` (three-phase unbalanced: also `w t + wte`); a delayed solution solves the delayed system; necessary condition for a frequency step; one derivative off under rotation (`Props/TimeOrigin.lean`) |
| C122 | log file, handler, formatter, `str.split`, `splitlines`, `strip`, universal newlines and `get_logs` on character lists, `exception_handler` along a chain of guarded functions (`Model/LogRead.lean`); `dateutil` and `json` abstract with three stated laws (`Lib`) | splitting undoes joining for clean items; lines of a file are those of its records; induction over the records; four theorems on records that spoil the log (`Props/LogRead.lean`) |
| C123 | the per-class measurement methods (`S_calc`, `S_PCC_calc`, `S_load1_calc`, `S_G_calc`, all `*rms*_calc`) as functions of an instance with optional phases b, c, errors included (`Model/Measured.lean`) | Cauchy–Schwarz over three phases with equality case; filter losses by eliminating the voltage from the current rows at rest |
| C124 | nothing new: the right-hand sides of `Model/Gen` and `Model/Ode` around an operating point; all seven classes (the current gradient limiter is not part of the loop; unit "1" of config_der.json falls outside the inequalities) | linearisation with an explicit second-order remainder, a quadratic Lyapunov function adapted to the fast current loop (inputs measured from the slow manifold), Grönwall-type argument (`Lemmas/LocStab`, `ClosedLoop`, `DcLoop`); in the three-phase classes the average of the phases and the differences from it decouple (`Lemmas/ThreeLoop`); the inequalities checked for shipped units by rational bounds |
| C125 | `Model/JacCheck`: the central difference, the tolerance and the report of `check_jacobian`, over any derivative and Jacobian method (real arithmetic; `np.float` as in NumPy before 1.24) | third-order bound on the central difference by integrating bounds on derivatives three times; for the two single-phase models the derivative vector in normal operation is written out and every difference quotient computed; for the three-phase models (`JacCheckThree`, `JacCheckBal`, `JacCheckConst3`) the derivative along a coordinate, known from C77, is constant, a sinusoid (PLL angle) or an exponential (DC voltage), whose difference quotients are computed or bounded |
| C126 | `Model/Recorded`: the RMS, angle, terminal-voltage and line-power series as list functions with their length assertions and missing attributes | the series over a list of operating points equal the list of measurements (induction over the list); polar form; complex arithmetic for the line power |
| C127 | the existing models of the evaluation, ride-through and DC-reference schedule with `restore_Vdc` on | the evaluation with `restore_Vdc` equals the one without except at a reconnection; the scheduling loop by induction gives a staircase; play-back of dense schedules; an invariant that survives also the raising evaluations shows that only a reconnecting one raises; concrete runs reconnect once and twice |
| C128 | the reactive-power stage of the evaluation model (Volt-VAR logic, limit from rating, active power and filter current) | read the stage off a successful evaluation; the droop curve and limit as closed formulas; induction over runs for the switch-off after a disconnection |
| C129 | clocks of the three logics in evaluation and session models | a successful evaluation moves each clock to the maximum; evaluations not beyond the clocks change nothing; induction over the actions of a session; concrete pair of runs |
| C130 | `Model/RTInit.lean`: the part of the constructor after `setup_DER` that fixes ride-through behaviour (`initialize_basic_options`, `initialize_Vac`, `VRT_initialize`, `FRT_initialize`), composed with the configuration model (C66–C69) and the evaluation model | inversion of the constructor gives the zone table of the designated block; then the trip characterisation C96 rescaled to volts; default tables computed; concrete construction and trip |
| C131 | `Model/ParInit.lean`: `initialize_module_parameters`, `initialize_inverter_ratings`, `check_voltage`, `initialize_circuit_parameters`, `initialize_controller_gains` on the resolved design, composed with C66; `Model/Gen/Shipped.lean`: the shipped config_der.json, generated | inversion of the constructor steps; `Configured` is a functional relation; shipped entries by kernel evaluation of the lookups, then C124 |
| C132 | ODE rows of every class with the constants of C131 | field arithmetic: the laws hold with one second counted as 2π·60 time units (`_partial`); in seconds they hold only where nothing changes, and a state refuting them is given |
| C133 | the shipped file, construction model C66–C69/C82 | completeness of the entries by kernel evaluation, then C82; failing entries by evaluation for arbitrary arguments; `_partial` because six of ten entries fail |
| C134 | RT model under configured settings (C130) | the timer that trips and the one that starts cessation are the same, so a dip shorter than both flags nothing: induction over the history; counterexample run of the shipped unit 50; `_partial` because the shipped settings order the two times the wrong way round |
| C135 | `show_PV_DER_parameters` as a list of printed items (Model/Display.lean) of the instance of Model/ParInit.lean | per-unit conversion undone, C131's reading lemmas; `_partial`: the circuit part fails in the two classes without a DC link |
| C136 | `show_PV_DER_states` on the instances of Model/Measured.lean | algebra in ℂ with `Vbase·Ibase = Sbase`; `_partial`: the displayed `Vn` is the sum of the inverter voltages, refuted as neutral of the PCC voltages |
| C137 | `show_RT_settings`, `show_RT_flags`, `check_anomaly` after a run of the evaluation model under configured settings | invariant: timer runs iff not tripped and low since then, timers of tripped levels are stopped; tables change in timers only; the displayed flags mean what the voltage history says; `_partial`: tripped and high-voltage levels are never reported, `PER_UNIT` is ignored, HFRT is rejected |
| C138 | `show_references`, `show_events` | induction over the additions (C43); permutation and order of the merged list (C15) |
| C139 | `debug_simulation` as the exceptions it raises | case analysis; `_partial`: two switches always abort the evaluation, two more outside stand-alone operation |
| C140 | constructor models (C66–C67, C130–C133), `Eval` and `Session` put together: `Starts` links the constructed settings with the state before the first evaluation | the invariant of C99/C105 established from the constructor's result; the ride-through settings shown independent of the arguments; finite checks on the shipped file |
| C141 | `PVModule.__init__`, `fit_MPP_poly` with `fsolve` and `polyfit` as arbitrary functions; the evaluation model on two DERs that differ in the insolation attributes | loop invariant; C74 for the samples; clamping is a contraction towards the permitted range; the solar stage overwrites the attributes; `_partial`: the polynomial fit leaves every DER at 100 %, and a simulation takes the insolation from the events, never from the configuration |
| C142 | `Model/Fleet.lean`: any family of sessions (`Model/Session.lean`) that reads and writes one events object; a grid source shared by several simulations is not modelled | invariant over the sequence of actions (`Ready`, `Between`, same schedules); with external voltages a run leaves the events object unchanged, hence projection to one simulation; loop mode refuted by a concrete pair of DERs |
| C143 | `Model/Loop.lean`: sequences of loop-mode calls; the voltages stored by `update_grid_measurements`; edits during a co-simulation: C147 | one call is its solver trace (`runLoop_ok`); induction over the calls; C16/C17/C19 on the joined inputs; the playback invariant of C120 for evaluations and reported times |
| C144 | `Model/RTSwitch.lean`: evaluations interleaved with assignments of the enable flags; `Spec/RTSwitch.lean` says what a function watches | each voltage function is a run over the samples it watches (induction over the history), then the zone invariant of C16; invariants for the quiet and for the stuck DER; in a simulation through `run_rt` |
| C145 | the phasor tools of `Model/Phasor.lean`; specification: the mean over a period as an integral (`mean`) | explicit antiderivative of the product of two sinusoids; algebra of the phase shifts for the balanced case |
| C146 | Events model with interleavings of additions and queries (`playEdits`); the exact lag `k` of the playback as a recurrence in Spec/Edits.lean | position invariant `PosAt` (entries passed = due − k) preserved by additions and queries; tidy use implies k = 0 at every query; refuting instance |
| C147 | Model/Loop.lean with actions of the host (call or edit) | the position invariant of C146, with step-backs (`Okay`, `PosE`), carried through evaluations, collection and edits; kept-predicates for the schedule; protection part by C16/C17 |
| C148 | events model (`removeAt`, `playback`), vocabulary of Spec/Edits.lean | exact position after a tidy history (`tidy_state`), counting lemma for removal, then one induction over the later queries per case (in step, counter past the end, counter one ahead); case exhaustion |
| C149 | the current and DC link rows of all classes (Ode model), connected or not, with every other state an arbitrary function (`Follows`) | energy differentiated along the solution (skew frequency term and inverter power cancel), completed square for the grid power; smoothed norm and integrating factor for the current bound |
| C150 | the same rows, panel curve with the clamp at `Vdcmpp_max` | barrier argument; false where the open-circuit voltage is above `Vdcmpp_max` (`C150_feeds_beyond`, `C150_overcharges`, `C150_shipped` for the 10 and 50 kVA units, explicit run `C150_example`), so `_partial` |
| C151 | evaluation model (`evalEnv`, all classes) with the grid source; `Plant` = any family of simulations with one events object and one `Grid` (Model/Fleet.lean) | induction over the calls with the playback position as invariant; every run, failing or not, updates the source only at its evaluation times (`C151_last_change`); false before the last change (`C151_stale_before`, explicit pair of DERs in `C151_shared_source_refuted`) |
| C152 | the logger with its list of file handlers, each with its own level and place in the file, POSIX writes behind the end and over earlier bytes, truncation on opening (`Model/LogFile.lean`) | writes to disjoint places commute, so the handlers' interleaved writes equal writing the whole text once per handler, oldest first (`C152_file_exact`); the first model already refutes the full claim (`C152_first_model_refuted`) |
| C153 | session model (`runSim`, `acts`), all failure points of a run | what every evaluation keeps even when it raises (`eval_sun_any`, `runSim_any`), so rewinding restores the state between runs (`C153_reset_recovers`); without it the evaluations of failed runs and of the next run are one query sequence that steps back (`C153_after_failures`, via C120's `Shown`) |
| C154 | `Model/Wiring.lean`: any number of events objects and grids, references from simulation, DER and grids to them, the session model over these references | refinement to the session model when all references agree (`C154_one_of_each`); frame lemmas (what no simulation writes) for the DER's grid and events object; `Pos`/`Shown` over several runs for a schedule that is never rewound |
| C155 | evaluation model (`Eval.run`), evaluations at most `δ` apart (`Fine`) | every interval of length `δ` contains an evaluation the logic looks at (`fine_cross`, induction over the evaluations), then C96/C134 |
| C156 | ride-through model and evaluation model, evaluations at most `δ` apart | invariant: while the cessation flag is set and nothing has tripped, some zone timer is running (`Timed`), so a healthy evaluation calls it off; then C32 and `Fine` |
| C157 | ride-through model and evaluation model, evaluations at most `δ` apart | the exact characterisation of the cessation flag (C87) at the last sample looked at; no zone calls off because the previous sample is on the same side; then C30 and `Fine`; a counterexample when other levels are crossed |
| C158 | events model, grid schedule without angles, vocabulary of Spec/Edits.lean | the exact position (`PosAt`) is kept by accepted additions (`noAngle_addTimed`) and moved by one grid query (`gridEvents_step`); induction over the calls |
| C159 | events model, as for C148 and C158 | positions after a removal (`at_remove_*`, generic), then the later grid queries by induction per case |
| C160 | world of all DERs of a process (Model/VdcRef.lean), one list and a total and counter per DER; evaluations of Model/Eval.lean | totals by induction over the history (`total_kept`, `world_sane`); a stale total makes the query equal to one on the truncated list (`playback_take`); total zero leaves the counter at -1 (`updSeq_lost`) |
| C161 | one DER's schedule (Model/VdcRef.lean), vocabulary of Spec/Edits.lean | the stored reference equals the initial one until a reference is in force (`Fit`), so the answers are those of `playEdits`; then the lemmas of C146 |
| C162 | evaluations (Model/Eval.lean) and sessions (Model/Session.lean) | an evaluation that leaves the DER connected commutes with `update_Vdc_ref` on the stored reference (`ref_step`), hence a run is a query sequence of C44; what a completed run leaves is computed from `runSim_ok` |
| C163 | the two checks of `setup_DER` as functions of the resolved configuration (Model/SetupMsg.lean) | the resolved entries are those of C66; each check computed by cases on the comparisons; shipped designs by evaluation of the model |
| C164 | configuration files as in C66 (Model/Config.lean, Model/SetupMsg.lean) | a relation "same known entries" on configurations is kept by every step of the set-up (`same_*`), so both files give the same result; shipped file by evaluation of the entry lists |
| C165– | later additions, see `properties.jsonl`; each module header states the model and the method |

Nothing in the list is left inexpressible: every property has theorems. Where the English claim is false of the code, the
manifest status is `partial` and the refutation is itself a theorem (see "Where the code departs from the claim").

## What is modelled, what is not

Modelled (package `pvder`):

| Source file | Modelled | Left out |
|---|---|---|
| simulation_events.py | all public mutators, queries, `reset_event_counters`, ramp and random events, merged list, spec dictionary | log text of the mutators (the displayed schedules are modelled, C138) |
| grid_components.py | constructor, `steady_state_model`, source phasor and frequency, base values | `__str__`-style output |
| DER_features.py | LVRT/HVRT, FRT, momentary cessation, settings check, connect/disconnect/reconnect, Volt-VAR, measurement selection | Volt-Watt is off in every class (flag only) |
| DER_utilities.py | PV model, MPP, Vdc reference schedule, ramp limiter, parameter dictionaries, frequency estimator, validation, base values | log output |
| DER_components*.py (seven model classes) | every ODE right-hand side and Jacobian entry, evaluation order, y0, properties used by them | printing itself (what is printed is modelled, C135–C137) |
| DER_check_and_initialize.py | configuration resolution, initial states, ratings, steady-state residuals, messages | iteration inside SciPy `minimize`/`fsolve`: any result |
| DER_wrapper.py, templates.py, defaults.py, specifications.py | dispatch and all tables (templates are generated from the text) | |
| dynamic_simulation.py, simulation_utilities.py | constructor, `run_simulation`, loop mode, series collection, plot groups | drawing |
| utility_functions*.py | phasor, Park and symmetrical component, RMS, power functions | |
| utility_classes.py | instance counters | |
| properties.py | as part of the model classes (phasor and power properties) | |
| exceptionutil.py, logutil.py | log and re-raise; file handler, level, default format, `get_logs` (C122), several handlers on one file, `log` (C152) | other format strings on the writing side, `dateutil`/`json` internals (three stated laws, `LogRead.Lib`) |

Not modelled anywhere: floating point, the internals of SciPy and NumPy linear algebra, numba compilation, wall-clock time,
files other than the JSON object they decode to, plots.

Every definition in `Model/` cites file and lines. The seven right-hand sides and Jacobians (`Model/Gen/*`) and the template
tables are produced from the Python text by `tools/gen_ode.py` and `tools/gen_templates.py`; the generated Lean is committed and is
what the theorems are about.

## How non-vacuity is shown

Next to the theorems stand `example`s or theorems named `…_example`/`…_feasible` which instantiate the hypotheses with concrete
ℚ/ℝ data (IEEE-1547-like zone tables, a 10/50 kVA inverter, concrete event lists), and each refutation is a concrete run.

## Wrong programs

`tools/mutate.py` applies a textual edit to a scratch copy of the model, rebuilds, replaces every proof that no longer checks by a hole in
the scratch copy until all builds, and reports the property theorems depending on a hole. The edits and outcomes are in
`seeded/LOG.jsonl` (one line per attempt). A surviving edit that is not equivalent leads to a tightened theorem, named in the log.

## Where the code departs from the claim

Each item is a theorem; the claim is then `partial` (what does hold is proved too).

* C05 removing a solar event always raises; C06 totals are stale after "remove all"; C12 the event specification dictionary is shared by all instances.
* C22 a deeper zone clears the cessation flag; C27 the frequency logic reconnects a tripped DER; C29 a stale cessation timer; C34 Volt-VAR is lost after a disconnection.
* C43/C45 the DC reference schedule: list shared by instances, second downward ramp fails.
* C49 the negative sequence is wrong; C58, C59, C77 wrong or missing Jacobian entries; C63 stale RMS filter state in loop mode; C79 stand-alone grid power series.
* C160, C162 DC references: totals of other DERs go stale; a repeated simulation starts from the last reference of the one before.
* C66 parents of a configuration raise AttributeError; C68 class names that raise NameError; C82 single-phase classes cannot be constructed;
  C85 shared frequency tables; C92 error terms; C101 second solver never works; C103, C104 loop-mode and failed-run desynchronisation.

## Axioms

`vcheck` prints the axioms per theorem. All property theorems depend on a subset of `propext`, `Classical.choice`, `Quot.sound`.
No `axiom` declaration, no compiled evaluation: concrete cases use `decide +kernel`, `rfl`, `norm_num`.
