# Formal model of pymgrid in Lean 4

Source: Total-RD/pymgrid, read as text in /repo. Nothing is executed; the model is
written by hand, function by function, and every definition cites the lines it mirrors.

## Trusted base

* Lean 4.33.0 kernel and the Mathlib oleans shipped with the image.
* Axioms: every theorem depends on at most `propext`, `Classical.choice`, `Quot.sound`
  (`lean/Verif/Axioms.lean` prints them during the build). No axioms of our own, no `sorry`,
  no `native_decide`, no `bv_decide`.
* The reading of the Python source that the model encodes (see "Modelling choices").

## Modelling choices

* **Numbers** are exact rationals. Every finite IEEE double is a rational, so inputs lose
  nothing, but rounding of intermediate results is not modelled, nor are nan/inf, except the
  infinite capacity of the balancing module (`ERat`). `np.isclose(a,b)` is modelled exactly as
  `|a-b| <= 1e-8 + 1e-5*|b|`. `round` is Python's round-half-to-even.
* **Exceptions** are values (`Err`, one constructor per Python class raised). Stateful
  functions return the new state next to the result, so partial effects before an exception
  are visible.
* **Randomness** (gaussian noise, randint, rand) is an argument quantified over its range.
* **Callables** supplied by users (genset cost, forecaster, trajectory, reward shaping,
  transition model) are arbitrary functions.
* **Objects** of a microgrid live in a heap (list of modules indexed by position); containers
  hold references, so name collisions and aliasing can be expressed.
* **Dict keys** of logs/states are constructors of an inductive type instead of formatted
  strings (the formatting is injective for the module classes of the library).
* Step counters are natural numbers (negative initial steps are not modelled).

## Agreement of the model with the repository's own tests

`lean/Verif/Conformance/` replays assertions of `/repo/tests` on the model: the genset tests (all of them but the two cost
tests and the exhaustive status test, which C10 generalises), the load and renewable tests, the load/PV microgrids with
their logs, the trajectory tests and the sizes of the generator. These are tests of the model on literal inputs, evaluated
by the kernel; they are evidence that the model was read off the code correctly, not proofs of any property.

## Not modelled

The random generator and the quantile regression behind the samples of SAA, numerics and tolerances of the solvers used by MPC (and its verbose output), plotting, notebooks, comparisons of benchmark outputs, pandas formatting of logs,
YAML text syntax (serialisation is modelled at the level of the dicts handed to yaml),
warnings, ray decorators, gym space `seed` and `contains` of observation spaces.

`COVERAGE.md` (written by `tools/coverage.py`) lists for every function of the package the definitions citing it. The functions
without a definition are of these kinds:

* properties that return an attribute which is a field of the model (`min_act`, `is_source`, `current_step`, `forecast_horizon`,
  `fixed`, `flex`, ...), and the setters behind them that only store; formulas such as `production_marginal_cost` are modelled by one
  definition for all kinds of modules;
* abstract methods and methods that a subclass of the library always overrides;
* `__repr__`, `__dir__`, `__str__`, printing, plotting, warnings, progress bars;
* access to files: `MicrogridGenerator._get_*_ts`, `load`, data files, `from_scenario`; the data are arguments in the model;
* registration with YAML and ray, and metaclass code that only forwards docstrings or registers classes;
* the random fuel polynomial of `_get_genset`, quantile regression and the sampling of SAA, `validate_forecasts`;
* code nobody calls (`_resize_timeseries`, `_get_grid_price_ts`) and most of `_deprecated/Environments`, of which only the actions are modelled
  (three of its modules import a package that does not exist).

## Plan per property

* **C01 Battery charge never leaves its capacity window** - Model `Battery` (limits, transition, update, state update) and the generic `as_source/as_sink/step`; invariant by induction on the request list.
* **C02 Battery energy accounting** - Same model; sums of reported provided/absorbed energies over the history; induction.
* **C03 No free energy from a battery** - Consequence of C01+C02 for every history; proved by telescoping.
* **C04 Battery rate limits and exact clipping** - Case analysis of `as_source`/`as_sink` on the battery.
* **C05 State of charge is consistent with the stored energy** - `soc` kept as a separate field in the model, invariant over op lists including the two setters.
* **C06 Battery step reward is the cycling cost** - Case analysis of `update`.
* **C07 raise_errors: reject instead of clip, and change nothing** - Equivalence theorem for all module kinds over `Module.step`; genset part is `_partial` (status change survives), with a concrete witness.
* **C08 Genset start-up and wind-down take exactly the configured time** - Genset state machine modelled field by field; closed form for `n` consecutive requests, induction on `n`.
* **C09 Aborting a genset status change restores the resting state** - One-step theorem from any reachable state satisfying the machine invariant.
* **C10 Genset status machine never fails and its prediction is exact** - Machine invariant (initial + preserved); no error branch reachable; prediction equality.
* **C11 Gensets without abortion still obey start/stop requests** - Violated by the code: negation with witness for every positive time; `_partial` positive results (zero times).
* **C12 Genset output is zero when off and within its running range when on** - `step` on a genset module; cost is an arbitrary function or constant.
* **C13 Grid exchange respects line limits and outages** - `Grid` limits from the series row; all rows.
* **C14 Grid reward and CO2 accounting** - Formulas of `update`.
* **C15 Renewable energy is either used or curtailed** - Formulas of `update`.
* **C16 Load is met exactly as given by the series** - Constructor sign normalisation composed with `update`.
* **C17 Balancing module penalises exactly what it balances** - Formulas of `update`.
* **C18 Microgrid energy balance** - Fold over heap of modules; balance algebra of `run`.
* **C19 run() succeeds on every well-formed control** - Well-formedness invariant of the microgrid, preserved by `run`; totality of `run` by the phase lemmas.
* **C20 Flexible modules are dispatched greedily; loss of load is a last resort** - Separate greedy specification `greedy : caps -> demand -> outputs`, refinement of the flex loops.
* **C21 Microgrid reward is the sum of module rewards** - Accumulator induction.
* **C22 Episodes have exactly final_step - initial_step steps** - Induction on number of runs with the step-count invariant. `C22_no_modules`: `Microgrid([], add_unbalanced_module=False)` is accepted and its episodes never end (modules without any time series, in contrast, are rejected).
* **C23 All modules advance in lockstep** - Invariant of `run`/`reset`.
* **C24 One log row per step** - Logger invariant over step histories.
* **C25 Logs record the pre-step state and the energy actually exchanged** - Log column specification.
* **C26 reset() returns the module to its initial configuration** - Partly violated: reset does not restore battery charge/genset status. Negation + `_partial`.
* **C27 Normalisation round trips** - Field algebra on lists.
* **C28 Microgrid-level normalisation agrees with module-level normalisation** - Nested map of C27.
* **C29 Normalised and raw controls are interchangeable** - Unfold `step`.
* **C30 Forecasts have the configured shape and stay inside the observation bounds** - Forecaster pipeline pad/clip; noise and callables universally quantified.
* **C31 Oracle forecasts are the true future** - List algebra with `drop/take`.
* **C32 Observing or forecasting never alters the data** - Clip as in-place write to the series view; identity when bounds fit. Negation after assigning `time_series`.
* **C33 Module container is a partition** - `get_subcontainers` fold; list-permutation theorem.
* **C34 Every module is stepped exactly once per run()** - Negation for colliding names; positive with unambiguous names.
* **C35 Priority lists are exactly the orderings of the controllable modules** - Characterisation of `itertools.permutations`, deduplication and genset filter; independent specification `IsPriorityList`. Witness of failure for shared names.
* **C36 Priority-list actions account for the whole net load** - Greedy loop invariant (`Planned`), including the order in which modules are used (`Merit`); the plan is realised by `run`; the loop of `RuleBasedControl.run` by induction. Violated for gensets that are asked to run without need (assigned 0, below the minimum).
* **C37 Rule-based control sorts by marginal cost** - Insertion sort properties (stable sorts agree).
* **C38 Rule-based control uses gensets when they are needed** - Violated: general theorem that gensets with positive minimum are never started, with a concrete episode; `_partial` theorem for gensets without minimum. The first generated list is computed for all microgrids (`first_list`).
* **C39 Discrete actions are valid iff they index the list of priority lists** - `Model/Env.lean`; histories `EOp` of steps with any integer, removals of any integer and resets. `C39_create` (the actions are exactly the priority lists), `C39_order` and `C39_remove_partial` (removal keeps the order), `C39_valid` (after any history and a reset, every sequence of valid actions up to the end of the episode succeeds, each step being a run on the control planned from the list at that index), `C39_invalid_partial` (`ValueError`, modules untouched). Findings: `C39_last_action` (removing the only action leaves an environment whose action 0 raises `IndexError`), `C39_rejected_action_log` (a rejected action is logged, so that `get_log` raises until the next reset). `C49_environment_log` gives the log of an environment.
* **C40 Trajectory functions return valid sub-intervals** - Draws universally quantified in their range; negation witnesses for the boundary cases.
* **C41 Trajectories bound every episode** - `reset`/`_set_trajectory` model.
* **C42 Battery-discharge shaping** - Model of shapers on infos; `[-1,1]` violated when exporting; key mismatch; negations + partial.
* **C43 Module serialisation round trip** - Model/Serialize: constructor arguments, state attributes and log of a module as the dicts handed to yaml, the constructor call and the attribute assignments of `deserialize`. `C43_dump_load`: exactly modules holding a function cannot be dumped. `C43_reload`: what loading gives - batteries, gensets and balancing modules come back unchanged; series modules come back with the forecast of the *initial* step (`C43_stale_forecast`). `C43_resume_partial` (empty log) and `C43_after_reset_partial` (both reset) give equality of all futures for non-random forecasters. **Violated** for every non-empty log (`C43_cannot_continue`): `ModularLogger.from_raw` keeps pandas columns, so `append` raises in the first step of the loaded module, after its charge or status moved (`C43_failed_step_moves_charge`). **Violated** for `set_forecaster` (`C43_forecaster_lost`). The yaml text and pandas itself are trusted to keep numbers.
* **C44 Changing the forecaster keeps observations consistent** - State length lemma; stale forecast negation.
* **C45 Strictly bounded samples are feasible** - `Model/Sample` with the draws as arguments. Batteries, grids, renewables: the strict sample, stepped, exchanges exactly `lo + u (hi - lo)` within the bounds of the moment, even with `raise_errors`. Violated for gensets (a scalar bound is normalized in a two-dimensional space: `TypeError` in every state) and for balancing modules (the sample 0 cannot be denormalized). Microgrid: samples cover exactly the controllable names and can be run; strict sampling fails as soon as there is a genset. With `sample_flex_modules=True` the sample has one action for every module that is not a load, and can be run (`C45_flex_sample_partial`).
* **C46 Series are stored with the sign of their direction and bounded by their action/observation range** - List lemmas over min/max.
* **C47 A failed run() has no effect** - Negation with witness; partial for microgrids whose names are checked first.
* **C48 Grid parameters are validated** - Iff theorem on `_check_params`.
* **C49 The microgrid log covers exactly the steps taken** - Index arithmetic on the columns of `get_log` (`Model/GetLog.lean`). `C49_log_partial`: for every history, a reset and successful runs give a frame with one row per run and the columns of the module and balance logs, when the episode starts at the microgrid's initial step. Findings: `C49_trajectory_fails` (an episode that starts later has no log: the index has the wrong length, for every trajectory function), `C49_failed_run` (no log after a run that raised), `C49_balance_name` (a module called `balance` loses its reward column), `C49_no_modules` (no log without modules).
* **C50 Battery action space spans what the battery can do** - Negation with witness (bounds use the reciprocal factors); exact range characterised.
* **C51 Legacy microgrid: production respects component limits and balances** - `Model/Legacy.lean` mirrors `_record_production` and the constraint checks branch by branch (only the data set `'all'`, the others under C85; `_record_action`, a write-only log, is left out; the parameter data frame is a record). `C51_run_partial`: a successful run records the request limited as documented, within limits and balanced up to 1e-3. Violations: `C51_small_genset` (requests in (0,1] below the minimum pass), `C51_outage` (the grid status is ignored), `C51_assertion`; `C51_fails_iff` says exactly when a run raises AssertionError.
* **C52 Legacy microgrid: state of charge stays within bounds** - Invariant over all histories of run and reset, failing calls included, for microgrids with a grid (`C52_grid_partial`). Violated without a grid: the state of charge follows the unclipped request (`C52_violated`); `C52_islanded_partial` for feasible requests.
* **C53 Legacy rule-based dispatch serves the load** - `Model/LegacyRBC.lean`: priorities, the dispatch loop and the baseline episode of `run_rule_based` (benchmark data frames and the data-set split are left out). Loop invariant over the sorted priorities for every priority dict: `C53_nonneg`, `C53_battery`, `C53_merit_order` (battery or grid first, by prices and round-trip losses), `C53_grid_down`, `C53_covers_partial` (loss_load iff something is unserved, unless the genset is forced). `C53_forced_partial` is exact when the genset is forced. Violations: `C53_unserved` (the reserved genset minimum is not served and not flagged), `C53_double_minimum` (twice the minimum, PV unused), `C53_unlimited` (genset and import set points ignore the limits). `C53_baseline_partial`: for positive loads the whole baseline succeeds and each step is within limits and balanced; `C53_baseline_soc`: state of charge in the window. `C53_zero_load`: the baseline fails for a zero load under sun with a full battery and no grid.
* **C54 Conversion from legacy to modular preserves the system** - `Model/Convert.lean` models `to_modular` and the
  `get_*_module` functions and builds the modular microgrid with the constructors of the module models. Proved: which
  legacy microgrids convert (iff), one module per component with the same parameters, series and state, one-step tracking
  of the battery, equality of rewards and legacy costs for genset, grid and balancing, usability of the result
  (C18/C19 instantiated), convertibility of every generated microgrid. Violated and shown by witnesses: `soc_max` is
  dropped (the module charges to 1), `battery.soc` is stale after the run that ends the episode. Also shown: the power
  limits of the two batteries differ by the efficiency and the wear is charged for the energy in the cells. Not modelled:
  grid series of different lengths (`nan`), a horizon of 0.
* **C55 Generated microgrids are adequately sized** - `Model/Generator.lean`: `_create_microgrid` with all random draws and the chosen data files as arguments (fuel polynomial and `PV_rated_power` left out; data files as shipped: equal lengths, positive loads, `Draws.Valid`). `C55_sizes`, `C55_architecture`, `C55_series`, `C55_total`; `C55_baseline` composes them with C53: the rule-based baseline of every generated microgrid runs to the end within all limits.
* **C56 Weak-grid outage profiles** - In-place nested loop against the closed form `Outage`: `C56_profile` (time step 1), `C56_timestep` (any time step), `C56_year` (length and values of the series of a generated grid).
* **C57 The balance log records what the modules did** - Accumulator invariant of `run`; the log of the balance is part of the microgrid model.
* **C58 Returned observations describe the state after the call** - Observation specification per module kind (`Spec/Observe.lean`), independent of `normalize`.
* **C59 A normalised run equals the run of the de-normalised action** - Equality of the two executions of `run`, module by module.
* **C60 Legacy microgrid: cost records follow the production records** - `C60_cost`: the entry appended by every successful run, from the recorded production.
* **C61 Legacy microgrid: run returns the values of the next step** - Clock invariant over histories of run and reset. `C61_next_step_partial` holds for load and PV and, from the second run on, for the grid values; the first run returns grid values of step 0 (`C61_first_row`), the hour lags by one (`C61_hour`).
* **C62 Conversion from modular to legacy and back preserves the system** - `Model/Revert.lean` models `to_nonmodular` on
  any microgrid of library modules and `run` of the result. `C62_accepted_iff`, `C62_round_trip_partial` (all but demand),
  `C62_modular_again` (converting a third time gives the identical modular microgrid), `C62_components` (any microgrid in
  any state, specification `Reverted`), `C62_finished`, `C62_first_status` (the first row of the status). The code violates the property: the load series of a module holds
  the negated demand and is copied as it is (`C62_demand_negated`, `C62_demand_copied`); without grid and genset, or
  without the module for unbalanced energy, every `run` of the result raises `KeyError` (`C62_no_costs`); a microgrid
  converted during an episode keeps its state of charge but starts at the first step of all series (`C62_restarted`).
  Not modelled: fuel costs given by a callable, the random fuel polynomial.
* **C63 A loaded microgrid behaves like the dumped one** - `Model/GridSerialize.lean` builds the mapping of
  `_serialization_data` and loads it with `from_yaml` (dump to a string; the `scenario` entry is left out). The loaded
  microgrid holds other module objects, so the proof relates two microgrids along a renaming of references
  (`Lemmas/Rename.lean`) and carries the relation through `run` and `reset`. `C63_dump_load` (which microgrids can be dumped),
  `C63_modules`, `C63_resume_partial` (empty logs), `C63_after_reset_partial` (any history, then a reset). The code
  violates the property: no `run` of a loaded microgrid with log entries succeeds (`C63_cannot_continue`), the reward
  shaping function is lost (`C63_shaper_lost`), modules of different kinds under one name are dropped
  (`C63_shared_name`). Histories are for microgrids without trajectory function, or new ones with one.
* **C64 Dumping to a file loses nothing** - `Model/FileDump.lean` adds the files written next to the document: their paths
  depend on the class of the module only, later modules overwrite earlier ones. `C64_same_as_string_partial` (modules of
  the same class agree, e.g. one of each class), `C64_last_wins` (every module is loaded with the series and log of the last
  one of its class). The code violates the property for every microgrid with two modules of a class that have different
  series (`C64_violated`; example `C64_two_loads`).
* **C65 MPC plans are exactly the physically possible ones** - `Model/MPC.lean` has the matrices and right-hand sides of
  `_create_problem` and `_set_parameters` entry by entry, as functions of row and column. `Spec/MPC.lean` says what a
  plan is in terms of energies per step. `C65_plans` (feasible iff possible, for every horizon), `C65_all_plans`, `C65_exists`,
  `C65_answer`, `C65_control`. The solver is universally quantified.
* **C66 MPC minimises what the microgrid charges** - `C66_objective` relates the objective to the bill of the plan: exports
  have the wrong sign. `C66_minimal_partial` (exports not paid for), `C66_never_sells_pv` (exchange argument: a solution that
  sells anything has curtailed all PV and bought nothing), `C66_violated` (every solution of a problem costs 10 more than a
  possible plan).
* **C67 An MPC run on a legacy microgrid follows its plans** - `legacyStep`, `legacyFrom` and `runLegacy` in `Model/MPC.lean`.
  `C67_step_partial` says exactly when an iteration fails and what it records otherwise, `C67_run_partial` lifts it to
  whole runs by induction, `C67_as_planned` and `C67_possible` say when the record is the plan, `C67_too_long` and
  `C67_infeasible` cover the other errors, `C67_accepted` the constructor. Violations, for every exact solver: `C67_violated` (full battery, no load, sun:
  `AssertionError`) and `C67_clipped` (100/9 planned, 9 charged).
* **C68 MPC runs on every modular microgrid that it accepts** - `Model/ModularMPC.lean` has the modular branches of `mpc.py`,
  including the constructor's trial conversion to a legacy microgrid. `Spec/ModularMPC.lean` says what the planning problem of
  a microgrid is (`Poses`), which control carries out a plan (`Carries`) and what a run is (`PlanRuns`), in terms of modules.
  `C68_accepts`, `C68_rejects`, `C68_too_long`; `C68_problem_partial` and, by induction on the episode, `C68_run_partial`, for
  microgrids with a grid or a genset. Violation: `C68_no_source` (neither: accepted, but every step raises `RuntimeError`).
* **C69 A step of MPC on a modular microgrid does what was planned** - `Spec/PlanCarried.lean` says what the result of a run has
  to report (`AsPlanned`) and when a step can be executed (`Executable`). `C69_as_planned_partial`, `C69_step_partial`: module by
  module for battery, grid, genset and load, then PV and balancing from the balance of the run and its greedy dispatch.
  Violation: planning ignores outages, losses of the battery on the way out, and start-up times. `C69_only_if` shows that no
  plan is carried out without these conditions; `C69_outage` that in an outage all optimal plans buy.
* **C70 A planned step costs what the plan says** - `C70_charged` and `C70_difference` give the exact reward of an executed
  step; `C70_as_billed_partial` the case of a lossless (or idle) battery and equal prices of emissions. Violations: `C70_wear`
  (discharging is planned too cheap, charging too dear), `C70_emissions` (the grid's emissions at the mean of two prices).
* **C71 Plans are economical** - `C71_served`, `C71_no_waste`, `C71_pv_first`, `C71_one_way`, `C71_grid_first`,
  `C71_pv_before_genset`, `C71_genset_first`, `C71_genset_serves`: exchange of one step of an optimal plan.
* **C72 Observations of environments belong to the observation space** - `Model/EnvObs.lean` has the observation spaces, `_get_obs`,
  `reset` and `step` of `envs/base/base.py`; `Spec/EnvObs.lean` says what the spaces contain and which numbers are shown
  (`shown`: the relative positions of the modules' readings, names in alphabetical order). `C72_space_partial`,
  `C72_flat_step_partial`, `C72_flat_reset_partial`, `C72_nested_step_partial`, `C72_keyed_partial`, `C72_keys`, `C72_discrete_partial`: from the
  readings of modules (C26) and what runs return. Violations: `C72_reserved_names`, `C72_nested_reset`, `C72_scalar_observation`,
  `C72_shared_name`.
* **C73 State series show every quantity under its label** - `C73_labels_partial`, `C73_series_partial`. Violation:
  `C73_single_quantity`, `C73_series_fails`, `C73_keyed_fails`, `C73_plain` (`zip` of a scalar).
* **C74 Setting the forecaster of a microgrid** - `Model/GridSetters.lean` has `set_forecaster` (all modules, or by name) and
  `get_forecast_horizon`. `C74_all_modules`, `C74_horizon`, `C74_rest`, `C74_reported`, `C74_unknown_name`; `C74_forecasts_partial`: a reset makes a module
  with a new forecaster consistent again (`WF.newForecast`), and consistency, spaces and fresh forecasts are invariants of all later
  operations (`GridFresh`). Violations: `C74_named_ignored`, `C74_stale_space`, `C74_lost_on_dump`.
* **C75 Assigning the range of steps of a microgrid** - `setInitialStep`, `setFinalStep` in `Model/GridSetters.lean`, histories with
  assignments (`UOp`) in `Spec/GridSetters.lean`. `C75_range_partial` from the invariants of C22/C23 and C49. Violations:
  `C75_rejected_final_changes`, `C75_initial_unchecked`, `C75_final_unchecked`, `C75_log_fails`; `C75_no_modules`.
* **C76 Environments from microgrids** - `Model/Wrap.lean`: `from_microgrid` is the constructor on copies of the modules (equal
  heap). `C76_wraps_partial`: the container rebuilt from `to_tuples` is the old one (`build_tuples`), runs and resets only
  depend on modules, container and shaper (`Shares`), by induction over the later history. `C76_episode_partial` for trajectory
  functions. Violations: `C76_log_fails`, `C76_fixed_length_rejected`, `C76_range_shrinks`.
* **C77 Environments with continuous actions** - `Model/Continuous.lean`. The action space is built from the fixed sources, of which
  the library has none. `C77_flat_rejected`, `C77_only_empty_action`, `C77_load_no_step`, `C77_controllable_no_step` (violations),
  `C77_flexible_partial`, `C77_checked`.  Trusted: `gym`'s `flatten_space` of an empty `Dict` raises `ValueError` (`np.concatenate([])`).
* **C78 Looking up modules** - `Model/Access.lean`: the containers that can be reached (`View`), `__getitem__`, `__getattr__`,
  `__contains__`, `to_list`, `to_dict`, `__len__`, `names`, `item`. The specification (`Spec/Access.lean`) filters the list of
  modules. By the laws of `build`. Not modelled: attributes that begin with an underscore; `Microgrid.create` leaves out the
  `KeyError` for modules named `data` or `module_dict`. Violations: `C78_clash`, `C78_shadowed`, `C78_lowest`, `C78_accepted`.
* **C79 Sample average approximation** - `Model/SAA.lean`: `mpc_single_step`, `HorizonOutput`, `determine_optimal_actions`,
  `run_mpc_on_group`, `run`. Samples are arbitrary data frames; the solver and `np.partition` are arbitrary functions that meet
  their specifications. The specification (`Spec/SAA.lean`): rank among the plans, and steps enacted as in C67. By induction on
  the number of steps. Partial: percentile 1 and the `AssertionError` of the legacy microgrid. Violations: `C79_percentile_one`,
  `C79_misranked`, `C79_second_run`, `C79_states` (the state on record is that of the step just made).
  Not modelled: `run_deterministic_on_forecast` (which returns from within its loop, so that at most one step is made),
  `ControlOutput.append` of another `ControlOutput` and the comparisons of `ControlOutput` (which raise), the sampling itself.
* **C80 Books of whole episodes** - no new model code. The specification (`Spec/Ledger.lean`) reads totals per name off the results
  of the runs and computes possible exchanges, dues, demand and supply from the data of the modules that the user passed in. By
  induction over the runs, from the entry of a single step for each kind of module (`Lemmas/Ledger.lean`): `C80_exchanges`,
  `C80_rewards`, `C80_bills`, `C80_energy`, `C80_unserved`.
* **C81 Rule-based control until the end** - model `RBC.runAll` (`Model/RBCRun.lean`, `rbc.py:64-93` with `max_steps=None`), with
  `MPC.lengthOf` for `len(microgrid)`. By induction over the steps, with the invariant of rule-based control (`Running`), now
  also established after resets with trajectory functions (`user_running_any`): `C81_whole_episode`, `C81_enough_steps`
  (microgrids without series, for which `len` fails, are not accepted by the constructor).
* **C82 User-defined forecasters** - model `Model/Callable.lean` (`forecaster.py:193-212, 283-373`): callables are arbitrary
  functions to results of any shape; the random number of trial values is a parameter. Trial inverted (`Callable.validate_inv`)
  and combined with the invariant of time-series modules: `C82_tried`, `C82_wrong_sign_refused`, `C82_wrong_number_refused`,
  `C82_set_tried`, `C82_honest_accepted`, `C82_forecast`, `C82_scalar_forecast_partial`. The code violates the rest of the
  claim; the negations are proved for all callables of the kind: `C82_grid_fails`, `C82_grid_setter_fails` (rows of four
  columns have no truth value), `C82_lists_fail` (`_cast_to_arr` calls `reshape` on lists), `C82_flat_arrays_fail`,
  `C82_steps_ahead_fails` (`enumerate` starts at 0), `C82_scalar_end_fails`, `C82_refused_setter_fails`.
* **C83 Episodes are reproducible** - two executions compared. Every operation keeps a module up to what a reset sets anew
  (`kept_core`, `Sib`); resetting two modules that agree up to that gives modules with the same core (`WF.reset_quiet`), with
  a trajectory after equal ranges were set (`setFinal_bare`); the two microgrids are then twins (`Alongside.reset`) and twins
  return the same forever (`TwinGrid.results`): `C83_reproducible_partial`, `C83_no_storage`. Violated by batteries and
  gensets: `C83_battery_fails`, `C83_genset_fails`.
* **C84 The order of the modules does not matter** - two executions compared. The categories of the container have the same
  entries in both orders (`cat_same`), so have the merged dictionaries (`toDict_same`, `Container.sameCont`); steps of
  distinct objects commute (`stepMany_split`, `stepMany_join`), and sums and entries per name do not depend on the order of
  the steps (`SameAcc.run`), nor do the costs (`costInfo_perm`): `Shuffled.run`, `Shuffled.reset`, `Shuffled.create`;
  induction over the calls: `C84_order`, `C84_any_order`, `C84_shapers`. The order of flexible sources matters:
  `C84_flex_order_matters`.
* **C85 Training and testing data of the legacy microgrid are separate** - `Model/LegacySplit.lean` extends the legacy
  microgrid by `train_test_split` and the data set in use. Refinement: away from the end of the data an update or run of the
  split microgrid is that of the microgrid of the part (`update_sub`, `run_sub`), a reset overwrites what the past left
  behind (`update_fresh`, `Settled.reset_sub`), and an invariant over all histories says which part is chosen
  (`Known.after`): `C85_reset_partial`, `C85_split_partial`, `C85_first_state`, `C85_unsplit`. Violations:
  `C85_horizon_one`, `C85_short_part`, `C85_second_split`, `C85_cancel_splits`.
* **C86 The currency of the prices does not matter** - a relational proof: `TSPriced`, `ModPriced`, `PricedGrid` and
  `PricedRBC` relate states in the two currencies (`Lemmas/Currency*.lean`), every function of the model maps related
  states to related states and results, and repriced constructor calls give related modules: `C86_constructors`,
  `C86_currency`, `C86_rule_based`. The limit: `C86_noise_has_a_currency`.
* **C87 More renewable energy never lowers the reward** - a relational proof (`Lemmas/Sunnier.lean`): until the dispatch of
  the flexible modules the two runs are the same; on a surplus they stay the same, on a deficit the remaining need of the
  sunnier run is never larger, each flexible module takes the smaller of what it has and what is needed, and each unit costs
  at least 0: `C87_constructors`, `C87_more_sun`, `C87_earned`. The limits: `C87_curtailment_shaper`,
  `C87_negative_emission_price`.
* **C88 Rows outside the window do not matter** - a relational proof (`Lemmas/Window.lean`): two modules are related if they
  are equally far from their initial steps and have at least `n` common rows left; a step takes one row, a run steps each
  module at most once, a reset gives all rows back: `C88_constructors`, `C88_overlap`, `C88_window`. The limit:
  `C88_observations_look_ahead`.
* **C89 Any agent runs whole episodes** - the loops `play` and `train` that users write are in `Spec/Agent.lean`; an invariant
  of the episode (`Running`: modules in lock step, data left, a balancing module) is kept by every control that the modules
  accept, and the distance to the final step decreases; what a module accepts depends only on its class and its action
  space, which never change: `C89_agent`, `C89_training`.
* **C90 Sampled scenarios are valid** - `Model/DataGenerator.lean`: `NoisyGridData`, `NoisyLoadData`, `NoisyPVData` and
  `SampleGenerator` as functions of the draws; standard deviations and the curves of the quantile regression are arguments. The
  specification (`Spec/DataGenerator.lean`) counts transitions and values whole weeks apart in the data. By induction on the data
  and on the chain: `C90_grid`, `C90_grid_naive`, `C90_grid_refused`, `C90_grid_support`, `C90_no_outage`, `C90_load`,
  `C90_load_mean`, `C90_pv`, `C90_pv_total`, `C90_pv_shape`, `C90_samples`; with C79: `C79_sampled_partial`. Not modelled: `push_individual_vals`,
  `ForecastArgs`, the error measures. Seen in the code: `NoisyLoadData(file_name=...)` always raises `TypeError` (`len(None)`).
* **C91 A converted microgrid repeats what the legacy microgrid did** - a simulation between `Model/Legacy.lean` and
  `Model/Microgrid.lean` through `Model/Convert.lean`. `Spec/Simulate.lean` says which records can be repeated, which control asks
  for them and when a modular run did the same. Invariant (`Lemmas/Simulate.lean`): both are at the same step and state of charge,
  and every module has the parameters and series of the legacy microgrid. One step compares the settlement of the legacy microgrid
  with the dispatch of PV and unbalanced energy: `C91_replay`, `C91_total`, `C91_total_exact`. Differences that remain, with
  witnesses: wear is counted in the cells (`C91_wear`), imbalances below 1/1000 are free for the legacy microgrid
  (`C91_tolerance`), which also ignores outages (`C91_outage`).
* **C92 The unit of energy does not matter** - `Spec/Units.lean` says what the same constructor call in another unit is
  (`Rescaled`) and how controls and infos change. Proof: a relation between the two modules (`Lemmas/UnitSeries.lean`,
  `Lemmas/Units.lean`) that all module functions respect, lifted to the loops of `run` and to histories (`Lemmas/UnitGrid.lean`),
  and established by the constructors (`Lemmas/UnitBuild.lean`). The absolute tolerance of the battery's clipping is never
  reached by a valid battery; that of the balance check does not matter because C18 shows that it never fails if there is a
  balancing module. `C92_constructors`, `C92_units`. Limits found, with witnesses: `C92_rule_based_tolerance`,
  `C92_rule_based_order`, `C92_balance_check_has_a_unit`. Also outside: modules whose action space is one point (their
  normalised actions are read as energies, so they do have a unit).
* **C93 An idle component changes nothing** - `Spec/Spare.lean` says which components can stay idle and by which action
  (`CanIdle`), and when results are the same but for one name (`SameBut`). Proof (`Lemmas/Spare.lean`): the idle action is
  accepted and only changes log and step of the component (and switches off a running genset); the dictionaries of the larger
  container have one entry more (`OneMore`, `Joined`); the loops of `run`, `reset` and `_set_trajectory` respect a relation
  between the heaps and one between the collected results. `C93_idle`, `C93_never_worse`. Limits found, with witnesses:
  `C93_not_idle`.
* **C94 The report on benchmarks** - `Model/Benchmarks.lean` models `describe_benchmarks`, `to_frame`, running the three
  benchmarks and `print_benchmark_cost`; `Spec/Benchmarks.lean` says what a line should state, up to rounding to cents.
  `C94_all_partial`, `C94_ratio_partial`, `C94_index_partial`, `C94_parts`, `C94_refused`, `C94_unknown`, `C94_frame`. Violated
  when both MPC and rule-based control have been run: the records of the loops grow by one entry per step (induction), and
  the numbers of steps differ by one (`C94_lengths_differ`, `C94_mpc_and_rbc`, `C94_run_benchmarks`); also
  `C94_print_benchmark_cost` and `C94_frame_destroys`.
* **C95 Members of the action space** - `Model/Contains.lean` models membership in the space that `action_space` builds;
  `Spec/Contains.lean` says what the members are in terms of the modules. `C95_contains`, `C95_members_run` (through
  `C19_run_succeeds`), `C95_normalize`, `C95_denormalize_partial` (entrywise, through `C28_space_entries`). Violated for bounds
  that are equal (`C95_one_point`) and by `sample_action` (`C95_samples_outside`).
* **C96 Only the total of the loads** - a relation between the states of two microgrids (`Spec/Loads.lean`, `Lemmas/Loads.lean`):
  the loads are at the same step of their episodes, all else is equal. Within a run the energy accounts drift apart load by load and
  meet again after the last one; the simulation is lifted to histories by induction (`C96_total_partial`, `C96_earned`,
  `C96_constructors`, `C96_curtailment_shaper`). Violated by `BatteryDischargeShaper` (`C96_discharge_shaper`).
* **C97 No policy earns more than its resources are worth** - weak duality. The books of C80 say what each module can exchange in a step, what
  it charges and how the charge moves; at any internal prices (`Spec/Dual.lean`) each module earns at most its margin per step, the
  exchanges between the modules cancel because of the balance (C18), and the value of the charge telescopes over the runs
  (`C97_ceiling`, `C97_no_pump`, `C97_no_profit`).
* **C98 Rule-based control is as good as any policy where there is nothing to plan ahead** - strong duality per step. From the order in which
  a plan uses the modules (`Merit`, C36) a price is read off (that of the last module used, of loss of load, or 0) at which every
  module of the planned run earns its margin; C97 bounds every other policy at the same prices (`C98_planned`). The default
  list is ordered by price if prices never change and emissions of the grid cost nothing (`C98_default_partial`);
  otherwise violated (`C98_emissions_ignored`).
* **C99 Off the grid, with one battery, rule-based control loses the least load and earns the most** - simulation between the planned runs and any other
  runs from the same state: the other policy never holds more usable charge (times efficiency) than it has lost more load so
  far (`greedy_step`, `Follows.greedy`). Planned runs cover all they can by `Planned` (C36); any run loses at least the net load
  that its battery does not cover, by the balance (C18) and the ledger (C80). The restriction to one controllable module is
  needed (`C99_two_modules`). Where only lost load costs anything, least loss is most reward (`C99_rule_based_earns`: the planned
  run has no overgeneration to pay for); with a price on battery use that fails (`C99_wear_matters`).
* **C100 A battery moves its charge as the user's transition model says** - the model is an arbitrary function of `Battery`; the
  documented arguments are spelled out in `Spec/CustomBattery.lean`. Case analysis of a step from every state that any history
  can reach (`CustomAt.stepEnergy`), induction over histories for the window (`C100_window`), a simulation for the default model
  passed explicitly (`C100_default`). Models are functions: no state of their own, no exceptions.
* **C101 Modules and microgrids that compare equal behave alike** - `Model/Equality.lean` compares attribute by attribute as
  `__eq__` does, with numpy's tolerance and broadcasting; equality of Python functions is a parameter (`Ident`). A comparison
  that succeeds makes two modules with identical data the same up to log order and number of random draws (`eq_core`), and
  twins answer alike (`twin_replies`, `TwinGrid.results`). Violations with witnesses; attribute `name`, forecaster objects passed
  by the user and `UserDict` internals are not modelled.
* **C102 A better equipped microgrid can do everything the smaller one can** - a simulation: every run of the original is
  replayed on the upgraded microgrid by asking each module for the amount it actually delivered (`UpGrid.transcript`); charges,
  genset states and steps stay equal, flows agree with missing amounts read as zero. Constructor calls with wider limits are
  upgrades (`C102_battery`, `C102_genset`, `C102_grid`). Normalised, rule-based and flexible variants fail, with witnesses.
* **C103 Model predictive control with perfect forecasts earns as much as any policy** - two inductions meet at courses of
  events on the data alone (`Path`). Every run of any policy can be imitated by a course that costs no more, up to the value of
  the energy it lacks (`follow_step`, `runs_path`); every course, prolonged by idle steps, is a plan, so the optimal plan costs no
  more, its first step is carried out at no more than its planned cost (C69, C70), and the rest of it is a course again
  (`plans_best`). Partial: `C103_phantom` proves that the padding of forecasts beyond the end of the data makes every optimal
  plan hoard energy, so the claim needs `CoveredAfter`; the other conditions (`Foreseen`) exclude earlier findings about MPC.
* **C104 Rule-based control does not look ahead** - the simulation of C88 extended to controllers: the limits, marginal costs and
  action dimensions that priority lists read are the same in both microgrids while rows of the window are left, so the lists
  (`RuleWin.lists`), the actions (`RuleWin.populateAction`) and, by induction, all steps are (`C104_rule_based`); the same for
  environments with discrete actions (`C104_environment`).
* **C105 Prices do not move energy, and higher prices never pay** - one simulation with a parameter `P`: modules that differ in
  prices (`Tariff P`) take the same steps with the same info, and, if `P`, with no more reward (`Tariff.step`, by device); this
  is carried through the loops of `run`, `reset` and histories (`TarGrid.run`, `TarGrid.transcript`).  `P := True` gives
  `C105_dearer` and `C105_value`, `P := False` is symmetric and gives `C105_flows`.
* **C106 A generated microgrid never has to lose load** - `generate_microgrid` is modelled in Model/Generate.lean.  The
  invariants of converted modules (`Setup.part`, used for C91) give what battery, grid and genset deliver on `carry`
  (`Setup.delivers`); the balance of the run and the greedy use of PV then leave nothing for the balancing module to provide
  (`Setup.serve`).  The episode is an induction over the rest of the series (`Setup.serves`); C55 gives the sizes.
* **C107 weak_grid tells whether the grid ever fails** - `weak_grid` is modelled in Model/WeakGrid.lean; the invariant `GridWF`
  of grid modules (series kept, status 0 or 1) gives the equivalence, the description of a step (`GridWF.unnormalizedStep`)
  the two consequences.
* **C108 Model predictive control sees no further than its forecasts** - the simulation of C88 and C104 (`RuleWin`) extended
  by the invariant that stored forecasts are those of the current step (`FreshNow`) and by equal horizons (`MpcWin`).  It gives
  equal states of all modules, hence equal problems, hence equal controls for any solver, which is a function of the problem.
* **C109 Legacy microgrids and their benchmark algorithms do not see the future** - a relation between microgrids whose series
  start the same way (`Alike`, `Going`) is kept by `update_variables`, `reset` and `run`.  The loops of the benchmarks are compared
  turn by turn: within the window the rows, the slices of the horizon and hence the problems are equal.
* **C110 Marginal costs say what a unit of energy costs** - the quotes of `get_cost_info` after any history are computed from the
  constructor's arguments and compared with the rewards of C06, C12, C14, C15, C16 and C17.  Violated for grids, batteries with
  losses and gensets with cost functions; witnesses and the formulas that hold are proved.
* **C111 Elements of priority lists are totally ordered** - `Model/Comparison.lean` models the class with its optional cost, the
  methods of `functools.total_ordering` and python's fallback to reflected methods; `PLElement.Ordered` is the specification.
  Violated for different elements of the same cost and action number, each of which is greater than the other.
* **C112 The penalty measures how far what happened is from what was asked for** - `Model/Penalty.lean` adds the control dict, the
  record of controls and `penalty` to the legacy model; `deviation` is the specification.  Violated: with the columns of the
  generator `penalty` raises after any history; proved for records of controls whose columns are columns of production.
* **C113 The error of a forecast** - `Model/ForecastArgs.lean` models the quotients with inf and nan; the mean is computed by
  induction over the rows and compared with a formula over the rows that count.
* **C114 Parameters of forecasts to try** - `np.linspace` in exact arithmetic and the nested loops as nested lists.  Validity and
  count are proved; that every set occurs once is violated.
* **C115 Forecasts of the legacy microgrid are the values to come** - `Model/LegacyForecast.lean`; the entries are compared with
  the current values of the state after the runs (`C61_next_step_partial`), and the length follows from a bound on the clock.
* **C116 Results are compared by their costs** - `Model/Ranking.lean` has the comparisons of the two subclasses of `dict`, with
  `np.sum` of a dict (the dict itself) and `!=` inherited from `dict`; `min` as a loop. Violated for the outputs of all algorithms.
* **C117 Discrete actions of the deprecated environments** - `Model/AgentActions.lean` has the three tables of controls as they
  are; case analysis over architecture and action, and `run` of the legacy model for what becomes of a control.
* **C118 Action vectors of the deprecated environments** - `Model/AgentVectors.lean`; the action space is a list of numbers of
  values, an action a function of the position. Violated for the continuous environment.
* **C119 Episodes of the deprecated environments** - `Model/ShortEpisode.lean` keeps the clock and the row last read, tied to `run` of
  the legacy model by `C119_clock`; induction on the steps. Violated: first row, and one step more with `max_episode_len`.
* **C120 Standardised actions of the deprecated environments** - `Model/Standardize.lean`; means and deviations of the run are
  inputs; linear arithmetic entry by entry. Violated: generators (KeyError) and the bound of exports.
* **C121 Constraints of the deprecated safe environment** - `Model/SafeEnv.lean`, as a function of action and observation; signs of
  quotients. Violated: microgrids without grid, and limits of the step after.
