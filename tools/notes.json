{
 "C05": {
  "note": "The consistency of soc and charge holds along every history of steps, resets and assignments of charges inside the window; C05_violated shows that assigning current_charge below min_capacity breaks it (battery_module.py: failing assertion in _update_state)."
 },
 "C11": {
  "note": "False in the code: with allow_abortion=False and positive times the genset never switches (C11_violated_start/stop). The part that holds is C11_no_abortion_partial."
 },
 "C50": {
  "note": "False in the code: the action bounds are swapped (C50_violated). The part that holds is proved as _partial."
 },
 "C32": {
  "note": "Holds for modules as constructed and for all histories with set_forecaster and forecast_horizon; violated after assigning time_series (C32_not_after_assignment): the oracle clips the new series in place with the old bounds."
 },
 "C07": {
  "note": "Rejected requests leave the module unchanged, except that a genset has already taken the status request (C07_genset_rejects)."
 },
 "C25": {
  "note": "Holds for every module but gensets, whose log rows hold the state after the status update (proved)."
 },
 "C26": {
  "note": "Counter, log and series restart; battery charge and genset status are not restored (C26_not_restored), which the documentation does not say. The _partial theorems state what holds."
 },
 "C28": {
  "note": "Values compared as numbers: MicrogridSpace returns arrays of one element where ModuleSpace returns scalars. The infinite space of the balancing module (nan) is excluded by the coverage hypothesis."
 },
 "C34": {
  "note": "False when modules of different kinds share a name (witness proved); the _partial theorem holds for distinct names."
 },
 "C41": {
  "note": "Only the first call of a trajectory function is checked (witness proved)."
 },
 "C47": {
  "note": "The exception is raised after the fixed modules have been stepped (witness proved)."
 },
 "C44": {
  "note": "Violated between the setter and the next step or reset when the horizon grows (C44_not_immediately), and for gaussian forecasters with growing uncertainty (C44_not_for_growing_noise). Proved: consistent from the next successful step or reset on, and at once if the horizon does not grow."
 },
 "C40": {
  "note": "Violated at the boundaries: StochasticTrajectory can return a final step equal to the initial step, which makes the following reset raise (C40_stochastic_reset_fails), and FixedLengthStochasticTrajectory raises for the full-length interval (C40_full_length_rejected). Proved for all bounds and all draws: what is returned is a sub-interval; fixed-length ones have exactly the requested length."
 },
 "C42": {
  "note": "Violated in several ways: loss of load is read under the key 'unbalanced_energy' but the balancing module is called 'balancing' by default (C42_loss_ignored); one charging battery hides the discharge of the others (C42_charging_hides_discharge); a discharge above the load makes run() raise AssertionError half-way (C42_export_fails); renewables not named 'pv' are ignored (C42_pv_default_name). Proved for every history and run: the documented formula and range when there is at most one battery and the balancing module has the expected name; curtailment = available - used for renewables named 'pv'."
 },
 "C35": {
  "note": "For all histories and both values of remove_redundant_gensets: the generated lists are, without repetition, exactly the orderings of the controllable modules with an action each. False when controllable modules of different kinds share a name (C35_shared_name); the _partial theorem excludes that."
 },
 "C36": {
  "note": "For lists generated in any state, used in any state with data: exact accounting, energies within the momentary limits, remaining load only if every module is at its maximum, modules used in the order of the list (Merit); a run on the control delivers exactly the planned energies (C36_realised); rule-based control completes every run and makes min(n, episode length) planned runs (C36_rbc_run). Violated for gensets that are asked to run when nothing is needed: they are assigned 0, below their minimum (C36_below_minimum). 'Remaining' is up to the code's tolerance of 0.0001."
 },
 "C37": {
  "note": "Default list and user lists, for every history."
 },
 "C38": {
  "note": "Violated: the default list asks every genset with positive minimum production to be off, so rule-based control never starts it (C38_never_started, for all microgrids and run lengths; C38_loss_of_load is a concrete episode). The _partial theorem covers gensets without minimum production."
 },
 "C49": {
  "note": "Proved for episodes that start at the microgrid's initial step. The claim is false for episodes that start later (C49_trajectory_fails, for every trajectory function), after failed runs (C49_failed_run), for microgrids without modules (C49_no_modules) and, for one column, for a module named balance (C49_balance_name)."
 },
 "C39": {
  "note": "Partial because the claim is false in two cases: a rejected action is entered in the microgrid's own log (C39_rejected_action_log), and the removal of the only action fails with gym versions without empty spaces (C39_last_action). Everything else is proved for all histories."
 },
 "C45": {
  "note": "Violated for gensets (strict sampling always raises TypeError, also through Microgrid.sample_action) and balancing modules (the sample cannot be stepped); proved for batteries, grids, renewables and loads in every state and for every draw, including that the energy exchanged is exactly the one drawn; non-strict samples of every microgrid, and strict ones without gensets, can be run."
 },
 "C43": {
  "note": "Holds for modules with an empty log and, for any module, after a reset of both copies (non-random forecasters). Violated otherwise: C43_cannot_continue (every step of a loaded module with a log raises), C43_stale_forecast, C43_failed_step_moves_charge, C43_forecaster_lost. Modules holding functions cannot be dumped (C43_dump_load)."
 },
 "C51": {
  "note": "Limits, balance and exactness proved. Violated: requests in (0,1] below the genset minimum are executed (C51_small_genset), the grid status is ignored (C51_outage), a run raises AssertionError when the load is exactly covered without PV (C51_assertion, C51_fails_iff)."
 },
 "C52": {
  "note": "Proved for microgrids with a grid connection. Violated without (C52_violated): the state of charge follows the unclipped request; proved for feasible requests."
 },
 "C61": {
  "note": "Proved for load and PV and, after the first run, grid values. Violated: grid values of the first run (C61_first_row), hour (C61_hour)."
 },
 "C53": {
  "note": "Non-negativity, battery limits, merit order of battery and grid, and coverage without forced genset proved; exact statement when the genset is forced. Violated: C53_unserved, C53_double_minimum, C53_unlimited, C53_zero_load."
 },
 "C54": {
  "note": "Everything except the maximal state of charge: C54_components_partial gives all parameters and series, C54_accepted_iff when the conversion succeeds, C54_battery_tracks/C54_rewards the behaviour. Violated by the code: soc_max is dropped (C54_soc_max_ignored) and the state of charge is stale after the last run (C54_stale_soc)."
 },
 "C62": {
  "note": "Proved for everything but the demand: C62_round_trip_partial, C62_modular_again, C62_components. Violated by the code: the demand is negated (C62_demand_negated, C62_demand_copied), microgrids without grid and genset cannot be run after conversion (C62_no_costs), and the series restart (C62_restarted)."
 },
 "C63": {
  "note": "Proved for new or reset microgrids without reward shaping and random forecasters (C63_resume_partial) and for every state after a reset (C63_after_reset_partial). Violated by the code: C63_cannot_continue, C63_shaper_lost, C63_shared_name."
 },
 "C64": {
  "note": "Violated by the code: files are named after the class, so modules of one class share the series and log of the last one (C64_violated, C64_last_wins, C64_two_loads). Proved when modules of the same class agree (C64_same_as_string_partial)."
 },
 "C65": {
  "note": "Exact arithmetic: solver tolerances are not modelled. The solver is any function that returns a feasible point whenever there is one."
 },
 "C66": {
  "note": "Proved when exports are not paid for (C66_minimal_partial). Violated by the code: the export price enters the objective as a cost (C66_objective), so solutions curtail PV instead of selling it (C66_never_sells_pv, C66_violated)."
 },
 "C67": {
  "note": "Proved except that a step which needs no PV although there is some raises AssertionError (C67_step_partial, C67_run_partial; C67_violated), and that charging is cut off at a lower limit than the one plans are made with (C67_clipped, C67_possible; exact otherwise: C67_as_planned)."
 },
 "C68": {
  "note": "Acceptance and its errors are proved (C68_accepts, C68_rejects, C68_too_long). Problem and run are proved for microgrids with a grid or a genset (C68_problem_partial, C68_run_partial); without both a microgrid is accepted but every step raises RuntimeError (C68_no_source)."
 },
 "C69": {
  "note": "Proved for steps that can be executed (C69_as_planned_partial, C69_step_partial): grid connected if used, discharge within rate times efficiency, no simultaneous charging and discharging, genset switchable at once. The planning ignores these conditions and no plan is carried out without them (C69_only_if); during an outage optimal plans still buy (C69_outage)."
 },
 "C70": {
  "note": "The exact cost of an executed step is proved (C70_charged, C70_difference). It equals the planned cost for lossless or idle batteries and equal emission prices (C70_as_billed_partial). Violated by the code otherwise: wear is charged on stored energy (C70_wear), the grid's emissions are planned at the mean price (C70_emissions)."
 },
 "C71": {
  "note": "All problems and all optimal plans, by exchanging one step of the plan. Decisions that change the battery's state of charge are not covered."
 },
 "C72": {
  "note": "Proved for flat observations of microgrids without modules named 'balance' or 'other' (C72_flat_step_partial, C72_flat_reset_partial, C72_discrete_partial), for nested observations of steps without scalar states (C72_nested_step_partial, an equivalence) and for observation keys without scalar states (C72_keyed_partial). Violated by the code otherwise: reserved names (C72_reserved_names), every nested reset (C72_nested_reset), scalar states (C72_scalar_observation), names shared by modules of different kinds (C72_shared_name)."
 },
 "C73": {
  "note": "Proved for modules that show no or several quantities (C73_labels_partial, C73_series_partial; not normalised for all). Violated by the code otherwise: state_dict(normalized=True) raises TypeError for every module with a single quantity (C73_single_quantity), hence state_series(normalized=True) and environments with observation_keys (C73_series_fails, C73_keyed_fails, C73_plain)."
 },
 "C74": {
  "note": "Proved for a single forecaster for all modules, from the next reset on (C74_all_modules, C74_horizon, C74_forecasts_partial); nothing else changes (C74_rest), and get_forecast_horizon reports the common horizon or raises ValueError (C74_reported). Violated by the code otherwise: forecasters given by name are silently ignored (C74_named_ignored), environments keep the old observation space (C74_stale_space), the new forecaster is lost by dump/load (C74_lost_on_dump)."
 },
 "C75": {
  "note": "Proved for assigning the initial step and then a larger final step, after any history of runs, resets and assignments (C75_range_partial). Violated by the code otherwise: a rejected final_step changes the first series module (C75_rejected_final_changes), initial_step is not checked (C75_initial_unchecked), nor is final_step against the length of the series (C75_final_unchecked), and get_log fails until the next reset (C75_log_fails). Without modules there is nothing to assign (C75_no_modules)."
 },
 "C76": {
  "note": "Proved for microgrids without trajectory function at any moment of any history, except for the log until the next reset (C76_wraps_partial), and characterised for trajectory functions (C76_episode_partial). Violated by the code: the log of the environment cannot be read if the microgrid had been run (C76_log_fails); after a reset with a trajectory function the environment's range is only that of the current episode (C76_range_shrinks), and with a FixedLengthStochasticTrajectory it is rejected (C76_fixed_length_rejected)."
 },
 "C77": {
  "note": "Violated by the code for nearly all microgrids: default options are rejected for every microgrid (C77_flat_rejected), the nested action space only has the empty action (C77_only_empty_action), and every step raises if there is a load or a controllable module (C77_load_no_step, C77_controllable_no_step). Holds for microgrids of flexible modules only (C77_flexible_partial); actions outside of the nested space are refused without effect for any space (C77_checked)."
 },
 "C78": {
  "note": "Proved for all names in all containers, except for names shared by modules of different types and names equal to the keys of containers (C78_by_name_partial). Violated by the code: of modules of different types with one name only some are found (C78_clash), modules named like a container are accepted and not found (C78_shadowed), a missing name in a lowest-level container raises TypeError (C78_lowest), modules named data or module_dict make the constructor raise KeyError (C78_accepted)."
 },
 "C79": {
  "note": "Proved for percentiles below 1 whenever no chosen plan leaves PV unused that the others just replace (C79_step_partial, C79_run_partial; otherwise AssertionError as in C51/C67), with the samples after a run (C79_samples), independence of later data (C79_nonanticipative) and what is refused (C79_steps, C79_percentile_refused). Violated by the code: percentile 1 always raises ValueError (C79_percentile_one); plans are compared without battery wear and emissions (C79_cost_partial), so that a dearer plan may be preferred (C79_misranked); a second run with the same samples, the default, plans with perfect foresight (C79_second_run, C79_foresight); the states on record show the load of the step just made, not of the next one (C79_states). C79_sampled_partial applies it to the samples that SAA draws itself (C90)."
 },
 "C80": {
  "note": "Proved for all sequences of successful runs by induction over the runs (C80_exchanges, C80_rewards, C80_bills, C80_energy, C80_unserved). Rewards without a shaping function; energy balance with a balancing module, as the constructor adds by default. The bound of C80_unserved is attained in the example."
 },
 "C81": {
  "note": "Proved for every successful reset, with and without trajectory functions, by induction over the steps (C81_whole_episode, C81_enough_steps). Assumes that the final steps do not exceed the data, as the constructors ensure unless told otherwise."
 },
 "C82": {
  "note": "Proved for load and renewable modules: what is accepted was tried (C82_tried, C82_wrong_sign_refused, C82_wrong_number_refused, C82_set_tried), the horizon is set with it (C82_set_horizon), callables that return two-dimensional arrays as asked are accepted (C82_honest_accepted) and give the documented forecast after any history (C82_forecast). The code violates the rest, proved as negations: grid modules accept no callable at all (C82_grid_fails, C82_grid_setter_fails), callables returning lists, numbers or flat arrays pass the trial but make the constructor fail (C82_lists_fail, C82_flat_arrays_fail), callables for single values are passed 0, 1, ... as numbers of steps (C82_steps_ahead_fails) and make every step near the end of the series fail (C82_scalar_end_fails), and set_forecaster changes the horizon before it refuses a callable (C82_refused_setter_fails)."
 },
 "C83": {
  "note": "Proved without batteries and gensets (C83_no_storage). With them the code violates it (C83_battery_fails, C83_genset_fails: reset keeps charge and status); C83_reproducible_partial shows that the states of batteries and gensets at the reset are the only thing that matters, with or without a trajectory function. Random forecasters are excluded."
 },
 "C84": {
  "note": "C84_order for reorderings that keep the order within a name and within a flexible category; C84_any_order for all permutations when names are distinct and each flexible category has at most one module; C84_shapers shows the library's shapers qualify; C84_flex_order_matters shows the exception is needed. Calls that raise may leave different states, so histories are of successful calls."
 },
 "C85": {
  "note": "Proved after all histories for horizons of at least 2 and parts at least as long as the horizon. Violated otherwise: IndexError before the end of the part (C85_horizon_one, C85_short_part). A second split is ignored (C85_second_split), and cancelling without a split splits (C85_cancel_splits). C85_first_state: the record of states always begins with the state given to the constructor. C85_unsplit ties the model to the one of C51."
 },
 "C86": {
  "note": "C86_constructors: the repriced constructor calls succeed. Batteries without a user-defined transition model. Forecasters: none, oracle, or ones that convert noise, arguments and results (SameForecast); C86_noise_has_a_currency shows that unconverted Gaussian noise breaks the claim."
 },
 "C87": {
  "note": "C87_more_sun is the monotonicity call by call, C87_earned the total, C87_constructors what a sunnier module is. C87_curtailment_shaper and C87_negative_emission_price show that the two conditions in the statement are needed."
 },
 "C88": {
  "note": "C88_window is the non-interference for whole histories; C88_constructors and C88_overlap say when two microgrids have the same window. C88_observations_look_ahead shows why observations are excluded: their bounds are taken from the whole series, so that rows after the final step change what an agent without forecasts sees."
 },
 "C89": {
  "note": "C89_agent is one episode, C89_training any number of them. The loops are the user's code; they are in Spec/Agent.lean."
 },
 "C90": {
  "note": "Draws, standard deviations and the interpolated curves (quantile regression) are universally quantified."
 },
 "C91": {
  "note": "C91_replay (all steps), C91_total and C91_total_exact (returns). Why the agreement is not exact, and why outages are excluded: C91_wear, C91_tolerance, C91_outage."
 },
 "C92": {
  "note": "C92_units, with C92_constructors for the arguments. Outside the claim, with witnesses: rule-based controllers ignore loads below 1/10000 (C92_rule_based_tolerance) and rank gensets by the cost of one unit of energy (C92_rule_based_order); without a balancing module the balance check has an absolute tolerance (C92_balance_check_has_a_unit)."
 },
 "C93": {
  "note": "C93_idle and C93_never_worse. Limits, with witnesses in C93_not_idle: a running genset that takes time to wind down has to be paid for although nothing is requested, and a battery that starts below its minimum capacity, which the constructor accepts, makes every run fail. Grid modules are not covered."
 },
 "C94": {
  "note": "Partial because the code violates the rest: MPC makes one step more than rule-based control, so after both have been run nothing can be reported (C94_mpc_and_rbc) and run_benchmarks(verbose=True) always raises (C94_run_benchmarks); print_benchmark_cost always raises IndexError (C94_print_benchmark_cost); to_frame extends the recorded costs by nan (C94_frame_destroys). The action columns and most production columns of the outputs are not modelled; comparisons of outputs (which raise TypeError) neither."
 },
 "C95": {
  "note": "Partial because the code violates the rest: denormalising leaves the space where the two bounds of a module are equal (C95_one_point), and sample_action returns numbers instead of arrays for batteries and grids, so that its results are never members (C95_samples_outside; they can be run, C45). Names shared by modules of different module types are excluded (DistinctNames); contains of gym's Box, Tuple and Dict is modelled from its documentation."
 },
 "C96": {
  "note": "Partial because the code violates the rest: BatteryDischargeShaper divides by the demand of the modules called \"load\" only, so with it the division changes the reward (C96_discharge_shaper). C96_total_partial holds for no shaper and for every shaper that does not look at the loads (C96_curtailment_shaper: PVCurtailmentShaper). Names shared by modules of different module types and one module under two names are excluded."
 },
 "C97": {
  "note": "Weak duality for the whole episode. As in C80 modules have distinct names and ids, all modules are at the same step when the runs begin, and the controls name every controllable module. The bound is attained in an example."
 },
 "C98": {
  "note": "Proved for every list that is ordered by price (C98_planned), and for the default list where the import price never changes, there is at most one grid, and its emissions cost nothing (C98_default_partial). Violated otherwise: the default list compares import prices without the price of emissions (C98_emissions_ignored), and is fixed when the control is made."
 },
 "C99": {
  "note": "Batteries with the default transition model. C99_two_modules shows that the restriction to one controllable module is needed: with a genset the default list empties the cheaper battery first and loses load that need not be lost. C99_planned_earns and C99_rule_based_earns carry the result over to rewards when only lost load costs something; C99_wear_matters shows that with a price on using the battery it fails."
 },
 "C100": {
  "note": "Findings: a model that charges too much takes the battery beyond max_capacity without any error, after which every charging request raises (C100_overfull); a model that discharges too much makes the step raise after the charge has been changed, with soc left behind (C100_failed_step_discharges)."
 },
 "C101": {
  "note": "Partial because the code violates the claim: arrays are compared with np.allclose, so loads that compare equal ask for different amounts (C101_tolerance), == is not symmetric (C101_not_symmetric), series of different lengths raise or are broadcast (C101_lengths), a module with increasing forecast uncertainty cannot be compared with itself (C101_self_raises), nor one without forecasts to one with (C101_forecast_raises); module type, reward shaping function and order of the modules are not compared (C101_type_ignored, C101_shaper_ignored, C101_order_ignored)."
 },
 "C102": {
  "note": "For the best controls; the limits are proved too: the same normalised controls may earn less (C102_same_controls), so may rule-based control (C102_rule_based) and a microgrid with a stronger flexible grid (C102_flexible), and the battery discharge shaper of the library distinguishes zero from a missing amount (C102_discharge_shaper)."
 },
 "C103": {
  "note": "Violated in general: beyond the end of the data perfect forecasts show the middle of the bounds, and energy is hoarded for that time (C103_phantom: every optimal plan earns -2 where another control earns -1). Proved for microgrids without genset, with a lossless battery, a grid that is never out and pays nothing for exports, if what the forecasts show after the end does not ask for energy (C103_optimal_partial, C103_run_partial); for single steps without forecasts nothing is asked of the future (C103_step_partial). Export prices, losses and outages are excluded because of the findings C66_violated, C69_only_if and C69_outage."
 },
 "C104": {
  "note": "Microgrids without trajectory functions. Observations are not covered: they are normalised with bounds of the whole series (C88_observations_look_ahead)."
 },
 "C105": {
  "note": "Reward shapers must not read the marginal costs; those of the library do not (C105_shapers). Rule-based control ranks devices by price, so the claim does not extend to it (C105_rule_based)."
 },
 "C106": {
  "note": "Microgrids with a grid need a full year of data and non-negative emissions (as C54_generated). C106_step and C106_episode hold for every convertible legacy microgrid with an adequate genset or a grid that never fails; C106_outage shows that the grid alone does not do if it fails."
 },
 "C107": {
  "note": "weak_grid looks at the whole series, not only at the episode (C107_outside_episode). C107_strong asks for a forecaster that does not fail, as all theorems on successful steps."
 },
 "C108": {
  "note": "C108_foresight says which constructor calls give modules that forecast alike. The conversion that the constructor of the control makes looks at whole series, so that both microgrids have to be accepted (C108_run). Steps so close to the end of the data that forecasts are padded are not covered: the padding comes from bounds of the whole series. C108_limit shows that the window cannot be shorter."
 },
 "C109": {
  "note": "Compared are production, costs, emissions and states of charge; the recorded states also contain load, PV and grid data of the next row (C109_states_ahead), and both series have to have such a row. The samples of the sample average approximation are an input: how they are drawn is the subject of other properties. C109_limit shows that the bound for model predictive control cannot be lowered."
 },
 "C110": {
  "note": "Holds for loads, renewables and the unbalanced-energy module; C110_info says that get_cost_info lists these quotes. Violated by the code: the grid quotes neither the cost of emissions (C110_emissions) nor the sign of exports, which earn what is quoted as a cost (C110_exports_earn); batteries with losses bill cost / efficiency for discharging and cost * efficiency for charging (C110_battery, C110_losses); a genset with a cost function quotes the cost of its first unit (C110_genset_scale). The partial theorems cover proportional fuel costs, imports without a price of emissions and batteries without losses."
 },
 "C111": {
  "note": "< is a strict weak order and the order used for sorting (C111_weak_order, C111_library), and elements without costs raise TypeError (C111_comparable). Violated by the code: functools.total_ordering derives >, <= and >= from < (cost and action number) and == (all fields), so of two different elements that tie each is greater than the other and neither is less than or equal to the other (C111_tie), as with two batteries of the same cost (C111_tie_reached). C111_ordered_partial covers all other pairs."
 },
 "C112": {
  "note": "Violated by the code: on every microgrid with the columns of the generator penalty raises, a KeyError after every run (the record of controls has the column load, the record of production has not) and an IndexError before (C112_raises); wherever the column load stands, as on converted microgrids, it raises (C112_never). The partial theorems give the value for microgrids whose record of controls only has columns of production. C112_record and C112_dict say what run records and what it does to the dict of the caller; handing in the same dict twice records different rows (C112_reuse)."
 },
 "C113": {
  "note": "mape on pandas series, with inf and nan as values; in exact arithmetic. The aggregation by validate_forecasts (a root mean square) is not modelled."
 },
 "C114": {
  "note": "Validity, the number of sets and the presence of the extremes are proved for all arguments. Violated by the code: as soon as the noise takes two values sets are repeated, since all ranges that begin at 1 are the same (C114_repeats); C114_once_partial is the case of one value."
 },
 "C115": {
  "note": "For series of the grid as long as those of load and PV (FullSeries). The comparison with later runs is proved on unsplit data; on split data C115_split says which part of the data an entry comes from."
 },
 "C116": {
  "note": "Violated by the code: the costs of an output of any algorithm are a dict of records, which np.sum returns as it is, so that < and > raise TypeError for any two runs and == compares the records step by step (C116_raises, C116_library, C116_equal); != is inherited from dict and compares everything (C116_violated, C116_sets). Proved for outputs that were given lists of numbers (C116_costs_partial, C116_cheapest_partial) and for tested parameter sets (C116_errors, C116_best); sets not tested are all equal and not ordered (C116_untested)."
 },
 "C117": {
  "note": "Feasibility, totality on the action space and execution of the battery request are proved for all states. Violated by the code: without a generator outages are ignored (C117_outage); with one, charging from the grid goes on in an outage with energy that nothing provides (C117_charges_from_nothing); charging from the grid with a surplus subtracts the charge twice, so that energy is lost (C117_charged_twice). C117_serves_partial, C117_surplus_partial and C117_run_partial are the remaining cases."
 },
 "C118": {
  "note": "Proved for the discrete environment (C118_discrete; the discrete controls need not respect the state of charge, which run checks). For continuous actions with entries between 0 and 1, as described, all limits hold but the maximum of the generator (C118_continuous_partial, C118_exclusive for switches 0 and 1, C118_reachable). Violated by the code: a full action asks the generator for its rated power (C118_genset_beyond); switches between 0 and 1 charge and discharge at once (C118_both); the action space of the continuous environment is the discrete one, whose actions ask for multiples of the rate (C118_wrong_space)."
 },
 "C119": {
  "note": "The clock is that of the legacy microgrid (C119_clock). Proved: time never leaves the data (C119_within), reset gives what the constructor gives (C119_reset), without max_episode_len a trajectory of n ends with step n and all rows but the first are right (C119_trajectory_partial), without limits all rows are run (C119_all). Violated by the code: the values of the first step were read before the start was drawn, from row 0 (C119_first, C119_violated); with max_episode_len there is a step too many (C119_longer, C119_limit); the last start that fits is never drawn and a trajectory as long as the data raises (C119_starts)."
 },
 "C120": {
  "note": "The scales are at least one, so that standardising can be undone (C120_scales, C120_roundtrip); without a generator all limits but that of exports hold (C120_limits_partial). Violated by the code: with a generator the constructor looks up five names joined into one and raises KeyError (C120_genset); the upper bound of exports is set to 0.1 standard deviations above the mean whatever the limit (C120_export), so that actions may ask for more than the limit or for less than one unit at most (C120_violated). Means and deviations of the run of model predictive control are inputs."
 },
 "C121": {
  "note": "Proved: the number of values (C121_count), the meaning of the inequality values for the observation they are computed from (C121_inequalities_partial, C121_balance), with and without scaling by positive factors. Violated by the code: without a grid it raises (C121_no_grid); the observation is the one after the step, so that charging all that may be charged counts as a violation (C121_stale). Constraints have one side: negative imports and, within the tolerance, negative generation pass (C121_negative). How get_values finds the values is left out."
 }
}