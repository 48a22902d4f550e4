{"id": "C01", "title": "Battery charge never leaves its capacity window", "statement": "A battery built with 0<efficiency<=1, non-negative charge/discharge limits and an initial charge in [min_capacity, max_capacity] reports current_charge in [min_capacity, max_capacity] after any sequence of step() calls with arbitrary (positive, negative or zero, however large) energy requests, whether or not individual calls raise.", "quantifier": "all battery parameters, all finite sequences of real-valued requests, both values of raise_errors", "why_tests_cant": "The set of request sequences and parameter combinations is infinite; the charge is a running sum whose clipping must be right at every step.", "anchors": ["src/pymgrid/modules/battery_module.py:BatteryModule._update_state", "src/pymgrid/modules/battery_module.py:BatteryModule.max_production", "src/pymgrid/modules/battery_module.py:BatteryModule.max_consumption", "src/pymgrid/modules/base/base_module.py:BaseMicrogridModule.as_source", "src/pymgrid/modules/base/base_module.py:BaseMicrogridModule.as_sink"]}
{"id": "C02", "title": "Battery energy accounting", "statement": "Over any sequence of steps, final current_charge minus initial current_charge equals efficiency times the total energy reported absorbed minus the total energy reported provided divided by efficiency.", "quantifier": "all valid batteries and all finite request sequences", "why_tests_cant": "It is a conservation law over unbounded histories; a test can only sample a few trajectories.", "anchors": ["src/pymgrid/modules/battery_module.py:BatteryModule.update", "src/pymgrid/modules/battery_module.py:BatteryModule.default_transition_model"]}
{"id": "C03", "title": "No free energy from a battery", "statement": "For any request sequence the total energy a battery provides is at most efficiency^2 times the total energy it absorbed plus efficiency times the usable energy it started with (initial charge minus min_capacity). In particular cycling a battery never creates energy.", "quantifier": "all valid batteries and all finite request sequences", "why_tests_cant": "Quantifies over all cycling strategies, including adversarial ones.", "anchors": ["src/pymgrid/modules/battery_module.py:BatteryModule.update", "src/pymgrid/modules/battery_module.py:BatteryModule.max_production"]}
{"id": "C04", "title": "Battery rate limits and exact clipping", "statement": "With raise_errors=False, a discharge request r>=0 provides exactly min(r, efficiency*min(max_discharge, charge-min_capacity)) and a charge request r>0 absorbs exactly min(r, min(max_charge, max_capacity-charge)/efficiency); hence stored energy changes in one step by at most max_charge upwards and max_discharge downwards.", "quantifier": "all valid battery states and all requests", "why_tests_cant": "Clipping boundaries depend on five real parameters and the state.", "anchors": ["src/pymgrid/modules/battery_module.py:BatteryModule.max_production", "src/pymgrid/modules/battery_module.py:BatteryModule.max_consumption", "src/pymgrid/modules/base/base_module.py:BaseMicrogridModule.as_source"]}
{"id": "C05", "title": "State of charge is consistent with the stored energy", "statement": "At all times (after construction, stepping, assigning soc or current_charge) soc*max_capacity = current_charge, and min_capacity/max_capacity <= soc <= 1 for a battery operated from a valid charge.", "quantifier": "all valid batteries, all interleavings of steps and attribute assignments with in-range values", "why_tests_cant": "Two redundant fields must stay in sync for every history.", "anchors": ["src/pymgrid/modules/battery_module.py:BatteryModule._update_state", "src/pymgrid/modules/battery_module.py:BatteryModule._init_battery", "src/pymgrid/modules/battery_module.py:BatteryModule.soc"]}
{"id": "C06", "title": "Battery step reward is the cycling cost", "statement": "The reward of every successful battery step is -battery_cost_cycle times the absolute change of current_charge in that step, so with a non-negative cost it is never positive and it is zero iff (cost zero or) the charge did not change.", "quantifier": "all valid battery states and requests", "why_tests_cant": "Holds for every state/request pair including clipped ones.", "anchors": ["src/pymgrid/modules/battery_module.py:BatteryModule.get_cost", "src/pymgrid/modules/battery_module.py:BatteryModule.update"]}
{"id": "C07", "title": "raise_errors: reject instead of clip, and change nothing", "statement": "With raise_errors=True a request outside the module's current bounds raises ValueError (TypeError for a negative request to a renewable) and leaves the module's state, step counter and log unchanged; a request inside the bounds behaves exactly as with raise_errors=False. For gensets the bounds are those of the status after the status request of the same action, and that status request is kept even when the energy request is rejected.", "quantifier": "all module kinds with finite bounds, all states, all requests", "why_tests_cant": "An equivalence between two modes for every state and input.", "anchors": ["src/pymgrid/modules/base/base_module.py:BaseMicrogridModule.as_source", "src/pymgrid/modules/base/base_module.py:BaseMicrogridModule.as_sink", "src/pymgrid/modules/base/base_module.py:BaseMicrogridModule._raise_error", "src/pymgrid/modules/genset_module.py:GensetModule.step"]}
{"id": "C08", "title": "Genset start-up and wind-down take exactly the configured time", "statement": "With allow_abortion=True, a genset at rest off (on) that receives consecutive turn-on (turn-off) requests stays off (on) for exactly start_up_time (wind_down_time) requests and is on (off) after one more request, and stays so while the requests continue.", "quantifier": "all start-up and wind-down times, all request-sequence lengths", "why_tests_cant": "Unbounded times and request streams.", "anchors": ["src/pymgrid/modules/genset_module.py:GensetModule.update_status", "src/pymgrid/modules/genset_module.py:GensetModule._finish_in_progress_change", "src/pymgrid/modules/genset_module.py:GensetModule._non_instantaneous_update"]}
{"id": "C09", "title": "Aborting a genset status change restores the resting state", "statement": "With allow_abortion=True, requesting the current status while a change is in progress returns the genset to its resting state: goal equals current status and the full start-up/wind-down time is required again.", "quantifier": "all in-progress states reachable by any request history", "why_tests_cant": "Must hold at every point of every partial transition.", "anchors": ["src/pymgrid/modules/genset_module.py:GensetModule.update_status"]}
{"id": "C10", "title": "Genset status machine never fails and its prediction is exact", "statement": "From construction, for every sequence of goal requests in [0,1] and either value of allow_abortion, update_status never raises, the step counters never become negative and never exceed the configured times, and next_status(round(goal)) computed before the update equals current_status after it.", "quantifier": "all parameters, all finite request sequences", "why_tests_cant": "Reachability over unbounded request histories; the code itself contains a run-time self-check for this.", "anchors": ["src/pymgrid/modules/genset_module.py:GensetModule.update_status", "src/pymgrid/modules/genset_module.py:GensetModule.next_status"]}
{"id": "C11", "title": "Gensets without abortion still obey start/stop requests", "statement": "With allow_abortion=False a genset that is at rest and repeatedly asked to change status eventually does so (after the start-up / wind-down time), and an in-progress change cannot be aborted.", "quantifier": "all parameters with allow_abortion=False, all request sequences", "why_tests_cant": "Needs liveness for all times; the constructor itself warns this mode is not fully tested.", "anchors": ["src/pymgrid/modules/genset_module.py:GensetModule.update_status"]}
{"id": "C12", "title": "Genset output is zero when off and within its running range when on", "statement": "After any step, the energy provided is 0 if the genset is off, and otherwise lies in [running_min_production, running_max_production] and equals the request whenever the request lies in that range; reward is -(fuel cost + CO2 cost) of that production and reported co2_production is co2_per_unit times it.", "quantifier": "all genset parameters with 0<=min<=max, all reachable statuses, all requests", "why_tests_cant": "All requests x all statuses; cost may be an arbitrary callable.", "anchors": ["src/pymgrid/modules/genset_module.py:GensetModule.max_production", "src/pymgrid/modules/genset_module.py:GensetModule.min_production", "src/pymgrid/modules/genset_module.py:GensetModule.get_cost", "src/pymgrid/modules/genset_module.py:GensetModule.update"]}
{"id": "C13", "title": "Grid exchange respects line limits and outages", "statement": "Energy imported in a step is at most max_import and energy exported at most max_export, and both are zero in any step whose grid_status is 0; requests inside the limit are served exactly.", "quantifier": "all grid parameters, time series, steps and requests", "why_tests_cant": "All time series and all requests.", "anchors": ["src/pymgrid/modules/grid_module.py:GridModule.max_production", "src/pymgrid/modules/grid_module.py:GridModule.max_consumption", "src/pymgrid/modules/grid_module.py:GridModule.current_status"]}
{"id": "C14", "title": "Grid reward and CO2 accounting", "statement": "The reward of importing e is -(import_price*e + cost_per_unit_co2*co2_per_kwh*e) and of exporting e is +export_price*e, using the prices of the current step; reported CO2 is co2_per_kwh*e for imports and 0 for exports.", "quantifier": "all grid time series, steps and requests", "why_tests_cant": "Sign conventions must hold for all values.", "anchors": ["src/pymgrid/modules/grid_module.py:GridModule.get_cost", "src/pymgrid/modules/grid_module.py:GridModule.get_co2_production", "src/pymgrid/modules/grid_module.py:GridModule.get_co2_cost", "src/pymgrid/modules/grid_module.py:GridModule.update"]}
{"id": "C15", "title": "Renewable energy is either used or curtailed", "statement": "In every renewable step provided_energy + curtailment equals the renewable production available at that step, both are non-negative, and the reward is 0.", "quantifier": "all renewable series, steps and requests", "why_tests_cant": "Universal over series and requests.", "anchors": ["src/pymgrid/modules/renewable_module.py:RenewableModule.update"]}
{"id": "C16", "title": "Load is met exactly as given by the series", "statement": "Every load step absorbs exactly |time_series[current_step]|, regardless of the action, with reward 0.", "quantifier": "all load series (of either sign), all steps", "why_tests_cant": "Universal over series; sign normalisation involved.", "anchors": ["src/pymgrid/modules/load_module.py:LoadModule.update", "src/pymgrid/modules/base/timeseries/base_timeseries_module.py:BaseTimeSeriesMicrogridModule._sign_check"]}
{"id": "C17", "title": "Balancing module penalises exactly what it balances", "statement": "The balancing module provides or absorbs exactly the amount requested, however large, and its reward is -loss_load_cost times energy provided or -overgeneration_cost times energy absorbed (with non-negative costs).", "quantifier": "all costs >= 0, all requests", "why_tests_cant": "Unbounded requests.", "anchors": ["src/pymgrid/modules/unbalanced_energy_module.py:UnbalancedEnergyModule.update"]}
{"id": "C18", "title": "Microgrid energy balance", "statement": "In every successful run() of a microgrid containing a balancing module, total energy provided by all modules equals total energy absorbed by all modules, exactly (in exact arithmetic), and the 'unable to balance' RuntimeError is never raised.", "quantifier": "all microgrids built from the library's modules in any multiplicity and order, all reachable states, all controls", "why_tests_cant": "Quantifies over compositions, states and controls; the code only checks it approximately at run time.", "anchors": ["src/pymgrid/microgrid/microgrid.py:Microgrid.run", "src/pymgrid/microgrid/utils/step.py:MicrogridStep.balance"]}
{"id": "C19", "title": "run() succeeds on every well-formed control", "statement": "For a microgrid of valid library modules (raise_errors=False) before the end of its series, run() succeeds for every control that supplies one well-shaped action for each controllable module, and never for a control missing a controllable name (ValueError).", "quantifier": "all microgrids, all reachable states, all controls", "why_tests_cant": "Absence of exceptions over an unbounded input space.", "anchors": ["src/pymgrid/microgrid/microgrid.py:Microgrid.run", "src/pymgrid/modules/base/base_module.py:BaseMicrogridModule.step"]}
{"id": "C20", "title": "Flexible modules are dispatched greedily; loss of load is a last resort", "statement": "After load and controllable modules, a deficit d is served by the flexible sources in container order, each providing min(its maximum, what is still needed), and a surplus by the flexible sinks likewise while every flexible pure source is curtailed completely; hence the balancing module provides energy only if every flexible source before it is at its maximum, and no step has both loss of load and overgeneration.", "quantifier": "all lists of flexible modules, all deficits/surpluses", "why_tests_cant": "Optimality/priority statement over arbitrary module lists.", "anchors": ["src/pymgrid/microgrid/microgrid.py:Microgrid.run"]}
{"id": "C21", "title": "Microgrid reward is the sum of module rewards", "statement": "The reward returned by run() equals the sum of the rewards of the individual module steps when no shaping function is given, the balance log records that sum, and shaping replaces only the returned value; done is the disjunction of module dones.", "quantifier": "all microgrids, states and controls", "why_tests_cant": "Universal.", "anchors": ["src/pymgrid/microgrid/utils/step.py:MicrogridStep.append", "src/pymgrid/microgrid/utils/step.py:MicrogridStep.output", "src/pymgrid/microgrid/utils/step.py:MicrogridStep.shaped_reward"]}
{"id": "C22", "title": "Episodes have exactly final_step - initial_step steps", "statement": "After reset(), run() returns done=False on the first final_step-initial_step-1 calls and done=True on call number final_step-initial_step (for microgrids with at least one time-series module, a common final step and final_step>initial_step).", "quantifier": "all series lengths, initial and final steps, all control sequences", "why_tests_cant": "Boundary condition over all lengths and histories.", "anchors": ["src/pymgrid/modules/base/timeseries/base_timeseries_module.py:BaseTimeSeriesMicrogridModule._done", "src/pymgrid/modules/base/base_module.py:BaseMicrogridModule._update_step", "src/pymgrid/microgrid/microgrid.py:Microgrid.run"]}
{"id": "C23", "title": "All modules advance in lockstep", "statement": "If every module has the same current_step, then after any successful run() (with one action per controllable module) or reset() they again all have the same current_step: one more, respectively the initial step.", "quantifier": "all microgrids with unambiguous names, all histories of runs and resets", "why_tests_cant": "Invariant over histories; the microgrid's current_step property raises if it ever fails.", "anchors": ["src/pymgrid/microgrid/microgrid.py:Microgrid.current_step", "src/pymgrid/microgrid/microgrid.py:Microgrid.run", "src/pymgrid/microgrid/microgrid.py:Microgrid.reset"]}
{"id": "C24", "title": "One log row per step", "statement": "After reset() followed by k successful steps, a module's log has exactly k rows and every column has exactly k entries; the balance log of the microgrid has k rows.", "quantifier": "all modules, all k, all action sequences", "why_tests_cant": "Unbounded histories; column alignment can silently break.", "anchors": ["src/pymgrid/utils/logger.py:ModularLogger.log", "src/pymgrid/modules/base/base_module.py:BaseMicrogridModule._log"]}
{"id": "C25", "title": "Logs record the pre-step state and the energy actually exchanged", "statement": "Row i of a module's log holds the state before step i and the provided/absorbed energy and reward of step i (0 for the direction not used).", "quantifier": "all modules, all histories", "why_tests_cant": "Universal over histories and columns.", "anchors": ["src/pymgrid/modules/base/base_module.py:BaseMicrogridModule._log", "src/pymgrid/modules/base/base_module.py:BaseMicrogridModule.step"]}
{"id": "C26", "title": "reset() returns the module to its initial configuration", "statement": "After reset() the module is at its initial step with an empty log, and (as documented by init_start_up / init_soc) its internal state is the one it was constructed with.", "quantifier": "all modules and all histories", "why_tests_cant": "History-dependent.", "anchors": ["src/pymgrid/modules/base/base_module.py:BaseMicrogridModule.reset", "src/pymgrid/modules/genset_module.py:GensetModule.__init__"]}
{"id": "C27", "title": "Normalisation round trips", "statement": "For every module space and every vector of the right length, denormalize(normalize(v)) = v and normalize(denormalize(x)) = x, including components whose bounds coincide; vectors of the wrong length raise TypeError; and v lies within the bounds iff its normalisation lies in [0,1] (for non-degenerate components).", "quantifier": "all spaces, all real vectors", "why_tests_cant": "Algebraic law over all reals and dimensions.", "anchors": ["src/pymgrid/utils/space.py:ModuleSpace.normalize", "src/pymgrid/utils/space.py:ModuleSpace.denormalize"]}
{"id": "C28", "title": "Microgrid-level normalisation agrees with module-level normalisation", "statement": "Microgrid.from_normalized(to_normalized(a)) = a for every action/observation dict over the microgrid's modules, each entry being transformed by the space of the module at the same name and index; MicrogridSpace.normalize/denormalize are mutually inverse.", "quantifier": "all microgrids and all data dicts of matching shape", "why_tests_cant": "Nested structures of arbitrary size.", "anchors": ["src/pymgrid/microgrid/microgrid.py:Microgrid.to_normalized", "src/pymgrid/microgrid/microgrid.py:Microgrid.from_normalized", "src/pymgrid/utils/space.py:MicrogridSpace.normalize"]}
{"id": "C29", "title": "Normalised and raw controls are interchangeable", "statement": "For every module and action, step(action, normalized=True) has the same effect as step(denormalised action, normalized=False); for gensets the status component is passed through unchanged either way.", "quantifier": "all modules with finite action spaces, states, actions", "why_tests_cant": "Equivalence of two code paths for all inputs.", "anchors": ["src/pymgrid/modules/base/base_module.py:BaseMicrogridModule.step", "src/pymgrid/modules/genset_module.py:GensetModule.step"]}
{"id": "C30", "title": "Forecasts have the configured shape and stay inside the observation bounds", "statement": "At every step, including at and past the end of the series, any forecaster other than None yields exactly forecast_horizon rows (scalar user-defined forecasters excepted near the end), each within the per-component bounds of the series.", "quantifier": "all series, horizons, steps, noise realisations and vectorised user forecasters", "why_tests_cant": "Random noise and arbitrary callables; boundary at the end of the series.", "anchors": ["src/pymgrid/forecast/forecaster.py:Forecaster.__call__", "src/pymgrid/forecast/forecaster.py:Forecaster._pad", "src/pymgrid/forecast/forecaster.py:Forecaster._clip", "src/pymgrid/modules/base/timeseries/base_timeseries_module.py:BaseTimeSeriesMicrogridModule.forecast"]}
{"id": "C31", "title": "Oracle forecasts are the true future", "statement": "With the oracle forecaster, entry j of the forecast at step t is time_series[t+1+j] whenever that index exists, and the mid-point of the component bounds otherwise.", "quantifier": "all series, horizons, steps", "why_tests_cant": "All lengths and boundary positions.", "anchors": ["src/pymgrid/forecast/forecaster.py:OracleForecaster._forecast", "src/pymgrid/modules/base/timeseries/base_timeseries_module.py:BaseTimeSeriesMicrogridModule.forecast"]}
{"id": "C32", "title": "Observing or forecasting never alters the data", "statement": "Computing forecasts never changes the values of the module's time series.", "quantifier": "all series (including those assigned later), forecasters, histories", "why_tests_cant": "Aliasing of numpy views: only visible for particular data.", "anchors": ["src/pymgrid/forecast/forecaster.py:Forecaster._clip", "src/pymgrid/modules/base/timeseries/base_timeseries_module.py:BaseTimeSeriesMicrogridModule.time_series"]}
{"id": "C33", "title": "Module container is a partition", "statement": "Every module passed to a Microgrid appears exactly once in the container's list view, in the category determined by its type and by whether it is a source and/or sink, under its given name (or type name) and with index equal to the number of earlier modules of the same name and category.", "quantifier": "all module lists and names", "why_tests_cant": "Combinatorial over arbitrary lists.", "anchors": ["src/pymgrid/modules/module_container.py:get_subcontainers", "src/pymgrid/modules/module_container.py:Container.to_list"]}
{"id": "C34", "title": "Every module is stepped exactly once per run()", "statement": "In every successful run() with one action per controllable module every module of the microgrid takes exactly one step.", "quantifier": "all module lists and names (identical names in different categories included)", "why_tests_cant": "Depends on name collisions that tests do not construct.", "anchors": ["src/pymgrid/microgrid/microgrid.py:Microgrid.run", "src/pymgrid/modules/module_container.py:Container.to_dict", "src/pymgrid/modules/module_container.py:get_subcontainers"]}
{"id": "C35", "title": "Priority lists are exactly the orderings of the controllable modules", "statement": "get_priority_lists returns every ordering of the controllable source modules, each with every choice of its discrete action, exactly once (with remove_redundant_gensets, without those that switch off a genset whose minimum production is 0), and nothing else.", "quantifier": "all numbers of modules and action counts", "why_tests_cant": "Permutation counting for all sizes.", "anchors": ["src/pymgrid/algos/priority_list/priority_list.py:PriorityListAlgo.get_priority_lists", "src/pymgrid/algos/priority_list/priority_list.py:PriorityListAlgo._remove_redundant_actions"]}
{"id": "C36", "title": "Priority-list actions account for the whole net load", "statement": "The control computed from a priority list assigns to every listed module an energy such that net load (load minus available renewable) minus the sum of assigned energies equals the remaining load, each assigned energy is within the module's momentary production/consumption limits, and remaining load stays positive only if every module is at its maximum. The modules are used in the order of the list: a module produces only if all modules before it produce their maximum, and absorbs surplus only if all modules before it absorb their maximum.", "quantifier": "all priority lists, module states and net loads", "why_tests_cant": "Greedy invariant over arbitrary lists.", "anchors": ["src/pymgrid/algos/priority_list/priority_list.py:PriorityListAlgo._populate_action", "src/pymgrid/algos/priority_list/priority_list.py:PriorityListAlgo._produce_from_module", "src/pymgrid/algos/priority_list/priority_list.py:PriorityListAlgo._consume_in_module"]}
{"id": "C37", "title": "Rule-based control sorts by marginal cost", "statement": "The default list used by RuleBasedControl contains each controllable module exactly once, ordered by non-decreasing marginal cost; a list given by the user is used only if it is one of the generated lists (ValueError otherwise).", "quantifier": "all microgrids and marginal costs", "why_tests_cant": "Sorting property over all inputs.", "anchors": ["src/pymgrid/algos/rbc/rbc.py:RuleBasedControl._get_priority_list", "src/pymgrid/algos/priority_list/priority_list_element.py:PriorityListElement.__lt__"]}
{"id": "C38", "title": "Rule-based control uses gensets when they are needed", "statement": "RuleBasedControl with its default list can dispatch every controllable source: if load cannot be met by the other modules an available genset is turned on.", "quantifier": "all microgrids with gensets", "why_tests_cant": "Depends on the combination minimum production > 0 and list order.", "anchors": ["src/pymgrid/algos/rbc/rbc.py:RuleBasedControl._get_priority_list", "src/pymgrid/algos/priority_list/priority_list.py:PriorityListAlgo.get_priority_lists"]}
{"id": "C39", "title": "Discrete actions are valid iff they index the list of priority lists", "statement": "DiscreteMicrogridEnv.step accepts exactly the integers 0..n-1 where n is the number of remaining lists and otherwise raises ValueError without touching the microgrid; removing an action keeps the others in order.", "quantifier": "all environments, all integers, all removal sequences", "why_tests_cant": "Index arithmetic over histories of removals.", "anchors": ["src/pymgrid/envs/discrete/discrete.py:DiscreteMicrogridEnv.step", "src/pymgrid/envs/discrete/discrete.py:DiscreteMicrogridEnv.remove_action", "src/pymgrid/envs/discrete/discrete.py:DiscreteMicrogridEnv._get_action"]}
{"id": "C40", "title": "Trajectory functions return valid sub-intervals", "statement": "Every pair (i, f) returned by a library trajectory for bounds (a, b) satisfies a <= i < f <= b, and FixedLengthStochasticTrajectory returns f = i + length whenever b - a >= length.", "quantifier": "all bounds and all random draws", "why_tests_cant": "Random draws: bad outcomes may have tiny probability.", "anchors": ["src/pymgrid/microgrid/trajectory/stochastic.py:StochasticTrajectory.__call__", "src/pymgrid/microgrid/trajectory/stochastic.py:FixedLengthStochasticTrajectory.__call__", "src/pymgrid/microgrid/trajectory/deterministic.py:DeterministicTrajectory.__call__"]}
{"id": "C41", "title": "Trajectories bound every episode", "statement": "A microgrid built with a trajectory function only ever starts and ends episodes inside [initial_step, final_step], and rejects (ValueError) trajectories that leave that range.", "quantifier": "all trajectory functions (arbitrary callables, possibly stateful), all resets", "why_tests_cant": "The function may return something different at every reset.", "anchors": ["src/pymgrid/microgrid/microgrid.py:Microgrid._check_trajectory_func", "src/pymgrid/microgrid/microgrid.py:Microgrid._set_trajectory", "src/pymgrid/modules/base/timeseries/base_timeseries_module.py:BaseTimeSeriesMicrogridModule.final_step"]}
{"id": "C42", "title": "Battery-discharge shaping", "statement": "BatteryDischargeShaper returns (battery discharge - loss of load)/load, always in [-1, 1], and 0 when there is no load; PVCurtailmentShaper returns minus the curtailed PV energy.", "quantifier": "all step infos that run() can produce", "why_tests_cant": "Must hold for every reachable combination of module outcomes.", "anchors": ["src/pymgrid/microgrid/reward_shaping/battery_discharge_shaper.py:BatteryDischargeShaper.__call__", "src/pymgrid/microgrid/reward_shaping/pv_curtailment_shaper.py:PVCurtailmentShaper", "src/pymgrid/microgrid/reward_shaping/base.py:BaseRewardShaper.sum_module_val"]}
{"id": "C43", "title": "Module serialisation round trip", "statement": "Loading a dumped module yields a module with the same parameters, state and future behaviour: every further step sequence gives the same observations, rewards, dones and infos.", "quantifier": "all modules, all histories before and after the dump", "why_tests_cant": "Bisimulation over unbounded futures.", "anchors": ["src/pymgrid/modules/base/base_module.py:BaseMicrogridModule.serialize", "src/pymgrid/modules/base/base_module.py:BaseMicrogridModule.from_yaml", "src/pymgrid/modules/base/base_module.py:BaseMicrogridModule.deserialize", "src/pymgrid/modules/base/timeseries/base_timeseries_module.py:BaseTimeSeriesMicrogridModule.serialize"]}
{"id": "C44", "title": "Changing the forecaster keeps observations consistent", "statement": "After set_forecaster or assigning forecast_horizon, the module's observation vector has the length of its observation space and future observations contain forecasts of the new horizon.", "quantifier": "all modules, horizons and histories", "why_tests_cant": "Stale caches only visible for particular call orders.", "anchors": ["src/pymgrid/modules/base/timeseries/base_timeseries_module.py:BaseTimeSeriesMicrogridModule.set_forecaster", "src/pymgrid/modules/base/timeseries/base_timeseries_module.py:BaseTimeSeriesMicrogridModule.forecast_horizon"]}
{"id": "C45", "title": "Strictly bounded samples are feasible", "statement": "sample_action(strict_bound=True) followed by step never exceeds the module's momentary production or consumption limits, for every module and random draw.", "quantifier": "all modules, states, random draws in [0,1)", "why_tests_cant": "Random draws and all states.", "anchors": ["src/pymgrid/modules/base/base_module.py:BaseMicrogridModule.sample_action", "src/pymgrid/modules/genset_module.py:GensetModule.sample_action"]}
{"id": "C46", "title": "Series are stored with the sign of their direction and bounded by their action/observation range", "statement": "A load series is stored non-positive and a renewable series non-negative with unchanged magnitudes; series with mixed signs are rejected (ValueError); the reported bounds contain 0 and every value of the series and are attained or 0.", "quantifier": "all series", "why_tests_cant": "All data.", "anchors": ["src/pymgrid/modules/base/timeseries/base_timeseries_module.py:BaseTimeSeriesMicrogridModule._sign_check", "src/pymgrid/modules/base/timeseries/base_timeseries_module.py:BaseTimeSeriesMicrogridModule._get_bounds"]}
{"id": "C47", "title": "A failed run() has no effect", "statement": "If run() raises because a control is missing, the microgrid's state is unchanged.", "quantifier": "all microgrids, states, controls", "why_tests_cant": "Partial effects on error paths.", "anchors": ["src/pymgrid/microgrid/microgrid.py:Microgrid.run"]}
{"id": "C48", "title": "Grid parameters are validated", "statement": "GridModule accepts exactly: non-negative max_import and max_export, and a series of 3 columns, or 4 columns with a binary last column, with all entries non-negative; anything else raises ValueError, and a missing status column is treated as always connected.", "quantifier": "all parameters and series", "why_tests_cant": "All inputs.", "anchors": ["src/pymgrid/modules/grid_module.py:GridModule._check_params"]}
{"id": "C49", "title": "The microgrid log covers exactly the steps taken", "statement": "After any sequence of resets and runs, get_log() succeeds and has one row per run since the last reset, indexed by the steps at which they happened.", "quantifier": "all histories, including trajectories", "why_tests_cant": "History dependent index arithmetic.", "anchors": ["src/pymgrid/microgrid/microgrid.py:Microgrid.get_log"]}
{"id": "C50", "title": "Battery action space spans what the battery can do", "statement": "Every energy exchange the battery can perform is denoted by some normalised action in [0,1], and every normalised action in [0,1] denotes an exchange within max_charge/max_discharge limits.", "quantifier": "all batteries", "why_tests_cant": "Universal statement about parameter formulas.", "anchors": ["src/pymgrid/modules/battery_module.py:BatteryModule.min_act", "src/pymgrid/modules/battery_module.py:BatteryModule.max_act"]}
{"id": "C51", "title": "Legacy microgrid: production respects component limits and balances", "statement": "In every successful NonModularMicrogrid production record, battery, grid and genset productions are within their limits, and sources + used PV + loss of load equals sinks + overgeneration up to the 1e-3 tolerance; used plus curtailed PV equals available PV; the record never fails.", "quantifier": "all parameters, statuses and control dicts", "why_tests_cant": "All controls.", "anchors": ["src/pymgrid/_deprecated/non_modular_microgrid.py:NonModularMicrogrid._record_production", "src/pymgrid/_deprecated/non_modular_microgrid.py:NonModularMicrogrid._check_constraints_battery", "src/pymgrid/_deprecated/non_modular_microgrid.py:NonModularMicrogrid._check_constraints_grid", "src/pymgrid/_deprecated/non_modular_microgrid.py:NonModularMicrogrid._check_constraints_genset"]}
{"id": "C52", "title": "Legacy microgrid: state of charge stays within bounds", "statement": "The legacy microgrid's battery_soc stays in [battery_soc_min, battery_soc_max] under any sequence of run() calls.", "quantifier": "all parameters, all control sequences", "why_tests_cant": "Unbounded histories.", "anchors": ["src/pymgrid/_deprecated/non_modular_microgrid.py:NonModularMicrogrid._update_status", "src/pymgrid/_deprecated/non_modular_microgrid.py:NonModularMicrogrid.run"]}
{"id": "C53", "title": "Legacy rule-based dispatch serves the load", "statement": "The legacy priority-based dispatch assigns non-negative set points; assigned PV + battery discharge + import + genset cover the load unless loss_load is flagged, and battery set points respect power and energy limits.", "quantifier": "all loads, PV, parameters, priorities", "why_tests_cant": "All inputs.", "anchors": ["src/pymgrid/algos/rbc/_nonmodular_rbc.py:NonModularRuleBasedControl._run_priority_based", "src/pymgrid/algos/rbc/_nonmodular_rbc.py:NonModularRuleBasedControl._generate_priority_list"]}
{"id": "C54", "title": "Conversion from legacy to modular preserves the system", "statement": "to_modular builds a microgrid with one module per architecture component whose parameters (capacities, limits, efficiency, prices, series) equal those of the legacy microgrid, including the state-of-charge limits.", "quantifier": "all legacy microgrids", "why_tests_cant": "All parameters.", "anchors": ["src/pymgrid/convert/get_module.py:get_battery_module", "src/pymgrid/convert/get_module.py:get_genset_module", "src/pymgrid/convert/get_module.py:get_grid_module", "src/pymgrid/convert/convert.py:to_modular"]}
{"id": "C55", "title": "Generated microgrids are adequately sized", "statement": "In generated microgrids the genset can cover the peak load at its maximum loading, the initial state of charge lies within the battery's limits, and the battery can be fully charged within its nominal duration; the architecture always contains a genset or a grid.", "quantifier": "all load series and random draws", "why_tests_cant": "Random draws.", "anchors": ["src/pymgrid/MicrogridGenerator.py:MicrogridGenerator._size_genset", "src/pymgrid/MicrogridGenerator.py:MicrogridGenerator._get_battery", "src/pymgrid/MicrogridGenerator.py:MicrogridGenerator._bin_genset_grid"]}
{"id": "C56", "title": "Weak-grid outage profiles", "statement": "A generated weak-grid profile is binary, has the requested length, and an hour is an outage iff it or one of the following duration-1 hours drew an outage (hour 0 only by its own draw).", "quantifier": "all draws and durations", "why_tests_cant": "Random draws; in-place nested loop.", "anchors": ["src/pymgrid/MicrogridGenerator.py:MicrogridGenerator._generate_weak_grid_profile"]}
{"id": "C57", "title": "The balance log records what the modules did", "statement": "Each successful run appends to the balance log the sum of the module rewards, the returned reward, and the energies provided and absorbed in that run by all modules, by the controllable modules and by the fixed modules.", "quantifier": "all microgrids of library modules, all histories of run and reset calls (also failing ones), all controls", "why_tests_cant": "The partial totals are differences of accumulated sums; they must be right for every composition of modules and every history.", "anchors": ["src/pymgrid/microgrid/microgrid.py:Microgrid.run", "src/pymgrid/microgrid/utils/step.py:MicrogridStep.balance"]}
{"id": "C58", "title": "Returned observations describe the state after the call", "statement": "step() and reset() return the observation of the module's state after the call: soc and charge of a battery, status, goal and counters of a genset, current row and forecast of a series, each as its relative position in its documented range; for batteries of positive capacity every entry lies in [0,1]. reset() never raises.", "quantifier": "all modules obtainable from the library, all histories, all actions", "why_tests_cant": "Off-by-one observations and out-of-range entries only show up for particular histories.", "anchors": ["src/pymgrid/modules/base/base_module.py:BaseMicrogridModule.step", "src/pymgrid/modules/base/base_module.py:BaseMicrogridModule.reset", "src/pymgrid/utils/space.py:ModuleSpace.normalize"]}
{"id": "C59", "title": "A normalised run equals the run of the de-normalised action", "statement": "For every action dict a that fits the action spaces of a microgrid's modules, in every reachable state: run(a, normalized=True) has exactly the effect, result and exceptions of run(from_normalized(a, act=True), normalized=False), and run(a, normalized=False) those of run(to_normalized(a, act=True), normalized=True).", "quantifier": "all microgrids of library modules, all histories of runs and resets, all action dicts of fitting shape", "why_tests_cant": "It is an equality of two executions over every state and action; tests compare a few actions in the initial state, and gensets interpret one action component before de-normalisation.", "anchors": ["src/pymgrid/microgrid/microgrid.py:227-325", "src/pymgrid/microgrid/microgrid.py:388-432", "src/pymgrid/modules/base/base_module.py:95-159"]}
{"id": "C60", "title": "Legacy microgrid: cost records follow the production records", "statement": "Each successful NonModularMicrogrid.run appends one cost entry and one co2 entry computed from the production it recorded: loss of load, overgeneration, emissions, battery cycling and, where present, genset fuel, import and export each at their configured price; the total is the sum of these costs.", "quantifier": "all architectures, parameters, states and control dicts", "why_tests_cant": "Which records a cost is read from depends on the architecture; the equality is over all productions.", "anchors": ["src/pymgrid/_deprecated/non_modular_microgrid.py:NonModularMicrogrid._record_cost", "src/pymgrid/_deprecated/non_modular_microgrid.py:NonModularMicrogrid._record_co2"]}
{"id": "C61", "title": "Legacy microgrid: run returns the values of the next step", "statement": "After the k-th successful run of an episode the returned status holds load, PV, grid status, prices, emission factor and hour of step k.", "quantifier": "all microgrids with full series, all histories of run and reset calls", "why_tests_cant": "Off-by-one indices across resets need all histories.", "anchors": ["src/pymgrid/_deprecated/non_modular_microgrid.py:NonModularMicrogrid.run", "src/pymgrid/_deprecated/non_modular_microgrid.py:NonModularMicrogrid.update_variables", "src/pymgrid/_deprecated/non_modular_microgrid.py:NonModularMicrogrid._update_status"]}
{"id": "C62", "title": "Conversion from modular to legacy and back preserves the system", "statement": "to_nonmodular(to_modular(g)) has the architecture, demand, PV, grid series, forecast horizon, state of charge, limits and costs of the legacy microgrid g, and converting it once more gives the same modular microgrid; for every modular microgrid that to_nonmodular accepts, the legacy microgrid has exactly its components with their current state, can be run, and continues at the current step.", "quantifier": "all legacy microgrids and all modular microgrids in any state, all architectures, parameters and series", "why_tests_cant": "The tests convert a few generated microgrids and compare some attributes; which entries are read depends on the combination of modules, and the sign convention of series differs between the two classes for every demand.", "anchors": ["src/pymgrid/convert/convert.py:to_nonmodular", "src/pymgrid/convert/to_nonmodular_ops.py"]}
{"id": "C63", "title": "A loaded microgrid behaves like the dumped one", "statement": "Microgrid.load(microgrid.dump()) returns a microgrid with the same modules, names, steps, trajectory function and logs; every further sequence of run() and reset() calls returns the same on the loaded microgrid as on the dumped one and leaves the modules in the same states.", "quantifier": "all microgrids of library modules, all histories before the dump, all sequences of calls after it", "why_tests_cant": "Tests compare attributes of a few dumped and loaded microgrids and never run the loaded one; equality of all later behaviour is a relation between two executions of any length.", "anchors": ["src/pymgrid/microgrid/microgrid.py:Microgrid.dump", "src/pymgrid/microgrid/microgrid.py:Microgrid.load", "src/pymgrid/microgrid/microgrid.py:Microgrid.from_yaml", "src/pymgrid/microgrid/microgrid.py:Microgrid._serialization_data"]}
{"id": "C64", "title": "Dumping to a file loses nothing", "statement": "Loading a microgrid from a file written by dump(stream) gives the microgrid that loading it from the string returned by dump() gives: every module has its own time series and its own log.", "quantifier": "all microgrids of library modules in any state, any number of modules of each class", "why_tests_cant": "Tests dump microgrids with one module of each class; whether the data of two modules end up in the same file depends on their number and classes, and which one survives on the order of the dump.", "anchors": ["src/pymgrid/utils/serialize.py:dump_data", "src/pymgrid/utils/serialize.py:add_path_to_arr_like", "src/pymgrid/microgrid/microgrid.py:Microgrid.dump", "src/pymgrid/modules/base/base_module.py:BaseMicrogridModule.serialize"]}
{"id": "C65", "title": "MPC plans are exactly the physically possible ones", "statement": "The constraints that ModelPredictiveControl hands to its solver are met by exactly those plans that, in every step of the horizon, balance generation and demand, follow the dynamics of the battery, keep the state of charge in its window, and respect the limits of battery, grid (zero while it is down), genset, PV and load. Such a plan always exists when the state of charge is in its window, and the control dict requests the energies of its first step.", "quantifier": "all horizons, parameters, load, PV, price and status series, states of charge, with and without a genset", "why_tests_cant": "The matrices are filled by index arithmetic that depends on horizon and architecture; a test sees one solution of a few instances, not which plans are allowed or excluded.", "anchors": ["src/pymgrid/algos/mpc/mpc.py:ModelPredictiveControl._create_problem", "src/pymgrid/algos/mpc/mpc.py:ModelPredictiveControl._set_parameters", "src/pymgrid/algos/mpc/mpc.py:ModelPredictiveControl._extract_control_dict"]}
{"id": "C66", "title": "MPC minimises what the microgrid charges", "statement": "A solution of the optimisation problem has the least total cost (fuel, import minus export revenue, battery wear, lost load, emissions) of all physically possible plans over the horizon.", "quantifier": "all problems and all their solutions, all alternative plans", "why_tests_cant": "Optimality compares a solution with infinitely many alternatives; tests only run the solver and look at shapes or single values.", "anchors": ["src/pymgrid/algos/mpc/mpc.py:ModelPredictiveControl._create_problem", "src/pymgrid/algos/mpc/mpc.py:ModelPredictiveControl._set_parameters"]}
{"id": "C67", "title": "An MPC run on a legacy microgrid follows its plans", "statement": "A run of the model predictive control on a legacy microgrid completes, every recorded step is the first step of the plan made for it (with the planned state of charge and at most the planned cost), the grid is not used while it is down, and the state of charge stays in its window.", "quantifier": "all legacy microgrids with usual data, all solvers that meet the constraints, all numbers of steps and earlier histories", "why_tests_cant": "Whether the microgrid executes a plan depends on its own limits and on rare coincidences of load, PV and battery; a test runs a few steps of one microgrid and does not compare plan and record.", "anchors": ["src/pymgrid/algos/mpc/mpc.py:ModelPredictiveControl._run_mpc_on_sample", "src/pymgrid/algos/mpc/mpc.py:ModelPredictiveControl._set_and_solve", "src/pymgrid/microgrid/non_modular_microgrid.py:NonModularMicrogrid._record_production"]}
{"id": "C68", "title": "MPC runs on every modular microgrid that it accepts", "statement": "ModelPredictiveControl accepts a modular microgrid if and only if it is convertible to a legacy microgrid, its battery is named 'battery' and it has a balancing module; the exception says what is wrong. On an accepted microgrid a run completes from any earlier state: it resets the microgrid and then makes one run per step, each requesting the first step of a plan for the problem made of the modules' current values, forecasts, limits and costs, until the requested number of steps or the end of the episode; a number of steps beyond the data is rejected before anything happens.", "quantifier": "all microgrids of library modules, all earlier operations before and after making the controller, all solvers that meet the constraints, all numbers of steps", "why_tests_cant": "Whether the problem describes the microgrid in every state, and whether every one of its problems has a solution that the modules accept, ranges over states, forecasts and solvers; tests run one scenario with one solver.", "anchors": ["src/pymgrid/algos/mpc/mpc.py:ModelPredictiveControl._verify_microgrid", "src/pymgrid/algos/mpc/mpc.py:ModelPredictiveControl._parse_modular_microgrid", "src/pymgrid/algos/mpc/mpc.py:ModelPredictiveControl._get_modular_state_values", "src/pymgrid/algos/mpc/mpc.py:ModelPredictiveControl._run_mpc_on_modular"]}
{"id": "C69", "title": "A step of MPC on a modular microgrid does what was planned", "statement": "In every step of model predictive control on a modular microgrid, the run delivers what the first step of the plan assigns to each module: the load is met, battery, genset and grid exchange the planned energies, renewables and unserved load are as planned after setting them off against each other, and the battery ends with the planned state of charge.", "quantifier": "all microgrids of library modules accepted by the control, all earlier operations, all solutions of the planning problem", "why_tests_cant": "A plan is a solution of an optimisation problem over continuous quantities; whether the modules follow it depends on the state of every module, on forecasts and on outages, and a test only sees the plans of one solver for one data set.", "anchors": ["src/pymgrid/algos/mpc/mpc.py:ModelPredictiveControl._set_and_solve", "src/pymgrid/algos/mpc/mpc.py:ModelPredictiveControl._get_modular_state_values", "src/pymgrid/algos/mpc/mpc.py:ModelPredictiveControl._run_mpc_on_modular", "src/pymgrid/microgrid/microgrid.py:Microgrid.run"]}
{"id": "C70", "title": "A planned step costs what the plan says", "statement": "When a step of a plan is carried out on a modular microgrid without reward shaping, the reward of the run is minus the cost at which the planning problem values the step: fuel, purchases minus sales, battery wear, unserved load and emissions.", "quantifier": "all microgrids of library modules accepted by the control, all earlier operations, all plans whose first step can be executed", "why_tests_cant": "The two costs are computed by unrelated code, one by a cost vector of the solver and one by the modules; equality on examples with efficiency one or equal emission prices says nothing about others.", "anchors": ["src/pymgrid/algos/mpc/mpc.py:ModelPredictiveControl._create_problem", "src/pymgrid/algos/mpc/mpc.py:ModelPredictiveControl._get_modular_state_values", "src/pymgrid/modules/battery_module.py:BatteryModule.update", "src/pymgrid/modules/grid_module.py:GridModule.get_cost"]}
{"id": "C71", "title": "Plans are economical", "statement": "In every step of an optimal plan: load is not shed while the grid or the running genset could serve it at a lower cost or while PV is curtailed; nothing is bought while PV is curtailed; the grid is not used in both directions; and of grid and genset the cheaper one is used up first, as far as the genset's limits allow.", "quantifier": "all planning problems (all horizons, data and parameters, with and without genset), all optimal solutions, all steps of the horizon", "why_tests_cant": "Optimality quantifies over all plans; a test compares a handful of plans of one problem.", "anchors": ["src/pymgrid/algos/mpc/mpc.py:ModelPredictiveControl._create_problem", "src/pymgrid/algos/mpc/mpc.py:ModelPredictiveControl._set_parameters"]}
{"id": "C72", "title": "Observations of environments belong to the observation space", "statement": "Every observation that an environment returns from reset() or step() belongs to its observation_space: with flat spaces it is a vector of the announced length with entries in [0, 1] that shows the state of the modules in the order of the space, with nested spaces it has an array of the announced shape per module, with observation_keys it has the entries of those keys; and reset/step succeed whenever the microgrid's reset/run do.", "quantifier": "all microgrids of library modules, all modes of observation, all earlier operations, all actions (including those of discrete environments)", "why_tests_cant": "A gym checker samples a few actions of a few scenarios; membership depends on names, forecasters, number of modules per name and on the state reached.", "anchors": ["src/pymgrid/envs/base/base.py:BaseMicrogridEnv._get_observation_space", "src/pymgrid/envs/base/base.py:BaseMicrogridEnv._get_obs", "src/pymgrid/envs/base/base.py:BaseMicrogridEnv.step", "src/pymgrid/envs/base/base.py:BaseMicrogridEnv.reset", "src/pymgrid/microgrid/microgrid.py:Microgrid.reset"]}
{"id": "C73", "title": "State series show every quantity under its label", "statement": "state_dict and state_series of modules and microgrids have exactly one entry per quantity of each module, under the module's name, its number among the modules of that name and the quantity's key; with normalized=True the entries are the relative positions of the same quantities between their bounds, under the same labels.", "quantifier": "all library modules, all microgrids of library modules, all earlier operations", "why_tests_cant": "The entries depend on the kind of each module, on its forecaster and its data; tests read one series of one microgrid.", "anchors": ["src/pymgrid/modules/base/base_module.py:BaseMicrogridModule.state_dict", "src/pymgrid/microgrid/microgrid.py:Microgrid.state_dict", "src/pymgrid/microgrid/microgrid.py:Microgrid.state_series"]}
{"id": "C74", "title": "Setting the forecaster of a microgrid", "statement": "After microgrid.set_forecaster(f, horizon) every series module (and no other) has the given forecaster and horizon, get_forecast_horizon returns it, and from the next reset on every state of such a module lies in its observation space with one row for the present and one per forecast step (the true future for the oracle); steps, ranges, logs and actions are not affected. With a dict only the named modules change. Unknown names are rejected. Observation spaces of environments and serialised microgrids agree with the new forecaster.", "quantifier": "all microgrids of library modules, all forecasters, all horizons, all earlier and later operations", "why_tests_cant": "The claim ranges over all states in which a forecaster can be replaced and all that happens afterwards; tests replace one forecaster of a fresh module.", "anchors": ["src/pymgrid/microgrid/microgrid.py:Microgrid.set_forecaster", "src/pymgrid/microgrid/microgrid.py:Microgrid.get_forecast_horizon", "src/pymgrid/modules/base/timeseries/base_timeseries_module.py:BaseTimeSeriesMicrogridModule.set_forecaster"]}
{"id": "C75", "title": "Assigning the range of steps of a microgrid", "statement": "Assigning microgrid.initial_step and microgrid.final_step sets the range for all modules: both are reported, nothing else changes; the trajectory function receives them; after the next reset all modules stand at the initial step, done is reported exactly at the final step and the log is indexed from the initial step. A range that is empty or exceeds the series is rejected, and a rejected assignment changes nothing.", "quantifier": "all microgrids of library modules, all values, all earlier operations including earlier assignments", "why_tests_cant": "The outcome depends on every module's own range and on the order of assignments, runs and resets.", "anchors": ["src/pymgrid/microgrid/microgrid.py:Microgrid.initial_step", "src/pymgrid/microgrid/microgrid.py:Microgrid.final_step", "src/pymgrid/microgrid/microgrid.py:Microgrid.set_module_attr", "src/pymgrid/modules/base/timeseries/base_timeseries_module.py:BaseTimeSeriesMicrogridModule.final_step"]}
{"id": "C76", "title": "Environments from microgrids", "statement": "Env.from_microgrid(microgrid) wraps the microgrid with the environment API: it is accepted for every microgrid in every state, has its modules, range of steps, observation space, reward shaping and trajectory function, and every later step, reset and observation is the one that the microgrid would give after the same calls. Logs are not ported over (documented); the environment's own log can be read at any time.", "quantifier": "all microgrids of library modules, all histories before wrapping, all histories after it", "why_tests_cant": "The claim compares two objects over all pairs of histories before and after the wrapping; tests wrap new microgrids.", "anchors": ["src/pymgrid/envs/base/base.py:BaseMicrogridEnv.from_microgrid", "src/pymgrid/microgrid/microgrid.py:Microgrid.__init__"]}
{"id": "C77", "title": "Environments with continuous actions", "statement": "ContinuousMicrogridEnv can be made from every microgrid, its action space covers the modules that take actions, and every action in the action space can be stepped.", "quantifier": "all microgrids of library modules, all options, all histories, all actions", "why_tests_cant": "There are no tests of the class that step with an action; the claim ranges over all microgrids and actions.", "anchors": ["src/pymgrid/envs/continuous/continuous.py:ContinuousMicrogridEnv", "src/pymgrid/utils/space.py:ModuleSpace.normalize"]}
{"id": "C78", "title": "Looking up modules", "statement": "microgrid.modules[name], attribute access, `name in microgrid.modules`, to_list, len, names() and item() agree with the modules that were given: every module is in exactly the containers that its type belongs to, a name leads to all modules with that name in the order in which they were given, and a missing name raises KeyError (AttributeError for attributes). The same holds in modules.fixed, modules.sources, modules.fixed.sources and so on.", "quantifier": "all lists of named modules, all containers, all names", "why_tests_cant": "Names are arbitrary strings, may be repeated and may coincide with keys of containers; tests look up a few default names.", "anchors": ["src/pymgrid/modules/module_container.py:Container.__getitem__", "src/pymgrid/modules/module_container.py:Container.__getattr__", "src/pymgrid/modules/module_container.py:Container.to_dict", "src/pymgrid/modules/module_container.py:ModuleList.item"]}
{"id": "C79", "title": "Sample average approximation", "statement": "SampleAverageApproximation.run makes, in every step, a plan for each sample of the future, with the actual data of the step in place of the sampled ones, chooses the plan whose cost has the given percentile among all plans (0 is the cheapest), and carries out its first step; the records show what was done, its cost and the state after it; the state of charge stays in its window. The cost by which plans are compared is the one that is charged. Decisions never depend on actual data of later steps. Every percentile from 0 to 1 is accepted.", "quantifier": "all microgrids with battery and PV (with or without grid and genset), all data, all lists of samples, all percentiles, all numbers of steps, every solver that returns feasible points and every correct partition function", "why_tests_cant": "Samples are random and many, and the effect of the chosen rank, of reusing samples and of what the cost leaves out shows only for particular data; tests run a few steps and look at types.", "anchors": ["src/pymgrid/algos/saa/saa.py:SampleAverageApproximation.run", "src/pymgrid/algos/saa/saa.py:SampleAverageApproximation.run_mpc_on_group", "src/pymgrid/algos/saa/saa.py:SampleAverageApproximation.determine_optimal_actions", "src/pymgrid/algos/Control.py:HorizonOutput"]}
{"id": "C80", "title": "Books of whole episodes", "statement": "Over any sequence of consecutive successful runs of a microgrid of uniquely named modules, in lockstep from step c, the results account for everything: in run k each module's reported exchange is one that its own data for step c+k admit (loads get their full demand; renewables, gensets, grid and batteries within their limits; no module gives and takes at once); the reward is minus the dues that the modules' prices set for these exchanges, and the rewards add up to minus the modules' bills; what non-storing modules gave minus what they took is what batteries store more than before plus conversion losses, which are never negative. Hence whatever the policy, the reported loss of load is at least the demand minus everything that renewables, gensets and the grid connection could supply minus what the batteries could deliver from their initial charge.", "quantifier": "all microgrids of library modules with a balancing module and unique names, all histories, all sequences of controls (normalised or not), all lengths", "why_tests_cant": "The books concern sums over whole episodes for every policy; tests check the balance or the reward of single steps with a few controls, and a small leak or double charge per step would go unnoticed.", "anchors": ["src/pymgrid/microgrid/microgrid.py:Microgrid.run", "src/pymgrid/modules/battery_module.py:BatteryModule.update", "src/pymgrid/modules/grid_module.py:GridModule.update", "src/pymgrid/modules/genset_module.py:GensetModule.update", "src/pymgrid/modules/unbalanced_energy_module.py:UnbalancedEnergyModule.update"]}
{"id": "C81", "title": "Rule-based control runs until the microgrid terminates", "statement": "RuleBasedControl.run() without a number of steps resets the microgrid and then runs exactly one episode: as many steps as there are between the initial and final step that are in force after the reset (the modules' own, or those that the trajectory function chose), each on an action planned from the priority list in the state of that step; only the last step reports done. A number of steps that covers the episode gives exactly the same result.", "quantifier": "all microgrids of library modules with unique names and a balancing module, all trajectory functions whose results the constructor would accept, all histories, all generated priority lists", "why_tests_cant": "The number of iterations is taken from the length of the data, not of the episode; tests only see a few microgrids where both agree.", "anchors": ["src/pymgrid/algos/rbc/rbc.py:RuleBasedControl.run", "src/pymgrid/microgrid/microgrid.py:Microgrid.__len__", "src/pymgrid/microgrid/microgrid.py:Microgrid.reset"]}
{"id": "C82", "title": "User-defined forecasters are tried before use and then forecast as documented", "statement": "A callable given as forecaster to a time-series module (constructor or set_forecaster) is accepted if, on the first values in range, it returns one number per value, none of the opposite sign, and refused with the module unchanged otherwise. An accepted callable is asked at every step for the current value, the true values ahead and the number of steps ahead, and the forecast is its answer, moved into the bounds of the series and filled up with the middle of the bounds where the series has ended.", "quantifier": "all callables (arbitrary functions of current value, true values and step number, with results of any shape, or raising), all series, ranges and horizons, all random draws of the trial, all histories", "why_tests_cant": "Callables are arbitrary functions and the trial is on a random number of values; tests try a handful of callables on load and renewable modules and never step to the end of the series.", "anchors": ["src/pymgrid/forecast/forecaster.py:_validate_callable_forecaster", "src/pymgrid/forecast/forecaster.py:UserDefinedForecaster", "src/pymgrid/forecast/forecaster.py:vectorize_scalar_forecaster", "src/pymgrid/modules/base/timeseries/base_timeseries_module.py:BaseTimeSeriesMicrogridModule.set_forecaster"]}
{"id": "C83", "title": "Episodes are reproducible", "statement": "After reset() an episode does not depend on what happened before it: for two histories of runs and resets of the same microgrid (equally many resets if there is a trajectory function), a reset after one and a reset after the other leave microgrids that return the same observations, rewards, done flags and infos and show the same module states for every further sequence of runs and resets.", "quantifier": "all microgrids of library modules without random forecasters, all pairs of histories (including calls that raise), all further sequences of calls, all trajectory and reward shaping functions", "why_tests_cant": "It relates two arbitrary executions of unbounded length; tests compare a few attributes after one reset.", "anchors": ["src/pymgrid/microgrid/microgrid.py:Microgrid.reset", "src/pymgrid/microgrid/microgrid.py:Microgrid._set_trajectory", "src/pymgrid/modules/base/base_module.py:BaseMicrogridModule.reset"]}
{"id": "C84", "title": "The order of the modules does not matter", "statement": "Two microgrids constructed from the same module objects listed in different orders behave the same: if one constructor succeeds so does the other, and every sequence of successful run and reset calls succeeds on both with equal rewards and done flags, equal observations and infos under every name, equal module states and equal balance logs; the next call raises on both or on neither. Modules that share a name keep their relative order, and so do the flexible modules of the same category (sources, sinks, both), which are dispatched in the order listed.", "quantifier": "all heaps of modules, all pairs of orders, all sequences of controls and resets of any length, all trajectory functions, all reward shapers that look modules up by name", "why_tests_cant": "It compares two executions over all permutations and all action sequences; the tests construct each microgrid in one order.", "anchors": ["src/pymgrid/modules/module_container.py:get_subcontainers", "src/pymgrid/microgrid/microgrid.py:Microgrid.run", "src/pymgrid/microgrid/utils/step.py:MicrogridStep"]}
{"id": "C85", "title": "Training and testing data of the legacy microgrid are separate", "statement": "train_test_split(train_size) of a NonModularMicrogrid divides the time series into the first ceil(train_size * length) rows and the rest. After any history of runs, resets and splits, reset() continues on the training rows and reset(testing=True) on the testing rows, and from then on the microgrid behaves exactly as a microgrid constructed with these rows alone: same results, state records, productions, costs, emissions and done flags for every sequence of controls; no value of the other part is ever seen. A cancelled split leaves the behaviour on all data; the split in force is the one asked for last.", "quantifier": "all microgrids, all data, all train sizes, all histories of run, reset and train_test_split calls including ones that raise, all sequences of controls", "why_tests_cant": "It compares two executions of unbounded length after arbitrary histories; the tests check the lengths of the parts after one split.", "anchors": ["src/pymgrid/_deprecated/non_modular_microgrid.py:NonModularMicrogrid.train_test_split", "src/pymgrid/_deprecated/non_modular_microgrid.py:NonModularMicrogrid.reset", "src/pymgrid/_deprecated/non_modular_microgrid.py:NonModularMicrogrid.update_variables"]}
{"id": "C86", "title": "The currency of the prices does not matter", "statement": "If all prices of a microgrid - battery cost per cycle, genset fuel cost and cost of emissions, import and export prices and cost of emissions of the grid, loss load cost and overgeneration cost - are multiplied by the same positive number, then the microgrid can still be built and behaves the same for every sequence of run and reset calls: the same normalised observations, infos, done flags and exceptions, and rewards multiplied by exactly that number. The rule-based controller chooses the same priority list, takes the same actions at every step, and its rewards are multiplied by that number.", "quantifier": "all microgrids of the library's modules, all positive factors, all sequences of controls and resets including ones that raise, all trajectory functions, all reward shapers and forecasters that treat the currencies alike", "why_tests_cant": "It relates two executions of unbounded length for all microgrids and all factors; tests run a single microgrid with a single set of prices.", "anchors": ["src/pymgrid/modules/grid_module.py:GridModule.get_cost", "src/pymgrid/modules/genset_module.py:GensetModule.get_cost", "src/pymgrid/modules/battery_module.py:BatteryModule.get_cost", "src/pymgrid/microgrid/microgrid.py:Microgrid.run", "src/pymgrid/algos/priority_list/priority_list.py:PriorityListAlgo.get_priority_lists", "src/pymgrid/algos/rbc/rbc.py:RuleBasedControl.run"]}
{"id": "C87", "title": "More renewable energy never lowers the reward", "statement": "Replace the renewable modules of a microgrid by ones whose time series are at least as large in every step. Then the microgrid can still be built, and if the user makes the same sequence of run and reset calls with the same controls, every call that succeeded still succeeds, with the same done flag and at least the same reward. So the total earned over any history is at least as high: the order in which flexible modules are dispatched and the way costs are computed never turn additional free energy into a loss. This holds without a reward shaper and if no flexible grid has a negative price of emissions.", "quantifier": "all microgrids of the library's modules in any order and number, all pairs of pointwise ordered renewable series, all sequences of controls and resets including ones that raise, all trajectory functions, all forecasters", "why_tests_cant": "It is a monotonicity statement about two executions of unbounded length over all microgrids, dispatch orders, series and controls; tests check rewards of single microgrids.", "anchors": ["src/pymgrid/microgrid/microgrid.py:Microgrid.run", "src/pymgrid/modules/renewable_module.py:RenewableModule.update", "src/pymgrid/modules/unbalanced_energy_module.py:UnbalancedEnergyModule.update", "src/pymgrid/modules/grid_module.py:GridModule.get_cost"]}
{"id": "C88", "title": "Rows outside the window of an episode do not matter", "statement": "What run does depends on the time series only through the rows between the initial step and the current step. Take two microgrids that are the same but for the rows of their series outside a window of N steps, the position of the window (initial and final steps moved along, rows put in front of or after the series) and the forecasters. If the user makes the same run and reset calls with the same controls, at most N runs between resets, then rewards, done flags, infos and exceptions are the same: there is no look-ahead, no look-back and no hidden dependence on the time origin, also after resets and after calls that raise. Normalised observations are not covered, because their bounds are taken from the whole series.", "quantifier": "all microgrids of the library's modules, all pairs of series that agree on the window, all initial and final steps, all forecasters and horizons, all reward shapers, all sequences of controls and resets including ones that raise", "why_tests_cant": "It is a non-interference statement about pairs of executions for all data that must not matter; tests run one series at a time and cannot show that other rows have no influence.", "anchors": ["src/pymgrid/microgrid/microgrid.py:Microgrid.run", "src/pymgrid/modules/base/timeseries/base_timeseries_module.py:BaseTimeSeriesMicrogridModule", "src/pymgrid/modules/grid_module.py:GridModule.get_cost", "src/pymgrid/modules/load_module.py:LoadModule.max_consumption"]}
{"id": "C89", "title": "Any agent runs whole episodes, any number of them", "statement": "Take a microgrid of the library's modules with a balancing module, distinct names, raise_errors off and data for the whole range. Whatever an agent does (it may react to everything that happened, keep a state, or draw at random, and use normalised or plain controls), as long as each control addresses every controllable module with an action that the module accepts: after a successful reset, the loop `while not done: run(agent(history))` never raises and ends after exactly final_step - initial_step runs; done is False before and True at the end, and every module is then at the final step. Training over any number of episodes, each with its own reset, never raises either: every reset succeeds, and every episode has exactly the steps of its range, also when a trajectory function chooses the range.", "quantifier": "all such microgrids, all shapers that do not raise, all trajectory functions with non-empty ranges within the data, all agents, all histories before the reset, all numbers of episodes", "why_tests_cant": "Agents are arbitrary functions of the history; a test drives the microgrid with a few agents and cannot exclude that another one meets an exception or an endless episode.", "anchors": ["src/pymgrid/microgrid/microgrid.py:Microgrid.run", "src/pymgrid/microgrid/microgrid.py:Microgrid.reset", "src/pymgrid/microgrid/microgrid.py:Microgrid._set_trajectory", "src/pymgrid/modules/base/base_module.py:BaseMicrogridModule.step"]}
{"id": "C90", "title": "Sampled scenarios are valid", "statement": "The scenarios that SampleAverageApproximation draws (SampleGenerator) are valid data for the planner. Status of the grid: a sample has the length of the data, only zeros and ones, and is a Markov chain with exactly the relative frequencies of the transitions of the data; it has no transition that the data does not have (unless its last value occurs nowhere before: then it stays), so that a grid that never fails in the data never fails in a sample; other values and data without transitions are refused with ValueError. Load: a sample of whole days of non-negative data has as many rows as the data (at most 8760) and no negative value; each value is drawn around the mean of the data a whole number of weeks away, which it equals when the variance scale is 0. PV: every sample has the length of the data, no negative value, and is dark whenever the data is; with the default noise and curves that do not cross, sampling always succeeds, and without normal noise it never exceeds the curves. Altogether, for a microgrid with whole days of data, non-negative load, daylight and a binary status, forecasts and any number of samples can be drawn, whatever the draws, and all of them are usable by the planner.", "quantifier": "all microgrids with such data, all draws of the random generator, all statistics and interpolated curves, all numbers of samples", "why_tests_cant": "Samples are random: a test sees a few draws of a few data sets, but an invalid value may need a rare draw.", "anchors": ["src/pymgrid/utils/DataGenerator.py:NoisyGridData.sample", "src/pymgrid/utils/DataGenerator.py:NoisyLoadData.sample", "src/pymgrid/utils/DataGenerator.py:NoisyPVData.sample", "src/pymgrid/utils/DataGenerator.py:SampleGenerator.sample_from_forecasts"]}
{"id": "C91", "title": "A converted microgrid repeats what the legacy microgrid did", "statement": "Take a NonModularMicrogrid at the start of its data (new, or reset after any calls), with sensible parameters, and the Microgrid that to_modular makes of it. Run the former on any controls, and the latter on the production that the former recorded (discharge - charge for the battery, import - export for the grid, status and energy for the genset). As long as that production uses battery and grid in one direction per step, the grid only when it is up, the genset within its range, the battery within its rate of discharge in the cells, and (without a grid) only battery requests that are possible, every run of the modular microgrid succeeds, up to the end of the data, and does what the legacy run did: load, battery, grid and genset deliver the recorded energies, PV and the unbalanced energy those recorded up to 1/1000 (exactly, if a loss, curtailment or overgeneration was recorded), the battery ends at the recorded state of charge, and the negated reward is the recorded total cost plus the wear that the module counts inside the cells, up to a thousandth of the higher penalty. So the returns of whole episodes agree up to that amount per step, and exactly without battery losses and penalties.", "quantifier": "all legacy microgrids with such data and parameters and all architectures, all previous calls, all sequences of controls of any length", "why_tests_cant": "Two implementations with different battery, grid, cost and balancing code must agree over whole trajectories; the differences (tolerance, wear, outages) only show for particular states and controls.", "anchors": ["src/pymgrid/convert/convert.py:to_modular", "src/pymgrid/microgrid/non_modular_microgrid.py:NonModularMicrogrid.run", "src/pymgrid/microgrid/microgrid.py:Microgrid.run"]}
{"id": "C92", "title": "The unit of energy does not matter", "statement": "Build a microgrid with a balancing module twice: the second time with all energies (series of load and PV, capacities, rates, limits, initial charges) multiplied by u > 0, and all prices and emissions per unit of energy (including the fuel cost as a function of energy) divided by u - kWh and Wh, say. Then the constructors accept the new arguments, and for every sequence of runs and resets, successful or not, the two microgrids return the same observations, rewards, done flags and exceptions, and the energies in the infos are multiplied by u. Normalised controls are the same for both; energies in other controls are multiplied by u (the status request of a genset is not). Batteries, gensets and grids must be able to move some energy, so that their action spaces are not a single point; forecast noise and forecast functions have to be converted; a reward shaping function must not depend on the unit.", "quantifier": "all u > 0, all microgrids with a balancing module and any number of modules, all trajectory functions, all sequences of runs and resets", "why_tests_cant": "An absolute tolerance or a constant with a hidden unit shows only for particular magnitudes; a test in one unit cannot see it.", "anchors": ["src/pymgrid/microgrid/microgrid.py:Microgrid.run", "src/pymgrid/modules/battery_module.py:BatteryModule", "src/pymgrid/modules/genset_module.py:GensetModule", "src/pymgrid/modules/grid_module.py:GridModule", "src/pymgrid/utils/space.py:ModuleSpace"]}
{"id": "C93", "title": "An idle component changes nothing", "statement": "Add to a microgrid, under a new name, a battery that is not below its minimum capacity or a genset that is off (or can be switched off at once), and tell it to do nothing in every run: energy 0 for the battery - or the normalised action that stands for it - and [0, 0] for the genset. Then the larger microgrid can be built, and every sequence of runs and resets, successful or not, gives the same rewards, done flags and exceptions, and the same observations and infos but for those under the new name; the other modules and the balance log are the same afterwards, and the idle battery keeps its charge. So whatever can be earned without the component can be earned with it.", "quantifier": "all microgrids with at least one module, all trajectory functions, all reward shaping functions that do not look at the new name, all sequences of runs and resets with all controls", "why_tests_cant": "A component that influences others - through the order of the modules, the balance, the done flag or the checks - does so only in particular combinations of modules and states.", "anchors": ["src/pymgrid/microgrid/microgrid.py:Microgrid.run", "src/pymgrid/microgrid/utils/step.py:MicrogridStep.append", "src/pymgrid/modules/battery_module.py:BatteryModule.update", "src/pymgrid/modules/genset_module.py:GensetModule.update_status", "src/pymgrid/modules/module_container.py:ModuleContainer"]}
{"id": "C94", "title": "The report on benchmarks gives the costs that were incurred", "statement": "After benchmarks of one length have been run on a legacy microgrid, describe_benchmarks lists exactly the algorithms that were run and asked for, in the order MPC, RBC, SAA, each with the cost of all steps to the cent; with test_ratio r with the number floor(T*r) of steps, the share in percent and the cost of exactly that many last steps; with test_index with the costs before and from that index, which add up to the total. It refuses exactly unknown names, a split with none or both of ratio and index, a ratio outside [0, 1] and an index beyond the record. run_benchmarks(verbose=True) and print_benchmark_cost should give this report, and ControlOutput.to_frame should leave it unchanged.", "quantifier": "all recorded costs of all lengths, all arguments; all legacy microgrids, solvers and samples for the reports after running", "why_tests_cant": "Tests check one report for one record; off-by-one errors in the slices and the lengths of the records depend on length, ratio and horizon.", "anchors": ["src/pymgrid/algos/Control.py:Benchmarks.describe_benchmarks", "src/pymgrid/algos/Control.py:Benchmarks.run_benchmarks", "src/pymgrid/algos/Control.py:ControlOutput.to_frame", "src/pymgrid/_deprecated/non_modular_microgrid.py:NonModularMicrogrid.print_benchmark_cost"]}
{"id": "C95", "title": "Members of the action space can be run", "statement": "An action is in microgrid.action_space (or its normalised form) exactly if it names exactly the controllable modules and gives each an array of the right length within the bounds of its module (within [0, 1]). run succeeds with every member, normalised or not, whatever has been run before. Normalising a member gives a member of the normalised space and denormalising one gives a member of the space; and microgrid.sample_action() returns a member of the normalised space.", "quantifier": "all microgrids of library modules, all histories of runs and resets, all actions, all random draws", "why_tests_cant": "Tests try single actions in initial states; the bounds, the state-dependent limits and the names interact for every set of modules and every history.", "anchors": ["src/pymgrid/utils/space.py:_PymgridSpace.contains", "src/pymgrid/utils/space.py:MicrogridSpace.normalize", "src/pymgrid/utils/space.py:MicrogridSpace.denormalize", "src/pymgrid/microgrid/microgrid.py:Microgrid.action_space", "src/pymgrid/microgrid/microgrid.py:Microgrid.sample_action", "src/pymgrid/microgrid/microgrid.py:Microgrid.run"]}
{"id": "C96", "title": "Only the total of the loads matters", "statement": "Dividing the same demand differently among several load modules - also leaving one of them without demand - changes nothing but the loads themselves: for the same sequence of runs and resets the same calls succeed, with the same rewards and done flags, the same observations and infos of all other modules, the same balance log and the same final state of all other modules.", "quantifier": "all microgrids of library modules, all load series of equal length with the same sum in every step, all forecasters of the loads, all histories of runs and resets, all reward shaping functions", "why_tests_cant": "A relation between two microgrids over all divisions of all load series and all histories; tests compare a few literal runs.", "anchors": ["src/pymgrid/microgrid/microgrid.py:Microgrid.run", "src/pymgrid/modules/load_module.py:LoadModule", "src/pymgrid/microgrid/utils/step.py:MicrogridStep", "src/pymgrid/microgrid/reward_shaping/battery_discharge_shaper.py:BatteryDischargeShaper.__call__"]}
{"id": "C97", "title": "No policy earns more than its resources are worth", "statement": "For every choice of internal prices of energy per step (between minus the overgeneration cost and the loss-load cost) and of prices for stored energy, the rewards of consecutive runs add up to at most what the modules could earn by trading at these prices, whatever the controls. In particular there is no money pump: if the grid never pays more than x per unit and energy cannot be had for less than x, no controls earn more than x times (renewable energy available - demand + what the batteries can deliver from their initial charge); and where no one pays for exports no sequence of runs has a positive total reward.", "quantifier": "all microgrids of library modules with a balancing module and without reward shaping, all histories before, all sequences of controls, all internal prices", "why_tests_cant": "An upper bound over all policies and all horizons: a test runs single policies and can never exclude a better one.", "anchors": ["src/pymgrid/microgrid/microgrid.py:Microgrid.run", "src/pymgrid/modules/battery_module.py:BatteryModule.update", "src/pymgrid/modules/grid_module.py:GridModule.get_cost", "src/pymgrid/modules/genset_module.py:GensetModule.get_cost", "src/pymgrid/modules/unbalanced_energy_module.py:UnbalancedEnergyModule.get_cost"]}
{"id": "C98", "title": "Rule-based control is as good as any policy where there is nothing to plan ahead", "statement": "In a microgrid without batteries, whose gensets start at once, have no minimum production and burn fuel in proportion, RuleBasedControl with its default priority list earns at least as much as any other controls for the same number of steps, up to the tolerance of its plans (0.0001 units of energy per step at the price of loss of load). It is therefore a valid reference for benchmarks there.", "quantifier": "all such microgrids of library modules, all histories before, all numbers of steps, all sequences of controls", "why_tests_cant": "Optimality is a comparison with all policies, not with a few; a test can only run some.", "anchors": ["src/pymgrid/algos/rbc/rbc.py:RuleBasedControl.run", "src/pymgrid/algos/rbc/rbc.py:RuleBasedControl._get_priority_list", "src/pymgrid/algos/priority_list/priority_list.py:PriorityListAlgo._populate_action", "src/pymgrid/modules/grid_module.py:GridModule.production_marginal_cost"]}
{"id": "C99", "title": "Off the grid, with one battery, rule-based control loses the least load and earns the most", "statement": "In a microgrid with any loads, renewable and balancing modules whose only controllable module is a battery, RuleBasedControl loses no more load in any number of steps after a reset than any other controls would, even ones that know all data in advance, up to the tolerance of its plans (0.0001 units of energy per step). If using the battery is free, overgeneration costs nothing below zero and lost load has one price, it also earns at least as much as any other controls, up to the price of that tolerance.", "quantifier": "all such microgrids of library modules, all histories before, all numbers of steps, all sequences of controls", "why_tests_cant": "The claim compares with all policies over all horizons, including those that keep charge for later or curtail production; a test can only run some.", "anchors": ["src/pymgrid/algos/rbc/rbc.py:RuleBasedControl.run", "src/pymgrid/algos/priority_list/priority_list.py:PriorityListAlgo._populate_action", "src/pymgrid/modules/battery_module.py:BatteryModule.max_production", "src/pymgrid/modules/battery_module.py:BatteryModule.max_consumption"]}
{"id": "C100", "title": "A battery moves its charge as the user's transition model says", "statement": "In a battery with any battery_transition_model, every successful step exchanges the request clipped to the momentary limit, calls the model with this amount and the documented keyword arguments (parameters, limits and state before the step), changes current_charge by exactly what it returns (up to snapping to min_capacity within rounding), keeps soc equal to current_charge / max_capacity and pays battery_cost_cycle for the internal change. Answers of the wrong sign raise without effect. Models that respect the limits keep the charge in its window for ever, and passing the documented default model explicitly makes no difference.", "quantifier": "all transition models, battery parameters, histories of steps, resets and assignments, all requests", "why_tests_cant": "The transition model is an arbitrary function of the caller; a test can only try some models on some histories.", "anchors": ["src/pymgrid/modules/battery_module.py:BatteryModule.model_transition", "src/pymgrid/modules/battery_module.py:BatteryModule.transition_kwargs", "src/pymgrid/modules/battery_module.py:BatteryModule.update", "src/pymgrid/modules/battery_module.py:BatteryModule._update_state"]}
{"id": "C101", "title": "Modules and microgrids that compare equal behave alike", "statement": "If a == b for two modules of the library, every sequence of steps, resets and assignments returns the same results and exceptions on both and their logs agree; if g == h for two microgrids, every sequence of runs and resets returns the same on both and leaves the modules in the same states, whatever happened before. Modules of different classes are never equal and every module equals itself.", "quantifier": "all library modules and microgrids, all histories before the comparison, all sequences of calls afterwards", "why_tests_cant": "The claim is about all futures of all pairs that compare equal; a test compares a few pairs and a few steps.", "anchors": ["src/pymgrid/modules/base/base_module.py:BaseMicrogridModule.__eq__", "src/pymgrid/microgrid/microgrid.py:Microgrid.__eq__", "src/pymgrid/forecast/forecaster.py:Forecaster.__eq__", "src/pymgrid/utils/space.py:_PymgridSpace.__eq__"]}
{"id": "C102", "title": "A better equipped microgrid can do everything the smaller one can", "statement": "If controllable batteries, gensets and grids of a microgrid are replaced by ones with wider limits (capacity, charge and discharge rates, running range, import and export limits) and otherwise equal, then for every successful history of runs and resets there are controls with which the upgraded microgrid returns the same rewards, done flags and flows at every module; so the best reward attainable over any number of runs never falls.", "quantifier": "all microgrids of library modules, all upgrades of any number of modules, all histories and controls, with any reward shaping function that treats an amount of zero like a missing one", "why_tests_cant": "The claim is about the best of infinitely many control sequences on infinitely many pairs of microgrids.", "anchors": ["src/pymgrid/microgrid/microgrid.py:Microgrid.run", "src/pymgrid/modules/battery_module.py:BatteryModule", "src/pymgrid/modules/genset_module.py:GensetModule", "src/pymgrid/modules/grid_module.py:GridModule"]}
{"id": "C103", "title": "Model predictive control with perfect forecasts earns as much as any policy", "statement": "A model predictive controller whose solver returns optimal plans and whose forecasts show all remaining steps of the episode earns in it at least as much reward as any other sequence of controls from the same state.", "quantifier": "all microgrids of library modules that the controller accepts, all reachable states, all solvers that return optimal plans, all other control sequences of the same length", "why_tests_cant": "The claim compares one policy with all others, on infinitely many microgrids and states; a test can only compare with policies somebody thought of.", "anchors": ["src/pymgrid/algos/mpc/mpc.py:ModelPredictiveControl.run", "src/pymgrid/algos/mpc/mpc.py:ModelPredictiveControl._run_mpc_on_modular", "src/pymgrid/forecast/forecaster.py:Forecaster.full_pad", "src/pymgrid/microgrid/microgrid.py:Microgrid.run"]}
{"id": "C104", "title": "Rule-based control does not look ahead", "statement": "What a rule-based controller or an environment with discrete actions does in a step depends only on the rows of the series up to that step: not on the forecasters or forecast horizons of the modules, not on later rows, not on rows before the initial step. Two microgrids that agree on the rows of an episode have the same priority lists, and control by priority lists gives the same rewards, done flags, energies and errors in every step of it.", "quantifier": "all microgrids of library modules, all rows outside the window, all forecasters and horizons, all histories of calls within the window, all priority lists, all sequences of discrete actions, removals and resets", "why_tests_cant": "That no future or forecast value leaks into a decision is a statement about pairs of executions on infinitely many data sets; a test compares a few.", "anchors": ["src/pymgrid/algos/rbc/rbc.py:RuleBasedControl.run", "src/pymgrid/algos/priority_list/priority_list.py:PriorityListAlgo._populate_action", "src/pymgrid/algos/priority_list/priority_list.py:PriorityListAlgo.get_priority_lists", "src/pymgrid/envs/discrete/discrete.py:DiscreteMicrogridEnv.step", "src/pymgrid/modules/grid_module.py:GridModule.current_status"]}
{"id": "C105", "title": "Prices do not move energy, and higher prices never pay", "statement": "Two microgrids that differ only in prices (battery cycle costs, fuel and CO2 prices, the import and export price series of grids, the costs of lost load and overgeneration) accept exactly the same calls, and these move the same energy at every module and end the episode at the same time. If every price of the second is at least as bad for the user, every run yields at most as much reward there, so the best total that any controls can reach does not go up.", "quantifier": "all microgrids of library modules, all pairs of prices, all histories of runs and resets, all controls, all price-blind reward shapers, all trajectory functions", "why_tests_cant": "That no price leaks into a flow, a limit or the termination is a statement about pairs of executions for infinitely many tariffs; a test compares a few.", "anchors": ["src/pymgrid/microgrid/microgrid.py:Microgrid.run", "src/pymgrid/modules/grid_module.py:GridModule.update", "src/pymgrid/modules/grid_module.py:GridModule.get_cost", "src/pymgrid/modules/battery_module.py:BatteryModule.update", "src/pymgrid/modules/genset_module.py:GensetModule.get_cost", "src/pymgrid/modules/unbalanced_energy_module.py:UnbalancedEnergyModule.get_cost"]}
{"id": "C106", "title": "A generated microgrid never has to lose load", "statement": "generate_microgrid with valid draws succeeds, appends as many microgrids as asked for and keeps those that were there. Each of them can serve every load of its series: after any history of runs and resets, failed ones included, the control that lets the genset (or, without genset, the grid) carry the present load succeeds, meets this load and the unbalanced-energy module provides nothing; after a reset the whole series can be run through in this way. The control depends only on the present load.", "quantifier": "all valid draws of the generator, all numbers of microgrids, all histories of runs and resets, all steps of the series", "why_tests_cant": "Adequacy must hold for every random draw, every state of charge and genset and every step of a year; a test samples a few draws and one policy.", "anchors": ["src/pymgrid/MicrogridGenerator.py:MicrogridGenerator.generate_microgrid", "src/pymgrid/MicrogridGenerator.py:MicrogridGenerator._create_microgrid", "src/pymgrid/MicrogridGenerator.py:MicrogridGenerator._size_genset", "src/pymgrid/convert/convert.py:to_modular", "src/pymgrid/microgrid/microgrid.py:Microgrid.run"]}
{"id": "C107", "title": "weak_grid tells whether the grid ever fails", "statement": "weak_grid of a grid module is the same after any history, and it is true exactly if some row of the series the module was made with has status 0 (a series without status column has none). A grid that is not weak meets every request within the capacity of the line in every step, with or without raise_errors; in a step with status 0 nothing is imported or exported, whatever is asked for. After conversion of a legacy microgrid it is true exactly if the legacy microgrid has an hour with status 0.", "quantifier": "all grid modules, all series, all forecasters, all histories of steps and resets, all requests", "why_tests_cant": "The flag is a promise about all steps of all executions; a test checks a few rows.", "anchors": ["src/pymgrid/modules/grid_module.py:GridModule.weak_grid", "src/pymgrid/modules/grid_module.py:GridModule._check_params", "src/pymgrid/modules/grid_module.py:GridModule.max_production", "src/pymgrid/modules/grid_module.py:GridModule.max_consumption"]}
{"id": "C108", "title": "Model predictive control sees no further than its forecasts", "statement": "Take two microgrids whose series have the same N rows from their initial steps on, with oracle forecasts of the same horizon, at most H, or without forecasts (H = 0). Whatever their other rows are: planners made for them are the same, the optimisation problem posed at a step is the same as long as H further rows of the window follow, and ModelPredictiveControl.run for n steps with n + H <= N does the same in every step - rewards, done flags, energy of every module, errors - for every solver. One row more makes a difference.", "quantifier": "all modules of the library, all series that agree on a window, all horizons, all calls before, all solvers", "why_tests_cant": "A test compares a run with one other future; a leak of later rows (into bounds, paddings or parameters) shows only for the futures that the leak depends on.", "anchors": ["src/pymgrid/algos/mpc/mpc.py:ModelPredictiveControl.run", "src/pymgrid/algos/mpc/mpc.py:ModelPredictiveControl._get_modular_state_values", "src/pymgrid/algos/mpc/mpc.py:ModelPredictiveControl._parse_modular_microgrid", "src/pymgrid/forecast/forecaster.py:OracleForecaster", "src/pymgrid/modules/base/timeseries/base_timeseries_module.py:BaseTimeSeriesMicrogridModule.forecast"]}
{"id": "C109", "title": "Legacy microgrids and their benchmark algorithms do not see the future", "statement": "Take two legacy microgrids made with the same parameters from series that have the same first N rows and differ afterwards in any way. Any sequence of at most N calls of run does the same in both - production, costs, emissions, states of charge, errors - and so do n <= N steps of the rule-based baseline. Model predictive control and, given its samples, the sample average approximation do the same for n steps if n - 1 + horizon <= N, whatever the solver and the choice among the samples. One row more makes a difference.", "quantifier": "all architectures, parameters, series with a common beginning, controls, numbers of steps, solvers, samples and quantiles", "why_tests_cant": "A test compares one future with one other; a benchmark that peeks at later rows looks right in every single run.", "anchors": ["src/pymgrid/microgrid/non_modular_microgrid.py:NonModularMicrogrid.run", "src/pymgrid/algos/rbc/_nonmodular_rbc.py:NonModularRuleBasedControl.run_rule_based", "src/pymgrid/algos/mpc/mpc.py:ModelPredictiveControl._run_mpc_on_sample", "src/pymgrid/algos/saa/saa.py:SampleAverageApproximation.run_mpc_on_group"]}
{"id": "C110", "title": "Marginal costs say what a unit of energy costs", "statement": "If get_cost_info quotes p for producing and a for absorbing with a module, the next step of the module is billed p per unit provided and a per unit absorbed.", "quantifier": "all modules of the library, all parameters and series, all histories of steps and resets, all actions", "why_tests_cant": "The quote has to match the bill for every state, price and amount; the deviations (emissions, losses, exports, cost functions) show only for parameters that tests set to zero.", "anchors": ["src/pymgrid/microgrid/microgrid.py:Microgrid.get_cost_info", "src/pymgrid/modules/base/base_module.py:BaseMicrogridModule.marginal_cost", "src/pymgrid/modules/genset_module.py:GensetModule.production_marginal_cost", "src/pymgrid/modules/grid_module.py:GridModule.production_marginal_cost", "src/pymgrid/modules/grid_module.py:GridModule.absorption_marginal_cost", "src/pymgrid/modules/battery_module.py:BatteryModule.production_marginal_cost", "src/pymgrid/modules/unbalanced_energy_module.py:UnbalancedEnergyModule.production_marginal_cost"]}
{"id": "C111", "title": "Elements of priority lists are totally ordered", "statement": "Of two priority list elements with marginal costs exactly one of a < b, a == b and a > b holds; a > b means b < a, a <= b means not a > b and a >= b means not a < b. Elements without marginal costs cannot be compared (TypeError).", "quantifier": "all pairs (and triples, for transitivity) of elements with any modules, action numbers and optional costs", "why_tests_cant": "It is a statement about all pairs and triples of elements; the violating ties only occur between different modules of exactly the same cost.", "anchors": ["src/pymgrid/algos/priority_list/priority_list_element.py:PriorityListElement.__eq__", "src/pymgrid/algos/priority_list/priority_list_element.py:PriorityListElement.__lt__"]}
{"id": "C112", "title": "The penalty measures how far what happened is from what was asked for", "statement": "After run(control_dict) on a legacy microgrid, penalty(coef) is coef times the sum over the recorded controls of the absolute difference between the control and the production that was recorded; it is 0 exactly if everything happened as asked.", "quantifier": "all legacy microgrids, all histories of runs (successful or not) and resets, all control dicts and coefficients", "why_tests_cant": "It relates two records over all histories, architectures and dicts; no test calls penalty.", "anchors": ["src/pymgrid/_deprecated/non_modular_microgrid.py:NonModularMicrogrid.penalty", "src/pymgrid/_deprecated/non_modular_microgrid.py:NonModularMicrogrid._record_action", "src/pymgrid/_deprecated/non_modular_microgrid.py:NonModularMicrogrid._record_production", "src/pymgrid/_deprecated/non_modular_microgrid.py:NonModularMicrogrid.run"]}
{"id": "C113", "title": "The error of a forecast", "statement": "SampleGenerator.mape of data and a forecast of the same length is the mean of |data - forecast| / |data| over the rows where the data are not 0; it is 0 exactly if the forecast is the data and something is not 0, infinite exactly if something is forecast where the data are 0, nan if there is nothing but zeros, and does not depend on the unit. Series of one row and of different lengths are refused.", "quantifier": "all series of all lengths", "why_tests_cant": "It is a statement about all series; division by zero occurs in every night of a PV series and spoils the mean only for some forecasts.", "anchors": ["src/pymgrid/utils/DataGenerator.py:SampleGenerator.mape"]}
{"id": "C114", "title": "Parameters of forecasts to try", "statement": "ForecastArgs(...).param_sets holds every combination of the values of the parameters, each once, all of them valid: ratios between 0 and 1, lower bounds of the noise not above upper bounds, deviations between 0 and their maxima.", "quantifier": "all numbers of values and all maxima", "why_tests_cant": "The numbers of values are arbitrary, and the number of combinations is their product.", "anchors": ["src/pymgrid/utils/DataGenerator.py:ForecastArgs.pv_parameters", "src/pymgrid/utils/DataGenerator.py:ForecastArgs.load_parameters", "src/pymgrid/utils/DataGenerator.py:ForecastArgs.combine_sets"]}
{"id": "C115", "title": "Forecasts of the legacy microgrid are the values to come", "statement": "After any history of run and reset, entry j of what NonModularMicrogrid.forecast_all returns is the load, PV, grid status, price or CO2 intensity the microgrid works with after j further successful runs, whatever the controls are, unless the data end before. Every forecast has as many entries as the horizon. Forecasts in training hold values of the training data only, forecasts in testing of the testing data only.", "quantifier": "all microgrids, data, horizons, histories and controls", "why_tests_cant": "It relates a call to all possible continuations of all histories.", "anchors": ["src/pymgrid/_deprecated/non_modular_microgrid.py:NonModularMicrogrid.forecast_all", "src/pymgrid/_deprecated/non_modular_microgrid.py:NonModularMicrogrid.forecast_pv", "src/pymgrid/_deprecated/non_modular_microgrid.py:NonModularMicrogrid.forecast_load", "src/pymgrid/_deprecated/non_modular_microgrid.py:NonModularMicrogrid.forecast_grid_status", "src/pymgrid/_deprecated/non_modular_microgrid.py:NonModularMicrogrid.forecast_grid_co2", "src/pymgrid/_deprecated/non_modular_microgrid.py:NonModularMicrogrid.forecast_grid_prices"]}
{"id": "C116", "title": "Results are compared by their costs", "statement": "Two ControlOutput objects, whichever algorithms they come from, are equal exactly if the sums of their costs are equal, one is less than the other exactly if its sum is less, and != is the opposite of ==; min picks the first of the cheapest. Parameter sets of forecasts are compared in the same way by the mean of the errors they were tested with.", "quantifier": "all outputs of all runs, all parameter sets and all errors", "why_tests_cant": "It is a statement about an order on all results; == and != come from different classes and disagree only for some pairs.", "anchors": ["src/pymgrid/algos/Control.py:ControlOutput", "src/pymgrid/utils/DataGenerator.py:ForecastArgSet"]}
{"id": "C117", "title": "Discrete actions of the deprecated environments", "statement": "For every action of the action space, get_action_priority_list returns a control that asks for nothing negative or beyond the limits of the battery, does not charge and discharge or import and export at once, and that run executes unchanged for the battery. Actions that are to serve the load (discharge, import, generator, charge from the grid) ask for exactly the energy that is needed, nothing of a grid that is down, and no load is lost if grid and generator can deliver; the others store or export exactly the surplus of PV.", "quantifier": "all microgrids with a battery, all states and all actions", "why_tests_cant": "The controls depend on load, PV, status and charge, all of them real numbers; the mistakes show in outages and for particular relations between PV and charge only.", "anchors": ["src/pymgrid/_deprecated/Environments/Environment.py:Environment.get_action_priority_list", "src/pymgrid/_deprecated/Environments/Environment.py:Environment.action_grid", "src/pymgrid/_deprecated/Environments/Environment.py:Environment.action_grid_genset", "src/pymgrid/_deprecated/Environments/Environment.py:Environment.action_genset"]}
{"id": "C118", "title": "Action vectors of the deprecated environments", "statement": "Every action of the action spaces of the continuous and the discrete environment is translated by get_action_continuous or get_action_discrete into a control with all keys that run needs, within the limits of battery, lines and generator, that neither charges and discharges nor imports and exports at once; every amount the battery can take or give is the control of some continuous action; in an outage a continuous action asks nothing of the grid.", "quantifier": "all microgrids, states and action vectors", "why_tests_cant": "Action vectors are vectors of real numbers, and positions shift with the architecture.", "anchors": ["src/pymgrid/_deprecated/Environments/Environment.py:Environment.get_action_continuous", "src/pymgrid/_deprecated/Environments/Environment.py:Environment.get_action_discrete", "src/pymgrid/_deprecated/Environments/pymgrid_csda.py:MicroGridEnv", "src/pymgrid/_deprecated/Environments/pymgrid_csca_old.py:MicroGridEnv"]}
{"id": "C119", "title": "Length and data of the episodes of the deprecated environments", "statement": "An episode of MicrogridEnv of trajectory_len n started at the drawn index s reports done with step n and no earlier, and its steps, the first included, use the data of the rows s, s+1, ..., s+n-1; with max_episode_len m only, it reports done with step m; time never leaves the data; reset makes all starts possible again that fit into the data.", "quantifier": "all lengths of data, trajectory lengths, episode lengths, drawn starts and numbers of steps and resets", "why_tests_cant": "The start is drawn at random and lengths are parameters; tests with one length do not see the step more or the foreign first row.", "anchors": ["src/pymgrid/_deprecated/Environments/pymgrid_csca.py:MicrogridEnv._short_trajectory_set", "src/pymgrid/_deprecated/Environments/pymgrid_csca.py:MicrogridEnv.reset", "src/pymgrid/_deprecated/non_modular_microgrid.py:NonModularMicrogrid.run"]}
{"id": "C120", "title": "Standardised actions of the deprecated environments", "statement": "ContinuousMicrogridEnv with standardization can be made for every architecture; standardize backward undoes standardize forward and conversely for the precomputed means and deviations; the controls of the actions in its action space are exactly the controls that are not negative and within the limits of imports, exports, charging, discharging and the generator.", "quantifier": "all parameters, all results of the run that the scales come from, all actions", "why_tests_cant": "The scales depend on a whole run of model predictive control and actions are vectors of real numbers; the bound set by hand is only wrong for some scales.", "anchors": ["src/pymgrid/_deprecated/Environments/pymgrid_csca.py:ContinuousMicrogridEnv.standardize", "src/pymgrid/_deprecated/Environments/pymgrid_csca.py:ContinuousMicrogridEnv.pre_compute_standardizations", "src/pymgrid/_deprecated/Environments/pymgrid_csca.py:ContinuousMicrogridEnv.get_control_dict"]}
{"id": "C121", "title": "Constraint values of the deprecated safe environment", "statement": "get_constraint_values of SafeExpMicrogridEnv gives as many numbers as get_num_constraints announces, for every architecture; none of the inequality values is positive if and only if the last action kept the limits of battery, lines and generator that held when it was taken; the last value, unless only inequalities are asked for, is zero if and only if the action balances energy; scaling changes none of this.", "quantifier": "all parameters, actions, observations, tolerances and scalings", "why_tests_cant": "Actions and observations are real numbers, and the limits compared with are those of another step only when the battery moves.", "anchors": ["src/pymgrid/_deprecated/Environments/pymgrid_csca.py:SafeExpMicrogridEnv.get_constraint_values", "src/pymgrid/_deprecated/Environments/pymgrid_csca.py:SafeExpMicrogridEnv._get_inequality_constraints", "src/pymgrid/_deprecated/Environments/pymgrid_csca.py:SafeExpMicrogridEnv._get_energy_balance"]}
