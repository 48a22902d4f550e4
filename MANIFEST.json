{
 "claims": [
  {
   "property": "C01",
   "status": "proved",
   "theorems": [
    "Pymgrid.C01_charge_in_window"
   ],
   "note": ""
  },
  {
   "property": "C02",
   "status": "proved",
   "theorems": [
    "Pymgrid.C02_energy_accounting"
   ],
   "note": ""
  },
  {
   "property": "C03",
   "status": "proved",
   "theorems": [
    "Pymgrid.C03_no_free_energy"
   ],
   "note": ""
  },
  {
   "property": "C04",
   "status": "proved",
   "theorems": [
    "Pymgrid.C04_discharge",
    "Pymgrid.C04_charge"
   ],
   "note": ""
  },
  {
   "property": "C05",
   "status": "partial",
   "theorems": [
    "Pymgrid.C05_soc_consistent_partial",
    "Pymgrid.C05_violated"
   ],
   "note": "The consistency of soc and charge holds along every history of steps, resets and assignments of charges inside the window; C05_violated shows that assigning current_charge below min_capacity breaks it (battery_module.py: failing assertion in _update_state)."
  },
  {
   "property": "C06",
   "status": "proved",
   "theorems": [
    "Pymgrid.C06_reward"
   ],
   "note": ""
  },
  {
   "property": "C07",
   "status": "proved",
   "theorems": [
    "Pymgrid.C07_rejects",
    "Pymgrid.C07_genset_rejects",
    "Pymgrid.C07_accepts"
   ],
   "note": "Rejected requests leave the module unchanged, except that a genset has already taken the status request (C07_genset_rejects)."
  },
  {
   "property": "C08",
   "status": "proved",
   "theorems": [
    "Pymgrid.C08_start_up",
    "Pymgrid.C08_wind_down"
   ],
   "note": ""
  },
  {
   "property": "C09",
   "status": "proved",
   "theorems": [
    "Pymgrid.C09_abort"
   ],
   "note": ""
  },
  {
   "property": "C10",
   "status": "proved",
   "theorems": [
    "Pymgrid.C10_machine_total",
    "Pymgrid.C10_invalid_request",
    "Pymgrid.C10_module_history"
   ],
   "note": ""
  },
  {
   "property": "C11",
   "status": "partial",
   "theorems": [
    "Pymgrid.C11_violated_start",
    "Pymgrid.C11_violated_stop",
    "Pymgrid.C11_no_abortion_partial"
   ],
   "note": "False in the code: with allow_abortion=False and positive times the genset never switches (C11_violated_start/stop). The part that holds is C11_no_abortion_partial."
  },
  {
   "property": "C12",
   "status": "proved",
   "theorems": [
    "Pymgrid.C12_output",
    "Pymgrid.C12_exact"
   ],
   "note": ""
  },
  {
   "property": "C13",
   "status": "proved",
   "theorems": [
    "Pymgrid.C13_limits_and_outages",
    "Pymgrid.C13_served_exactly"
   ],
   "note": ""
  },
  {
   "property": "C14",
   "status": "proved",
   "theorems": [
    "Pymgrid.C14_reward_and_co2"
   ],
   "note": ""
  },
  {
   "property": "C15",
   "status": "proved",
   "theorems": [
    "Pymgrid.C15_used_or_curtailed",
    "Pymgrid.C15_serves"
   ],
   "note": ""
  },
  {
   "property": "C16",
   "status": "proved",
   "theorems": [
    "Pymgrid.C16_load_met",
    "Pymgrid.C16_succeeds"
   ],
   "note": ""
  },
  {
   "property": "C17",
   "status": "proved",
   "theorems": [
    "Pymgrid.C17_balances_exactly"
   ],
   "note": ""
  },
  {
   "property": "C18",
   "status": "proved",
   "theorems": [
    "Pymgrid.C18_energy_balance",
    "Pymgrid.C18_never_unbalanced"
   ],
   "note": ""
  },
  {
   "property": "C19",
   "status": "proved",
   "theorems": [
    "Pymgrid.C19_run_succeeds",
    "Pymgrid.C19_missing_control_rejected",
    "Pymgrid.C19_missing_control_is_ValueError"
   ],
   "note": ""
  },
  {
   "property": "C20",
   "status": "proved",
   "theorems": [
    "Pymgrid.C20_greedy_dispatch",
    "Pymgrid.C20_last_resort"
   ],
   "note": ""
  },
  {
   "property": "C21",
   "status": "proved",
   "theorems": [
    "Pymgrid.C21_reward_is_sum",
    "Pymgrid.C21_shaped_reward",
    "Pymgrid.C21_shaping_only_changes_reward"
   ],
   "note": ""
  },
  {
   "property": "C22",
   "status": "proved",
   "theorems": [
    "Pymgrid.C22_done_at_final_step",
    "Pymgrid.C22_no_modules",
    "Pymgrid.C22_done_at_trajectory_end"
   ],
   "note": ""
  },
  {
   "property": "C23",
   "status": "proved",
   "theorems": [
    "Pymgrid.C23_run_advances_all",
    "Pymgrid.C23_reset_aligns_all",
    "Pymgrid.C23_lockstep_history"
   ],
   "note": ""
  },
  {
   "property": "C24",
   "status": "proved",
   "theorems": [
    "Pymgrid.C24_balance_log",
    "Pymgrid.C24_one_row_per_step"
   ],
   "note": ""
  },
  {
   "property": "C25",
   "status": "partial",
   "theorems": [
    "Pymgrid.C25_reward_and_energy",
    "Pymgrid.C25_state_partial",
    "Pymgrid.C25_genset_state_partial",
    "Pymgrid.C25_not_for_gensets"
   ],
   "note": "Holds for every module but gensets, whose log rows hold the state after the status update (proved)."
  },
  {
   "property": "C26",
   "status": "partial",
   "theorems": [
    "Pymgrid.C26_counter_and_log",
    "Pymgrid.C26_series_partial",
    "Pymgrid.C26_balancing",
    "Pymgrid.C26_state_kept",
    "Pymgrid.C26_storage_partial",
    "Pymgrid.C26_not_restored"
   ],
   "note": "Counter, log and series restart; battery charge and genset status are not restored (C26_not_restored), which the documentation does not say. The _partial theorems state what holds."
  },
  {
   "property": "C27",
   "status": "proved",
   "theorems": [
    "Pymgrid.C27_denormalize_normalize",
    "Pymgrid.C27_normalize_denormalize",
    "Pymgrid.C27_wrong_length",
    "Pymgrid.C27_range"
   ],
   "note": ""
  },
  {
   "property": "C28",
   "status": "proved",
   "theorems": [
    "Pymgrid.C28_to_normalized",
    "Pymgrid.C28_from_normalized",
    "Pymgrid.C28_round_trip",
    "Pymgrid.C28_space_entries",
    "Pymgrid.C28_space_round_trip",
    "Pymgrid.C28_space_series",
    "Pymgrid.C28_action_space_agrees"
   ],
   "note": "Values compared as numbers: MicrogridSpace returns arrays of one element where ModuleSpace returns scalars. The infinite space of the balancing module (nan) is excluded by the coverage hypothesis."
  },
  {
   "property": "C29",
   "status": "proved",
   "theorems": [
    "Pymgrid.C29_action_range",
    "Pymgrid.C29_step",
    "Pymgrid.C29_every_action",
    "Pymgrid.C29_wrong_length"
   ],
   "note": ""
  },
  {
   "property": "C30",
   "status": "proved",
   "theorems": [
    "Pymgrid.C30_state_in_observation_space",
    "Pymgrid.C30_forecast_total",
    "Pymgrid.C30_observation_length"
   ],
   "note": ""
  },
  {
   "property": "C31",
   "status": "proved",
   "theorems": [
    "Pymgrid.C31_oracle_is_true_future"
   ],
   "note": ""
  },
  {
   "property": "C32",
   "status": "partial",
   "theorems": [
    "Pymgrid.C32_series_unchanged",
    "Pymgrid.C32_forecast_pure",
    "Pymgrid.C32_setters_partial",
    "Pymgrid.C32_not_after_assignment"
   ],
   "note": "Holds for modules as constructed and for all histories with set_forecaster and forecast_horizon; violated after assigning time_series (C32_not_after_assignment): the oracle clips the new series in place with the old bounds."
  },
  {
   "property": "C33",
   "status": "proved",
   "theorems": [
    "Pymgrid.C33_list_view",
    "Pymgrid.C33_place",
    "Pymgrid.C33_nothing_else",
    "Pymgrid.C33_kept"
   ],
   "note": ""
  },
  {
   "property": "C34",
   "status": "partial",
   "theorems": [
    "Pymgrid.C34_one_step_each_partial",
    "Pymgrid.C34_not_for_all_names"
   ],
   "note": "False when modules of different kinds share a name (witness proved); the _partial theorem holds for distinct names."
  },
  {
   "property": "C35",
   "status": "partial",
   "theorems": [
    "Pymgrid.C35_priority_lists_partial",
    "Pymgrid.C35_shared_name"
   ],
   "note": "For all histories and both values of remove_redundant_gensets: the generated lists are, without repetition, exactly the orderings of the controllable modules with an action each. False when controllable modules of different kinds share a name (C35_shared_name); the _partial theorem excludes that."
  },
  {
   "property": "C36",
   "status": "partial",
   "theorems": [
    "Pymgrid.C36_plan_partial",
    "Pymgrid.C36_realised",
    "Pymgrid.C36_rbc_run",
    "Pymgrid.C36_below_minimum"
   ],
   "note": "For lists generated in any state, used in any state with data: exact accounting, energies within the momentary limits, remaining load only if every module is at its maximum, modules used in the order of the list (Merit); a run on the control delivers exactly the planned energies (C36_realised); rule-based control completes every run and makes min(n, episode length) planned runs (C36_rbc_run). Violated for gensets that are asked to run when nothing is needed: they are assigned 0, below their minimum (C36_below_minimum). 'Remaining' is up to the code's tolerance of 0.0001."
  },
  {
   "property": "C37",
   "status": "proved",
   "theorems": [
    "Pymgrid.C37_default_list",
    "Pymgrid.C37_user_list"
   ],
   "note": "Default list and user lists, for every history."
  },
  {
   "property": "C38",
   "status": "partial",
   "theorems": [
    "Pymgrid.C38_default_actions",
    "Pymgrid.C38_never_started",
    "Pymgrid.C38_zero_minimum_partial",
    "Pymgrid.C38_loss_of_load"
   ],
   "note": "Violated: the default list asks every genset with positive minimum production to be off, so rule-based control never starts it (C38_never_started, for all microgrids and run lengths; C38_loss_of_load is a concrete episode). The _partial theorem covers gensets without minimum production."
  },
  {
   "property": "C39",
   "status": "partial",
   "theorems": [
    "Pymgrid.C39_create",
    "Pymgrid.C39_order",
    "Pymgrid.C39_remove_partial",
    "Pymgrid.C39_last_action",
    "Pymgrid.C39_invalid_partial",
    "Pymgrid.C39_valid",
    "Pymgrid.C39_rejected_action_log"
   ],
   "note": "Partial because the claim is false in two cases: a rejected action is entered in the microgrid's own log (C39_rejected_action_log), and the removal of the only action fails with gym versions without empty spaces (C39_last_action). Everything else is proved for all histories."
  },
  {
   "property": "C40",
   "status": "partial",
   "theorems": [
    "Pymgrid.C40_stochastic_partial",
    "Pymgrid.C40_stochastic_empty",
    "Pymgrid.C40_fixed_length_partial",
    "Pymgrid.C40_fixed_length_rejected",
    "Pymgrid.C40_full_length_rejected",
    "Pymgrid.C40_fixed_length_episodes",
    "Pymgrid.C40_fixed_length_accepted",
    "Pymgrid.C40_stochastic_reset_fails"
   ],
   "note": "Violated at the boundaries: StochasticTrajectory can return a final step equal to the initial step, which makes the following reset raise (C40_stochastic_reset_fails), and FixedLengthStochasticTrajectory raises for the full-length interval (C40_full_length_rejected). Proved for all bounds and all draws: what is returned is a sub-interval; fixed-length ones have exactly the requested length."
  },
  {
   "property": "C41",
   "status": "partial",
   "theorems": [
    "Pymgrid.C41_rejects_bad_trajectory",
    "Pymgrid.C41_rejection_is_ValueError",
    "Pymgrid.C41_episode_in_range_partial",
    "Pymgrid.C41_later_calls_unchecked"
   ],
   "note": "Only the first call of a trajectory function is checked (witness proved)."
  },
  {
   "property": "C42",
   "status": "partial",
   "theorems": [
    "Pymgrid.C42_battery_discharge_partial",
    "Pymgrid.C42_no_failure_within_load",
    "Pymgrid.C42_loss_ignored",
    "Pymgrid.C42_pv_curtailment_partial",
    "Pymgrid.C42_pv_default_name",
    "Pymgrid.C42_loss_ignored_example",
    "Pymgrid.C42_charging_hides_discharge",
    "Pymgrid.C42_export_fails"
   ],
   "note": "Violated in several ways: loss of load is read under the key 'unbalanced_energy' but the balancing module is called 'balancing' by default (C42_loss_ignored); one charging battery hides the discharge of the others (C42_charging_hides_discharge); a discharge above the load makes run() raise AssertionError half-way (C42_export_fails); renewables not named 'pv' are ignored (C42_pv_default_name). Proved for every history and run: the documented formula and range when there is at most one battery and the balancing module has the expected name; curtailment = available - used for renewables named 'pv'."
  },
  {
   "property": "C43",
   "status": "partial",
   "theorems": [
    "Pymgrid.C43_dump_load",
    "Pymgrid.C43_reload",
    "Pymgrid.C43_resume_partial",
    "Pymgrid.C43_after_reset_partial",
    "Pymgrid.C43_cannot_continue",
    "Pymgrid.C43_stale_forecast",
    "Pymgrid.C43_failed_step_moves_charge",
    "Pymgrid.C43_forecaster_lost"
   ],
   "note": "Holds for modules with an empty log and, for any module, after a reset of both copies (non-random forecasters). Violated otherwise: C43_cannot_continue (every step of a loaded module with a log raises), C43_stale_forecast, C43_failed_step_moves_charge, C43_forecaster_lost. Modules holding functions cannot be dumped (C43_dump_load)."
  },
  {
   "property": "C44",
   "status": "partial",
   "theorems": [
    "Pymgrid.C44_after_step_partial",
    "Pymgrid.C44_after_reset_partial",
    "Pymgrid.C44_reset_succeeds",
    "Pymgrid.C44_new_oracle",
    "Pymgrid.C44_shrinking",
    "Pymgrid.C44_not_immediately",
    "Pymgrid.C44_not_for_growing_noise",
    "Pymgrid.C44_new_renewable_series",
    "Pymgrid.C44_new_load_series"
   ],
   "note": "Violated between the setter and the next step or reset when the horizon grows (C44_not_immediately), and for gaussian forecasters with growing uncertainty (C44_not_for_growing_noise). Proved: consistent from the next successful step or reset on, and at once if the horizon does not grow."
  },
  {
   "property": "C45",
   "status": "partial",
   "theorems": [
    "Pymgrid.C45_flex_sample_partial",
    "Pymgrid.C45_strict_sample_partial",
    "Pymgrid.C45_load_sample",
    "Pymgrid.C45_genset_strict_sample",
    "Pymgrid.C45_balancing_sample",
    "Pymgrid.C45_sample_runs_partial",
    "Pymgrid.C45_strict_sample_genset_microgrid"
   ],
   "note": "Violated for gensets (strict sampling always raises TypeError, also through Microgrid.sample_action) and balancing modules (the sample cannot be stepped); proved for batteries, grids, renewables and loads in every state and for every draw, including that the energy exchanged is exactly the one drawn; non-strict samples of every microgrid, and strict ones without gensets, can be run."
  },
  {
   "property": "C46",
   "status": "proved",
   "theorems": [
    "Pymgrid.C46_load_accepted_iff",
    "Pymgrid.C46_renewable_accepted_iff",
    "Pymgrid.C46_mixed_signs_rejected",
    "Pymgrid.C46_load_bounds",
    "Pymgrid.C46_renewable_bounds"
   ],
   "note": ""
  },
  {
   "property": "C47",
   "status": "partial",
   "theorems": [
    "Pymgrid.C47_missing_control_partial",
    "Pymgrid.C47_not_atomic"
   ],
   "note": "The exception is raised after the fixed modules have been stepped (witness proved)."
  },
  {
   "property": "C48",
   "status": "proved",
   "theorems": [
    "Pymgrid.C48_accepted_iff",
    "Pymgrid.C48_rejected",
    "Pymgrid.C48_missing_status_is_connected"
   ],
   "note": ""
  },
  {
   "property": "C49",
   "status": "partial",
   "theorems": [
    "Pymgrid.C49_environment_log",
    "Pymgrid.C49_log_partial",
    "Pymgrid.C49_no_modules",
    "Pymgrid.C49_trajectory_fails",
    "Pymgrid.C49_failed_run",
    "Pymgrid.C49_balance_name"
   ],
   "note": "Proved for episodes that start at the microgrid's initial step. The claim is false for episodes that start later (C49_trajectory_fails, for every trajectory function), after failed runs (C49_failed_run), for microgrids without modules (C49_no_modules) and, for one column, for a module named balance (C49_balance_name)."
  },
  {
   "property": "C50",
   "status": "partial",
   "theorems": [
    "Pymgrid.C50_action_space_partial",
    "Pymgrid.C50_violated"
   ],
   "note": "False in the code: the action bounds are swapped (C50_violated). The part that holds is proved as _partial."
  },
  {
   "property": "C51",
   "status": "partial",
   "theorems": [
    "Pymgrid.Legacy.C51_run_partial",
    "Pymgrid.Legacy.C51_fails_iff",
    "Pymgrid.Legacy.C51_small_genset",
    "Pymgrid.Legacy.C51_outage",
    "Pymgrid.Legacy.C51_assertion"
   ],
   "note": "Limits, balance and exactness proved. Violated: requests in (0,1] below the genset minimum are executed (C51_small_genset), the grid status is ignored (C51_outage), a run raises AssertionError when the load is exactly covered without PV (C51_assertion, C51_fails_iff)."
  },
  {
   "property": "C52",
   "status": "partial",
   "theorems": [
    "Pymgrid.Legacy.C52_grid_partial",
    "Pymgrid.Legacy.C52_islanded_partial",
    "Pymgrid.Legacy.C52_violated"
   ],
   "note": "Proved for microgrids with a grid connection. Violated without (C52_violated): the state of charge follows the unclipped request; proved for feasible requests."
  },
  {
   "property": "C53",
   "status": "partial",
   "theorems": [
    "Pymgrid.Legacy.C53_nonneg",
    "Pymgrid.Legacy.C53_battery",
    "Pymgrid.Legacy.C53_covers_partial",
    "Pymgrid.Legacy.C53_forced_partial",
    "Pymgrid.Legacy.C53_double_minimum",
    "Pymgrid.Legacy.C53_merit_order",
    "Pymgrid.Legacy.C53_grid_down",
    "Pymgrid.Legacy.C53_unserved",
    "Pymgrid.Legacy.C53_unlimited",
    "Pymgrid.Legacy.C53_baseline_partial",
    "Pymgrid.Legacy.C53_baseline_soc",
    "Pymgrid.Legacy.C53_zero_load"
   ],
   "note": "Non-negativity, battery limits, merit order of battery and grid, and coverage without forced genset proved; exact statement when the genset is forced. Violated: C53_unserved, C53_double_minimum, C53_unlimited, C53_zero_load."
  },
  {
   "property": "C54",
   "status": "partial",
   "theorems": [
    "Pymgrid.Legacy.C54_accepted_iff",
    "Pymgrid.Legacy.C54_components_partial",
    "Pymgrid.Legacy.C54_battery_tracks",
    "Pymgrid.Legacy.C54_battery_limits",
    "Pymgrid.Legacy.C54_rewards",
    "Pymgrid.Legacy.C54_usable",
    "Pymgrid.Legacy.C54_generated",
    "Pymgrid.Legacy.C54_state",
    "Pymgrid.Legacy.C54_soc_max_ignored",
    "Pymgrid.Legacy.C54_stale_soc"
   ],
   "note": "Everything except the maximal state of charge: C54_components_partial gives all parameters and series, C54_accepted_iff when the conversion succeeds, C54_battery_tracks/C54_rewards the behaviour. Violated by the code: soc_max is dropped (C54_soc_max_ignored) and the state of charge is stale after the last run (C54_stale_soc)."
  },
  {
   "property": "C55",
   "status": "proved",
   "theorems": [
    "Pymgrid.Legacy.Generator.C55_total",
    "Pymgrid.Legacy.Generator.C55_sizes",
    "Pymgrid.Legacy.Generator.C55_architecture",
    "Pymgrid.Legacy.Generator.C55_series",
    "Pymgrid.Legacy.Generator.C55_baseline"
   ],
   "note": ""
  },
  {
   "property": "C56",
   "status": "proved",
   "theorems": [
    "Pymgrid.Legacy.Generator.C56_profile",
    "Pymgrid.Legacy.Generator.C56_timestep",
    "Pymgrid.Legacy.Generator.C56_year"
   ],
   "note": ""
  },
  {
   "property": "C57",
   "status": "proved",
   "theorems": [
    "Pymgrid.C57_balance_row"
   ],
   "note": ""
  },
  {
   "property": "C58",
   "status": "proved",
   "theorems": [
    "Pymgrid.C58_step",
    "Pymgrid.C58_reset"
   ],
   "note": ""
  },
  {
   "property": "C59",
   "status": "proved",
   "theorems": [
    "Pymgrid.C59_normalized_run"
   ],
   "note": ""
  },
  {
   "property": "C60",
   "status": "proved",
   "theorems": [
    "Pymgrid.Legacy.C60_cost"
   ],
   "note": ""
  },
  {
   "property": "C61",
   "status": "partial",
   "theorems": [
    "Pymgrid.Legacy.C61_next_step_partial",
    "Pymgrid.Legacy.C61_first_row",
    "Pymgrid.Legacy.C61_hour"
   ],
   "note": "Proved for load and PV and, after the first run, grid values. Violated: grid values of the first run (C61_first_row), hour (C61_hour)."
  },
  {
   "property": "C62",
   "status": "partial",
   "theorems": [
    "Pymgrid.Legacy.C62_accepted_iff",
    "Pymgrid.Legacy.C62_round_trip_partial",
    "Pymgrid.Legacy.C62_demand_negated",
    "Pymgrid.Legacy.C62_modular_again",
    "Pymgrid.Legacy.C62_components",
    "Pymgrid.Legacy.C62_demand_copied",
    "Pymgrid.Legacy.C62_no_costs",
    "Pymgrid.Legacy.C62_finished",
    "Pymgrid.Legacy.C62_first_status",
    "Pymgrid.Legacy.C62_restarted"
   ],
   "note": "Proved for everything but the demand: C62_round_trip_partial, C62_modular_again, C62_components. Violated by the code: the demand is negated (C62_demand_negated, C62_demand_copied), microgrids without grid and genset cannot be run after conversion (C62_no_costs), and the series restart (C62_restarted)."
  },
  {
   "property": "C63",
   "status": "partial",
   "theorems": [
    "Pymgrid.C63_dump_load",
    "Pymgrid.C63_modules",
    "Pymgrid.C63_resume_partial",
    "Pymgrid.C63_after_reset_partial",
    "Pymgrid.C63_cannot_continue",
    "Pymgrid.C63_shaper_lost",
    "Pymgrid.C63_shared_name"
   ],
   "note": "Proved for new or reset microgrids without reward shaping and random forecasters (C63_resume_partial) and for every state after a reset (C63_after_reset_partial). Violated by the code: C63_cannot_continue, C63_shaper_lost, C63_shared_name."
  },
  {
   "property": "C64",
   "status": "partial",
   "theorems": [
    "Pymgrid.C64_same_as_string_partial",
    "Pymgrid.C64_last_wins",
    "Pymgrid.C64_violated",
    "Pymgrid.C64_two_loads"
   ],
   "note": "Violated by the code: files are named after the class, so modules of one class share the series and log of the last one (C64_violated, C64_last_wins, C64_two_loads). Proved when modules of the same class agree (C64_same_as_string_partial)."
  },
  {
   "property": "C65",
   "status": "proved",
   "theorems": [
    "Pymgrid.MPC.C65_plans",
    "Pymgrid.MPC.C65_all_plans",
    "Pymgrid.MPC.C65_exists",
    "Pymgrid.MPC.C65_answer",
    "Pymgrid.MPC.C65_control"
   ],
   "note": "Exact arithmetic: solver tolerances are not modelled. The solver is any function that returns a feasible point whenever there is one."
  },
  {
   "property": "C66",
   "status": "partial",
   "theorems": [
    "Pymgrid.MPC.C66_objective",
    "Pymgrid.MPC.C66_minimal_partial",
    "Pymgrid.MPC.C66_never_sells_pv",
    "Pymgrid.MPC.C66_violated"
   ],
   "note": "Proved when exports are not paid for (C66_minimal_partial). Violated by the code: the export price enters the objective as a cost (C66_objective), so solutions curtail PV instead of selling it (C66_never_sells_pv, C66_violated)."
  },
  {
   "property": "C67",
   "status": "partial",
   "theorems": [
    "Pymgrid.MPC.C67_step_partial",
    "Pymgrid.MPC.C67_as_planned",
    "Pymgrid.MPC.C67_possible",
    "Pymgrid.MPC.C67_run_partial",
    "Pymgrid.MPC.C67_too_long",
    "Pymgrid.MPC.C67_infeasible",
    "Pymgrid.MPC.C67_violated",
    "Pymgrid.MPC.C67_clipped",
    "Pymgrid.MPC.C67_accepted"
   ],
   "note": "Proved except that a step which needs no PV although there is some raises AssertionError (C67_step_partial, C67_run_partial; C67_violated), and that charging is cut off at a lower limit than the one plans are made with (C67_clipped, C67_possible; exact otherwise: C67_as_planned)."
  },
  {
   "property": "C68",
   "status": "partial",
   "theorems": [
    "Pymgrid.MPC.C68_accepts",
    "Pymgrid.MPC.C68_rejects",
    "Pymgrid.MPC.C68_problem_partial",
    "Pymgrid.MPC.C68_run_partial",
    "Pymgrid.MPC.C68_too_long",
    "Pymgrid.MPC.C68_no_source"
   ],
   "note": "Acceptance and its errors are proved (C68_accepts, C68_rejects, C68_too_long). Problem and run are proved for microgrids with a grid or a genset (C68_problem_partial, C68_run_partial); without both a microgrid is accepted but every step raises RuntimeError (C68_no_source)."
  },
  {
   "property": "C69",
   "status": "partial",
   "theorems": [
    "Pymgrid.MPC.C69_as_planned_partial",
    "Pymgrid.MPC.C69_step_partial",
    "Pymgrid.MPC.C69_only_if",
    "Pymgrid.MPC.C69_outage"
   ],
   "note": "Proved for steps that can be executed (C69_as_planned_partial, C69_step_partial): grid connected if used, discharge within rate times efficiency, no simultaneous charging and discharging, genset switchable at once. The planning ignores these conditions and no plan is carried out without them (C69_only_if); during an outage optimal plans still buy (C69_outage)."
  },
  {
   "property": "C70",
   "status": "partial",
   "theorems": [
    "Pymgrid.MPC.C70_charged",
    "Pymgrid.MPC.C70_difference",
    "Pymgrid.MPC.C70_as_billed_partial",
    "Pymgrid.MPC.C70_wear",
    "Pymgrid.MPC.C70_emissions"
   ],
   "note": "The exact cost of an executed step is proved (C70_charged, C70_difference). It equals the planned cost for lossless or idle batteries and equal emission prices (C70_as_billed_partial). Violated by the code otherwise: wear is charged on stored energy (C70_wear), the grid's emissions are planned at the mean price (C70_emissions)."
  },
  {
   "property": "C71",
   "status": "proved",
   "theorems": [
    "Pymgrid.MPC.C71_served",
    "Pymgrid.MPC.C71_no_waste",
    "Pymgrid.MPC.C71_pv_first",
    "Pymgrid.MPC.C71_one_way",
    "Pymgrid.MPC.C71_grid_first",
    "Pymgrid.MPC.C71_pv_before_genset",
    "Pymgrid.MPC.C71_genset_first",
    "Pymgrid.MPC.C71_genset_serves"
   ],
   "note": "All problems and all optimal plans, by exchanging one step of the plan. Decisions that change the battery's state of charge are not covered."
  },
  {
   "property": "C72",
   "status": "partial",
   "theorems": [
    "Pymgrid.C72_space_partial",
    "Pymgrid.C72_flat_step_partial",
    "Pymgrid.C72_flat_reset_partial",
    "Pymgrid.C72_reserved_names",
    "Pymgrid.C72_nested_step_partial",
    "Pymgrid.C72_nested_reset",
    "Pymgrid.C72_discrete_partial",
    "Pymgrid.C72_scalar_observation",
    "Pymgrid.C72_shared_name",
    "Pymgrid.C72_keyed_partial",
    "Pymgrid.C72_keys"
   ],
   "note": "Proved for flat observations of microgrids without modules named 'balance' or 'other' (C72_flat_step_partial, C72_flat_reset_partial, C72_discrete_partial), for nested observations of steps without scalar states (C72_nested_step_partial, an equivalence) and for observation keys without scalar states (C72_keyed_partial). Violated by the code otherwise: reserved names (C72_reserved_names), every nested reset (C72_nested_reset), scalar states (C72_scalar_observation), names shared by modules of different kinds (C72_shared_name)."
  },
  {
   "property": "C73",
   "status": "partial",
   "theorems": [
    "Pymgrid.C73_labels_partial",
    "Pymgrid.C73_single_quantity",
    "Pymgrid.C73_series_partial",
    "Pymgrid.C73_series_fails",
    "Pymgrid.C73_keyed_fails",
    "Pymgrid.C73_plain"
   ],
   "note": "Proved for modules that show no or several quantities (C73_labels_partial, C73_series_partial; not normalised for all). Violated by the code otherwise: state_dict(normalized=True) raises TypeError for every module with a single quantity (C73_single_quantity), hence state_series(normalized=True) and environments with observation_keys (C73_series_fails, C73_keyed_fails, C73_plain)."
  },
  {
   "property": "C74",
   "status": "partial",
   "theorems": [
    "Pymgrid.C74_all_modules",
    "Pymgrid.C74_rest",
    "Pymgrid.C74_reported",
    "Pymgrid.C74_horizon",
    "Pymgrid.C74_forecasts_partial",
    "Pymgrid.C74_named_ignored",
    "Pymgrid.C74_unknown_name",
    "Pymgrid.C74_stale_space",
    "Pymgrid.C74_lost_on_dump"
   ],
   "note": "Proved for a single forecaster for all modules, from the next reset on (C74_all_modules, C74_horizon, C74_forecasts_partial); nothing else changes (C74_rest), and get_forecast_horizon reports the common horizon or raises ValueError (C74_reported). Violated by the code otherwise: forecasters given by name are silently ignored (C74_named_ignored), environments keep the old observation space (C74_stale_space), the new forecaster is lost by dump/load (C74_lost_on_dump)."
  },
  {
   "property": "C75",
   "status": "partial",
   "theorems": [
    "Pymgrid.C75_range_partial",
    "Pymgrid.C75_no_modules",
    "Pymgrid.C75_rejected_final_changes",
    "Pymgrid.C75_initial_unchecked",
    "Pymgrid.C75_final_unchecked",
    "Pymgrid.C75_log_fails"
   ],
   "note": "Proved for assigning the initial step and then a larger final step, after any history of runs, resets and assignments (C75_range_partial). Violated by the code otherwise: a rejected final_step changes the first series module (C75_rejected_final_changes), initial_step is not checked (C75_initial_unchecked), nor is final_step against the length of the series (C75_final_unchecked), and get_log fails until the next reset (C75_log_fails). Without modules there is nothing to assign (C75_no_modules)."
  },
  {
   "property": "C76",
   "status": "partial",
   "theorems": [
    "Pymgrid.C76_wraps_partial",
    "Pymgrid.C76_episode_partial",
    "Pymgrid.C76_fixed_length_rejected",
    "Pymgrid.C76_log_fails",
    "Pymgrid.C76_range_shrinks"
   ],
   "note": "Proved for microgrids without trajectory function at any moment of any history, except for the log until the next reset (C76_wraps_partial), and characterised for trajectory functions (C76_episode_partial). Violated by the code: the log of the environment cannot be read if the microgrid had been run (C76_log_fails); after a reset with a trajectory function the environment's range is only that of the current episode (C76_range_shrinks), and with a FixedLengthStochasticTrajectory it is rejected (C76_fixed_length_rejected)."
  },
  {
   "property": "C77",
   "status": "partial",
   "theorems": [
    "Pymgrid.C77_checked",
    "Pymgrid.C77_flat_rejected",
    "Pymgrid.C77_only_empty_action",
    "Pymgrid.C77_load_no_step",
    "Pymgrid.C77_controllable_no_step",
    "Pymgrid.C77_flexible_partial"
   ],
   "note": "Violated by the code for nearly all microgrids: default options are rejected for every microgrid (C77_flat_rejected), the nested action space only has the empty action (C77_only_empty_action), and every step raises if there is a load or a controllable module (C77_load_no_step, C77_controllable_no_step). Holds for microgrids of flexible modules only (C77_flexible_partial); actions outside of the nested space are refused without effect for any space (C77_checked)."
  },
  {
   "property": "C78",
   "status": "partial",
   "theorems": [
    "Pymgrid.C78_accepted",
    "Pymgrid.C78_levels",
    "Pymgrid.C78_list",
    "Pymgrid.C78_by_name_partial",
    "Pymgrid.C78_lowest",
    "Pymgrid.C78_shadowed",
    "Pymgrid.C78_contains",
    "Pymgrid.C78_attribute",
    "Pymgrid.C78_names",
    "Pymgrid.C78_item",
    "Pymgrid.C78_clash"
   ],
   "note": "Proved for all names in all containers, except for names shared by modules of different types and names equal to the keys of containers (C78_by_name_partial). Violated by the code: of modules of different types with one name only some are found (C78_clash), modules named like a container are accepted and not found (C78_shadowed), a missing name in a lowest-level container raises TypeError (C78_lowest), modules named data or module_dict make the constructor raise KeyError (C78_accepted)."
  },
  {
   "property": "C79",
   "status": "partial",
   "theorems": [
    "Pymgrid.Noisy.C79_sampled_partial",
    "Pymgrid.MPC.C79_step_partial",
    "Pymgrid.MPC.C79_run_partial",
    "Pymgrid.MPC.C79_steps",
    "Pymgrid.MPC.C79_cheapest",
    "Pymgrid.MPC.C79_rank",
    "Pymgrid.MPC.C79_samples",
    "Pymgrid.MPC.C79_states",
    "Pymgrid.MPC.C79_nonanticipative",
    "Pymgrid.MPC.C79_foresight",
    "Pymgrid.MPC.C79_reuse",
    "Pymgrid.MPC.C79_second_run",
    "Pymgrid.MPC.C79_percentile_one",
    "Pymgrid.MPC.C79_percentile_refused",
    "Pymgrid.MPC.C79_cost_partial",
    "Pymgrid.MPC.C79_misranked"
   ],
   "note": "Proved for percentiles below 1 whenever no chosen plan leaves PV unused that the others just replace (C79_step_partial, C79_run_partial; otherwise AssertionError as in C51/C67), with the samples after a run (C79_samples), independence of later data (C79_nonanticipative) and what is refused (C79_steps, C79_percentile_refused). Violated by the code: percentile 1 always raises ValueError (C79_percentile_one); plans are compared without battery wear and emissions (C79_cost_partial), so that a dearer plan may be preferred (C79_misranked); a second run with the same samples, the default, plans with perfect foresight (C79_second_run, C79_foresight); the states on record show the load of the step just made, not of the next one (C79_states). C79_sampled_partial applies it to the samples that SAA draws itself (C90)."
  },
  {
   "property": "C80",
   "status": "proved",
   "theorems": [
    "Pymgrid.C80_exchanges",
    "Pymgrid.C80_rewards",
    "Pymgrid.C80_bills",
    "Pymgrid.C80_energy",
    "Pymgrid.C80_unserved"
   ],
   "note": "Proved for all sequences of successful runs by induction over the runs (C80_exchanges, C80_rewards, C80_bills, C80_energy, C80_unserved). Rewards without a shaping function; energy balance with a balancing module, as the constructor adds by default. The bound of C80_unserved is attained in the example."
  },
  {
   "property": "C81",
   "status": "proved",
   "theorems": [
    "Pymgrid.C81_whole_episode",
    "Pymgrid.C81_enough_steps"
   ],
   "note": "Proved for every successful reset, with and without trajectory functions, by induction over the steps (C81_whole_episode, C81_enough_steps). Assumes that the final steps do not exceed the data, as the constructors ensure unless told otherwise."
  },
  {
   "property": "C82",
   "status": "partial",
   "theorems": [
    "Pymgrid.C82_tried",
    "Pymgrid.C82_wrong_sign_refused",
    "Pymgrid.C82_wrong_number_refused",
    "Pymgrid.C82_honest_accepted",
    "Pymgrid.C82_forecast",
    "Pymgrid.C82_scalar_forecast_partial",
    "Pymgrid.C82_scalar_end_fails",
    "Pymgrid.C82_lists_fail",
    "Pymgrid.C82_flat_arrays_fail",
    "Pymgrid.C82_grid_fails",
    "Pymgrid.C82_grid_setter_fails",
    "Pymgrid.C82_set_tried",
    "Pymgrid.C82_set_horizon",
    "Pymgrid.C82_refused_setter_fails",
    "Pymgrid.C82_steps_ahead_fails"
   ],
   "note": "Proved for load and renewable modules: what is accepted was tried (C82_tried, C82_wrong_sign_refused, C82_wrong_number_refused, C82_set_tried), the horizon is set with it (C82_set_horizon), callables that return two-dimensional arrays as asked are accepted (C82_honest_accepted) and give the documented forecast after any history (C82_forecast). The code violates the rest, proved as negations: grid modules accept no callable at all (C82_grid_fails, C82_grid_setter_fails), callables returning lists, numbers or flat arrays pass the trial but make the constructor fail (C82_lists_fail, C82_flat_arrays_fail), callables for single values are passed 0, 1, ... as numbers of steps (C82_steps_ahead_fails) and make every step near the end of the series fail (C82_scalar_end_fails), and set_forecaster changes the horizon before it refuses a callable (C82_refused_setter_fails)."
  },
  {
   "property": "C83",
   "status": "partial",
   "theorems": [
    "Pymgrid.C83_reproducible_partial",
    "Pymgrid.C83_no_storage",
    "Pymgrid.C83_battery_fails",
    "Pymgrid.C83_genset_fails"
   ],
   "note": "Proved without batteries and gensets (C83_no_storage). With them the code violates it (C83_battery_fails, C83_genset_fails: reset keeps charge and status); C83_reproducible_partial shows that the states of batteries and gensets at the reset are the only thing that matters, with or without a trajectory function. Random forecasters are excluded."
  },
  {
   "property": "C84",
   "status": "proved",
   "theorems": [
    "Pymgrid.C84_order",
    "Pymgrid.C84_any_order",
    "Pymgrid.C84_shapers",
    "Pymgrid.C84_flex_order_matters"
   ],
   "note": "C84_order for reorderings that keep the order within a name and within a flexible category; C84_any_order for all permutations when names are distinct and each flexible category has at most one module; C84_shapers shows the library's shapers qualify; C84_flex_order_matters shows the exception is needed. Calls that raise may leave different states, so histories are of successful calls."
  },
  {
   "property": "C85",
   "status": "partial",
   "theorems": [
    "Pymgrid.Legacy.C85_reset_partial",
    "Pymgrid.Legacy.C85_split_partial",
    "Pymgrid.Legacy.C85_first_state",
    "Pymgrid.Legacy.C85_second_split",
    "Pymgrid.Legacy.C85_cancel_splits",
    "Pymgrid.Legacy.C85_unsplit",
    "Pymgrid.Legacy.C85_horizon_one",
    "Pymgrid.Legacy.C85_short_part"
   ],
   "note": "Proved after all histories for horizons of at least 2 and parts at least as long as the horizon. Violated otherwise: IndexError before the end of the part (C85_horizon_one, C85_short_part). A second split is ignored (C85_second_split), and cancelling without a split splits (C85_cancel_splits). C85_first_state: the record of states always begins with the state given to the constructor. C85_unsplit ties the model to the one of C51."
  },
  {
   "property": "C86",
   "status": "proved",
   "theorems": [
    "Pymgrid.C86_constructors",
    "Pymgrid.C86_currency",
    "Pymgrid.C86_rule_based",
    "Pymgrid.C86_noise_has_a_currency"
   ],
   "note": "C86_constructors: the repriced constructor calls succeed. Batteries without a user-defined transition model. Forecasters: none, oracle, or ones that convert noise, arguments and results (SameForecast); C86_noise_has_a_currency shows that unconverted Gaussian noise breaks the claim."
  },
  {
   "property": "C87",
   "status": "proved",
   "theorems": [
    "Pymgrid.C87_constructors",
    "Pymgrid.C87_more_sun",
    "Pymgrid.C87_earned",
    "Pymgrid.C87_curtailment_shaper",
    "Pymgrid.C87_negative_emission_price"
   ],
   "note": "C87_more_sun is the monotonicity call by call, C87_earned the total, C87_constructors what a sunnier module is. C87_curtailment_shaper and C87_negative_emission_price show that the two conditions in the statement are needed."
  },
  {
   "property": "C88",
   "status": "proved",
   "theorems": [
    "Pymgrid.C88_constructors",
    "Pymgrid.C88_overlap",
    "Pymgrid.C88_window",
    "Pymgrid.C88_observations_look_ahead"
   ],
   "note": "C88_window is the non-interference for whole histories; C88_constructors and C88_overlap say when two microgrids have the same window. C88_observations_look_ahead shows why observations are excluded: their bounds are taken from the whole series, so that rows after the final step change what an agent without forecasts sees."
  },
  {
   "property": "C89",
   "status": "proved",
   "theorems": [
    "Pymgrid.C89_agent",
    "Pymgrid.C89_training"
   ],
   "note": "C89_agent is one episode, C89_training any number of them. The loops are the user's code; they are in Spec/Agent.lean."
  },
  {
   "property": "C90",
   "status": "proved",
   "theorems": [
    "Pymgrid.Noisy.C90_grid",
    "Pymgrid.Noisy.C90_grid_naive",
    "Pymgrid.Noisy.C90_grid_refused",
    "Pymgrid.Noisy.C90_grid_support",
    "Pymgrid.Noisy.C90_no_outage",
    "Pymgrid.Noisy.C90_load",
    "Pymgrid.Noisy.C90_load_mean",
    "Pymgrid.Noisy.C90_pv",
    "Pymgrid.Noisy.C90_pv_total",
    "Pymgrid.Noisy.C90_pv_shape",
    "Pymgrid.Noisy.C90_samples"
   ],
   "note": "Draws, standard deviations and the interpolated curves (quantile regression) are universally quantified."
  },
  {
   "property": "C91",
   "status": "proved",
   "theorems": [
    "Pymgrid.Legacy.C91_replay",
    "Pymgrid.Legacy.C91_total",
    "Pymgrid.Legacy.C91_total_exact",
    "Pymgrid.Legacy.C91_wear",
    "Pymgrid.Legacy.C91_tolerance",
    "Pymgrid.Legacy.C91_outage"
   ],
   "note": "C91_replay (all steps), C91_total and C91_total_exact (returns). Why the agreement is not exact, and why outages are excluded: C91_wear, C91_tolerance, C91_outage."
  },
  {
   "property": "C92",
   "status": "proved",
   "theorems": [
    "Pymgrid.C92_constructors",
    "Pymgrid.C92_units",
    "Pymgrid.C92_rule_based_tolerance",
    "Pymgrid.C92_rule_based_order",
    "Pymgrid.C92_balance_check_has_a_unit"
   ],
   "note": "C92_units, with C92_constructors for the arguments. Outside the claim, with witnesses: rule-based controllers ignore loads below 1/10000 (C92_rule_based_tolerance) and rank gensets by the cost of one unit of energy (C92_rule_based_order); without a balancing module the balance check has an absolute tolerance (C92_balance_check_has_a_unit)."
  },
  {
   "property": "C93",
   "status": "proved",
   "theorems": [
    "Pymgrid.C93_idle",
    "Pymgrid.C93_never_worse",
    "Pymgrid.C93_not_idle"
   ],
   "note": "C93_idle and C93_never_worse. Limits, with witnesses in C93_not_idle: a running genset that takes time to wind down has to be paid for although nothing is requested, and a battery that starts below its minimum capacity, which the constructor accepts, makes every run fail. Grid modules are not covered."
  },
  {
   "property": "C94",
   "status": "partial",
   "theorems": [
    "Pymgrid.Bench.C94_all_partial",
    "Pymgrid.Bench.C94_ratio_partial",
    "Pymgrid.Bench.C94_index_partial",
    "Pymgrid.Bench.C94_parts",
    "Pymgrid.Bench.C94_refused",
    "Pymgrid.Bench.C94_unknown",
    "Pymgrid.Bench.C94_lengths_differ",
    "Pymgrid.Bench.C94_mpc_and_rbc",
    "Pymgrid.Bench.C94_run_benchmarks",
    "Pymgrid.Bench.C94_print_benchmark_cost",
    "Pymgrid.Bench.C94_frame",
    "Pymgrid.Bench.C94_frame_destroys"
   ],
   "note": "Partial because the code violates the rest: MPC makes one step more than rule-based control, so after both have been run nothing can be reported (C94_mpc_and_rbc) and run_benchmarks(verbose=True) always raises (C94_run_benchmarks); print_benchmark_cost always raises IndexError (C94_print_benchmark_cost); to_frame extends the recorded costs by nan (C94_frame_destroys). The action columns and most production columns of the outputs are not modelled; comparisons of outputs (which raise TypeError) neither."
  },
  {
   "property": "C95",
   "status": "partial",
   "theorems": [
    "Pymgrid.C95_contains",
    "Pymgrid.C95_members_run",
    "Pymgrid.C95_normalize",
    "Pymgrid.C95_denormalize_partial",
    "Pymgrid.C95_samples_outside",
    "Pymgrid.C95_one_point"
   ],
   "note": "Partial because the code violates the rest: denormalising leaves the space where the two bounds of a module are equal (C95_one_point), and sample_action returns numbers instead of arrays for batteries and grids, so that its results are never members (C95_samples_outside; they can be run, C45). Names shared by modules of different module types are excluded (DistinctNames); contains of gym's Box, Tuple and Dict is modelled from its documentation."
  },
  {
   "property": "C96",
   "status": "partial",
   "theorems": [
    "Pymgrid.C96_constructors",
    "Pymgrid.C96_total_partial",
    "Pymgrid.C96_earned",
    "Pymgrid.C96_curtailment_shaper",
    "Pymgrid.C96_discharge_shaper"
   ],
   "note": "Partial because the code violates the rest: BatteryDischargeShaper divides by the demand of the modules called \"load\" only, so with it the division changes the reward (C96_discharge_shaper). C96_total_partial holds for no shaper and for every shaper that does not look at the loads (C96_curtailment_shaper: PVCurtailmentShaper). Names shared by modules of different module types and one module under two names are excluded."
  },
  {
   "property": "C97",
   "status": "proved",
   "theorems": [
    "Pymgrid.C97_ceiling",
    "Pymgrid.C97_no_pump",
    "Pymgrid.C97_no_profit"
   ],
   "note": "Weak duality for the whole episode. As in C80 modules have distinct names and ids, all modules are at the same step when the runs begin, and the controls name every controllable module. The bound is attained in an example."
  },
  {
   "property": "C98",
   "status": "partial",
   "theorems": [
    "Pymgrid.C98_planned",
    "Pymgrid.C98_default_partial",
    "Pymgrid.C98_emissions_ignored"
   ],
   "note": "Proved for every list that is ordered by price (C98_planned), and for the default list where the import price never changes, there is at most one grid, and its emissions cost nothing (C98_default_partial). Violated otherwise: the default list compares import prices without the price of emissions (C98_emissions_ignored), and is fixed when the control is made."
  },
  {
   "property": "C99",
   "status": "proved",
   "theorems": [
    "Pymgrid.C99_planned",
    "Pymgrid.C99_planned_earns",
    "Pymgrid.C99_rule_based",
    "Pymgrid.C99_rule_based_earns",
    "Pymgrid.C99_wear_matters",
    "Pymgrid.C99_two_modules"
   ],
   "note": "Batteries with the default transition model. C99_two_modules shows that the restriction to one controllable module is needed: with a genset the default list empties the cheaper battery first and loses load that need not be lost. C99_planned_earns and C99_rule_based_earns carry the result over to rewards when only lost load costs something; C99_wear_matters shows that with a price on using the battery it fails."
  },
  {
   "property": "C100",
   "status": "proved",
   "theorems": [
    "Pymgrid.C100_discharge",
    "Pymgrid.C100_charge",
    "Pymgrid.C100_discharge_succeeds",
    "Pymgrid.C100_charge_succeeds",
    "Pymgrid.C100_wrong_sign_refused",
    "Pymgrid.C100_window",
    "Pymgrid.C100_default",
    "Pymgrid.C100_overfull",
    "Pymgrid.C100_failed_step_discharges"
   ],
   "note": "Findings: a model that charges too much takes the battery beyond max_capacity without any error, after which every charging request raises (C100_overfull); a model that discharges too much makes the step raise after the charge has been changed, with soc left behind (C100_failed_step_discharges)."
  },
  {
   "property": "C101",
   "status": "partial",
   "theorems": [
    "Pymgrid.C101_module_partial",
    "Pymgrid.C101_device",
    "Pymgrid.C101_class",
    "Pymgrid.C101_data_close",
    "Pymgrid.C101_self_partial",
    "Pymgrid.C101_grid_partial",
    "Pymgrid.C101_plain_grid_partial",
    "Pymgrid.C101_tolerance",
    "Pymgrid.C101_not_symmetric",
    "Pymgrid.C101_lengths",
    "Pymgrid.C101_self_raises",
    "Pymgrid.C101_forecast_raises",
    "Pymgrid.C101_type_ignored",
    "Pymgrid.C101_shaper_ignored",
    "Pymgrid.C101_order_ignored"
   ],
   "note": "Partial because the code violates the claim: arrays are compared with np.allclose, so loads that compare equal ask for different amounts (C101_tolerance), == is not symmetric (C101_not_symmetric), series of different lengths raise or are broadcast (C101_lengths), a module with increasing forecast uncertainty cannot be compared with itself (C101_self_raises), nor one without forecasts to one with (C101_forecast_raises); module type, reward shaping function and order of the modules are not compared (C101_type_ignored, C101_shaper_ignored, C101_order_ignored)."
  },
  {
   "property": "C102",
   "status": "proved",
   "theorems": [
    "Pymgrid.C102_battery",
    "Pymgrid.C102_genset",
    "Pymgrid.C102_grid",
    "Pymgrid.C102_upgrade",
    "Pymgrid.C102_value",
    "Pymgrid.C102_plain",
    "Pymgrid.C102_shapers",
    "Pymgrid.C102_same_controls",
    "Pymgrid.C102_rule_based",
    "Pymgrid.C102_flexible",
    "Pymgrid.C102_discharge_shaper"
   ],
   "note": "For the best controls; the limits are proved too: the same normalised controls may earn less (C102_same_controls), so may rule-based control (C102_rule_based) and a microgrid with a stronger flexible grid (C102_flexible), and the battery discharge shaper of the library distinguishes zero from a missing amount (C102_discharge_shaper)."
  },
  {
   "property": "C103",
   "status": "partial",
   "theorems": [
    "Pymgrid.MPC.C103_optimal_partial",
    "Pymgrid.MPC.C103_step_partial",
    "Pymgrid.MPC.C103_run_partial",
    "Pymgrid.MPC.C103_phantom"
   ],
   "note": "Violated in general: beyond the end of the data perfect forecasts show the middle of the bounds, and energy is hoarded for that time (C103_phantom: every optimal plan earns -2 where another control earns -1). Proved for microgrids without genset, with a lossless battery, a grid that is never out and pays nothing for exports, if what the forecasts show after the end does not ask for energy (C103_optimal_partial, C103_run_partial); for single steps without forecasts nothing is asked of the future (C103_step_partial). Export prices, losses and outages are excluded because of the findings C66_violated, C69_only_if and C69_outage."
  },
  {
   "property": "C104",
   "status": "proved",
   "theorems": [
    "Pymgrid.C104_lists",
    "Pymgrid.C104_rule_based",
    "Pymgrid.C104_environment"
   ],
   "note": "Microgrids without trajectory functions. Observations are not covered: they are normalised with bounds of the whole series (C88_observations_look_ahead)."
  },
  {
   "property": "C105",
   "status": "proved",
   "theorems": [
    "Pymgrid.C105_battery",
    "Pymgrid.C105_genset",
    "Pymgrid.C105_grid",
    "Pymgrid.C105_balancing",
    "Pymgrid.C105_dearer",
    "Pymgrid.C105_flows",
    "Pymgrid.C105_value",
    "Pymgrid.C105_shapers",
    "Pymgrid.C105_rule_based"
   ],
   "note": "Reward shapers must not read the marginal costs; those of the library do not (C105_shapers). Rule-based control ranks devices by price, so the claim does not extend to it (C105_rule_based)."
  },
  {
   "property": "C106",
   "status": "proved",
   "theorems": [
    "Pymgrid.Legacy.C106_step",
    "Pymgrid.Legacy.C106_episode",
    "Pymgrid.Legacy.C106_first_episode",
    "Pymgrid.Legacy.C106_adequate",
    "Pymgrid.Legacy.C106_generated",
    "Pymgrid.Legacy.C106_outage"
   ],
   "note": "Microgrids with a grid need a full year of data and non-negative emissions (as C54_generated). C106_step and C106_episode hold for every convertible legacy microgrid with an adequate genset or a grid that never fails; C106_outage shows that the grid alone does not do if it fails."
  },
  {
   "property": "C107",
   "status": "proved",
   "theorems": [
    "Pymgrid.C107_weak_iff",
    "Pymgrid.C107_strong",
    "Pymgrid.C107_down",
    "Pymgrid.C107_converted",
    "Pymgrid.C107_outside_episode"
   ],
   "note": "weak_grid looks at the whole series, not only at the episode (C107_outside_episode). C107_strong asks for a forecaster that does not fail, as all theorems on successful steps."
  },
  {
   "property": "C108",
   "status": "proved",
   "theorems": [
    "Pymgrid.C108_problem",
    "Pymgrid.C108_steps",
    "Pymgrid.C108_run",
    "Pymgrid.C108_foresight",
    "Pymgrid.C108_limit"
   ],
   "note": "C108_foresight says which constructor calls give modules that forecast alike. The conversion that the constructor of the control makes looks at whole series, so that both microgrids have to be accepted (C108_run). Steps so close to the end of the data that forecasts are padded are not covered: the padding comes from bounds of the whole series. C108_limit shows that the window cannot be shorter."
  },
  {
   "property": "C109",
   "status": "proved",
   "theorems": [
    "Pymgrid.Legacy.C109_run",
    "Pymgrid.Legacy.C109_rule_based",
    "Pymgrid.Legacy.C109_mpc",
    "Pymgrid.Legacy.C109_saa",
    "Pymgrid.Legacy.C109_limit",
    "Pymgrid.Legacy.C109_states_ahead"
   ],
   "note": "Compared are production, costs, emissions and states of charge; the recorded states also contain load, PV and grid data of the next row (C109_states_ahead), and both series have to have such a row. The samples of the sample average approximation are an input: how they are drawn is the subject of other properties. C109_limit shows that the bound for model predictive control cannot be lowered."
  },
  {
   "property": "C110",
   "status": "partial",
   "theorems": [
    "Pymgrid.C110_unbalanced",
    "Pymgrid.C110_load",
    "Pymgrid.C110_renewable",
    "Pymgrid.C110_genset_quote",
    "Pymgrid.C110_genset_partial",
    "Pymgrid.C110_genset_scale",
    "Pymgrid.C110_grid_quote",
    "Pymgrid.C110_grid",
    "Pymgrid.C110_grid_partial",
    "Pymgrid.C110_exports_earn",
    "Pymgrid.C110_emissions",
    "Pymgrid.C110_battery",
    "Pymgrid.C110_battery_partial",
    "Pymgrid.C110_losses",
    "Pymgrid.C110_info"
   ],
   "note": "Holds for loads, renewables and the unbalanced-energy module; C110_info says that get_cost_info lists these quotes. Violated by the code: the grid quotes neither the cost of emissions (C110_emissions) nor the sign of exports, which earn what is quoted as a cost (C110_exports_earn); batteries with losses bill cost / efficiency for discharging and cost * efficiency for charging (C110_battery, C110_losses); a genset with a cost function quotes the cost of its first unit (C110_genset_scale). The partial theorems cover proportional fuel costs, imports without a price of emissions and batteries without losses."
  },
  {
   "property": "C111",
   "status": "partial",
   "theorems": [
    "Pymgrid.C111_equal",
    "Pymgrid.C111_comparable",
    "Pymgrid.C111_weak_order",
    "Pymgrid.C111_ordered_partial",
    "Pymgrid.C111_tie",
    "Pymgrid.C111_library",
    "Pymgrid.C111_tie_reached"
   ],
   "note": "< is a strict weak order and the order used for sorting (C111_weak_order, C111_library), and elements without costs raise TypeError (C111_comparable). Violated by the code: functools.total_ordering derives >, <= and >= from < (cost and action number) and == (all fields), so of two different elements that tie each is greater than the other and neither is less than or equal to the other (C111_tie), as with two batteries of the same cost (C111_tie_reached). C111_ordered_partial covers all other pairs."
  },
  {
   "property": "C112",
   "status": "partial",
   "theorems": [
    "Pymgrid.Legacy.C112_dict",
    "Pymgrid.Legacy.C112_record",
    "Pymgrid.Legacy.C112_raises",
    "Pymgrid.Legacy.C112_never",
    "Pymgrid.Legacy.C112_penalty_partial",
    "Pymgrid.Legacy.C112_zero_partial",
    "Pymgrid.Legacy.C112_reuse"
   ],
   "note": "Violated by the code: on every microgrid with the columns of the generator penalty raises, a KeyError after every run (the record of controls has the column load, the record of production has not) and an IndexError before (C112_raises); wherever the column load stands, as on converted microgrids, it raises (C112_never). The partial theorems give the value for microgrids whose record of controls only has columns of production. C112_record and C112_dict say what run records and what it does to the dict of the caller; handing in the same dict twice records different rows (C112_reuse)."
  },
  {
   "property": "C113",
   "status": "proved",
   "theorems": [
    "Pymgrid.Validation.C113_mape",
    "Pymgrid.Validation.C113_refused",
    "Pymgrid.Validation.C113_zero",
    "Pymgrid.Validation.C113_unit"
   ],
   "note": "mape on pandas series, with inf and nan as values; in exact arithmetic. The aggregation by validate_forecasts (a root mean square) is not modelled."
  },
  {
   "property": "C114",
   "status": "partial",
   "theorems": [
    "Pymgrid.Validation.C114_valid",
    "Pymgrid.Validation.C114_count",
    "Pymgrid.Validation.C114_extremes",
    "Pymgrid.Validation.C114_repeats",
    "Pymgrid.Validation.C114_once_partial"
   ],
   "note": "Validity, the number of sets and the presence of the extremes are proved for all arguments. Violated by the code: as soon as the noise takes two values sets are repeated, since all ranges that begin at 1 are the same (C114_repeats); C114_once_partial is the case of one value."
  },
  {
   "property": "C115",
   "status": "proved",
   "theorems": [
    "Pymgrid.Legacy.C115_true",
    "Pymgrid.Legacy.C115_length",
    "Pymgrid.Legacy.C115_split"
   ],
   "note": "For series of the grid as long as those of load and PV (FullSeries). The comparison with later runs is proved on unsplit data; on split data C115_split says which part of the data an entry comes from."
  },
  {
   "property": "C116",
   "status": "partial",
   "theorems": [
    "Pymgrid.Rank.C116_costs_partial",
    "Pymgrid.Rank.C116_raises",
    "Pymgrid.Rank.C116_equal",
    "Pymgrid.Rank.C116_mixed",
    "Pymgrid.Rank.C116_unequal",
    "Pymgrid.Rank.C116_library",
    "Pymgrid.Rank.C116_violated",
    "Pymgrid.Rank.C116_sets",
    "Pymgrid.Rank.C116_errors",
    "Pymgrid.Rank.C116_untested",
    "Pymgrid.Rank.C116_best",
    "Pymgrid.Rank.C116_cheapest_partial"
   ],
   "note": "Violated by the code: the costs of an output of any algorithm are a dict of records, which np.sum returns as it is, so that < and > raise TypeError for any two runs and == compares the records step by step (C116_raises, C116_library, C116_equal); != is inherited from dict and compares everything (C116_violated, C116_sets). Proved for outputs that were given lists of numbers (C116_costs_partial, C116_cheapest_partial) and for tested parameter sets (C116_errors, C116_best); sets not tested are all equal and not ordered (C116_untested)."
  },
  {
   "property": "C117",
   "status": "partial",
   "theorems": [
    "Pymgrid.Legacy.C117_feasible",
    "Pymgrid.Legacy.C117_not_clipped",
    "Pymgrid.Legacy.C117_total",
    "Pymgrid.Legacy.C117_serves_partial",
    "Pymgrid.Legacy.C117_run_partial",
    "Pymgrid.Legacy.C117_limits",
    "Pymgrid.Legacy.C117_surplus_partial",
    "Pymgrid.Legacy.C117_down",
    "Pymgrid.Legacy.C117_outage",
    "Pymgrid.Legacy.C117_charges_from_nothing",
    "Pymgrid.Legacy.C117_charged_twice"
   ],
   "note": "Feasibility, totality on the action space and execution of the battery request are proved for all states. Violated by the code: without a generator outages are ignored (C117_outage); with one, charging from the grid goes on in an outage with energy that nothing provides (C117_charges_from_nothing); charging from the grid with a surplus subtracts the charge twice, so that energy is lost (C117_charged_twice). C117_serves_partial, C117_surplus_partial and C117_run_partial are the remaining cases."
  },
  {
   "property": "C118",
   "status": "partial",
   "theorems": [
    "Pymgrid.Legacy.C118_continuous_partial",
    "Pymgrid.Legacy.C118_exclusive",
    "Pymgrid.Legacy.C118_both",
    "Pymgrid.Legacy.C118_genset_beyond",
    "Pymgrid.Legacy.C118_reachable",
    "Pymgrid.Legacy.C118_discrete",
    "Pymgrid.Legacy.C118_wrong_space"
   ],
   "note": "Proved for the discrete environment (C118_discrete; the discrete controls need not respect the state of charge, which run checks). For continuous actions with entries between 0 and 1, as described, all limits hold but the maximum of the generator (C118_continuous_partial, C118_exclusive for switches 0 and 1, C118_reachable). Violated by the code: a full action asks the generator for its rated power (C118_genset_beyond); switches between 0 and 1 charge and discharge at once (C118_both); the action space of the continuous environment is the discrete one, whose actions ask for multiples of the rate (C118_wrong_space)."
  },
  {
   "property": "C119",
   "status": "partial",
   "theorems": [
    "Pymgrid.Legacy.C119_clock",
    "Pymgrid.Legacy.C119_trajectory_partial",
    "Pymgrid.Legacy.C119_first",
    "Pymgrid.Legacy.C119_longer",
    "Pymgrid.Legacy.C119_limit",
    "Pymgrid.Legacy.C119_all",
    "Pymgrid.Legacy.C119_within",
    "Pymgrid.Legacy.C119_reset",
    "Pymgrid.Legacy.C119_starts",
    "Pymgrid.Legacy.C119_violated"
   ],
   "note": "The clock is that of the legacy microgrid (C119_clock). Proved: time never leaves the data (C119_within), reset gives what the constructor gives (C119_reset), without max_episode_len a trajectory of n ends with step n and all rows but the first are right (C119_trajectory_partial), without limits all rows are run (C119_all). Violated by the code: the values of the first step were read before the start was drawn, from row 0 (C119_first, C119_violated); with max_episode_len there is a step too many (C119_longer, C119_limit); the last start that fits is never drawn and a trajectory as long as the data raises (C119_starts)."
  },
  {
   "property": "C120",
   "status": "partial",
   "theorems": [
    "Pymgrid.Legacy.C120_scales",
    "Pymgrid.Legacy.C120_roundtrip",
    "Pymgrid.Legacy.C120_genset",
    "Pymgrid.Legacy.C120_limits_partial",
    "Pymgrid.Legacy.C120_export",
    "Pymgrid.Legacy.C120_violated"
   ],
   "note": "The scales are at least one, so that standardising can be undone (C120_scales, C120_roundtrip); without a generator all limits but that of exports hold (C120_limits_partial). Violated by the code: with a generator the constructor looks up five names joined into one and raises KeyError (C120_genset); the upper bound of exports is set to 0.1 standard deviations above the mean whatever the limit (C120_export), so that actions may ask for more than the limit or for less than one unit at most (C120_violated). Means and deviations of the run of model predictive control are inputs."
  },
  {
   "property": "C121",
   "status": "partial",
   "theorems": [
    "Pymgrid.Legacy.C121_count",
    "Pymgrid.Legacy.C121_inequalities_partial",
    "Pymgrid.Legacy.C121_balance",
    "Pymgrid.Legacy.C121_no_grid",
    "Pymgrid.Legacy.C121_stale",
    "Pymgrid.Legacy.C121_negative"
   ],
   "note": "Proved: the number of values (C121_count), the meaning of the inequality values for the observation they are computed from (C121_inequalities_partial, C121_balance), with and without scaling by positive factors. Violated by the code: without a grid it raises (C121_no_grid); the observation is the one after the step, so that charging all that may be charged counts as a violation (C121_stale). Constraints have one side: negative imports and, within the tolerance, negative generation pass (C121_negative). How get_values finds the values is left out."
  }
 ]
}