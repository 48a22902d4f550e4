import Lean.Elab.Command
import Lean.Util.CollectAxioms
import Verif.Props.Access
import Verif.Props.Agent
import Verif.Props.AgentActions
import Verif.Props.AgentVectors
import Verif.Props.BalanceLog
import Verif.Props.Battery
import Verif.Props.Benchmarks
import Verif.Props.Callable
import Verif.Props.Comparison
import Verif.Props.Contains
import Verif.Props.Continuous
import Verif.Props.Convert
import Verif.Props.Currency
import Verif.Props.CustomBattery
import Verif.Props.DataGenerator
import Verif.Props.Dual
import Verif.Props.Env
import Verif.Props.EnvObs
import Verif.Props.Episode
import Verif.Props.Equality
import Verif.Props.FileDump
import Verif.Props.FlexSample
import Verif.Props.ForecastArgs
import Verif.Props.Foreseen
import Verif.Props.Foresight
import Verif.Props.Generator
import Verif.Props.Genset
import Verif.Props.GetLog
import Verif.Props.Greedy
import Verif.Props.GridForecast
import Verif.Props.GridSerialize
import Verif.Props.GridSetters
import Verif.Props.Ledger
import Verif.Props.Legacy
import Verif.Props.LegacyForecast
import Verif.Props.LegacyMPC
import Verif.Props.LegacyMPCInit
import Verif.Props.LegacyPast
import Verif.Props.LegacyRBC
import Verif.Props.LegacySplit
import Verif.Props.Loads
import Verif.Props.Log
import Verif.Props.MPC
import Verif.Props.Microgrid
import Verif.Props.ModularMPC
import Verif.Props.NoLookahead
import Verif.Props.Normalize
import Verif.Props.Observe
import Verif.Props.Optimal
import Verif.Props.Order
import Verif.Props.Penalty
import Verif.Props.PlanCarried
import Verif.Props.PriorityList
import Verif.Props.Quotes
import Verif.Props.RBCRun
import Verif.Props.Ranking
import Verif.Props.RationalPlans
import Verif.Props.Reproduce
import Verif.Props.Revert
import Verif.Props.SAA
import Verif.Props.SafeEnv
import Verif.Props.Sample
import Verif.Props.Serialize
import Verif.Props.Series
import Verif.Props.Served
import Verif.Props.Setters
import Verif.Props.Shaper
import Verif.Props.ShortEpisode
import Verif.Props.Simulate
import Verif.Props.Space
import Verif.Props.Spare
import Verif.Props.Standardize
import Verif.Props.StateSeries
import Verif.Props.Strict
import Verif.Props.Sunnier
import Verif.Props.Tariff
import Verif.Props.Trajectory
import Verif.Props.Units
import Verif.Props.Upgrade
import Verif.Props.WeakGrid
import Verif.Props.Window
import Verif.Props.Wrap

/-!
Generated by `tools/manifest.py`: fails to build if a property theorem depends on anything but
`propext`, `Classical.choice` and `Quot.sound`.
-/

open Lean Elab Command in
/-- Check the axioms of the named theorems. -/
elab "#check_axioms " ids:ident* : command => do
  for id in ids do
    let n ← liftCoreM <| realizeGlobalConstNoOverloadWithInfo id
    for a in ← liftCoreM (collectAxioms n) do
      unless [``propext, ``Classical.choice, ``Quot.sound].contains a do
        throwErrorAt id "{n} depends on {a}"

#check_axioms
  Pymgrid.C78_accepted
  Pymgrid.C78_levels
  Pymgrid.C78_list
  Pymgrid.C78_by_name_partial
  Pymgrid.C78_lowest
  Pymgrid.C78_shadowed
  Pymgrid.C78_contains
  Pymgrid.C78_attribute
  Pymgrid.C78_names
  Pymgrid.C78_item
  Pymgrid.C78_clash
  Pymgrid.C89_agent
  Pymgrid.C89_training
  Pymgrid.Legacy.C117_feasible
  Pymgrid.Legacy.C117_not_clipped
  Pymgrid.Legacy.C117_total
  Pymgrid.Legacy.C117_serves_partial
  Pymgrid.Legacy.C117_run_partial
  Pymgrid.Legacy.C117_limits
  Pymgrid.Legacy.C117_surplus_partial
  Pymgrid.Legacy.C117_down
  Pymgrid.Legacy.C117_outage
  Pymgrid.Legacy.C117_charges_from_nothing
  Pymgrid.Legacy.C117_charged_twice
  Pymgrid.Legacy.C118_continuous_partial
  Pymgrid.Legacy.C118_exclusive
  Pymgrid.Legacy.C118_both
  Pymgrid.Legacy.C118_genset_beyond
  Pymgrid.Legacy.C118_reachable
  Pymgrid.Legacy.C118_discrete
  Pymgrid.Legacy.C118_wrong_space
  Pymgrid.C24_balance_log
  Pymgrid.C24_one_row_per_step
  Pymgrid.C57_balance_row
  Pymgrid.C01_charge_in_window
  Pymgrid.C02_energy_accounting
  Pymgrid.C03_no_free_energy
  Pymgrid.C04_discharge
  Pymgrid.C04_charge
  Pymgrid.C05_soc_consistent_partial
  Pymgrid.C05_violated
  Pymgrid.C06_reward
  Pymgrid.C50_action_space_partial
  Pymgrid.C50_violated
  Pymgrid.Bench.C94_all_partial
  Pymgrid.Bench.C94_ratio_partial
  Pymgrid.Bench.C94_index_partial
  Pymgrid.Bench.C94_parts
  Pymgrid.Bench.C94_refused
  Pymgrid.Bench.C94_unknown
  Pymgrid.Bench.C94_lengths_differ
  Pymgrid.Bench.C94_mpc_and_rbc
  Pymgrid.Bench.C94_run_benchmarks
  Pymgrid.Bench.C94_print_benchmark_cost
  Pymgrid.Bench.C94_frame
  Pymgrid.Bench.C94_frame_destroys
  Pymgrid.C82_tried
  Pymgrid.C82_wrong_sign_refused
  Pymgrid.C82_wrong_number_refused
  Pymgrid.C82_honest_accepted
  Pymgrid.C82_forecast
  Pymgrid.C82_scalar_forecast_partial
  Pymgrid.C82_scalar_end_fails
  Pymgrid.C82_lists_fail
  Pymgrid.C82_flat_arrays_fail
  Pymgrid.C82_grid_fails
  Pymgrid.C82_grid_setter_fails
  Pymgrid.C82_set_tried
  Pymgrid.C82_set_horizon
  Pymgrid.C82_refused_setter_fails
  Pymgrid.C82_steps_ahead_fails
  Pymgrid.C111_equal
  Pymgrid.C111_comparable
  Pymgrid.C111_weak_order
  Pymgrid.C111_ordered_partial
  Pymgrid.C111_tie
  Pymgrid.C111_library
  Pymgrid.C111_tie_reached
  Pymgrid.C95_contains
  Pymgrid.C95_members_run
  Pymgrid.C95_normalize
  Pymgrid.C95_denormalize_partial
  Pymgrid.C95_samples_outside
  Pymgrid.C95_one_point
  Pymgrid.C77_checked
  Pymgrid.C77_flat_rejected
  Pymgrid.C77_only_empty_action
  Pymgrid.C77_load_no_step
  Pymgrid.C77_controllable_no_step
  Pymgrid.C77_flexible_partial
  Pymgrid.Legacy.C54_accepted_iff
  Pymgrid.Legacy.C54_components_partial
  Pymgrid.Legacy.C54_battery_tracks
  Pymgrid.Legacy.C54_battery_limits
  Pymgrid.Legacy.C54_rewards
  Pymgrid.Legacy.C54_usable
  Pymgrid.Legacy.C54_generated
  Pymgrid.Legacy.C54_state
  Pymgrid.Legacy.C54_soc_max_ignored
  Pymgrid.Legacy.C54_stale_soc
  Pymgrid.C86_constructors
  Pymgrid.C86_currency
  Pymgrid.C86_rule_based
  Pymgrid.C86_noise_has_a_currency
  Pymgrid.C100_discharge
  Pymgrid.C100_charge
  Pymgrid.C100_discharge_succeeds
  Pymgrid.C100_charge_succeeds
  Pymgrid.C100_wrong_sign_refused
  Pymgrid.C100_window
  Pymgrid.C100_default
  Pymgrid.C100_overfull
  Pymgrid.C100_failed_step_discharges
  Pymgrid.Noisy.C90_grid
  Pymgrid.Noisy.C90_grid_naive
  Pymgrid.Noisy.C90_grid_refused
  Pymgrid.Noisy.C90_grid_support
  Pymgrid.Noisy.C90_no_outage
  Pymgrid.Noisy.C90_load
  Pymgrid.Noisy.C90_load_mean
  Pymgrid.Noisy.C90_pv
  Pymgrid.Noisy.C90_pv_total
  Pymgrid.Noisy.C90_pv_shape
  Pymgrid.Noisy.C90_samples
  Pymgrid.Noisy.C79_sampled_partial
  Pymgrid.MPC.C79_step_partial
  Pymgrid.MPC.C79_run_partial
  Pymgrid.MPC.C79_steps
  Pymgrid.MPC.C79_cheapest
  Pymgrid.MPC.C79_rank
  Pymgrid.MPC.C79_samples
  Pymgrid.MPC.C79_states
  Pymgrid.MPC.C79_nonanticipative
  Pymgrid.MPC.C79_foresight
  Pymgrid.MPC.C79_reuse
  Pymgrid.MPC.C79_second_run
  Pymgrid.MPC.C79_percentile_one
  Pymgrid.MPC.C79_percentile_refused
  Pymgrid.MPC.C79_cost_partial
  Pymgrid.MPC.C79_misranked
  Pymgrid.C97_ceiling
  Pymgrid.C97_no_pump
  Pymgrid.C97_no_profit
  Pymgrid.C39_create
  Pymgrid.C39_order
  Pymgrid.C39_remove_partial
  Pymgrid.C39_last_action
  Pymgrid.C39_invalid_partial
  Pymgrid.C39_valid
  Pymgrid.C39_rejected_action_log
  Pymgrid.C49_environment_log
  Pymgrid.C49_log_partial
  Pymgrid.C49_no_modules
  Pymgrid.C49_trajectory_fails
  Pymgrid.C49_failed_run
  Pymgrid.C49_balance_name
  Pymgrid.C72_space_partial
  Pymgrid.C72_flat_step_partial
  Pymgrid.C72_flat_reset_partial
  Pymgrid.C72_reserved_names
  Pymgrid.C72_nested_step_partial
  Pymgrid.C72_nested_reset
  Pymgrid.C72_discrete_partial
  Pymgrid.C72_scalar_observation
  Pymgrid.C72_shared_name
  Pymgrid.C72_keyed_partial
  Pymgrid.C72_keys
  Pymgrid.C22_done_at_final_step
  Pymgrid.C22_no_modules
  Pymgrid.C22_done_at_trajectory_end
  Pymgrid.C23_run_advances_all
  Pymgrid.C23_reset_aligns_all
  Pymgrid.C23_lockstep_history
  Pymgrid.C34_one_step_each_partial
  Pymgrid.C34_not_for_all_names
  Pymgrid.C33_list_view
  Pymgrid.C33_place
  Pymgrid.C33_nothing_else
  Pymgrid.C33_kept
  Pymgrid.C41_rejects_bad_trajectory
  Pymgrid.C41_rejection_is_ValueError
  Pymgrid.C41_episode_in_range_partial
  Pymgrid.C41_later_calls_unchecked
  Pymgrid.C47_missing_control_partial
  Pymgrid.C47_not_atomic
  Pymgrid.C101_module_partial
  Pymgrid.C101_device
  Pymgrid.C101_class
  Pymgrid.C101_data_close
  Pymgrid.C101_self_partial
  Pymgrid.C101_grid_partial
  Pymgrid.C101_plain_grid_partial
  Pymgrid.C101_tolerance
  Pymgrid.C101_not_symmetric
  Pymgrid.C101_lengths
  Pymgrid.C101_self_raises
  Pymgrid.C101_forecast_raises
  Pymgrid.C101_type_ignored
  Pymgrid.C101_shaper_ignored
  Pymgrid.C101_order_ignored
  Pymgrid.C64_same_as_string_partial
  Pymgrid.C64_last_wins
  Pymgrid.C64_violated
  Pymgrid.C64_two_loads
  Pymgrid.C45_flex_sample_partial
  Pymgrid.C45_strict_sample_partial
  Pymgrid.C45_load_sample
  Pymgrid.C45_genset_strict_sample
  Pymgrid.C45_balancing_sample
  Pymgrid.C45_sample_runs_partial
  Pymgrid.C45_strict_sample_genset_microgrid
  Pymgrid.Validation.C113_mape
  Pymgrid.Validation.C113_refused
  Pymgrid.Validation.C113_zero
  Pymgrid.Validation.C113_unit
  Pymgrid.Validation.C114_valid
  Pymgrid.Validation.C114_count
  Pymgrid.Validation.C114_extremes
  Pymgrid.Validation.C114_repeats
  Pymgrid.Validation.C114_once_partial
  Pymgrid.C108_problem
  Pymgrid.C108_steps
  Pymgrid.C108_run
  Pymgrid.C108_foresight
  Pymgrid.C108_limit
  Pymgrid.MPC.C103_optimal_partial
  Pymgrid.MPC.C103_step_partial
  Pymgrid.MPC.C103_run_partial
  Pymgrid.MPC.C103_phantom
  Pymgrid.Legacy.Generator.C56_profile
  Pymgrid.Legacy.Generator.C56_timestep
  Pymgrid.Legacy.Generator.C56_year
  Pymgrid.Legacy.Generator.C55_total
  Pymgrid.Legacy.Generator.C55_sizes
  Pymgrid.Legacy.Generator.C55_architecture
  Pymgrid.Legacy.Generator.C55_series
  Pymgrid.Legacy.Generator.C55_baseline
  Pymgrid.C08_start_up
  Pymgrid.C08_wind_down
  Pymgrid.C09_abort
  Pymgrid.C10_machine_total
  Pymgrid.C10_invalid_request
  Pymgrid.C10_module_history
  Pymgrid.C11_violated_start
  Pymgrid.C11_violated_stop
  Pymgrid.C11_no_abortion_partial
  Pymgrid.C12_output
  Pymgrid.C12_exact
  Pymgrid.C99_planned
  Pymgrid.C99_planned_earns
  Pymgrid.C99_rule_based
  Pymgrid.C99_rule_based_earns
  Pymgrid.C99_wear_matters
  Pymgrid.C99_two_modules
  Pymgrid.C74_all_modules
  Pymgrid.C74_rest
  Pymgrid.C74_reported
  Pymgrid.C74_horizon
  Pymgrid.C74_forecasts_partial
  Pymgrid.C74_named_ignored
  Pymgrid.C74_unknown_name
  Pymgrid.C74_stale_space
  Pymgrid.C74_lost_on_dump
  Pymgrid.C63_dump_load
  Pymgrid.C63_modules
  Pymgrid.C63_resume_partial
  Pymgrid.C63_after_reset_partial
  Pymgrid.C63_cannot_continue
  Pymgrid.C63_shaper_lost
  Pymgrid.C63_shared_name
  Pymgrid.C75_range_partial
  Pymgrid.C75_no_modules
  Pymgrid.C75_rejected_final_changes
  Pymgrid.C75_initial_unchecked
  Pymgrid.C75_final_unchecked
  Pymgrid.C75_log_fails
  Pymgrid.C80_exchanges
  Pymgrid.C80_rewards
  Pymgrid.C80_bills
  Pymgrid.C80_energy
  Pymgrid.C80_unserved
  Pymgrid.Legacy.C51_run_partial
  Pymgrid.Legacy.C51_fails_iff
  Pymgrid.Legacy.C51_small_genset
  Pymgrid.Legacy.C51_outage
  Pymgrid.Legacy.C51_assertion
  Pymgrid.Legacy.C52_grid_partial
  Pymgrid.Legacy.C52_islanded_partial
  Pymgrid.Legacy.C52_violated
  Pymgrid.Legacy.C60_cost
  Pymgrid.Legacy.C61_next_step_partial
  Pymgrid.Legacy.C61_first_row
  Pymgrid.Legacy.C61_hour
  Pymgrid.Legacy.C115_true
  Pymgrid.Legacy.C115_length
  Pymgrid.Legacy.C115_split
  Pymgrid.MPC.C67_step_partial
  Pymgrid.MPC.C67_as_planned
  Pymgrid.MPC.C67_possible
  Pymgrid.MPC.C67_run_partial
  Pymgrid.MPC.C67_too_long
  Pymgrid.MPC.C67_infeasible
  Pymgrid.MPC.C67_violated
  Pymgrid.MPC.C67_clipped
  Pymgrid.MPC.C67_accepted
  Pymgrid.Legacy.C109_run
  Pymgrid.Legacy.C109_rule_based
  Pymgrid.Legacy.C109_mpc
  Pymgrid.Legacy.C109_saa
  Pymgrid.Legacy.C109_limit
  Pymgrid.Legacy.C109_states_ahead
  Pymgrid.Legacy.C53_nonneg
  Pymgrid.Legacy.C53_battery
  Pymgrid.Legacy.C53_covers_partial
  Pymgrid.Legacy.C53_forced_partial
  Pymgrid.Legacy.C53_double_minimum
  Pymgrid.Legacy.C53_merit_order
  Pymgrid.Legacy.C53_grid_down
  Pymgrid.Legacy.C53_unserved
  Pymgrid.Legacy.C53_unlimited
  Pymgrid.Legacy.C53_baseline_partial
  Pymgrid.Legacy.C53_baseline_soc
  Pymgrid.Legacy.C53_zero_load
  Pymgrid.Legacy.C85_reset_partial
  Pymgrid.Legacy.C85_split_partial
  Pymgrid.Legacy.C85_first_state
  Pymgrid.Legacy.C85_second_split
  Pymgrid.Legacy.C85_cancel_splits
  Pymgrid.Legacy.C85_unsplit
  Pymgrid.Legacy.C85_horizon_one
  Pymgrid.Legacy.C85_short_part
  Pymgrid.C96_constructors
  Pymgrid.C96_total_partial
  Pymgrid.C96_earned
  Pymgrid.C96_curtailment_shaper
  Pymgrid.C96_discharge_shaper
  Pymgrid.C25_reward_and_energy
  Pymgrid.C25_state_partial
  Pymgrid.C25_genset_state_partial
  Pymgrid.C25_not_for_gensets
  Pymgrid.MPC.C65_plans
  Pymgrid.MPC.C65_all_plans
  Pymgrid.MPC.C65_exists
  Pymgrid.MPC.C65_answer
  Pymgrid.MPC.C65_control
  Pymgrid.MPC.C66_objective
  Pymgrid.MPC.C66_minimal_partial
  Pymgrid.MPC.C66_never_sells_pv
  Pymgrid.MPC.C66_violated
  Pymgrid.C18_energy_balance
  Pymgrid.C18_never_unbalanced
  Pymgrid.C19_run_succeeds
  Pymgrid.C19_missing_control_rejected
  Pymgrid.C19_missing_control_is_ValueError
  Pymgrid.C20_greedy_dispatch
  Pymgrid.C20_last_resort
  Pymgrid.C21_reward_is_sum
  Pymgrid.C21_shaped_reward
  Pymgrid.C21_shaping_only_changes_reward
  Pymgrid.MPC.C68_accepts
  Pymgrid.MPC.C68_rejects
  Pymgrid.MPC.C68_problem_partial
  Pymgrid.MPC.C68_run_partial
  Pymgrid.MPC.C68_too_long
  Pymgrid.MPC.C68_no_source
  Pymgrid.C104_lists
  Pymgrid.C104_rule_based
  Pymgrid.C104_environment
  Pymgrid.C28_to_normalized
  Pymgrid.C28_from_normalized
  Pymgrid.C28_round_trip
  Pymgrid.C28_space_entries
  Pymgrid.C28_space_round_trip
  Pymgrid.C28_space_series
  Pymgrid.C28_action_space_agrees
  Pymgrid.C59_normalized_run
  Pymgrid.C58_step
  Pymgrid.C58_reset
  Pymgrid.C29_action_range
  Pymgrid.C29_step
  Pymgrid.C29_every_action
  Pymgrid.C29_wrong_length
  Pymgrid.C26_counter_and_log
  Pymgrid.C26_series_partial
  Pymgrid.C26_balancing
  Pymgrid.C26_state_kept
  Pymgrid.C26_storage_partial
  Pymgrid.C26_not_restored
  Pymgrid.C98_planned
  Pymgrid.C98_default_partial
  Pymgrid.C98_emissions_ignored
  Pymgrid.C84_order
  Pymgrid.C84_any_order
  Pymgrid.C84_shapers
  Pymgrid.C84_flex_order_matters
  Pymgrid.Legacy.C112_dict
  Pymgrid.Legacy.C112_record
  Pymgrid.Legacy.C112_raises
  Pymgrid.Legacy.C112_never
  Pymgrid.Legacy.C112_penalty_partial
  Pymgrid.Legacy.C112_zero_partial
  Pymgrid.Legacy.C112_reuse
  Pymgrid.MPC.C69_as_planned_partial
  Pymgrid.MPC.C69_step_partial
  Pymgrid.MPC.C69_only_if
  Pymgrid.MPC.C69_outage
  Pymgrid.MPC.C70_charged
  Pymgrid.MPC.C70_difference
  Pymgrid.MPC.C70_as_billed_partial
  Pymgrid.MPC.C70_wear
  Pymgrid.MPC.C70_emissions
  Pymgrid.C35_priority_lists_partial
  Pymgrid.C35_shared_name
  Pymgrid.C37_default_list
  Pymgrid.C37_user_list
  Pymgrid.C36_plan_partial
  Pymgrid.C36_realised
  Pymgrid.C36_rbc_run
  Pymgrid.C36_below_minimum
  Pymgrid.C38_default_actions
  Pymgrid.C38_never_started
  Pymgrid.C38_zero_minimum_partial
  Pymgrid.C38_loss_of_load
  Pymgrid.C110_unbalanced
  Pymgrid.C110_load
  Pymgrid.C110_renewable
  Pymgrid.C110_genset_quote
  Pymgrid.C110_genset_partial
  Pymgrid.C110_genset_scale
  Pymgrid.C110_grid_quote
  Pymgrid.C110_grid
  Pymgrid.C110_grid_partial
  Pymgrid.C110_exports_earn
  Pymgrid.C110_emissions
  Pymgrid.C110_battery
  Pymgrid.C110_battery_partial
  Pymgrid.C110_losses
  Pymgrid.C110_info
  Pymgrid.C81_whole_episode
  Pymgrid.C81_enough_steps
  Pymgrid.Rank.C116_costs_partial
  Pymgrid.Rank.C116_raises
  Pymgrid.Rank.C116_equal
  Pymgrid.Rank.C116_mixed
  Pymgrid.Rank.C116_unequal
  Pymgrid.Rank.C116_library
  Pymgrid.Rank.C116_violated
  Pymgrid.Rank.C116_sets
  Pymgrid.Rank.C116_errors
  Pymgrid.Rank.C116_untested
  Pymgrid.Rank.C116_best
  Pymgrid.Rank.C116_cheapest_partial
  Pymgrid.MPC.C71_served
  Pymgrid.MPC.C71_no_waste
  Pymgrid.MPC.C71_pv_first
  Pymgrid.MPC.C71_one_way
  Pymgrid.MPC.C71_grid_first
  Pymgrid.MPC.C71_pv_before_genset
  Pymgrid.MPC.C71_genset_first
  Pymgrid.MPC.C71_genset_serves
  Pymgrid.C83_reproducible_partial
  Pymgrid.C83_no_storage
  Pymgrid.C83_battery_fails
  Pymgrid.C83_genset_fails
  Pymgrid.Legacy.C62_accepted_iff
  Pymgrid.Legacy.C62_round_trip_partial
  Pymgrid.Legacy.C62_demand_negated
  Pymgrid.Legacy.C62_modular_again
  Pymgrid.Legacy.C62_components
  Pymgrid.Legacy.C62_demand_copied
  Pymgrid.Legacy.C62_no_costs
  Pymgrid.Legacy.C62_finished
  Pymgrid.Legacy.C62_first_status
  Pymgrid.Legacy.C62_restarted
  Pymgrid.Legacy.C121_count
  Pymgrid.Legacy.C121_inequalities_partial
  Pymgrid.Legacy.C121_balance
  Pymgrid.Legacy.C121_no_grid
  Pymgrid.Legacy.C121_stale
  Pymgrid.Legacy.C121_negative
  Pymgrid.C43_dump_load
  Pymgrid.C43_reload
  Pymgrid.C43_resume_partial
  Pymgrid.C43_after_reset_partial
  Pymgrid.C43_cannot_continue
  Pymgrid.C43_stale_forecast
  Pymgrid.C43_failed_step_moves_charge
  Pymgrid.C43_forecaster_lost
  Pymgrid.C13_limits_and_outages
  Pymgrid.C13_served_exactly
  Pymgrid.C14_reward_and_co2
  Pymgrid.C15_used_or_curtailed
  Pymgrid.C15_serves
  Pymgrid.C16_load_met
  Pymgrid.C16_succeeds
  Pymgrid.C17_balances_exactly
  Pymgrid.C30_state_in_observation_space
  Pymgrid.C30_forecast_total
  Pymgrid.C30_observation_length
  Pymgrid.C31_oracle_is_true_future
  Pymgrid.C32_series_unchanged
  Pymgrid.C32_forecast_pure
  Pymgrid.C32_setters_partial
  Pymgrid.C32_not_after_assignment
  Pymgrid.C46_load_accepted_iff
  Pymgrid.C46_renewable_accepted_iff
  Pymgrid.C46_mixed_signs_rejected
  Pymgrid.C46_load_bounds
  Pymgrid.C46_renewable_bounds
  Pymgrid.C48_accepted_iff
  Pymgrid.C48_rejected
  Pymgrid.C48_missing_status_is_connected
  Pymgrid.Legacy.C106_step
  Pymgrid.Legacy.C106_episode
  Pymgrid.Legacy.C106_first_episode
  Pymgrid.Legacy.C106_adequate
  Pymgrid.Legacy.C106_generated
  Pymgrid.Legacy.C106_outage
  Pymgrid.C44_after_step_partial
  Pymgrid.C44_after_reset_partial
  Pymgrid.C44_reset_succeeds
  Pymgrid.C44_new_oracle
  Pymgrid.C44_shrinking
  Pymgrid.C44_not_immediately
  Pymgrid.C44_not_for_growing_noise
  Pymgrid.C44_new_renewable_series
  Pymgrid.C44_new_load_series
  Pymgrid.C42_battery_discharge_partial
  Pymgrid.C42_no_failure_within_load
  Pymgrid.C42_loss_ignored
  Pymgrid.C42_pv_curtailment_partial
  Pymgrid.C42_pv_default_name
  Pymgrid.C42_loss_ignored_example
  Pymgrid.C42_charging_hides_discharge
  Pymgrid.C42_export_fails
  Pymgrid.Legacy.C119_clock
  Pymgrid.Legacy.C119_trajectory_partial
  Pymgrid.Legacy.C119_first
  Pymgrid.Legacy.C119_longer
  Pymgrid.Legacy.C119_limit
  Pymgrid.Legacy.C119_all
  Pymgrid.Legacy.C119_within
  Pymgrid.Legacy.C119_reset
  Pymgrid.Legacy.C119_starts
  Pymgrid.Legacy.C119_violated
  Pymgrid.Legacy.C91_replay
  Pymgrid.Legacy.C91_total
  Pymgrid.Legacy.C91_total_exact
  Pymgrid.Legacy.C91_wear
  Pymgrid.Legacy.C91_tolerance
  Pymgrid.Legacy.C91_outage
  Pymgrid.C27_denormalize_normalize
  Pymgrid.C27_normalize_denormalize
  Pymgrid.C27_wrong_length
  Pymgrid.C27_range
  Pymgrid.C93_idle
  Pymgrid.C93_never_worse
  Pymgrid.C93_not_idle
  Pymgrid.Legacy.C120_scales
  Pymgrid.Legacy.C120_roundtrip
  Pymgrid.Legacy.C120_genset
  Pymgrid.Legacy.C120_limits_partial
  Pymgrid.Legacy.C120_export
  Pymgrid.Legacy.C120_violated
  Pymgrid.C73_labels_partial
  Pymgrid.C73_single_quantity
  Pymgrid.C73_series_partial
  Pymgrid.C73_series_fails
  Pymgrid.C73_keyed_fails
  Pymgrid.C73_plain
  Pymgrid.C07_rejects
  Pymgrid.C07_genset_rejects
  Pymgrid.C07_accepts
  Pymgrid.C87_constructors
  Pymgrid.C87_more_sun
  Pymgrid.C87_earned
  Pymgrid.C87_curtailment_shaper
  Pymgrid.C87_negative_emission_price
  Pymgrid.C105_battery
  Pymgrid.C105_genset
  Pymgrid.C105_grid
  Pymgrid.C105_balancing
  Pymgrid.C105_dearer
  Pymgrid.C105_flows
  Pymgrid.C105_value
  Pymgrid.C105_shapers
  Pymgrid.C105_rule_based
  Pymgrid.C40_stochastic_partial
  Pymgrid.C40_stochastic_empty
  Pymgrid.C40_fixed_length_partial
  Pymgrid.C40_fixed_length_rejected
  Pymgrid.C40_full_length_rejected
  Pymgrid.C40_fixed_length_episodes
  Pymgrid.C40_fixed_length_accepted
  Pymgrid.C40_stochastic_reset_fails
  Pymgrid.C92_constructors
  Pymgrid.C92_units
  Pymgrid.C92_rule_based_tolerance
  Pymgrid.C92_rule_based_order
  Pymgrid.C92_balance_check_has_a_unit
  Pymgrid.C102_battery
  Pymgrid.C102_genset
  Pymgrid.C102_grid
  Pymgrid.C102_upgrade
  Pymgrid.C102_value
  Pymgrid.C102_plain
  Pymgrid.C102_shapers
  Pymgrid.C102_same_controls
  Pymgrid.C102_rule_based
  Pymgrid.C102_flexible
  Pymgrid.C102_discharge_shaper
  Pymgrid.C107_weak_iff
  Pymgrid.C107_strong
  Pymgrid.C107_down
  Pymgrid.C107_converted
  Pymgrid.C107_outside_episode
  Pymgrid.C88_constructors
  Pymgrid.C88_overlap
  Pymgrid.C88_window
  Pymgrid.C88_observations_look_ahead
  Pymgrid.C76_wraps_partial
  Pymgrid.C76_episode_partial
  Pymgrid.C76_fixed_length_rejected
  Pymgrid.C76_log_fails
  Pymgrid.C76_range_shrinks
