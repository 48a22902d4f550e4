# Which functions are modelled

Written by `tools/coverage.py`: for every function of the package the definitions of `lean/Verif/Model` whose comments cite
its lines. The reasons for the functions without a definition are given in DESIGN.md.

418 of 650 functions are cited.

## MicrogridGenerator.py

| function | lines | definitions |
|---|---|---|
| `MicrogridGenerator.__init__` | 112-122 | - |
| `MicrogridGenerator._get_random_file` | 128-135 | - |
| `MicrogridGenerator._scale_ts` | 137-148 | `Generator.scaleMax` |
| `MicrogridGenerator._resize_timeseries` | 150-169 | - |
| `MicrogridGenerator._get_pv_ts` | 178-185 | - |
| `MicrogridGenerator._get_load_ts` | 187-194 | - |
| `MicrogridGenerator._get_wind_ts` | 196-203 | - |
| `MicrogridGenerator._get_co2_ts` | 205-212 | - |
| `MicrogridGenerator._get_genset` | 214-228 | - |
| `MicrogridGenerator._get_battery` | 230-243 | `Generator.batteryPower`, `Generator.initialSoc` |
| `MicrogridGenerator._get_grid_price_ts` | 246-251 | - |
| `MicrogridGenerator._get_electricity_tariff` | 253-285 | `Generator.tariff`, `Generator.electricityTariff` |
| `MicrogridGenerator._get_grid` | 288-319 | `Generator.statuses` |
| `MicrogridGenerator._generate_weak_grid_profile` | 321-340 | `Generator.extendBack`, `Generator.extendOutages`, `Generator.weakGridProfile` |
| `MicrogridGenerator._size_mg` | 346-370 | `Generator.sizeGrid`, `Generator.sizePv` |
| `MicrogridGenerator._size_genset` | 372-379 | `Generator.sizeGenset` |
| `MicrogridGenerator._size_battery` | 382-386 | `Generator.sizeBattery` |
| `MicrogridGenerator.generate_microgrid` | 393-405 | `Generate.generate` |
| `MicrogridGenerator.load` | 408-415 | - |
| `MicrogridGenerator._bin_genset_grid` | 417-435 | `Generator.binGensetGrid` |
| `MicrogridGenerator._size_load` | 437-441 | - |
| `MicrogridGenerator._create_microgrid` | 443-603 | `Convert.components`, `Generator.arch`, `Generator.loads`, `Generator.pvs`, `Generator.params`, `Generator.create`, `Legacy.Params`, `Penalty.Production.column`, `Penalty.actionColumns` |
| `MicrogridGenerator.print_mg_parameters` | 609-623 | - |
| `MicrogridGenerator.print_all_costs` | 625-658 | - |

## _deprecated/non_modular_microgrid.py

| function | lines | definitions |
|---|---|---|
| `in_ipynb` | 31-39 | - |
| `Battery.__init__` | 112-123 | - |
| `Genset.__init__` | 162-167 | - |
| `Grid.__init__` | 211-217 | - |
| `NonModularMicrogrid.__init__` | 343-401 | `Legacy.Arch`, `Legacy.Grid`, `Legacy.dataLength`, `Legacy.create`, `LegacySplit.DataSet`, `LegacySplit.SplitGrid`, `LegacySplit.ofGrid` |
| `NonModularMicrogrid._param_check` | 403-440 | - |
| `NonModularMicrogrid.set_horizon` | 444-446 | - |
| `NonModularMicrogrid.set_cost_co2` | 448-450 | - |
| `NonModularMicrogrid.get_data` | 452-454 | - |
| `NonModularMicrogrid.get_training_testing_data` | 456-463 | - |
| `NonModularMicrogrid.get_control_dict` | 465-467 | - |
| `NonModularMicrogrid.get_parameters` | 470-472 | - |
| `NonModularMicrogrid.get_cost` | 475-477 | - |
| `NonModularMicrogrid.get_co2` | 479-481 | - |
| `NonModularMicrogrid.get_updated_values` | 483-499 | - |
| `NonModularMicrogrid.forecast_all` | 502-513 | `LegacyForecast.GridForecast`, `LegacyForecast.LegacyForecast`, `LegacyForecast.SplitGrid.forecastAll`, `LegacyForecast.Grid.forecastAll` |
| `NonModularMicrogrid.forecast_pv` | 516-529 | `LegacyForecast.SplitGrid.forecastOf` |
| `NonModularMicrogrid.forecast_load` | 532-544 | `LegacyForecast.SplitGrid.forecastOf` |
| `NonModularMicrogrid.forecast_grid_status` | 546-561 | `LegacyForecast.SplitGrid.forecastOf` |
| `NonModularMicrogrid.forecast_grid_co2` | 563-578 | `LegacyForecast.SplitGrid.forecastOf` |
| `NonModularMicrogrid.forecast_grid_prices` | 580-602 | `LegacyForecast.SplitGrid.forecastOf` |
| `NonModularMicrogrid.run` | 607-668 | `Legacy.Last`, `Legacy.Production.last`, `Legacy.run`, `LegacySplit.run`, `Penalty.run`, `Revert.Nonmodular.run`, `ShortEpisode.run` |
| `NonModularMicrogrid.train_test_split` | 671-742 | `LegacySplit.part`, `LegacySplit.trainTestSplit` |
| `NonModularMicrogrid.update_variables` | 744-816 | `AgentActions.Grid.agentView`, `Legacy.updateVariables`, `LegacySplit.updateVariables` |
| `NonModularMicrogrid.reset` | 818-848 | `Legacy.reset`, `LegacySplit.reset`, `Penalty.reset`, `ShortEpisode.clear` |
| `NonModularMicrogrid._record_action` | 856-867 | `Penalty.recordAction` |
| `NonModularMicrogrid._update_status` | 870-916 | `Legacy.Params.capaToCharge`, `Legacy.Params.capaToDischarge`, `Legacy.nextRow` |
| `NonModularMicrogrid._check_constraints_genset` | 921-933 | `Legacy.Params.checkGenset` |
| `NonModularMicrogrid._check_constraints_grid` | 935-954 | `Legacy.Params.checkGrid` |
| `NonModularMicrogrid._check_constraints_battery` | 956-987 | `Legacy.Params.checkBattery` |
| `NonModularMicrogrid._record_production` | 989-1080 | `Legacy.settle`, `Legacy.record`, `Penalty.Dict.drop`, `Penalty.run` |
| `NonModularMicrogrid._record_co2` | 1082-1096 | `Legacy.co2Of` |
| `NonModularMicrogrid._record_cost` | 1098-1134 | `Legacy.costsOf`, `Legacy.CostRow`, `Legacy.costRow`, `Revert.Nonmodular.run` |
| `NonModularMicrogrid.print_load_pv` | 1141-1149 | - |
| `NonModularMicrogrid.print_actual_production` | 1151-1158 | - |
| `NonModularMicrogrid.print_control` | 1160-1167 | - |
| `NonModularMicrogrid.print_co2` | 1169-1176 | - |
| `NonModularMicrogrid.print_cumsum_cost` | 1178-1185 | - |
| `NonModularMicrogrid.print_benchmark_cost` | 1189-1205 | `Benchmarks.printBenchmarkCost` |
| `NonModularMicrogrid.print_info` | 1207-1223 | - |
| `NonModularMicrogrid.print_control_info` | 1225-1233 | - |
| `NonModularMicrogrid.print_updated_parameters` | 1235-1241 | - |
| `NonModularMicrogrid.penalty` | 1251-1257 | `Penalty.penaltyOf`, `Penalty.Kept.penalty` |
| `NonModularMicrogrid.from_modular` | 1261-1263 | - |
| `NonModularMicrogrid.to_modular` | 1265-1267 | - |

## _deprecated/Environments/Environment.py

| function | lines | definitions |
|---|---|---|
| `generate_sampler` | 34-44 | - |
| `Environment.__init__` | 57-106 | - |
| `Environment.get_reward` | 108-114 | - |
| `Environment.get_cost` | 116-117 | - |
| `Environment.step` | 121-148 | - |
| `Environment.reset` | 159-173 | - |
| `Environment.get_action` | 176-193 | - |
| `Environment.states` | 195-197 | - |
| `Environment.transition` | 200-213 | - |
| `Environment.seed` | 215-217 | - |
| `Environment.render` | 219-221 | - |
| `Environment.get_action_continuous` | 224-275 | `AgentVectors.continuous` |
| `Environment.get_action_discrete` | 277-312 | `AgentVectors.discrete` |
| `Environment.get_action_priority_list` | 315-346 | `AgentActions.action` |
| `Environment.actions_agent_discret` | 349-359 | `AgentActions.action` |
| `Environment.action_grid` | 361-432 | `AgentActions.AgentView`, `AgentActions.chargePv`, `AgentActions.chargeGrid`, `AgentActions.dischargeNet`, `AgentActions.actionGrid` |
| `Environment.action_grid_genset` | 434-528 | `AgentActions.AgentView`, `AgentActions.chargePv`, `AgentActions.chargeGrid`, `AgentActions.dischargeNet`, `AgentActions.actionGridGenset` |
| `Environment.action_genset` | 530-583 | `AgentActions.AgentView`, `AgentActions.chargePv`, `AgentActions.dischargeNet`, `AgentActions.actionGenset` |

## _deprecated/Environments/Preprocessing.py

| function | lines | definitions |
|---|---|---|
| `normalize_environment_states` | 3-25 | - |
| `sample_reset` | 27-48 | - |

## _deprecated/Environments/pymgrid_csca.py

| function | lines | definitions |
|---|---|---|
| `sample_reset` | 18-39 | - |
| `generate_sampler` | 42-52 | - |
| `MicrogridEnv.__init__` | 58-98 | `ShortEpisode.Episode`, `ShortEpisode.horizonFor`, `ShortEpisode.init` |
| `MicrogridEnv._short_trajectory_set` | 101-110 | `ShortEpisode.Episode`, `ShortEpisode.shortSet` |
| `MicrogridEnv.reset` | 112-121 | `ShortEpisode.Episode`, `ShortEpisode.reset` |
| `MicrogridEnv.step` | 123-152 | `ShortEpisode.Episode`, `ShortEpisode.run` |
| `MicrogridEnv.get_control_dict` | 154-159 | - |
| `MicrogridEnv.run_control` | 161-171 | - |
| `ContinuousMicrogridEnv.__init__` | 178-203 | `Standardize.actionBox` |
| `ContinuousMicrogridEnv._get_action_ub_lb` | 205-233 | `Standardize.actionBounds` |
| `ContinuousMicrogridEnv.get_values` | 237-291 | `SafeEnv.EnvValues` |
| `ContinuousMicrogridEnv.reset` | 293-300 | - |
| `ContinuousMicrogridEnv.step` | 304-351 | `Standardize.stepControl` |
| `ContinuousMicrogridEnv.standardize` | 354-391 | `Standardize.scale1`, `Standardize.standardize` |
| `ContinuousMicrogridEnv.pre_compute_standardizations` | 393-457 | `Standardize.actionKeys`, `Standardize.actionScales` |
| `ContinuousMicrogridEnv.get_control_dict` | 459-484 | `Standardize.envControl` |
| `ContinuousMicrogridSampleEnv.__init__` | 492-498 | - |
| `ContinuousMicrogridSampleEnv.reset` | 500-508 | - |
| `SafeExpMicrogridEnv.__init__` | 515-534 | `SafeEnv.numConstraints` |
| `SafeExpMicrogridEnv.get_num_constraints` | 536-544 | `SafeEnv.numConstraints` |
| `SafeExpMicrogridEnv.get_constraint_values` | 546-558 | `SafeEnv.constraintValues` |
| `SafeExpMicrogridEnv._get_energy_balance` | 560-579 | `SafeEnv.envBalance` |
| `SafeExpMicrogridEnv._get_inequality_constraints` | 581-642 | `SafeEnv.scaledBy`, `SafeEnv.gensetConstraints`, `SafeEnv.inequalities` |
| `SafeExpMicrogridSampleEnv.__init__` | 646-667 | - |
| `SafeExpMicrogridSampleEnv.reset` | 669-672 | - |

## _deprecated/Environments/pymgrid_csca_old.py

| function | lines | definitions |
|---|---|---|
| `MicroGridEnv.__init__` | 20-37 | `AgentVectors.limits` |
| `MicroGridEnv.get_action` | 40-41 | - |

## _deprecated/Environments/pymgrid_csda.py

| function | lines | definitions |
|---|---|---|
| `MicroGridEnv.__init__` | 20-37 | `AgentVectors.limits` |
| `MicroGridEnv.get_action` | 40-41 | - |

## _deprecated/Environments/pymgrid_cspla.py

| function | lines | definitions |
|---|---|---|
| `MicroGridEnv.__init__` | 41-46 | `AgentActions.actionCount` |
| `MicroGridEnv.get_action` | 50-51 | - |

## algos/Control.py

| function | lines | definitions |
|---|---|---|
| `HorizonOutput.__init__` | 30-35 | `SAA.HorizonOutput` |
| `HorizonOutput.compute_cost_over_horizon` | 37-57 | `SAA.horizonCost` |
| `HorizonOutput.__eq__` | 59-62 | `SAA.Selector` |
| `HorizonOutput.__lt__` | 64-67 | `SAA.Selector` |
| `HorizonOutput.__gt__` | 69-72 | `SAA.Selector` |
| `ControlOutput.__init__` | 94-129 | `Benchmarks.Output`, `Benchmarks.outputOf`, `Ranking.Value`, `Ranking.Stored`, `Ranking.stored`, `SAA.runGroup` |
| `ControlOutput.append` | 131-200 | `SAA.appendOutput` |
| `ControlOutput.to_frame` | 202-215 | `Benchmarks.maxLen`, `Benchmarks.padTo`, `Benchmarks.toFrame`, `Ranking.columnsEq` |
| `ControlOutput.__eq__` | 217-220 | `Ranking.npSum`, `Ranking.Stored.eq` |
| `ControlOutput.__lt__` | 222-225 | `Ranking.npSum`, `Ranking.Stored.lt`, `Ranking.minFrom`, `Ranking.pyMin` |
| `ControlOutput.__gt__` | 227-230 | `Ranking.npSum`, `Ranking.Stored.gt` |
| `Benchmarks.__init__` | 258-270 | `Benchmarks.Benchmarks` |
| `Benchmarks.run_mpc_benchmark` | 272-282 | `Benchmarks.Benchmarks`, `Benchmarks.Benchmarks.runMpc` |
| `Benchmarks.run_rule_based_benchmark` | 284-294 | `Benchmarks.Benchmarks.runRuleBased` |
| `Benchmarks.run_saa_benchmark` | 296-301 | `Benchmarks.Benchmarks.runSaa` |
| `Benchmarks.run_benchmarks` | 303-324 | `Benchmarks.Benchmarks.runAll` |
| `Benchmarks.describe_benchmarks` | 326-411 | `Benchmarks.sumCells`, `Benchmarks.totalCosts`, `Benchmarks.Line`, `Benchmarks.reported`, `Benchmarks.linesOf`, `Benchmarks.lengthsOf`, `Benchmarks.checkSplit`, `Benchmarks.report`, `Benchmarks.describe` |

## algos/mpc/mpc.py

| function | lines | definitions |
|---|---|---|
| `ModelPredictiveControl.__init__` | 81-103 | `MPC.width`, `MPC.height`, `MPC.Feasible`, `MPC.createLegacy`, `ModularMPC.Planner`, `ModularMPC.createModular` |
| `ModelPredictiveControl.has_genset` | 106-113 | - |
| `ModelPredictiveControl._verify_microgrid` | 115-128 | - |
| `ModelPredictiveControl._get_modules` | 130-136 | `ModularMPC.Names`, `ModularMPC.getModules` |
| `ModelPredictiveControl._get_horizon` | 138-145 | - |
| `ModelPredictiveControl._parse_microgrid` | 147-170 | - |
| `ModelPredictiveControl._parse_nonmodular_microgrid` | 172-197 | `MPC.parseLegacy` |
| `ModelPredictiveControl._parse_modular_microgrid` | 199-229 | `ModularMPC.batteryOf`, `ModularMPC.parseModular` |
| `ModelPredictiveControl._create_problem` | 231-374 | `MPC.Static`, `MPC.alpha`, `MPC.X`, `MPC.gamma`, `MPC.Y`, `MPC.A`, `MPC.fullBlock`, `MPC.block`, `MPC.C`, `MPC.costs`, `MPC.createLegacy` |
| `ModelPredictiveControl._get_solver` | 376-399 | `MPC.objective` |
| `ModelPredictiveControl._set_parameters` | 401-492 | `MPC.Inputs`, `MPC.equalityRhs`, `MPC.inequalityRhs`, `ModularMPC.modularProblem`, `SAA.singleStep` |
| `ModelPredictiveControl.run` | 494-515 | `MPC.runLegacy`, `ModularMPC.runModular` |
| `ModelPredictiveControl._run_mpc_on_nonmodular` | 517-532 | `MPC.runLegacy` |
| `ModelPredictiveControl._run_mpc_on_modular` | 534-550 | `MPC.runLegacy`, `ModularMPC.modularStep`, `ModularMPC.modularLoop` |
| `ModelPredictiveControl._get_num_iter` | 553-561 | `ModularMPC.iterations` |
| `ModelPredictiveControl._run_mpc_on_sample` | 563-713 | `Benchmarks.outputOf`, `MPC.legacyProblem`, `MPC.legacyStep`, `MPC.legacyFrom`, `Ranking.stored` |
| `ModelPredictiveControl._set_and_solve` | 715-797 | - |
| `ModelPredictiveControl._extract_control_dict` | 799-864 | `MPC.control`, `SAA.horizonCost` |
| `ModelPredictiveControl._extract_modular_control` | 866-896 | `ModularMPC.modularControl` |
| `ModelPredictiveControl._get_modular_state_values` | 898-963 | `ModularMPC.stateOf`, `ModularMPC.GridInputs`, `ModularMPC.gensetCo2Cost`, `ModularMPC.modularProblem` |
| `ModelPredictiveControl.mpc_single_step` | 965-1032 | `SAA.sampleProblem`, `SAA.singleStep` |

## algos/priority_list/priority_list.py

| function | lines | definitions |
|---|---|---|
| `PriorityListAlgo.get_priority_lists` | 15-38 | `Comparison.Element.entry`, `PriorityList.moduleElements`, `PriorityList.collect`, `PriorityList.permutations`, `PriorityList.elements`, `PriorityList.getPriorityLists` |
| `PriorityListAlgo._remove_redundant_actions` | 40-51 | `PriorityList.firstOfModule`, `PriorityList.fromKeys`, `PriorityList.removeActions`, `PriorityList.getPriorityLists` |
| `PriorityListAlgo._remove_redundant_gensets` | 53-67 | `PriorityList.redundantElement`, `PriorityList.redundant`, `PriorityList.getPriorityLists` |
| `PriorityListAlgo._populate_action` | 69-116 | `PriorityList.energyFor`, `PriorityList.lookup`, `PriorityList.populate`, `PriorityList.populateAction` |
| `PriorityListAlgo._consume_in_module` | 118-136 | `PriorityList.consume` |
| `PriorityListAlgo._produce_from_module` | 138-155 | `PriorityList.produce` |
| `PriorityListAlgo._get_load` | 157-164 | `PriorityList.totalLoad` |
| `PriorityListAlgo._get_renewable` | 166-167 | `PriorityList.totalRenewable` |
| `PriorityListAlgo.modules` | 171-172 | - |
| `PriorityListAlgo.fixed` | 176-177 | - |
| `PriorityListAlgo.flex` | 181-182 | - |
| `PriorityListAlgo.get_empty_action` | 185-186 | - |

## algos/priority_list/priority_list_element.py

| function | lines | definitions |
|---|---|---|
| `PriorityListElement.__eq__` | 62-71 | `Comparison.eq` |
| `PriorityListElement.__lt__` | 73-80 | `Comparison.lt?`, `Comparison.less`, `PriorityList.Element.lt` |

## algos/rbc/_nonmodular_rbc.py

| function | lines | definitions |
|---|---|---|
| `NonModularRuleBasedControl.__init__` | 9-13 | - |
| `NonModularRuleBasedControl._generate_priority_list` | 15-46 | `LegacyRBC.Gen`, `LegacyRBC.generatePriorities` |
| `NonModularRuleBasedControl._run_priority_based` | 48-179 | `LegacyRBC.Dispatch`, `LegacyRBC.Params.room`, `LegacyRBC.Dispatch.serve`, `LegacyRBC.prepare`, `LegacyRBC.Priorities.order`, `LegacyRBC.Plan`, `LegacyRBC.runPriorities` |
| `NonModularRuleBasedControl.run_rule_based` | 181-287 | `Benchmarks.outputOf`, `LegacyRBC.baselineStep`, `LegacyRBC.runRuleBased`, `Ranking.stored` |

## algos/rbc/rbc.py

| function | lines | definitions |
|---|---|---|
| `RuleBasedControl.__init__` | 26-29 | `PriorityList.RBC`, `PriorityList.create` |
| `RuleBasedControl._get_priority_list` | 31-44 | `PriorityList.sorted`, `PriorityList.choose` |
| `RuleBasedControl._get_action` | 46-50 | - |
| `RuleBasedControl.reset` | 52-62 | - |
| `RuleBasedControl.run` | 64-93 | `PriorityList.step`, `PriorityList.loop`, `PriorityList.run`, `RBCRun.RBC.runAll` |
| `RuleBasedControl.get_empty_action` | 95-99 | - |
| `RuleBasedControl.microgrid` | 102-112 | - |
| `RuleBasedControl.fixed` | 115-117 | - |
| `RuleBasedControl.flex` | 120-122 | - |
| `RuleBasedControl.modules` | 125-127 | - |
| `RuleBasedControl.priority_list` | 130-140 | - |

## algos/saa/saa.py

| function | lines | definitions |
|---|---|---|
| `SampleAverageApproximation.__init__` | 41-50 | `SAA.SAA` |
| `SampleAverageApproximation.run` | 52-80 | `SAA.SAA.run` |
| `SampleAverageApproximation.determine_optimal_actions` | 82-110 | `SAA.determine` |
| `SampleAverageApproximation.run_mpc_on_group` | 112-149 | `SAA.solveAll`, `SAA.groupStep`, `SAA.runGroup` |
| `SampleAverageApproximation.run_deterministic_on_forecast` | 151-173 | `SAA.runGroup` |

## convert/convert.py

| function | lines | definitions |
|---|---|---|
| `to_modular` | 7-14 | `Convert.components`, `Convert.Grid.toModular` |
| `to_nonmodular` | 17-43 | `Revert.Microgrid.toNonmodular` |

## convert/get_module.py

| function | lines | definitions |
|---|---|---|
| `get_module` | 5-19 | - |
| `get_load_module` | 22-27 | `Convert.loadModule` |
| `get_pv_module` | 30-36 | `Convert.pvModule` |
| `get_battery_module` | 39-55 | `Convert.batteryModule` |
| `get_genset_module` | 58-72 | `Convert.gensetModule` |
| `get_grid_module` | 75-96 | `Convert.gridSeries`, `Convert.gridModule` |
| `get_unbalanced_energy_module` | 99-103 | `Convert.balancingModule` |

## convert/to_nonmodular_ops.py

| function | lines | definitions |
|---|---|---|
| `get_empty_params` | 24-25 | - |
| `check_viability` | 28-55 | `Revert.checkViability`, `Revert.Microgrid.toNonmodular` |
| `finalize_params` | 58-59 | `Revert.Microgrid.toNonmodular` |
| `add_params_from_module` | 62-76 | `Revert.Microgrid.toNonmodular` |
| `add_load_params` | 79-86 | `Penalty.Production.column`, `Revert.statusOf`, `Revert.Microgrid.toNonmodular` |
| `add_pv_params` | 89-96 | `Penalty.Production.column`, `Revert.statusOf`, `Revert.Microgrid.toNonmodular` |
| `add_battery_params` | 99-120 | `Penalty.Production.column`, `Revert.paramsOf`, `Revert.statusOf`, `Revert.Microgrid.toNonmodular` |
| `add_grid_params` | 123-145 | `Penalty.Production.column`, `Revert.paramsOf`, `Revert.columnOf`, `Revert.statusOf`, `Revert.Microgrid.toNonmodular` |
| `add_genset_params` | 148-169 | `Penalty.Production.column`, `Revert.ratedOf`, `Revert.paramsOf`, `Revert.Microgrid.toNonmodular` |
| `add_unbalanced_energy_params` | 172-178 | `Revert.paramsOf`, `Revert.Microgrid.toNonmodular` |
| `_add_empty` | 181-182 | `Revert.Microgrid.toNonmodular` |
| `_add_to_architecture` | 185-188 | `Revert.Microgrid.toNonmodular` |
| `_add_to_parameters` | 191-193 | `Revert.Microgrid.toNonmodular` |
| `_add_to_df_actions` | 196-197 | `Revert.Microgrid.toNonmodular` |
| `_add_to_df_status` | 200-202 | `Revert.Microgrid.toNonmodular` |
| `_add_to_df_actual_generation` | 205-206 | `Revert.Microgrid.toNonmodular` |
| `_add_to_df_cost` | 209-210 | `Revert.Microgrid.toNonmodular` |
| `_add_to_control_dict` | 213-214 | `Revert.Microgrid.toNonmodular` |
| `_add_cost_co2` | 217-226 | `Revert.costCo2Of`, `Revert.Microgrid.toNonmodular` |
| `_add_genset_polynom` | 229-236 | - |

## envs/base/base.py

| function | lines | definitions |
|---|---|---|
| `BaseMicrogridEnv.__new__` | 65-83 | - |
| `BaseMicrogridEnv.__init__` | 85-107 | `Continuous.create`, `Env.create`, `EnvObs.ObsMode`, `Wrap.Microgrid.wrap` |
| `BaseMicrogridEnv._validate_observation_keys` | 109-122 | `EnvObs.obsSpaceOf` |
| `BaseMicrogridEnv._get_action_space` | 125-126 | - |
| `BaseMicrogridEnv._get_observation_space` | 128-163 | `EnvObs.keyedDims`, `EnvObs.keyedSpace`, `EnvObs.obsSpaceOf` |
| `BaseMicrogridEnv.reset` | 165-167 | `Continuous.reset`, `Env.reset`, `EnvObs.envReset` |
| `BaseMicrogridEnv.step` | 169-209 | `Env.step`, `EnvObs.EnvOut`, `EnvObs.envStep`, `EnvObs.DiscreteEnv.stepObs` |
| `BaseMicrogridEnv._get_obs` | 211-223 | `EnvObs.ObsMode`, `EnvObs.getObs` |
| `BaseMicrogridEnv.render` | 225-227 | - |
| `BaseMicrogridEnv.unwrapped` | 230-232 | - |
| `BaseMicrogridEnv.flat_spaces` | 235-250 | - |
| `BaseMicrogridEnv.from_microgrid` | 253-285 | `Wrap.Microgrid.wrap` |
| `BaseMicrogridEnv.from_nonmodular` | 288-290 | - |
| `BaseMicrogridEnv.from_scenario` | 293-299 | - |
| `BaseMicrogridEnv.load` | 302-303 | - |

## envs/base/skip_init.py

| function | lines | definitions |
|---|---|---|
| `skip_init` | 1-20 | - |

## envs/continuous/continuous.py

| function | lines | definitions |
|---|---|---|
| `ContinuousMicrogridEnv._get_nested_action_space` | 56-58 | `Continuous.nestedSpace` |
| `ContinuousMicrogridEnv._get_action_space` | 60-62 | `Continuous.create` |
| `ContinuousMicrogridEnv._get_action` | 64-70 | `Continuous.sinkActions`, `Continuous.addSinks`, `Continuous.getAction` |
| `ContinuousMicrogridEnv.step` | 72-74 | `Continuous.step` |
| `ContinuousMicrogridEnv.run` | 76-78 | `Continuous.run` |

## envs/discrete/discrete.py

| function | lines | definitions |
|---|---|---|
| `DiscreteMicrogridEnv.__init__` | 38-58 | `Env.DiscreteEnv`, `Env.create` |
| `DiscreteMicrogridEnv._get_action_space` | 60-80 | - |
| `DiscreteMicrogridEnv._get_action` | 82-88 | `Env.getAction` |
| `DiscreteMicrogridEnv.remove_action` | 90-107 | `Env.removeAction` |
| `DiscreteMicrogridEnv.step` | 109-143 | `Env.step`, `EnvObs.DiscreteEnv.stepObs` |
| `DiscreteMicrogridEnv.sample_action` | 145-146 | - |
| `DiscreteMicrogridEnv.__repr__` | 148-149 | - |
| `DiscreteMicrogridEnv.__str__` | 151-152 | - |

## forecast/forecaster.py

| function | lines | definitions |
|---|---|---|
| `get_forecaster` | 10-88 | `Forecast.FKind`, `Forecast.get` |
| `Forecaster.__init__` | 92-95 | `Equality.fill`, `Forecast.Forecaster`, `Forecast.fillRow` |
| `Forecaster._get_forecast_shaped_space` | 97-114 | `Equality.shapedSpace` |
| `Forecaster._forecast` | 117-118 | - |
| `Forecaster._pad` | 120-131 | `Forecast.pad` |
| `Forecaster.full_pad` | 133-137 | `Forecast.fullPad` |
| `Forecaster._clip` | 140-149 | `Forecast.clip1`, `Forecast.clip`, `TimeSeries.writeBack` |
| `Forecaster.observation_space` | 152-153 | - |
| `Forecaster.observation_space` | 156-163 | `Forecast.setObservationSpace` |
| `Forecaster.__eq__` | 165-170 | `Equality.eq` |
| `Forecaster.__call__` | 172-187 | `Forecast.call` |
| `Forecaster.__repr__` | 189-190 | - |
| `UserDefinedForecaster.__init__` | 194-203 | `Callable.kind`, `Equality.Ident`, `Equality.attrs`, `Forecast.FKind` |
| `UserDefinedForecaster._cast_to_arr` | 205-208 | `Callable.kind`, `Forecast.FKind` |
| `UserDefinedForecaster._forecast` | 210-212 | `Callable.kind`, `Forecast.FKind`, `Forecast.raw` |
| `OracleForecaster._forecast` | 216-217 | `Forecast.raw` |
| `GaussianNoiseForecaster.__init__` | 221-235 | `Equality.attrs` |
| `GaussianNoiseForecaster._get_noise_std` | 237-250 | `Equality.attrs`, `Forecast.FKind` |
| `GaussianNoiseForecaster._get_noise` | 252-260 | - |
| `GaussianNoiseForecaster._forecast` | 262-263 | `Forecast.addNoise` |
| `GaussianNoiseForecaster.noise_std` | 266-267 | - |
| `GaussianNoiseForecaster.noise_std` | 270-271 | - |
| `GaussianNoiseForecaster.__repr__` | 273-275 | - |
| `NoForecaster._forecast` | 279-280 | - |
| `_validate_callable_forecaster` | 283-296 | `Callable.validate`, `Forecast.FKind` |
| `_validate_vectorized_forecaster` | 299-325 | `Callable.castNeeded`, `Callable.validateRows`, `Callable.validateVector`, `Forecast.FKind` |
| `_validate_scalar_forecaster` | 328-347 | `Callable.validateScalar`, `Forecast.FKind` |
| `_validate_forecasted_value` | 350-359 | `Callable.validateValue`, `Forecast.FKind` |
| `vectorize_scalar_forecaster` | 362-373 | `Equality.Ident`, `Forecast.FKind`, `Forecast.mapScalar` |

## microgrid/microgrid.py

| function | lines | definitions |
|---|---|---|
| `Microgrid.__init__` | 100-128 | `Contains.Microgrid.actionSpaces`, `Microgrid.Microgrid`, `Microgrid.create`, `Normalize.Microgrid.actionSpace`, `Normalize.Microgrid.observationSpace` |
| `Microgrid._get_unbalanced_energy_module` | 130-137 | `Microgrid.create` |
| `Microgrid._get_module_container` | 139-173 | `Equality.Microgrid.eq`, `Microgrid.create`, `Wrap.Microgrid.wrap` |
| `Microgrid._check_trajectory_func` | 175-203 | `Microgrid.exceeds`, `Microgrid.checkTrajectory` |
| `Microgrid.reset` | 205-219 | `EnvObs.ObsEntry`, `EnvObs.resetIds`, `EnvObs.Microgrid.resetObs`, `GridSerialize.reset`, `Microgrid.resetMany`, `Microgrid.reset` |
| `Microgrid._set_trajectory` | 221-225 | `Microgrid.setTrajectory` |
| `Microgrid.run` | 227-325 | `GridSerialize.finishWith`, `GridSerialize.runWith`, `Microgrid.RunSt.stepOne`, `Microgrid.Ctrl`, `Microgrid.Ctrl.acts`, `Microgrid.RunSt.stepControls`, `Microgrid.sinkAmount`, `Microgrid.sourceAmount`, `Microgrid.RunSt.absorbExcess`, `Microgrid.RunSt.coverNeed`, `Microgrid.balanceRow`, `Microgrid.fixedSteps`, `Microgrid.finish`, `Microgrid.dispatch`, `Microgrid.run` |
| `Microgrid._get_log_dict` | 327-332 | `Microgrid.balanceRow` |
| `Microgrid.get_cost_info` | 334-335 | `Microgrid.CostInfo`, `Microgrid.costInfoOf` |
| `Microgrid.sample_action` | 337-362 | `Sample.sampleList`, `Sample.sampleDict`, `Sample.sampleAction` |
| `Microgrid.get_empty_action` | 364-386 | `PriorityList.emptyAction` |
| `Microgrid.to_normalized` | 388-409 | `Normalize.mapEntries`, `Normalize.mapData`, `Normalize.toNormalized` |
| `Microgrid.from_normalized` | 411-432 | `Normalize.mapEntries`, `Normalize.mapData`, `Normalize.fromNormalized` |
| `Microgrid.get_log` | 434-475 | `GetLog.moduleColumns`, `GetLog.logColumns`, `GetLog.getLog` |
| `Microgrid.set_forecaster` | 477-551 | `GridSetters.setForecasterMany`, `GridSetters.setForecaster`, `GridSetters.setForecasterNamed` |
| `Microgrid.get_forecast_horizon` | 553-581 | `GridSetters.getForecastHorizon`, `Revert.forecastHorizon` |
| `Microgrid.set_module_attr` | 583-612 | `GridSetters.setInitialStep`, `GridSetters.setFinalStep`, `Microgrid.setInitialMany`, `Microgrid.setFinalMany` |
| `Microgrid.current_step` | 615-624 | `Microgrid.currentStep` |
| `Microgrid.initial_step` | 627-638 | - |
| `Microgrid._get_module_initial_step` | 640-646 | `GridSetters.setInitialStep`, `Microgrid.create` |
| `Microgrid.initial_step` | 649-650 | `GridSetters.setInitialStep` |
| `Microgrid._set_initial_step` | 652-655 | `GridSetters.setInitialStep` |
| `Microgrid.final_step` | 658-667 | - |
| `Microgrid._get_module_final_step` | 669-675 | `GridSetters.setFinalStep`, `Microgrid.Microgrid`, `Microgrid.create` |
| `Microgrid.final_step` | 678-679 | `GridSetters.setFinalStep` |
| `Microgrid._set_final_step` | 681-684 | `GridSetters.setFinalStep` |
| `Microgrid.modules` | 687-697 | - |
| `Microgrid.state_dict` | 699-718 | - |
| `Microgrid.log` | 721-733 | - |
| `Microgrid.state_series` | 735-760 | `EnvObs.seriesOf`, `EnvObs.Microgrid.stateSeries` |
| `Microgrid.fixed` | 763-771 | - |
| `Microgrid.flex` | 774-783 | - |
| `Microgrid.controllable` | 786-794 | - |
| `Microgrid.module_list` | 797-807 | - |
| `Microgrid.n_modules` | 810-818 | - |
| `Microgrid.dump` | 820-845 | `FileDump.Microgrid.fileReload`, `GridSerialize.Microgrid.dump` |
| `Microgrid.load` | 848-864 | `FileDump.Microgrid.fileReload`, `GridSerialize.GridDump.load` |
| `Microgrid.to_yaml` | 867-872 | `GridSerialize.Microgrid.dump` |
| `Microgrid.from_yaml` | 875-893 | `GridSerialize.GridDump.load` |
| `Microgrid.serialize` | 895-899 | `GridSerialize.Microgrid.dump` |
| `Microgrid._serialization_data` | 901-908 | `GridSerialize.GridDump`, `GridSerialize.Microgrid.dump` |
| `Microgrid.from_nonmodular` | 911-935 | - |
| `Microgrid.to_nonmodular` | 937-956 | - |
| `Microgrid.from_scenario` | 959-980 | - |
| `Microgrid._dir_additions` | 982-986 | - |
| `Microgrid.__dir__` | 988-991 | - |
| `Microgrid.__getnewargs__` | 993-994 | - |
| `Microgrid.__len__` | 996-1007 | `ModularMPC.lengthOf` |
| `Microgrid.__eq__` | 1009-1016 | `Equality.Microgrid.eq` |
| `Microgrid.__repr__` | 1018-1021 | - |
| `Microgrid.__getattr__` | 1023-1030 | `ModularMPC.batteryOf` |

## microgrid/reward_shaping/base.py

| function | lines | definitions |
|---|---|---|
| `BaseRewardShaper.sum_module_val` | 11-16 | `Shaper.sumModuleVal` |
| `BaseRewardShaper.__call__` | 19-20 | - |
| `BaseRewardShaper.__repr__` | 22-23 | - |

## microgrid/reward_shaping/battery_discharge_shaper.py

| function | lines | definitions |
|---|---|---|
| `BatteryDischargeShaper.__call__` | 22-34 | `Shaper.batteryDischarge` |

## microgrid/reward_shaping/pv_curtailment_shaper.py

| function | lines | definitions |
|---|---|---|
| `PVCurtailmentShaper.__call__` | 15-17 | `Shaper.pvCurtailment` |

## microgrid/trajectory/base.py

| function | lines | definitions |
|---|---|---|
| `BaseTrajectory.__call__` | 12-13 | - |
| `BaseTrajectory.__repr__` | 15-18 | - |
| `BaseTrajectory.__eq__` | 20-23 | `Equality.Ident` |

## microgrid/trajectory/deterministic.py

| function | lines | definitions |
|---|---|---|
| `DeterministicTrajectory.__init__` | 7-9 | - |
| `DeterministicTrajectory.__call__` | 11-12 | `Trajectory.deterministic` |

## microgrid/trajectory/stochastic.py

| function | lines | definitions |
|---|---|---|
| `StochasticTrajectory.__call__` | 9-14 | `Trajectory.stochastic` |
| `FixedLengthStochasticTrajectory.__init__` | 20-21 | - |
| `FixedLengthStochasticTrajectory.__call__` | 23-30 | `Trajectory.fixedLength` |

## microgrid/utils/step.py

| function | lines | definitions |
|---|---|---|
| `MicrogridStep.__init__` | 5-11 | `Microgrid.StepAcc` |
| `MicrogridStep.append` | 13-31 | `Microgrid.dictAppend`, `Microgrid.append` |
| `MicrogridStep.balance` | 33-36 | `Microgrid.StepAcc.balance` |
| `MicrogridStep.output` | 38-39 | `Microgrid.RunOut` |
| `MicrogridStep.shaped_reward` | 41-46 | `Microgrid.Shaper`, `Microgrid.StepAcc.shapedReward` |
| `MicrogridStep._output_info` | 48-49 | - |
| `MicrogridStep.obs` | 52-53 | - |
| `MicrogridStep.reward` | 56-57 | - |
| `MicrogridStep.done` | 60-61 | - |
| `MicrogridStep.info` | 64-65 | - |

## modules/battery_module.py

| function | lines | definitions |
|---|---|---|
| `BatteryModule.__init__` | 66-94 | `Battery.Battery`, `Battery.init`, `Equality.Battery.attrs`, `Module.mkBattery` |
| `BatteryModule._init_battery` | 96-106 | `Battery.initBattery` |
| `BatteryModule.update` | 108-123 | `Battery.update` |
| `BatteryModule._update_state` | 125-130 | `Battery.updateState` |
| `BatteryModule.get_cost` | 132-147 | `Battery.getCost` |
| `BatteryModule.model_transition` | 149-189 | `Battery.modelTransition` |
| `BatteryModule.transition_kwargs` | 191-242 | `Battery.TransitionArgs`, `Battery.transitionArgs` |
| `BatteryModule.default_transition_model` | 245-278 | `Battery.defaultTransition` |
| `BatteryModule._state_dict` | 280-281 | `Battery.stateDict`, `Serialize.StateAttrs` |
| `BatteryModule.max_production` | 284-286 | `Battery.maxProduction` |
| `BatteryModule.max_consumption` | 289-291 | `Battery.maxConsumption` |
| `BatteryModule.current_charge` | 294-306 | - |
| `BatteryModule.soc` | 309-321 | - |
| `BatteryModule.min_obs` | 324-326 | `Battery.minObs` |
| `BatteryModule.max_obs` | 329-330 | `Battery.minObs` |
| `BatteryModule.min_act` | 333-334 | `Battery.minAct` |
| `BatteryModule.max_act` | 337-338 | `Battery.minAct` |
| `BatteryModule.production_marginal_cost` | 341-342 | - |
| `BatteryModule.absorption_marginal_cost` | 345-346 | - |
| `BatteryModule.is_source` | 349-350 | - |
| `BatteryModule.is_sink` | 353-354 | - |
| `BatteryModule.soc` | 357-358 | `Battery.setSoc`, `Serialize.Module.restore` |
| `BatteryModule.current_charge` | 361-362 | `Battery.setCharge`, `Serialize.Module.restore` |

## modules/genset_module.py

| function | lines | definitions |
|---|---|---|
| `GensetModule.__init__` | 61-98 | `Equality.Genset.attrs`, `Genset.Genset`, `Genset.init`, `Module.mkGenset` |
| `GensetModule.step` | 100-149 | `Module.step`, `Serialize.frozenStep` |
| `GensetModule.get_co2` | 151-165 | `Genset.getCo2` |
| `GensetModule.get_co2_cost` | 167-181 | `Genset.getCo2Cost` |
| `GensetModule._get_fuel_cost` | 183-186 | `Genset.GensetCost`, `Genset.fuelCost` |
| `GensetModule.get_cost` | 188-205 | `Genset.getCost` |
| `GensetModule.update` | 207-214 | `Genset.update` |
| `GensetModule._reset_up_down_times` | 216-227 | `Genset.resetTimes` |
| `GensetModule._update_up_down_times` | 229-233 | `Genset.updateTimes` |
| `GensetModule.update_status` | 235-300 | `Genset.updateStatusRounded`, `Genset.updateStatus` |
| `GensetModule._finish_in_progress_change` | 302-311 | `Genset.finishInProgress` |
| `GensetModule._instant_up` | 313-318 | - |
| `GensetModule._instant_down` | 320-325 | - |
| `GensetModule._non_instantaneous_update` | 327-346 | `Genset.redirect`, `Genset.countDown`, `Genset.nonInstantaneous` |
| `GensetModule.sample_action` | 348-349 | `Sample.sampleAction` |
| `GensetModule._raise_error` | 351-358 | `Module.asSource` |
| `GensetModule.next_status` | 360-390 | `Genset.nextStatus` |
| `GensetModule.next_max_production` | 392-407 | `Genset.nextMaxProduction` |
| `GensetModule.next_min_production` | 409-424 | `Genset.nextMaxProduction` |
| `GensetModule.serializable_state_attributes` | 426-427 | `Serialize.StateAttrs` |
| `GensetModule._state_dict` | 429-433 | `Genset.stateDict`, `Serialize.StateAttrs` |
| `GensetModule.current_status` | 436-448 | - |
| `GensetModule.goal_status` | 451-463 | - |
| `GensetModule.max_production` | 466-482 | `Genset.maxProduction` |
| `GensetModule.min_production` | 485-501 | `Genset.maxProduction`, `Module.minProduction` |
| `GensetModule.min_obs` | 504-505 | `Genset.minObs` |
| `GensetModule.max_obs` | 508-509 | `Genset.minObs` |
| `GensetModule.min_act` | 512-513 | `Genset.minObs` |
| `GensetModule.max_act` | 516-517 | `Genset.minObs` |
| `GensetModule.production_marginal_cost` | 520-521 | - |
| `GensetModule.is_source` | 524-525 | - |

## modules/grid_module.py

| function | lines | definitions |
|---|---|---|
| `GridModule.__init__` | 73-101 | `Callable.mkGridWith`, `Module.mkGrid`, `TimeSeries.GridParams` |
| `GridModule._check_params` | 103-123 | `TimeSeries.gridCheckParams`, `WeakGrid.weakGrid` |
| `GridModule._get_bounds` | 125-132 | `TimeSeries.colFold` |
| `GridModule.update` | 134-141 | `Module.gridUpdate` |
| `GridModule.get_cost` | 143-174 | `Module.gridUpdate`, `TimeSeries.entryAt` |
| `GridModule.get_co2_cost` | 176-197 | `Module.gridUpdate` |
| `GridModule.get_co2_production` | 199-228 | `Module.gridUpdate`, `TimeSeries.entryAt` |
| `GridModule.as_flex` | 230-237 | `Module.Module` |
| `GridModule.as_fixed` | 239-246 | `Module.Module` |
| `GridModule.import_price` | 249-259 | `ModularMPC.strided` |
| `GridModule.export_price` | 262-272 | `ModularMPC.strided` |
| `GridModule.co2_per_kwh` | 275-286 | `ModularMPC.strided` |
| `GridModule.grid_status` | 289-299 | `ModularMPC.strided` |
| `GridModule.current_status` | 302-312 | `Module.gridStatus` |
| `GridModule.max_production` | 315-316 | - |
| `GridModule.max_consumption` | 319-320 | - |
| `GridModule.production_marginal_cost` | 323-324 | - |
| `GridModule.absorption_marginal_cost` | 327-328 | - |
| `GridModule.is_source` | 331-332 | - |
| `GridModule.is_sink` | 335-336 | - |
| `GridModule.weak_grid` | 339-349 | `WeakGrid.weakGrid` |
| `GridModule.__repr__` | 351-352 | - |

## modules/load_module.py

| function | lines | definitions |
|---|---|---|
| `LoadModule.__init__` | 58-80 | `Module.mkLoad` |
| `LoadModule._get_bounds` | 82-84 | `Module.mkLoad` |
| `LoadModule.update` | 86-91 | `Module.loadUpdate` |
| `LoadModule.sample_action` | 93-94 | `Sample.sampleAction` |
| `LoadModule.max_consumption` | 97-98 | - |
| `LoadModule.current_load` | 101-111 | `Module.loadUpdate`, `TimeSeries.itemAt` |
| `LoadModule.is_sink` | 114-115 | - |

## modules/module_container.py

| function | lines | definitions |
|---|---|---|
| `Container.__init__` | 9-11 | `Access.attributes`, `Access.create` |
| `Container.containers` | 14-23 | `Access.below`, `Access.attributes` |
| `Container.to_list` | 25-38 | `Access.list`, `Access.attributes`, `Container.toList` |
| `Container.to_dict` | 40-53 | `Access.dict`, `Access.attributes`, `Container.toDict` |
| `Container.to_tuples` | 55-69 | `Access.tuples`, `Access.attributes`, `Container.toTuples` |
| `Container.iterlist` | 71-82 | `Access.list`, `Access.attributes` |
| `Container.iterdict` | 84-95 | `Access.attributes`, `Container.levelDict` |
| `Container.get_attrs` | 97-195 | `Access.attributes`, `Microgrid.uniqueVal`, `Microgrid.create` |
| `Container.dir_additions` | 197-207 | `Access.dirAdditions`, `Access.attributes`, `Access.create` |
| `Container.__getitem__` | 209-218 | `Access.getItem`, `Access.attributes`, `GridSetters.setForecasterNamed`, `ModularMPC.itemOf` |
| `Container.__getattr__` | 220-226 | `Access.attributes`, `Access.getAttr` |
| `Container.__len__` | 228-229 | `Access.len`, `Access.attributes` |
| `Container.__repr__` | 231-235 | `Access.attributes` |
| `Container.__dir__` | 237-240 | `Access.attributes` |
| `Container.__contains__` | 242-243 | `Access.contains`, `Access.attributes` |
| `ModuleContainer.__init__` | 285-295 | `Access.create`, `GridSetters.Container.names` |
| `ModuleContainer._get_types_by_name` | 297-298 | `Access.nameList` |
| `ModuleContainer._set_midlevel` | 300-315 | `Access.data`, `Container.level`, `Equality.Microgrid.eq` |
| `ModuleContainer.names` | 317-318 | `Access.nameList`, `GridSetters.Container.names` |
| `ModuleContainer.containers` | 321-322 | `Access.below` |
| `ModuleList.item` | 326-343 | `Access.item` |
| `ModuleList.to_list` | 345-352 | `Access.list` |
| `get_subcontainers` | 355-413 | `Access.FFC.key`, `Access.SS.key`, `Container.SS`, `Container.Container`, `Container.Module.ss`, `Container.ModDict.append`, `Container.add`, `Container.build`, `Container.all`, `PriorityList.named` |

## modules/renewable_module.py

| function | lines | definitions |
|---|---|---|
| `RenewableModule.__init__` | 61-84 | `Module.mkRenewable` |
| `RenewableModule.update` | 86-93 | `Module.renewableUpdate` |
| `RenewableModule.max_production` | 96-97 | `Module.maxProduction` |
| `RenewableModule.current_renewable` | 100-110 | `Module.renewableUpdate`, `TimeSeries.itemAt` |
| `RenewableModule.is_source` | 113-114 | - |

## modules/unbalanced_energy_module.py

| function | lines | definitions |
|---|---|---|
| `UnbalancedEnergyModule.__init__` | 13-26 | `Module.mkBalancing`, `TimeSeries.Unbalanced` |
| `UnbalancedEnergyModule.update` | 28-36 | `Module.balancingUpdate` |
| `UnbalancedEnergyModule.get_cost` | 38-70 | `Module.balancingUpdate` |
| `UnbalancedEnergyModule._state_dict` | 72-73 | `Module.stateDict` |
| `UnbalancedEnergyModule.state` | 76-77 | - |
| `UnbalancedEnergyModule.min_obs` | 80-81 | - |
| `UnbalancedEnergyModule.max_obs` | 84-85 | - |
| `UnbalancedEnergyModule.min_act` | 88-89 | - |
| `UnbalancedEnergyModule.max_act` | 92-93 | - |
| `UnbalancedEnergyModule.max_production` | 96-97 | - |
| `UnbalancedEnergyModule.max_consumption` | 100-101 | - |
| `UnbalancedEnergyModule.is_source` | 104-105 | - |
| `UnbalancedEnergyModule.is_sink` | 108-109 | - |
| `UnbalancedEnergyModule.production_marginal_cost` | 112-113 | - |
| `UnbalancedEnergyModule.absorption_marginal_cost` | 116-117 | - |

## modules/base/base_module.py

| function | lines | definitions |
|---|---|---|
| `BaseMicrogridModule.__init__` | 37-51 | `Equality.baseAttrs`, `Module.Module`, `Module.mkBattery` |
| `BaseMicrogridModule._get_action_spaces` | 53-57 | - |
| `BaseMicrogridModule._get_observation_spaces` | 59-63 | `TimeSeries.obsSpace` |
| `BaseMicrogridModule.reset` | 65-77 | `GridSerialize.thawed`, `Module.normalizedObs`, `Module.reset`, `Serialize.reset` |
| `BaseMicrogridModule._raise_error` | 79-93 | - |
| `BaseMicrogridModule.step` | 95-159 | `Module.StepOut`, `Module.normalizedObs`, `Module.denormalizeAct`, `Module.energyOf`, `Module.stepEnergy`, `Module.baseStep`, `Serialize.frozenEnergy`, `Serialize.frozenBase` |
| `BaseMicrogridModule._unnormalized_step` | 161-171 | `Module.unnormalizedStep` |
| `BaseMicrogridModule.as_source` | 173-226 | `Battery.Dir`, `Module.asSource`, `Module.denormalizeAct` |
| `BaseMicrogridModule.as_sink` | 228-274 | `Battery.Dir`, `Module.asSink` |
| `BaseMicrogridModule._log` | 276-290 | `Module.logRow`, `Module.log` |
| `BaseMicrogridModule._update_step` | 292-296 | `Module.updateStep` |
| `BaseMicrogridModule.update` | 299-324 | - |
| `BaseMicrogridModule.sample_action` | 326-356 | `Sample.normBound`, `Sample.sampleBase` |
| `BaseMicrogridModule.to_normalized` | 358-381 | `Normalize.Module.spaceOf`, `Normalize.Module.toNormalized` |
| `BaseMicrogridModule.from_normalized` | 383-406 | `Normalize.Module.fromNormalized` |
| `BaseMicrogridModule.log_dict` | 408-417 | - |
| `BaseMicrogridModule.log_frame` | 419-428 | - |
| `BaseMicrogridModule.log` | 431-442 | - |
| `BaseMicrogridModule.logger` | 445-454 | - |
| `BaseMicrogridModule.logger_last` | 457-466 | - |
| `BaseMicrogridModule.logger` | 469-471 | - |
| `BaseMicrogridModule.state_dict` | 473-490 | `EnvObs.Module.normStateDict`, `EnvObs.Module.stateDictAs`, `Module.stateDict` |
| `BaseMicrogridModule._state_dict` | 493-503 | - |
| `BaseMicrogridModule.state` | 506-517 | `Module.state` |
| `BaseMicrogridModule.current_step` | 520-529 | - |
| `BaseMicrogridModule.current_step` | 532-533 | - |
| `BaseMicrogridModule.min_obs` | 537-550 | - |
| `BaseMicrogridModule.max_obs` | 554-567 | - |
| `BaseMicrogridModule.min_act` | 571-584 | - |
| `BaseMicrogridModule.max_act` | 588-601 | - |
| `BaseMicrogridModule.min_production` | 604-619 | `Module.minProduction` |
| `BaseMicrogridModule.max_production` | 622-634 | `Module.maxProduction` |
| `BaseMicrogridModule.max_consumption` | 637-649 | - |
| `BaseMicrogridModule.marginal_cost` | 652-662 | `Module.marginalCost` |
| `BaseMicrogridModule.production_marginal_cost` | 665-666 | `Module.marginalCost` |
| `BaseMicrogridModule.absorption_marginal_cost` | 669-670 | `Microgrid.Module.absorptionCost` |
| `BaseMicrogridModule.action_space` | 673-684 | - |
| `BaseMicrogridModule.observation_space` | 687-698 | - |
| `BaseMicrogridModule.is_source` | 701-710 | `Module.isSource` |
| `BaseMicrogridModule.is_sink` | 713-722 | `Module.isSink` |
| `BaseMicrogridModule.dump` | 724-749 | - |
| `BaseMicrogridModule.load` | 752-769 | - |
| `BaseMicrogridModule.from_yaml` | 772-799 | `FileDump.write`, `Serialize.dump`, `Serialize.Dump.load` |
| `BaseMicrogridModule.to_yaml` | 802-824 | `FileDump.write`, `Serialize.dump` |
| `BaseMicrogridModule.serialize` | 826-850 | `FileDump.write`, `Serialize.Dump`, `Serialize.dump` |
| `BaseMicrogridModule.serializable_state_attributes` | 852-865 | `Serialize.StateAttrs` |
| `BaseMicrogridModule._serialize_state_attributes` | 867-868 | `Serialize.StateAttrs`, `Serialize.stateAttrs` |
| `BaseMicrogridModule._serialize_cls_params` | 870-881 | `Serialize.Params`, `Serialize.params` |
| `BaseMicrogridModule.deserialize_instance` | 884-925 | `Serialize.Params.build` |
| `BaseMicrogridModule.deserialize` | 927-957 | `Serialize.Module.restore` |
| `BaseMicrogridModule.__eq__` | 959-966 | `Equality.eq` |
| `BaseMicrogridModule.__repr__` | 968-973 | - |

## modules/base/timeseries/base_timeseries_module.py

| function | lines | definitions |
|---|---|---|
| `BaseTimeSeriesMicrogridModule.__init__` | 22-56 | `Callable.sample`, `Callable.mkLoadWith`, `Callable.mkRenewableWith`, `Callable.mkGridWith`, `Equality.FKind.eq`, `Equality.forecastEq`, `Equality.attrs`, `TimeSeries.TS`, `TimeSeries.refresh`, `TimeSeries.create` |
| `BaseTimeSeriesMicrogridModule._set_time_series` | 58-66 | - |
| `BaseTimeSeriesMicrogridModule._sign_check` | 68-79 | `TimeSeries.signCheck` |
| `BaseTimeSeriesMicrogridModule._get_bounds` | 81-88 | `TimeSeries.getBounds` |
| `BaseTimeSeriesMicrogridModule._set_state_dict_keys` | 90-97 | `Num.Key`, `TimeSeries.currentKeys`, `TimeSeries.forecastKeys` |
| `BaseTimeSeriesMicrogridModule._update_step` | 99-101 | `Module.refresh`, `Module.updateStep`, `TimeSeries.refresh` |
| `BaseTimeSeriesMicrogridModule.forecast` | 103-122 | `TimeSeries.window`, `TimeSeries.forecastValue` |
| `BaseTimeSeriesMicrogridModule._done` | 124-125 | `TimeSeries.done` |
| `BaseTimeSeriesMicrogridModule.current_obs` | 128-140 | `TimeSeries.currentObs` |
| `BaseTimeSeriesMicrogridModule.time_series` | 143-153 | - |
| `BaseTimeSeriesMicrogridModule.time_series` | 156-160 | `Setters.putTS`, `Setters.setTimeSeries` |
| `BaseTimeSeriesMicrogridModule.min_obs` | 163-165 | `TimeSeries.minObs` |
| `BaseTimeSeriesMicrogridModule.max_obs` | 168-170 | `TimeSeries.minObs` |
| `BaseTimeSeriesMicrogridModule.min_act` | 173-174 | - |
| `BaseTimeSeriesMicrogridModule.max_act` | 177-178 | - |
| `BaseTimeSeriesMicrogridModule.forecaster` | 181-191 | - |
| `BaseTimeSeriesMicrogridModule.set_forecaster` | 193-244 | `Callable.setForecasterWith`, `Setters.setForecaster` |
| `BaseTimeSeriesMicrogridModule.forecast_horizon` | 247-257 | `Revert.horizon?` |
| `BaseTimeSeriesMicrogridModule.forecast_horizon` | 260-273 | `Setters.setHorizon`, `Setters.putTS` |
| `BaseTimeSeriesMicrogridModule.forecaster_increase_uncertainty` | 276-292 | - |
| `BaseTimeSeriesMicrogridModule.forecaster_relative_noise` | 295-311 | - |
| `BaseTimeSeriesMicrogridModule.final_step` | 314-315 | - |
| `BaseTimeSeriesMicrogridModule.final_step` | 318-330 | `Callable.sample`, `TimeSeries.setFinalStep` |
| `BaseTimeSeriesMicrogridModule._state_dict` | 332-338 | `TimeSeries.stateDict` |
| `BaseTimeSeriesMicrogridModule.serialize` | 340-343 | `Serialize.TS.dumpParam` |
| `BaseTimeSeriesMicrogridModule.serializable_state_attributes` | 345-346 | `Serialize.StateAttrs` |
| `BaseTimeSeriesMicrogridModule.__len__` | 348-349 | - |

## utils/DataGenerator.py

| function | lines | definitions |
|---|---|---|
| `return_underlying_data` | 30-59 | `SAA.actualRow` |
| `NoisyPVData.__init__` | 64-89 | - |
| `NoisyPVData.import_file` | 91-92 | - |
| `NoisyPVData.data_munge` | 94-122 | - |
| `NoisyPVData._add_feature_columns` | 124-176 | - |
| `NoisyPVData.max_min_curve_interpolate` | 178-251 | - |
| `NoisyPVData.most_light_curve_eval` | 253-305 | - |
| `NoisyPVData._sample_parabola` | 307-407 | `DataGenerator.firstGap`, `DataGenerator.dawnDusk`, `DataGenerator.PeakNoise`, `DataGenerator.fixBounds`, `DataGenerator.peak`, `DataGenerator.parabola`, `DataGenerator.parabolas` |
| `NoisyPVData.sample` | 409-503 | `DataGenerator.PeakNoise`, `DataGenerator.noisePv` |
| `NoisyPVData._check_sample` | 505-530 | `DataGenerator.noisePv` |
| `NoisyPVData.plot` | 532-592 | - |
| `NoisyLoadData.__init__` | 596-620 | `DataGenerator.sampleLoad` |
| `NoisyLoadData._import_file` | 622-623 | `DataGenerator.sampleLoad` |
| `NoisyLoadData.data_munge` | 625-645 | `DataGenerator.days`, `DataGenerator.group`, `DataGenerator.mean?`, `DataGenerator.std`, `DataGenerator.sampleLoad` |
| `NoisyLoadData.sample` | 647-688 | `DataGenerator.sampleLoad` |
| `NoisyLoadData._check_sample` | 690-713 | `DataGenerator.checkLoad` |
| `NoisyLoadData.plot` | 715-724 | - |
| `NoisyGridData.__init__` | 728-745 | `DataGenerator.DistType`, `DataGenerator.sampleGrid` |
| `NoisyGridData.learn_distribution` | 747-783 | `DataGenerator.Tally`, `DataGenerator.Tally.add`, `DataGenerator.tally`, `DataGenerator.learnMarkov`, `DataGenerator.sampleGrid` |
| `NoisyGridData.sample` | 785-809 | `DataGenerator.chain`, `DataGenerator.sampleGrid` |
| `SampleGenerator.__init__` | 812-824 | `DataGenerator.createForecasts` |
| `SampleGenerator.create_forecasts` | 826-862 | `DataGenerator.createForecasts` |
| `SampleGenerator.test_args` | 864-884 | - |
| `SampleGenerator.validate_forecasts` | 886-898 | - |
| `SampleGenerator.mape` | 900-917 | `ForecastArgs.ratio`, `ForecastArgs.mean`, `ForecastArgs.mape` |
| `SampleGenerator.sample_from_forecasts` | 919-955 | `DataGenerator.sampleFrame`, `DataGenerator.sampleFrames` |
| `SampleGenerator.plot` | 957-990 | - |
| `ForecastArgSet.__init__` | 994-1008 | `Ranking.ArgSet`, `Ranking.ArgSet.mean` |
| `ForecastArgSet.update_with_mape` | 1010-1014 | `Ranking.ArgSet.mean`, `Ranking.ArgSet.update` |
| `ForecastArgSet.get_preset` | 1016-1047 | - |
| `ForecastArgSet.__eq__` | 1050-1054 | `Ranking.ArgSet.eq` |
| `ForecastArgSet.__lt__` | 1056-1060 | `Ranking.ArgSet.lt`, `Ranking.minFrom`, `Ranking.pyMin` |
| `ForecastArgSet.__gt__` | 1062-1066 | `Ranking.ArgSet.gt` |
| `ForecastArgs.__init__` | 1069-1076 | `ForecastArgs.paramSets` |
| `ForecastArgs.pv_parameters` | 1078-1094 | `ForecastArgs.PvArgs`, `ForecastArgs.pvParameters` |
| `ForecastArgs.load_parameters` | 1096-1101 | `ForecastArgs.loadParameters` |
| `ForecastArgs.combine_sets` | 1103-1111 | `ForecastArgs.paramSets` |

## utils/logger.py

| function | lines | definitions |
|---|---|---|
| `ModularLogger.__init__` | 8-10 | `Logger.Logger` |
| `ModularLogger.flush` | 12-16 | `Logger.Logger`, `Logger.flush` |
| `ModularLogger.log` | 18-28 | `Logger.Logger`, `Logger.logOne`, `Logger.log`, `Serialize.frozenEnergy` |
| `ModularLogger.to_dict` | 30-31 | `Logger.Logger` |
| `ModularLogger.raw` | 33-34 | `Logger.Logger` |
| `ModularLogger.to_frame` | 36-37 | `Logger.Logger` |
| `ModularLogger.serialize` | 39-40 | `Logger.Logger`, `Serialize.Logger.serialize` |
| `ModularLogger.__len__` | 42-43 | `Logger.Logger` |
| `ModularLogger.from_raw` | 46-51 | `Logger.Logger`, `Serialize.Logger.fromRaw`, `Serialize.Loaded` |

## utils/ray.py

| function | lines | definitions |
|---|---|---|
| `ray_decorator` | 5-22 | - |

## utils/serialize.py

| function | lines | definitions |
|---|---|---|
| `add_pymgrid_yaml_representers` | 10-21 | - |
| `dump_data` | 24-29 | `FileDump.write` |
| `add_path_to_arr_like` | 32-42 | `FileDump.write` |
| `add_numpy_pandas_representers` | 45-49 | - |
| `add_numpy_pandas_constructors` | 52-54 | - |
| `_numpy_represent_floating` | 57-58 | - |
| `_numpy_represent_int` | 61-62 | - |
| `_numpy_arr_representer` | 65-66 | - |
| `_pandas_df_representer` | 69-70 | - |
| `_arr_representer` | 73-81 | `FileDump.write` |
| `_dump_representation` | 84-88 | `FileDump.write` |
| `_pandas_df_constructor` | 91-105 | `FileDump.write`, `FileDump.read` |
| `_numpy_arr_constructor` | 108-112 | `FileDump.read` |
| `NDArraySubclass.__new__` | 120-123 | `FileDump.read` |
| `NDArraySubclass.__array_finalize__` | 125-128 | - |

## utils/space.py

| function | lines | definitions |
|---|---|---|
| `_PymgridDict.__init__` | 11-20 | - |
| `_PymgridDict._extract_builtins` | 22-30 | - |
| `_PymgridDict._extract_action_spaces` | 32-39 | `Contains.Microgrid.actionSpaces`, `Normalize.ofSpaces`, `Normalize.actSpaces` |
| `_PymgridDict._extract_observation_spaces` | 41-48 | `Normalize.ofSpaces` |
| `_PymgridDict._transform_builtins` | 50-75 | - |
| `_PymgridDict.get_attr` | 77-78 | - |
| `_PymgridDict.low` | 81-82 | - |
| `_PymgridDict.high` | 85-86 | - |
| `_PymgridDict.shape` | 89-90 | - |
| `_PymgridDict.shape` | 93-97 | - |
| `_PymgridDict.__getattr__` | 99-108 | - |
| `_PymgridSpace.contains` | 116-135 | `Contains.Space.contains`, `Contains.Microgrid.inActionSpace` |
| `_PymgridSpace.sample` | 137-140 | - |
| `_PymgridSpace._shape_check` | 142-147 | `Sample.normBound`, `Space.apply` |
| `_PymgridSpace.normalize` | 150-151 | - |
| `_PymgridSpace.denormalize` | 154-155 | - |
| `_PymgridSpace.normalized` | 158-159 | `Contains.Space.contains` |
| `_PymgridSpace.unnormalized` | 162-163 | - |
| `_PymgridSpace.__getitem__` | 165-171 | - |
| `_PymgridSpace.__repr__` | 173-174 | - |
| `_PymgridSpace.__eq__` | 176-180 | `Equality.Space.eq` |
| `ModuleSpace.__init__` | 184-205 | `EnvObs.obsSpaceOf`, `Space.Space`, `Space.spread1` |
| `ModuleSpace.normalize` | 207-218 | `EnvObs.Module.normStateDict`, `Space.Space`, `Space.norm1`, `Space.item`, `Space.normalize` |
| `ModuleSpace.denormalize` | 220-231 | `Space.Space`, `Space.denorm1`, `Space.denormalize` |
| `ModuleSpace._bounds_check` | 233-239 | `Space.Space` |
| `MicrogridSpace.__init__` | 243-257 | `Normalize.GridSpace`, `Normalize.ofSpaces` |
| `MicrogridSpace._get_spread` | 259-270 | `Normalize.GridSpace`, `Normalize.ofSpaces` |
| `MicrogridSpace.normalize` | 272-281 | `Normalize.normalize` |
| `MicrogridSpace.denormalize` | 283-291 | `Normalize.denormalize` |
| `MicrogridSpace.dict_op` | 294-299 | `Normalize.listOp`, `Normalize.dictOp` |
