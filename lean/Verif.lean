import Verif.Model.Num
import Verif.Model.Space
import Verif.Model.Logger
import Verif.Model.Battery
import Verif.Model.Genset
import Verif.Model.Forecast
import Verif.Model.TimeSeries
import Verif.Model.Module
import Verif.Model.Container
import Verif.Model.Microgrid
import Verif.Props.Space
import Verif.Props.Battery
import Verif.Props.Genset
import Verif.Props.Series
import Verif.Props.Microgrid
import Verif.Props.Episode
import Verif.Props.Log
import Verif.Props.BalanceLog
import Verif.Props.Strict
import Verif.Props.Observe
import Verif.Props.Normalize
import Verif.Props.Setters
import Verif.Props.Trajectory
import Verif.Props.Shaper
import Verif.Props.PriorityList
import Verif.Props.GetLog
import Verif.Props.Env
import Verif.Model.Sample
import Verif.Lemmas.Sample
import Verif.Props.Sample
import Verif.Model.Serialize
import Verif.Spec.Serialize
import Verif.Lemmas.Serialize
import Verif.Props.Serialize
import Verif.Model.Legacy
import Verif.Spec.Legacy
import Verif.Lemmas.Legacy
import Verif.Props.Legacy
import Verif.Model.LegacyRBC
import Verif.Spec.LegacyRBC
import Verif.Lemmas.LegacyRBC
import Verif.Props.LegacyRBC
import Verif.Model.Generator
import Verif.Spec.Generator
import Verif.Lemmas.Generator
import Verif.Props.Generator
import Verif.Model.Convert
import Verif.Spec.Convert
import Verif.Lemmas.Convert
import Verif.Props.Convert
import Verif.Model.Revert
import Verif.Spec.Revert
import Verif.Lemmas.Revert
import Verif.Props.Revert
import Verif.Model.GridSerialize
import Verif.Spec.GridSerialize
import Verif.Lemmas.Reload
import Verif.Lemmas.BalanceLog
import Verif.Lemmas.Rename
import Verif.Lemmas.GridSerialize
import Verif.Props.GridSerialize
import Verif.Model.FileDump
import Verif.Lemmas.FileDump
import Verif.Props.FileDump
import Verif.Model.MPC
import Verif.Spec.MPC
import Verif.Lemmas.MPC
import Verif.Props.MPC
import Verif.Spec.LegacyMPC
import Verif.Lemmas.LegacyMPC
import Verif.Props.LegacyMPC
import Verif.Props.LegacyMPCInit
import Verif.Model.ModularMPC
import Verif.Spec.ModularMPC
import Verif.Lemmas.Planner
import Verif.Lemmas.ModularMPC
import Verif.Props.ModularMPC
import Verif.Spec.PlanCarried
import Verif.Lemmas.PlanCarried
import Verif.Props.RationalPlans
import Verif.Props.PlanCarried
import Verif.Model.EnvObs
import Verif.Spec.EnvObs
import Verif.Lemmas.EnvObs
import Verif.Lemmas.StateSeries
import Verif.Props.EnvObs
import Verif.Props.StateSeries
import Verif.Model.GridSetters
import Verif.Spec.GridSetters
import Verif.Lemmas.GridSetters
import Verif.Props.GridSetters
import Verif.Props.GridForecast
import Verif.Model.Wrap
import Verif.Lemmas.Wrap
import Verif.Props.Wrap
import Verif.Model.Continuous
import Verif.Spec.Continuous
import Verif.Props.Continuous
import Verif.Model.Access
import Verif.Spec.Access
import Verif.Lemmas.Access
import Verif.Props.Access
import Verif.Model.SAA
import Verif.Spec.SAA
import Verif.Lemmas.SAA
import Verif.Props.SAA
import Verif.Spec.Ledger
import Verif.Lemmas.Ledger
import Verif.Props.Ledger
import Verif.Model.RBCRun
import Verif.Props.RBCRun
import Verif.Model.Callable
import Verif.Props.Callable
import Verif.Props.Reproduce
import Verif.Props.Order
import Verif.Props.LegacySplit
import Verif.Props.Currency
import Verif.Props.Sunnier
import Verif.Props.Window
import Verif.Props.Agent
import Verif.Props.DataGenerator
import Verif.Props.Simulate
import Verif.Props.Units
import Verif.Props.Spare
import Verif.Props.Benchmarks
import Verif.Props.Contains
import Verif.Props.Loads
import Verif.Props.Dual
import Verif.Props.Optimal
import Verif.Props.Greedy
import Verif.Props.CustomBattery
import Verif.Props.Equality
import Verif.Props.Upgrade
import Verif.Props.Foresight
import Verif.Props.NoLookahead
import Verif.Props.Tariff
import Verif.Props.Served
import Verif.Props.WeakGrid
import Verif.Props.Foreseen
import Verif.Props.LegacyPast
import Verif.Props.Quotes
import Verif.Props.Comparison
import Verif.Props.Penalty
import Verif.Props.ForecastArgs
import Verif.Props.LegacyForecast
import Verif.Props.Ranking
import Verif.Props.AgentActions
import Verif.Props.AgentVectors
import Verif.Props.ShortEpisode
import Verif.Props.Standardize
import Verif.Props.SafeEnv
import Verif.Props.FlexSample
import Verif.Conformance.Genset
import Verif.Conformance.Series
import Verif.Conformance.Microgrid
import Verif.Conformance.Trajectory
import Verif.Axioms
