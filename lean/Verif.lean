import Verif.Lemmas.Build
import Verif.Lemmas.Build2
import Verif.Lemmas.BuildExogenous
import Verif.Lemmas.Cache
import Verif.Lemmas.Characters
import Verif.Lemmas.ChoiceMonotone
import Verif.Lemmas.ChoiceProbability
import Verif.Lemmas.ChoiceSets
import Verif.Lemmas.Comparative
import Verif.Lemmas.ComparativeParams
import Verif.Lemmas.ComputeCovariates
import Verif.Lemmas.ConditionalDraws
import Verif.Lemmas.ConditionalDraws2
import Verif.Lemmas.Consistency
import Verif.Lemmas.CoreStateSpace
import Verif.Lemmas.CoreStateSpace2
import Verif.Lemmas.CovariateGroups
import Verif.Lemmas.CovariateOrder
import Verif.Lemmas.Covariates
import Verif.Lemmas.DataChecking
import Verif.Lemmas.DeltaParams
import Verif.Lemmas.Dense
import Verif.Lemmas.Dense2
import Verif.Lemmas.Dict
import Verif.Lemmas.DictUpdate
import Verif.Lemmas.Differences
import Verif.Lemmas.DrawLimit
import Verif.Lemmas.Emax
import Verif.Lemmas.EndToEnd
import Verif.Lemmas.EndToEndExogenous
import Verif.Lemmas.ExactLimit
import Verif.Lemmas.Exogenous
import Verif.Lemmas.GaussianExists
import Verif.Lemmas.GaussianUpdate
import Verif.Lemmas.Grounded
import Verif.Lemmas.Histories
import Verif.Lemmas.HistoryLikelihood
import Verif.Lemmas.Individuals
import Verif.Lemmas.InitialDistribution
import Verif.Lemmas.InitialLaw
import Verif.Lemmas.InitialTypes
import Verif.Lemmas.InputFrame
import Verif.Lemmas.Interpolate
import Verif.Lemmas.InterpolateTotal
import Verif.Lemmas.InterpolatedShift
import Verif.Lemmas.InterpolatedSolution
import Verif.Lemmas.InterpolatedStates
import Verif.Lemmas.Irrelevant
import Verif.Lemmas.LawOfMotion
import Verif.Lemmas.LeastSquares
import Verif.Lemmas.LevelShift
import Verif.Lemmas.Likelihood
import Verif.Lemmas.Likelihood2
import Verif.Lemmas.LikelihoodRatio
import Verif.Lemmas.LogLike
import Verif.Lemmas.LogLikeCriterion
import Verif.Lemmas.LogLikeRow
import Verif.Lemmas.LogNormal
import Verif.Lemmas.MapM
import Verif.Lemmas.MomentLabels
import Verif.Lemmas.MomentOrder
import Verif.Lemmas.Moments
import Verif.Lemmas.MonteCarlo
import Verif.Lemmas.Myopic
import Verif.Lemmas.Names
import Verif.Lemmas.Nearby
import Verif.Lemmas.OptionOrder
import Verif.Lemmas.Options
import Verif.Lemmas.OwnSamples
import Verif.Lemmas.Parallel
import Verif.Lemmas.ParamOrder
import Verif.Lemmas.ParamOrderCriterion
import Verif.Lemmas.ParamOrderModel
import Verif.Lemmas.ProcessLikelihood
import Verif.Lemmas.ProcessModel
import Verif.Lemmas.ProcessModel2
import Verif.Lemmas.ProcessSimulate
import Verif.Lemmas.Reprocess
import Verif.Lemmas.RewardParams
import Verif.Lemmas.Rewards
import Verif.Lemmas.SameIndex
import Verif.Lemmas.SampleOrder
import Verif.Lemmas.SamplingTotal
import Verif.Lemmas.ShockMatrix
import Verif.Lemmas.Shocks
import Verif.Lemmas.Simulate
import Verif.Lemmas.Simulate2
import Verif.Lemmas.SimulateRow
import Verif.Lemmas.SimulateRun
import Verif.Lemmas.SimulateSolved
import Verif.Lemmas.SimulateSpace
import Verif.Lemmas.SimulateTotal
import Verif.Lemmas.SimulatedShares
import Verif.Lemmas.Solve
import Verif.Lemmas.Solve2
import Verif.Lemmas.Solve3
import Verif.Lemmas.Solve4
import Verif.Lemmas.Solve5
import Verif.Lemmas.SolveFunction
import Verif.Lemmas.SolveTotal
import Verif.Lemmas.StateCovariates
import Verif.Lemmas.Templates
import Verif.Lemmas.Text
import Verif.Lemmas.Transition
import Verif.Lemmas.TransitionFrame
import Verif.Lemmas.TypeFrame
import Verif.Lemmas.TypeOrder
import Verif.Lemmas.Words
import Verif.Model.Build
import Verif.Model.Cache
import Verif.Model.CheckSolution
import Verif.Model.ChoiceSets
import Verif.Model.Choices
import Verif.Model.ConditionalDraws
import Verif.Model.CoreStateSpace
import Verif.Model.Covariates
import Verif.Model.DataChecking
import Verif.Model.DefaultRestriction
import Verif.Model.Dense
import Verif.Model.Dict
import Verif.Model.Dtypes
import Verif.Model.EightBits
import Verif.Model.Emax
import Verif.Model.Exogenous
import Verif.Model.FormerCode
import Verif.Model.InputFrame
import Verif.Model.Interpolate
import Verif.Model.Labels
import Verif.Model.LawOfMotion
import Verif.Model.Likelihood
import Verif.Model.LikelihoodObs
import Verif.Model.LikelihoodPlots
import Verif.Model.LikelihoodSetup
import Verif.Model.LogLike
import Verif.Model.MomentFunctions
import Verif.Model.Moments
import Verif.Model.Names
import Verif.Model.Ols
import Verif.Model.Options
import Verif.Model.Parallel
import Verif.Model.ParameterFunctions
import Verif.Model.ParseParams
import Verif.Model.ProcessEstimate
import Verif.Model.ProcessModel
import Verif.Model.ProcessSimulate
import Verif.Model.Processing
import Verif.Model.RawData
import Verif.Model.Rewards
import Verif.Model.SampleAsData
import Verif.Model.ShippedFilters
import Verif.Model.Shocks
import Verif.Model.Simulate
import Verif.Model.SimulateSpace
import Verif.Model.SimulatedSample
import Verif.Model.Solve
import Verif.Model.SolveFunction
import Verif.Model.SolveHistory
import Verif.Model.Templates
import Verif.Model.Text
import Verif.Model.Transition
import Verif.Model.TransitionFrame
import Verif.Props.AcceptedValues
import Verif.Props.Cache
import Verif.Props.CheckSolution
import Verif.Props.ChoiceProbability
import Verif.Props.Choices
import Verif.Props.Columns
import Verif.Props.Comparative
import Verif.Props.ComparativeInterpolation
import Verif.Props.ComputeCovariates
import Verif.Props.ConditionalDraws
import Verif.Props.Consistency
import Verif.Props.ConsistencyExample
import Verif.Props.Core
import Verif.Props.CovariateGroups
import Verif.Props.Covariates
import Verif.Props.Creation
import Verif.Props.CreationProcessed
import Verif.Props.DataAccepted
import Verif.Props.DataChecking
import Verif.Props.DataOrder
import Verif.Props.Dense
import Verif.Props.Differences
import Verif.Props.DifferencesExample
import Verif.Props.DrawLimit
import Verif.Props.DrawLimitExample
import Verif.Props.Dtypes
import Verif.Props.EightBits
import Verif.Props.Emax
import Verif.Props.EndToEnd
import Verif.Props.EndToEndExogenous
import Verif.Props.ExactLimit
import Verif.Props.ExactLimitExample
import Verif.Props.Exogenous
import Verif.Props.FormerCode
import Verif.Props.Histories
import Verif.Props.HistoriesAccepted
import Verif.Props.HistoriesExample
import Verif.Props.HistoryLikelihood
import Verif.Props.HistoryLikelihoodAccepted
import Verif.Props.HistoryLikelihoodExample
import Verif.Props.Individuals
import Verif.Props.InitialAccepted
import Verif.Props.InitialDistribution
import Verif.Props.InitialExample
import Verif.Props.InitialHistories
import Verif.Props.InitialTypes
import Verif.Props.InitialTypesExample
import Verif.Props.InitialWeights
import Verif.Props.InputColumns
import Verif.Props.InputFrame
import Verif.Props.Interpolate
import Verif.Props.InterpolatedSolution
import Verif.Props.InterpolationPoints
import Verif.Props.InterpolationPointsExample
import Verif.Props.Irrelevant
import Verif.Props.IrrelevantExample
import Verif.Props.IrrelevantInterpolation
import Verif.Props.Labels
import Verif.Props.LaggedChoices
import Verif.Props.LeastSquares
import Verif.Props.Levels
import Verif.Props.Likelihood
import Verif.Props.LikelihoodPlots
import Verif.Props.LikelihoodPlotsExample
import Verif.Props.LogLike
import Verif.Props.MeasurementErrors
import Verif.Props.MomentFunctions
import Verif.Props.MomentFunctionsExample
import Verif.Props.MomentInputs
import Verif.Props.MomentLabels
import Verif.Props.MomentPlots
import Verif.Props.Moments
import Verif.Props.MonteCarlo
import Verif.Props.Myopic
import Verif.Props.MyopicExample
import Verif.Props.Names
import Verif.Props.NecessaryCovariates
import Verif.Props.OneStepAhead
import Verif.Props.OneStepAheadRun
import Verif.Props.OptionOrder
import Verif.Props.OptionOrderExample
import Verif.Props.Options
import Verif.Props.OwnSamples
import Verif.Props.OwnSamplesExample
import Verif.Props.OwnSamplesLabels
import Verif.Props.Parallel
import Verif.Props.ParamOrder
import Verif.Props.ParameterFunctions
import Verif.Props.ParameterFunctionsExample
import Verif.Props.ProcessConsistency
import Verif.Props.ProcessConsistencyAccepted
import Verif.Props.ProcessConsistencyExample
import Verif.Props.ProcessEstimate
import Verif.Props.ProcessEstimateExample
import Verif.Props.ProcessLabels
import Verif.Props.ProcessLikelihood
import Verif.Props.ProcessLikelihoodAccepted
import Verif.Props.ProcessModel
import Verif.Props.ProcessModelExample
import Verif.Props.ProcessSimulate
import Verif.Props.ProcessSimulateExample
import Verif.Props.ProcessWeights
import Verif.Props.Processing
import Verif.Props.RawData
import Verif.Props.Reachable
import Verif.Props.ReachableModels
import Verif.Props.Regression
import Verif.Props.Rewards
import Verif.Props.Robinson
import Verif.Props.SampleLimit
import Verif.Props.SampleLimitExample
import Verif.Props.Sampling
import Verif.Props.ShippedExample
import Verif.Props.ShippedFilters
import Verif.Props.ShippedModels
import Verif.Props.ShockMatrix
import Verif.Props.Shocks
import Verif.Props.Simulate
import Verif.Props.SimulateModel
import Verif.Props.SimulateOutside
import Verif.Props.SimulateRow
import Verif.Props.SimulatedChecks
import Verif.Props.SimulatedMaximum
import Verif.Props.SimulatedMaximumExample
import Verif.Props.SimulatedShares
import Verif.Props.SolutionUse
import Verif.Props.Solve
import Verif.Props.SolveFunction
import Verif.Props.SolveFunctionExample
import Verif.Props.StateSpace
import Verif.Props.Templates
import Verif.Props.Types
import Verif.Props.Unsolvable
import Verif.Spec.Build
import Verif.Spec.Characters
import Verif.Spec.ChoiceProbability
import Verif.Spec.Comparative
import Verif.Spec.Consistency
import Verif.Spec.Core
import Verif.Spec.DeltaParams
import Verif.Spec.Differences
import Verif.Spec.DrawLimit
import Verif.Spec.Emax
import Verif.Spec.Formula
import Verif.Spec.Gaussian
import Verif.Spec.Histories
import Verif.Spec.HistoryLikelihood
import Verif.Spec.Individuals
import Verif.Spec.InitialDistribution
import Verif.Spec.InitialHistories
import Verif.Spec.InitialLaw
import Verif.Spec.InputFrame
import Verif.Spec.InterpolatedSolution
import Verif.Spec.Irrelevant
import Verif.Spec.LeastSquares
import Verif.Spec.LeastSquaresSolution
import Verif.Spec.LevelShift
import Verif.Spec.LogLike
import Verif.Spec.LogLikeModel
import Verif.Spec.MonteCarlo
import Verif.Spec.Nearby
import Verif.Spec.OptionOrder
import Verif.Spec.Options
import Verif.Spec.OwnSamples
import Verif.Spec.ParamOrder
import Verif.Spec.ProcessEstimate
import Verif.Spec.ProcessLikelihood
import Verif.Spec.ProcessModel
import Verif.Spec.ProcessSimulate
import Verif.Spec.Reachable
import Verif.Spec.Reprocess
import Verif.Spec.RewardParams
import Verif.Spec.Rewards
import Verif.Spec.SampleLimit
import Verif.Spec.Shocks
import Verif.Spec.SimulatedMaximum
import Verif.Spec.SimulatedShares
import Verif.Spec.Simulation
import Verif.Spec.SimulationInput
import Verif.Spec.Transition
import Verif.Spec.ValueFunction
