import Verif.AnglesProps
import Verif.PolarProps
import Verif.HistogramProps
import Verif.FovProps
import Verif.CloudProps
import Verif.MessagesProps
import Verif.TransformBufferProps
import Verif.UsmProps
import Verif.AvoidanceNodeProps
import Verif.ProcessCloudProps
import Verif.HistGenProps
import Verif.CandidatesProps
import Verif.CostProps
import Verif.SmoothProps
import Verif.LocalPlannerProps
import Verif.StarPlannerProps
import Verif.SimulatorProps
import Verif.WpGenSmooth
import Verif.NodeletLocks
import Verif.NodeletProps
import Verif.LandingGridProps
import Verif.LandingLandProps
import Verif.LandingFilterProps
import Verif.SlpProps
import Verif.SlpRunProps
import Verif.SlpObserveProps
import Verif.SlpResetProps
import Verif.SlpMoreProps
import Verif.SlpSpiralProps
import Verif.SlpLaw
import Verif.SlpProgress
import Verif.GpCellProps
import Verif.GpSearchProps
import Verif.GpSearchMore
import Verif.GpNodeProps
import Verif.GpEdgeProps
import Verif.GpSimplifyProps
import Verif.GpFallbackProps
import Verif.GpHeurProps
import Verif.GpReplanProps
import Verif.GpStateProps
import Verif.GpBezierProps
import Verif.GpFollowProps
import Verif.GpSearchEffort
import Verif.GpFallbackMore
import Verif.GpReplanMore
import Verif.GpSimplifyMore
import Verif.GpStateMore
import Verif.GpMovesProps
import Verif.SlpNodeProps
import Verif.WpGenLaw
import Verif.LandingReplayProps
import Verif.LandingConfigProps
import Verif.GpCellLaw
import Verif.GpFollowLaw
import Verif.RunPlanner
import Verif.RunPlannerProps
import Verif.RunDefinedProps
import Verif.CloudExactProps
import Verif.SeenObstacleProps
import Verif.LpMemoryProps
import Verif.GpPlannerEffort
import Verif.RunSpeedProps
import Verif.Races
import Verif.NodeletRaces
import Verif.GoalRace
import Verif.Wakeup
import Verif.WakeupProps
import Verif.GpTight
import Verif.NodeRun
import Verif.NodeRunProps
import Verif.NodeSpeedProps
import Verif.NodeAvoidProps
import Verif.NodeScanProps
import Verif.NodeStatusProps
import Verif.DisplayProps
import Verif.MarkerProps
import Verif.GpPathProps
import Verif.ShutdownProps
import Verif.GlobalRacesProps
import Verif.GpRun
import Verif.GpRunProps
import Verif.GpRunMore
import Verif.WorldLoader
import Verif.WorldLoaderProps
import Verif.LandingDisplay
import Verif.LandingDisplayProps
import Verif.GpAsk
import Verif.GpAskProps
import Verif.NodeShow
import Verif.NodeShowProps
import Verif.LandingSystem
import Verif.LandingSystemProps
import Verif.TouchdownProps
import Verif.GpRunObstacles
import Verif.FlatLandingProps
import Verif.ClearViewProps
import Verif.GpGiveUp
import Verif.ReachGoalProps
import Verif.ReachGoalExamples
import Verif.GpArriveProps
import Verif.GpArriveExamples
import Verif.ClimbProps
import Verif.ClimbExamples
import Verif.LandTakeoffProps
import Verif.LandTakeoffExamples
import Verif.FacingProps
import Verif.SmoothSpeedProps
import Verif.SmoothSpeedExamples
import Verif.MockData
import Verif.MockDataProps
import Verif.LocalAsk
import Verif.LocalAskProps
import Verif.ReturnProps
import Verif.ReturnExamples
import Verif.LandingSafeProps
import Verif.NearGoalDefined
import Verif.LpDefinedProps
import Verif.SlpForgetProps
import Verif.GpAccept
import Verif.Rounding
import Verif.RoundingProps
import Verif.WpOpen
import Verif.WpOpenProps
import Verif.OpenPlan
import Verif.OpenPlanProps
import Verif.OpenFlightProps
