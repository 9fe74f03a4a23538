import Verif.Action.Entities
import Verif.Action.EntitiesTheorems
import Verif.Action.Lemmas
import Verif.Action.Model
import Verif.Action.Spec
import Verif.Action.Theorems
import Verif.Audit
import Verif.Autoware.Model
import Verif.Autoware.Theorems
import Verif.Behavior.Actions
import Verif.Behavior.Cases
import Verif.Behavior.Chain
import Verif.Behavior.CrossingTheorems
import Verif.Behavior.Frame
import Verif.Behavior.Lane
import Verif.Behavior.LaneChangeTheorems
import Verif.Behavior.LaneTheorems
import Verif.Behavior.RequestTheorems
import Verif.Behavior.Requests
import Verif.Behavior.Root
import Verif.Behavior.Spec
import Verif.Behavior.StopTheorems
import Verif.Behavior.Tree
import Verif.Cache.Model
import Verif.Cache.Spec
import Verif.Cache.Theorems
import Verif.Catalog.Model
import Verif.Catalog.Spec
import Verif.Catalog.Theorems
import Verif.Clock.Model
import Verif.Clock.Spec
import Verif.Clock.Theorems
import Verif.Command.CallTheorems
import Verif.Command.CommandTheorems
import Verif.Command.Model
import Verif.Command.Spec
import Verif.Command.ValueTheorems
import Verif.Condition.Lemmas
import Verif.Condition.Model
import Verif.Condition.Spec
import Verif.Condition.Theorems
import Verif.Condition.Watch
import Verif.Condition.WatchTheorems
import Verif.Contact.Corridor
import Verif.Contact.CorridorSpec
import Verif.Contact.CorridorTheorems
import Verif.Contact.Model
import Verif.Contact.Spec
import Verif.Contact.Theorems
import Verif.Convert.LightModel
import Verif.Convert.LightSpec
import Verif.Convert.LightTheorems
import Verif.Convert.Model
import Verif.Convert.Spec
import Verif.Convert.Theorems
import Verif.Detection.Lemmas
import Verif.Detection.Model
import Verif.Detection.Theorems
import Verif.Distance.BoxTheorems
import Verif.Distance.ConditionTheorems
import Verif.Distance.Conditions
import Verif.Distance.LaneTheorems
import Verif.Distance.Minima
import Verif.Distance.Model
import Verif.Distance.NearestTheorems
import Verif.Distance.RelativeTheorems
import Verif.Distance.Spec
import Verif.Distribution.Model
import Verif.Distribution.Spec
import Verif.Distribution.Theorems
import Verif.Ego.CommandTheorems
import Verif.Ego.Model
import Verif.Ego.OverwriteTheorems
import Verif.Ego.PoseTheorems
import Verif.Ego.ReportTheorems
import Verif.Ego.Spec
import Verif.Entity.Lemmas
import Verif.Entity.Model
import Verif.Entity.Request
import Verif.Entity.Spec
import Verif.Entity.Theorems
import Verif.Enum.Model
import Verif.Enum.Spec
import Verif.Enum.Theorems
import Verif.Expr.Converse
import Verif.Expr.Lemmas
import Verif.Expr.Model
import Verif.Expr.Spec
import Verif.Expr.Theorems
import Verif.Follow.ControlTheorems
import Verif.Follow.Controller
import Verif.Follow.DoNothing
import Verif.Follow.DoNothingTheorems
import Verif.Follow.FailureTheorems
import Verif.Follow.LimitTheorems
import Verif.Follow.SelectTheorems
import Verif.Follow.Spec
import Verif.Follow.Way
import Verif.Follow.WayMoveTheorems
import Verif.Follow.WaySpec
import Verif.Follow.WayTheorems
import Verif.Geometry.Box
import Verif.Geometry.BoxTheorems
import Verif.Geometry.CurveTheorems
import Verif.Geometry.PoseTheorems
import Verif.Geometry.Segment
import Verif.Geometry.SegmentTheorems
import Verif.Geometry.Solver
import Verif.Geometry.SolverTheorems
import Verif.Geometry.Spec
import Verif.Geometry.Spline
import Verif.Geometry.SplineCrossTheorems
import Verif.Geometry.SplinePlaceTheorems
import Verif.Geometry.SplineTheorems
import Verif.Geometry.SplineUseTheorems
import Verif.Geometry.Turn
import Verif.Geometry.TurnTheorems
import Verif.Geometry.Vec
import Verif.Grid.Builder
import Verif.Grid.BuilderTheorems
import Verif.Grid.OutlineTheorems
import Verif.Grid.Sensor
import Verif.Grid.SensorTheorems
import Verif.Grid.Shadow
import Verif.Grid.ShadowSpec
import Verif.Grid.ShadowTheorems
import Verif.Grid.Spec
import Verif.Grid.Traversal
import Verif.Grid.TraversalTheorems
import Verif.Init.Model
import Verif.Init.Spec
import Verif.Init.Theorems
import Verif.Interpreter.Model
import Verif.Interpreter.Theorems
import Verif.Job.Lemmas
import Verif.Job.Model
import Verif.Job.Spec
import Verif.Job.Theorems
import Verif.Lamps.AskTheorems
import Verif.Lamps.Lemmas
import Verif.Lamps.Model
import Verif.Lamps.RateTheorems
import Verif.Lamps.ShowTheorems
import Verif.Lamps.Spec
import Verif.Lanelet.Lemmas
import Verif.Lanelet.Model
import Verif.Lanelet.Theorems
import Verif.Lanes.Centerline
import Verif.Lanes.CenterlineTheorems
import Verif.Lanes.Change
import Verif.Lanes.ChangeTheorems
import Verif.Lanes.Queries
import Verif.Lanes.QueryTheorems
import Verif.Lanes.Spec
import Verif.Light.Lemmas
import Verif.Light.Model
import Verif.Light.Spec
import Verif.Light.Theorems
import Verif.Literal.Model
import Verif.Literal.Spec
import Verif.Literal.Theorems
import Verif.Maps.Model
import Verif.Maps.Spec
import Verif.Maps.Theorems
import Verif.Markers.FrameTheorems
import Verif.Markers.Invariant
import Verif.Markers.Lemmas
import Verif.Markers.Model
import Verif.Markers.ShownTheorems
import Verif.Markers.Spec
import Verif.Matching.AngleTheorems
import Verif.Matching.CanonicalTheorems
import Verif.Matching.ChoiceTheorems
import Verif.Matching.MatchTheorems
import Verif.Matching.Model
import Verif.Matching.PlaceTheorems
import Verif.Matching.Spec
import Verif.Modify.Model
import Verif.Modify.Spec
import Verif.Modify.Theorems
import Verif.Modify.YamlTheorems
import Verif.Monitor.Model
import Verif.Monitor.Spec
import Verif.Monitor.Theorems
import Verif.Noise.ImuTheorems
import Verif.Noise.Model
import Verif.Noise.Spec
import Verif.Noise.Theorems
import Verif.Operator.ControlTheorems
import Verif.Operator.CooperateTheorems
import Verif.Operator.Model
import Verif.Operator.RouteTheorems
import Verif.Operator.Spec
import Verif.Orca.LineTheorems
import Verif.Orca.Model
import Verif.Orca.MotionTheorems
import Verif.Orca.PlannerTheorems
import Verif.Orca.Plugin
import Verif.Orca.PluginSpec
import Verif.Orca.SolverLemmas
import Verif.Orca.SolverTheorems
import Verif.Orca.Spec
import Verif.Pace.AutoTheorems
import Verif.Pace.Lemmas
import Verif.Pace.LinearLemmas
import Verif.Pace.LinearTheorems
import Verif.Pace.Model
import Verif.Pace.RelativeTheorems
import Verif.Pace.Spec
import Verif.Pace.StepTheorems
import Verif.Pace.UnconstrainedTheorems
import Verif.Parameter.Model
import Verif.Parameter.Theorems
import Verif.Pedestrian.LaneTheorems
import Verif.Pedestrian.Model
import Verif.Pedestrian.Spec
import Verif.Pedestrian.Theorems
import Verif.Pedestrian.WalkTheorems
import Verif.Place.Model
import Verif.Place.Spec
import Verif.Place.Theorems
import Verif.Preprocessor.Model
import Verif.Preprocessor.Theorems
import Verif.Process.AutowareTheorems
import Verif.Process.Invariant
import Verif.Process.Lemmas
import Verif.Process.Model
import Verif.Process.NoticeTheorems
import Verif.Process.RecordTheorems
import Verif.Process.Roles
import Verif.Process.Spec
import Verif.Process.ViolationTheorems
import Verif.RandomTest.Executor
import Verif.RandomTest.ExecutorSpec
import Verif.RandomTest.ExecutorTheorems
import Verif.RandomTest.Model
import Verif.RandomTest.SearchTheorems
import Verif.RandomTest.Spec
import Verif.RandomTest.Theorems
import Verif.Reach.FrameTheorems
import Verif.Reach.LaneletTheorems
import Verif.Reach.Model
import Verif.Reach.RoadTheorems
import Verif.Reach.Spec
import Verif.Reader.Attribute
import Verif.Reader.AttributeTheorems
import Verif.Reader.Document
import Verif.Reader.DocumentTheorems
import Verif.Reader.Spec
import Verif.Registry.Distances
import Verif.Registry.Lemmas
import Verif.Registry.Model
import Verif.Registry.Spec
import Verif.Registry.Theorems
import Verif.Release.DateTheorems
import Verif.Release.LaunchTheorems
import Verif.Release.Model
import Verif.Release.PathTheorems
import Verif.Release.Spec
import Verif.Report.Model
import Verif.Report.Spec
import Verif.Report.Theorems
import Verif.Request.Model
import Verif.Request.Spec
import Verif.Request.Theorems
import Verif.Route.Model
import Verif.Route.Theorems
import Verif.Routing.Model
import Verif.Routing.Spec
import Verif.Routing.Theorems
import Verif.Scope.Lemmas
import Verif.Scope.Model
import Verif.Scope.Spec
import Verif.Scope.Theorems
import Verif.Select.Model
import Verif.Select.Spec
import Verif.Select.Theorems
import Verif.Sensing.Lidar
import Verif.Sensing.LidarTheorems
import Verif.Sensing.Moves
import Verif.Sensing.MovesTheorems
import Verif.Sensing.Select
import Verif.Sensing.SelectTheorems
import Verif.Sensing.Spec
import Verif.Server.EntityTheorems
import Verif.Server.Lemmas
import Verif.Server.ModeTheorems
import Verif.Server.Model
import Verif.Server.Spec
import Verif.Signal.Cycle
import Verif.Signal.Effects
import Verif.Signal.Model
import Verif.Signal.Predict
import Verif.Signal.Spec
import Verif.Signal.Steps
import Verif.Signal.Theorems
import Verif.Spawn.BoundTheorems
import Verif.Spawn.Controller
import Verif.Spawn.ControllerTheorems
import Verif.Spawn.MapTheorems
import Verif.Spawn.Model
import Verif.Spawn.SourceTheorems
import Verif.Spawn.Spec
import Verif.Speed.Lemmas
import Verif.Speed.Model
import Verif.Speed.Theorems
import Verif.Storyboard.Calm
import Verif.Storyboard.InvAction
import Verif.Storyboard.InvBoard
import Verif.Storyboard.InvEvent
import Verif.Storyboard.InvGroup
import Verif.Storyboard.InvTree
import Verif.Storyboard.Invariant
import Verif.Storyboard.Lemmas
import Verif.Storyboard.Model
import Verif.Storyboard.React
import Verif.Storyboard.ReactSpec
import Verif.Storyboard.ReactTheorems
import Verif.Storyboard.Spec
import Verif.Storyboard.Stop
import Verif.Storyboard.StopTheorems
import Verif.Storyboard.Theorems
import Verif.Storyboard.Visits
import Verif.TaskQueue.Lemmas
import Verif.TaskQueue.Model
import Verif.TaskQueue.Theorems
import Verif.Traffic.Lemmas
import Verif.Traffic.Model
import Verif.Traffic.Theorems
import Verif.Vehicle.ApproachHistoryTheorems
import Verif.Vehicle.ApproachTheorems
import Verif.Vehicle.DelayTheorems
import Verif.Vehicle.GearTheorems
import Verif.Vehicle.LagTheorems
import Verif.Vehicle.Lemmas
import Verif.Vehicle.LimitTheorems
import Verif.Vehicle.MapTheorems
import Verif.Vehicle.Model
import Verif.Vehicle.MotionTheorems
import Verif.Vehicle.SlopeTheorems
import Verif.Vehicle.Spec
import Verif.Vehicle.StepLemmas
import Verif.Vehicle.TurnTheorems
