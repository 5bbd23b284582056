import Verif.Model.Py
import Verif.Model.V3
import Verif.Model.Utils
import Verif.Model.Rot
import Verif.Model.Traj
import Verif.Spec.Traj
import Verif.Proofs.Index
import Verif.Proofs.ApplyIndex
import Verif.Proofs.Sort
import Verif.Proofs.Interp
import Verif.Props.TrajIndex
import Verif.Props.TrajInterp
import Verif.Proofs.Span
import Verif.Spec.Time
import Verif.Props.Span
import Verif.Proofs.Intersect
import Verif.Props.Intersect
import Verif.Model.Trig
import Verif.Model.Equations
import Verif.Model.ApplyAlignment
import Verif.Model.Heap
import Verif.Proofs.Heap
import Verif.Props.Heap
import Verif.Model.RotMat
import Verif.Proofs.RotMat
import Verif.Model.MatLib
import Verif.Spec.Rot
import Verif.Proofs.Pose
import Verif.Proofs.Arc
import Verif.Props.Arc
import Verif.Props.Transform
import Verif.Proofs.Equations
import Verif.Proofs.Euler
import Verif.Props.ApplyAlign
import Verif.Proofs.Perm
import Verif.Props.Views
import Verif.Props.Construct
import Verif.Props.Histories
import Verif.Model.Lsq
import Verif.Model.Line
import Verif.Model.Round
import Verif.Props.Utils
import Verif.Model.Match
import Verif.Spec.Match
import Verif.Proofs.Match
import Verif.Props.Match
import Verif.Props.MatchTraj
import Verif.Props.MatchInterp
import Verif.Proofs.Frame
import Verif.Props.MatchRest
import Verif.Props.MatchLine
import Verif.Model.Merge
import Verif.Spec.Merge
import Verif.Props.Merge
import Verif.Model.Sorting
import Verif.Spec.Graph
import Verif.Proofs.Bfs
import Verif.Proofs.Sorting
import Verif.Props.Sorting
import Verif.Model.Arange
import Verif.Model.Voxel
import Verif.Proofs.Voxel
import Verif.Props.Voxel
import Verif.Spec.Mls
import Verif.Props.Mls
import Verif.Model.RotApprox
import Verif.Props.RotApprox
import Verif.Model.Cubic
import Verif.Proofs.Cubic
import Verif.Props.Cubic
import Verif.Proofs.Hermite
import Verif.Props.Hermite
import Verif.Model.Eval
import Verif.Model.Stats
import Verif.Spec.Eval
import Verif.Proofs.Eval
import Verif.Proofs.Rpe
import Verif.Props.Ate
import Verif.Props.Rpe
import Verif.Props.Stats
import Verif.Props.Whole
import Verif.Model.Text
import Verif.Model.Header
import Verif.Model.TrajIO
import Verif.Spec.Text
import Verif.Spec.IO
import Verif.Proofs.Text
import Verif.Proofs.Header
import Verif.Proofs.QuatClose
import Verif.Proofs.TrajFile
import Verif.Props.Header
import Verif.Props.TrajFile
import Verif.Props.ReadFile
import Verif.Model.ResultIO
import Verif.Spec.ResultIO
import Verif.Proofs.RpeFile
import Verif.Proofs.AteFile
import Verif.Props.RpeFile
import Verif.Props.AteFile
import Verif.Props.Params
import Verif.Props.AlignSettings
import Verif.Props.ParamsFile
import Verif.Model.AlignSettings
import Verif.Model.Params
import Verif.Model.ParamsIO
import Verif.Spec.Params
import Verif.Spec.ParamsIO
import Verif.Proofs.Params
import Verif.Proofs.ParamsFile
import Verif.Model.Observations
import Verif.Spec.Observations
import Verif.Proofs.Observations
import Verif.Props.Observations
import Verif.Model.Direct
import Verif.Spec.Direct
import Verif.Spec.Lever
import Verif.Proofs.Direct
import Verif.Props.Direct
import Verif.Props.Lever
import Verif.Model.AdjustMat
import Verif.Model.Adjust
import Verif.Spec.Adjust
import Verif.Proofs.AdjustMat
import Verif.Proofs.Grad
import Verif.Proofs.Adjust
import Verif.Proofs.Ghm
import Verif.Props.AdjustMat
import Verif.Props.Adjust
import Verif.Proofs.GhmStep
import Verif.Props.Ghm
import Verif.Proofs.ExactFit
import Verif.Proofs.ExactRank
import Verif.Proofs.ExactInit
import Verif.Props.ExactFit
import Verif.Model.Metrics
import Verif.Spec.Metrics
import Verif.Proofs.Metrics
import Verif.Proofs.Ate
import Verif.Props.Metrics
import Verif.Model.SettingsDict
import Verif.Spec.SettingsDict
import Verif.Proofs.SettingsDict
import Verif.Props.SettingsDict
import Verif.Model.Report
import Verif.Spec.Report
import Verif.Props.Report
import Verif.Model.Ros
import Verif.Spec.Ros
import Verif.Props.Ros
import Verif.Model.Geo
import Verif.Spec.Geo
import Verif.Props.Geo
import Verif.Props.MlsLines
import Verif.Props.LineFit
import Verif.Model.VarSubset
import Verif.Props.VarSubset
import Verif.Spec.Exact
import Verif.Proofs.ExactAte
import Verif.Proofs.Svd
import Verif.Props.ExactAte
import Verif.Model.Plots
import Verif.Spec.Plots
import Verif.Props.Plots
import Verif.Props.PlotData
import Verif.Model.Mpl
import Verif.Spec.Mpl
import Verif.Props.Mpl
import Verif.Props.MplMore
import Verif.Model.Compare
import Verif.Spec.Compare
import Verif.Props.Compare
import Verif.Model.AlignReport
import Verif.Spec.AlignReport
import Verif.Props.AlignReport
import Verif.Model.RpePlots
import Verif.Spec.RpePlots
import Verif.Props.RpePlots
import Verif.Spec.RpeValues
import Verif.Props.RpeValues
import Verif.Props.RpeExact
import Verif.Model.ParamRefs
import Verif.Spec.ParamRefs
import Verif.Props.ParamRefs
import Verif.Spec.RpeStats
import Verif.Props.RpeStats
import Verif.Props.Summary
import Verif.Props.RpeFrames
import Verif.Model.TrajPlots
import Verif.Spec.TrajPlots
import Verif.Props.TrajPlots
import Verif.Model.ShowReport
import Verif.Spec.ShowReport
import Verif.Props.ShowReport
import Verif.Model.Crash
import Verif.Spec.Crash
import Verif.Props.Crash
import Verif.Spec.Header
import Verif.Props.HeaderValues
import Verif.Props.HeaderErrors
import Verif.Spec.Columns
import Verif.Props.Columns
import Verif.Spec.Preprocess
import Verif.Props.Preprocess
import Verif.Model.Names
import Verif.Props.Names
import Verif.Props.Rematch
import Verif.Spec.TimeShift
import Verif.Proofs.TimeShift
import Verif.Props.TimeShift
import Verif.Props.Swap
import Verif.Spec.Units
import Verif.Proofs.Units
import Verif.Props.Units
import Verif.Props.UnitsLines
import Verif.Props.BallQuery
import Verif.Props.ObsColumns
import Verif.Props.RotationSet
import Verif.Props.AteDistance
import Verif.Props.Stable
import Verif.Props.ConstantError
import Verif.Props.KnownDrift
import Verif.Props.StableMore
import Verif.Props.RpeLocal
import Verif.Props.AteParts
import Verif.Props.NoShortcut
import Verif.Props.RpeExchange
import Verif.Props.BestShift
import Verif.Props.RpeBound
import Verif.Props.RpeBoundTurned
import Verif.Props.RpeTriangle
import Verif.Props.BestAlign
import Verif.Props.TimeOffset
import Verif.Props.MatchCost
import Verif.Props.MatchCostTurn
import Verif.Props.MatchCostRpe
import Verif.Props.MatchCostPosed
import Verif.Props.RpeMatched
import Verif.Props.InterpCost
import Verif.Props.MatchCostSlerp
import Verif.Props.MatchCostPosedSlerp
import Verif.Props.Scaled
import Verif.Props.InterpMore
import Verif.Props.ExactRot
import Verif.Props.CompareRot
import Verif.Props.RpeCall
import Verif.Props.Thresholds
import Verif.Model.ReportHead
import Verif.Spec.ReportHead
import Verif.Props.ReportHead
import Verif.Spec.Resave
import Verif.Props.Resave
import Verif.Spec.Weights
import Verif.Props.Weights
import Verif.Props.WeightsApi
import Verif.Spec.TornNumber
import Verif.Props.TornNumber
import Verif.Spec.PlotUnits
import Verif.Props.PlotUnits
import Verif.Spec.AxisTexts
import Verif.Props.AxisTexts
import Verif.Spec.Origin
import Verif.Props.Origin
import Verif.Props.OriginApi
import Verif.Spec.TotalLength
import Verif.Props.TotalLength
import Verif.Model.Card
import Verif.Spec.Card
import Verif.Props.Card
import Verif.Props.FromNumpy
import Verif.Props.EstSettingsText
import Verif.Spec.Speeds
import Verif.Props.Speeds
import Verif.Model.GroupStds
import Verif.Props.GroupStds
import Verif.Model.BarPlots
import Verif.Props.BarPlots
import Verif.Spec.Reorder
import Verif.Props.Reorder
import Verif.Props.MoveSelect
import Verif.Props.Selections
import Verif.Model.SettingsRead
import Verif.Props.Defaults
import Verif.Props.ApproxMoved
import Verif.Props.TrackFrame
import Verif.Props.Identity
import Verif.Props.MatchMeta
import Verif.Props.RoughOffset
import Verif.Props.Densify
import Verif.Props.Json
import Verif.Props.Wider
import Verif.Props.Local
import Verif.Props.ObsEdit
import Verif.Props.AlignCache
import Verif.Props.MergeMore
import Verif.Props.Again
import Verif.Props.Natural
