import Verif.Lemmas.Bedload
import Verif.Lemmas.Budget
import Verif.Lemmas.Causal
import Verif.Lemmas.Channel
import Verif.Lemmas.ChannelArea
import Verif.Lemmas.ChannelReach
import Verif.Lemmas.ChannelStore
import Verif.Lemmas.Cliff
import Verif.Lemmas.ClosedEnd
import Verif.Lemmas.Coast
import Verif.Lemmas.Config
import Verif.Lemmas.Core
import Verif.Lemmas.Crest
import Verif.Lemmas.Datum
import Verif.Lemmas.DatumMerge
import Verif.Lemmas.DatumParts
import Verif.Lemmas.DatumRun
import Verif.Lemmas.Drift
import Verif.Lemmas.EndKeep
import Verif.Lemmas.EndStep
import Verif.Lemmas.Ends
import Verif.Lemmas.Figures
import Verif.Lemmas.FillLast
import Verif.Lemmas.Geom
import Verif.Lemmas.Hydro
import Verif.Lemmas.Later
import Verif.Lemmas.Load
import Verif.Lemmas.LoadReal
import Verif.Lemmas.Loader
import Verif.Lemmas.Local
import Verif.Lemmas.Mirror
import Verif.Lemmas.MirrorRun
import Verif.Lemmas.Missing
import Verif.Lemmas.MorBreach
import Verif.Lemmas.MorDt
import Verif.Lemmas.MorJunk
import Verif.Lemmas.MorKeep
import Verif.Lemmas.MorLimit
import Verif.Lemmas.MorOutlet
import Verif.Lemmas.MorRel
import Verif.Lemmas.MorRiver
import Verif.Lemmas.MorShore
import Verif.Lemmas.Mouth
import Verif.Lemmas.Moved
import Verif.Lemmas.MovedRun
import Verif.Lemmas.NewChan
import Verif.Lemmas.Offline
import Verif.Lemmas.Ordered
import Verif.Lemmas.Out
import Verif.Lemmas.PartsReal
import Verif.Lemmas.Plain
import Verif.Lemmas.Preissmann
import Verif.Lemmas.PreissmannJac
import Verif.Lemmas.PreissmannRun
import Verif.Lemmas.Py
import Verif.Lemmas.Regular
import Verif.Lemmas.Relic
import Verif.Lemmas.Remnant
import Verif.Lemmas.Resize
import Verif.Lemmas.Rest
import Verif.Lemmas.RestRepair
import Verif.Lemmas.RestRun
import Verif.Lemmas.RiverKeep
import Verif.Lemmas.Run
import Verif.Lemmas.Scale
import Verif.Lemmas.Series
import Verif.Lemmas.Sizes
import Verif.Lemmas.Solvable
import Verif.Lemmas.SolverLen
import Verif.Lemmas.Spit
import Verif.Lemmas.SpitStep
import Verif.Lemmas.Steadfast
import Verif.Lemmas.Steady
import Verif.Lemmas.Swan
import Verif.Lemmas.Synth
import Verif.Lemmas.Transfer
import Verif.Lemmas.Trim
import Verif.Lemmas.TrimLine
import Verif.Lemmas.Uniform
import Verif.Lemmas.View
import Verif.Lemmas.ViewInv
import Verif.Lemmas.WaterBalance
import Verif.Lemmas.Widen
import Verif.Lemmas.WidenOut
import Verif.Model.BdyFig
import Verif.Model.Bedload
import Verif.Model.Channel
import Verif.Model.Coast
import Verif.Model.Config
import Verif.Model.Core
import Verif.Model.Figures
import Verif.Model.Geom
import Verif.Model.Load
import Verif.Model.LoadReal
import Verif.Model.Loader
import Verif.Model.MapView
import Verif.Model.MorRates
import Verif.Model.MorRepair
import Verif.Model.Out
import Verif.Model.Preissmann
import Verif.Model.RealFn
import Verif.Model.Series
import Verif.Model.Steady
import Verif.Model.Swan
import Verif.Model.Synth
import Verif.Model.TrimLine
import Verif.Model.Types
import Verif.Model.View
import Verif.Num
import Verif.Props.Angle
import Verif.Props.Backwater
import Verif.Props.Barrier
import Verif.Props.BdyFig
import Verif.Props.Bedload
import Verif.Props.BedloadMore
import Verif.Props.Budget
import Verif.Props.Calm
import Verif.Props.CalmSea
import Verif.Props.Channel
import Verif.Props.ChannelArea
import Verif.Props.ChannelEnd
import Verif.Props.ChannelStore
import Verif.Props.Cliff
import Verif.Props.CliffRun
import Verif.Props.ClosedFlow
import Verif.Props.ClosedSide
import Verif.Props.Coast
import Verif.Props.Compare
import Verif.Props.Config
import Verif.Props.ConfigUse
import Verif.Props.Control
import Verif.Props.Core
import Verif.Props.CoreSample
import Verif.Props.Crest
import Verif.Props.DataError
import Verif.Props.DataGaps
import Verif.Props.Datum
import Verif.Props.Defaults
import Verif.Props.Direction
import Verif.Props.Drawn
import Verif.Props.Drift
import Verif.Props.EndBed
import Verif.Props.EndWidth
import Verif.Props.Ends
import Verif.Props.Energy
import Verif.Props.Fallback
import Verif.Props.Figures
import Verif.Props.Finer
import Verif.Props.Flow
import Verif.Props.Forcing
import Verif.Props.Gaps
import Verif.Props.Geom
import Verif.Props.Hinder
import Verif.Props.Hydro
import Verif.Props.Invariance
import Verif.Props.Load
import Verif.Props.LoadReal
import Verif.Props.Loader
import Verif.Props.LoaderStart
import Verif.Props.LoaderUse
import Verif.Props.Local
import Verif.Props.LongSecFrame
import Verif.Props.MapView
import Verif.Props.Mirror
import Verif.Props.Missing
import Verif.Props.Momentum
import Verif.Props.MorBreach
import Verif.Props.MorCross
import Verif.Props.MorDt
import Verif.Props.MorLimit
import Verif.Props.MorOutlet
import Verif.Props.MorRepair
import Verif.Props.MorRiver
import Verif.Props.MorSample
import Verif.Props.MorShore
import Verif.Props.MorStep
import Verif.Props.MorTrunc
import Verif.Props.MoreFlow
import Verif.Props.Mouth
import Verif.Props.NewChan
import Verif.Props.Oblique
import Verif.Props.Offline
import Verif.Props.OpenTotal
import Verif.Props.Ordered
import Verif.Props.Out
import Verif.Props.Place
import Verif.Props.Points
import Verif.Props.Pool
import Verif.Props.Preissmann
import Verif.Props.Range
import Verif.Props.Redundant
import Verif.Props.Relic
import Verif.Props.Remnant
import Verif.Props.Resize
import Verif.Props.Rest
import Verif.Props.River
import Verif.Props.Rollover
import Verif.Props.Runs
import Verif.Props.RunupLaw
import Verif.Props.ScaleModel
import Verif.Props.SeaErosion
import Verif.Props.Series
import Verif.Props.Shots
import Verif.Props.Singular
import Verif.Props.Smooth
import Verif.Props.Solvable
import Verif.Props.Spit
import Verif.Props.Steady
import Verif.Props.StepRecord
import Verif.Props.Straight
import Verif.Props.Stretch
import Verif.Props.Stronger
import Verif.Props.Superpose
import Verif.Props.Swan
import Verif.Props.Synth
import Verif.Props.TideError
import Verif.Props.Total
import Verif.Props.Trade
import Verif.Props.TrimLine
import Verif.Props.Turn
import Verif.Props.TwoFiles
import Verif.Props.Units
import Verif.Props.View
import Verif.Props.WaterBalance
import Verif.Props.WholeTurns
import Verif.Props.Widen
import Verif.Props.WidenOut
import Verif.Py
import Verif.Spec.Backwater
import Verif.Spec.Barrier
import Verif.Spec.Bedload
import Verif.Spec.BedloadMore
import Verif.Spec.Budget
import Verif.Spec.Calm
import Verif.Spec.Channel
import Verif.Spec.Coast
import Verif.Spec.Config
import Verif.Spec.Core
import Verif.Spec.Crest
import Verif.Spec.DataGaps
import Verif.Spec.Datum
import Verif.Spec.Defaults
import Verif.Spec.Ends
import Verif.Spec.Figures
import Verif.Spec.Finer
import Verif.Spec.Flow
import Verif.Spec.Gaps
import Verif.Spec.Geom
import Verif.Spec.Hinder
import Verif.Spec.Hydro
import Verif.Spec.Load
import Verif.Spec.Loader
import Verif.Spec.Local
import Verif.Spec.MapView
import Verif.Spec.Mirror
import Verif.Spec.Momentum
import Verif.Spec.Mor
import Verif.Spec.Moved
import Verif.Spec.Offline
import Verif.Spec.OpenTotal
import Verif.Spec.Order
import Verif.Spec.Out
import Verif.Spec.Outlet
import Verif.Spec.Place
import Verif.Spec.Pool
import Verif.Spec.Preissmann
import Verif.Spec.Range
import Verif.Spec.Redundant
import Verif.Spec.Regular
import Verif.Spec.Relic
import Verif.Spec.Remnant
import Verif.Spec.Resize
import Verif.Spec.Rest
import Verif.Spec.River
import Verif.Spec.Run
import Verif.Spec.ScaleModel
import Verif.Spec.Series
import Verif.Spec.Shots
import Verif.Spec.Side
import Verif.Spec.Smooth
import Verif.Spec.Spit
import Verif.Spec.Steady
import Verif.Spec.Stretch
import Verif.Spec.Swan
import Verif.Spec.Through
import Verif.Spec.Total
import Verif.Spec.Trade
import Verif.Spec.TrimLine
import Verif.Spec.Turn
import Verif.Spec.TwoFiles
import Verif.Spec.Units
import Verif.Spec.View
import Verif.Spec.WaterBalance
import Verif.Spec.Widen
