import Verif.Model.Cli
import Verif.Model.Clock
import Verif.Model.Config
import Verif.Model.Curvature
import Verif.Model.DataTypes
import Verif.Model.Defaults
import Verif.Model.Driver
import Verif.Model.Err
import Verif.Model.ErrorText
import Verif.Model.Failure
import Verif.Model.Flexure
import Verif.Model.Float
import Verif.Model.Fluvial
import Verif.Model.Formats
import Verif.Model.Grid
import Verif.Model.Interp
import Verif.Model.Layers
import Verif.Model.Live
import Verif.Model.Loading
import Verif.Model.Logger
import Verif.Model.Messages
import Verif.Model.Output
import Verif.Model.OutputRun
import Verif.Model.Params
import Verif.Model.Plot
import Verif.Model.PlotCommand
import Verif.Model.PlotFile
import Verif.Model.Processes
import Verif.Model.Progress
import Verif.Model.PyDict
import Verif.Model.Reader
import Verif.Model.RowText
import Verif.Model.RunCommand
import Verif.Model.SeaLevel
import Verif.Model.Search
import Verif.Model.SetOrder
import Verif.Model.Shoreline
import Verif.Model.Submarine
import Verif.Model.Ticks
import Verif.Model.Timers
import Verif.Model.Unfinished
import Verif.Model.VarNames
import Verif.Model.WrittenRun
import Verif.Model.XNum
import Verif.Spec.Accepted
import Verif.Spec.Causality
import Verif.Spec.Cli
import Verif.Spec.Compaction
import Verif.Spec.Config
import Verif.Spec.DataTypes
import Verif.Spec.Driver
import Verif.Spec.Drivers
import Verif.Spec.Failure
import Verif.Spec.FileFields
import Verif.Spec.IdleSea
import Verif.Spec.KeyOrder
import Verif.Spec.Layers
import Verif.Spec.Live
import Verif.Spec.Messages
import Verif.Spec.Mud
import Verif.Spec.Netcdf
import Verif.Spec.NewState
import Verif.Spec.Nulls
import Verif.Spec.OldFiles
import Verif.Spec.OneRecord
import Verif.Spec.Order
import Verif.Spec.Output
import Verif.Spec.OutputSettings
import Verif.Spec.Package
import Verif.Spec.Params
import Verif.Spec.Plot
import Verif.Spec.PlotCommand
import Verif.Spec.PlotFile
import Verif.Spec.RecordEdge
import Verif.Spec.Retreat
import Verif.Spec.Rows
import Verif.Spec.RunCommand
import Verif.Spec.SetOrder
import Verif.Spec.Setup
import Verif.Spec.ShoreLag
import Verif.Spec.Stops
import Verif.Spec.Symmetry
import Verif.Spec.Ticks
import Verif.Spec.TimeUnit
import Verif.Spec.Timers
import Verif.Spec.Unfinished
import Verif.Spec.WrittenRun
import Verif.Lemmas.Accepted
import Verif.Lemmas.Archive
import Verif.Lemmas.Cli
import Verif.Lemmas.CliNulls
import Verif.Lemmas.Clock
import Verif.Lemmas.Compaction
import Verif.Lemmas.Config
import Verif.Lemmas.ConfigFile
import Verif.Lemmas.Doc
import Verif.Lemmas.Driver
import Verif.Lemmas.DriverRun
import Verif.Lemmas.Drivers
import Verif.Lemmas.Failure
import Verif.Lemmas.Float
import Verif.Lemmas.FloatRun
import Verif.Lemmas.Grid
import Verif.Lemmas.History
import Verif.Lemmas.Layers
import Verif.Lemmas.Live
import Verif.Lemmas.Netcdf
import Verif.Lemmas.NullValues
import Verif.Lemmas.Nulls
import Verif.Lemmas.OldFiles
import Verif.Lemmas.Order
import Verif.Lemmas.Output
import Verif.Lemmas.OutputSettings
import Verif.Lemmas.Package
import Verif.Lemmas.Params
import Verif.Lemmas.Plot
import Verif.Lemmas.PlotCommand
import Verif.Lemmas.PlotFile
import Verif.Lemmas.Prelude
import Verif.Lemmas.Processes
import Verif.Lemmas.PyDict
import Verif.Lemmas.Rows
import Verif.Lemmas.RunCommand
import Verif.Lemmas.RunParams
import Verif.Lemmas.Search
import Verif.Lemmas.SetOrder
import Verif.Lemmas.Setup
import Verif.Lemmas.Shoreline
import Verif.Lemmas.Stops
import Verif.Lemmas.Submarine
import Verif.Lemmas.Symmetry
import Verif.Lemmas.TimeUnit
import Verif.Lemmas.Unfinished
import Verif.Lemmas.XNum
import Verif.Props.Accepted
import Verif.Props.Causality
import Verif.Props.Cli
import Verif.Props.Clock
import Verif.Props.Compaction
import Verif.Props.Config
import Verif.Props.Curvature
import Verif.Props.DataTypes
import Verif.Props.Defaults
import Verif.Props.Driver
import Verif.Props.DriverRun
import Verif.Props.Drivers
import Verif.Props.ErrorText
import Verif.Props.Failure
import Verif.Props.FileFields
import Verif.Props.FirstSurface
import Verif.Props.Flexure
import Verif.Props.FlexureRun
import Verif.Props.Float
import Verif.Props.FloatRun
import Verif.Props.Fluvial
import Verif.Props.FluvialDensity
import Verif.Props.FluvialFlat
import Verif.Props.FluvialPlain
import Verif.Props.Formats
import Verif.Props.Grid
import Verif.Props.Idle
import Verif.Props.IdleSea
import Verif.Props.Interp
import Verif.Props.KeyOrder
import Verif.Props.Layers
import Verif.Props.Live
import Verif.Props.Logger
import Verif.Props.Messages
import Verif.Props.ModelParts
import Verif.Props.Mud
import Verif.Props.Netcdf
import Verif.Props.NewState
import Verif.Props.Nulls
import Verif.Props.OldFiles
import Verif.Props.OneRecord
import Verif.Props.Order
import Verif.Props.Output
import Verif.Props.OutputRun
import Verif.Props.OutputSettings
import Verif.Props.Package
import Verif.Props.Params
import Verif.Props.Plot
import Verif.Props.PlotColors
import Verif.Props.PlotCommand
import Verif.Props.PlotFile
import Verif.Props.PlotGrid
import Verif.Props.PlotRun
import Verif.Props.Progress
import Verif.Props.Reader
import Verif.Props.RecordEdge
import Verif.Props.Retreat
import Verif.Props.RisingPlain
import Verif.Props.RowText
import Verif.Props.Rows
import Verif.Props.RunCommand
import Verif.Props.RunParts
import Verif.Props.SeaLevel
import Verif.Props.Sections
import Verif.Props.SedLoad
import Verif.Props.SetOrder
import Verif.Props.Setup
import Verif.Props.ShoreLag
import Verif.Props.Shoreline
import Verif.Props.SomeRows
import Verif.Props.StartFile
import Verif.Props.StepSize
import Verif.Props.Stops
import Verif.Props.Submarine
import Verif.Props.Symmetry
import Verif.Props.TextFields
import Verif.Props.Ticks
import Verif.Props.TimeUnit
import Verif.Props.Timers
import Verif.Props.Unfinished
import Verif.Props.Unused
import Verif.Props.VarNames
import Verif.Props.WrittenRun
