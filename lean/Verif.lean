import Verif.Props.Advection
import Verif.Props.Stability
import Verif.Props.Vertical
import Verif.Props.Step
import Verif.Props.Rotation
import Verif.Props.NaN
import Verif.Props.Run
import Verif.Props.RunPhysics
import Verif.Props.Restart
import Verif.Props.Progress
import Verif.Props.Warnings
import Verif.Props.RunMore
import Verif.Props.NaNRun
import Verif.Props.NoEnd
import Verif.Props.Complete
import Verif.Props.Single
import Verif.Props.Names
import Verif.Props.Select
import Verif.Props.Load
import Verif.Props.LoadOnly
import Verif.Props.Config
import Verif.Props.Cli
import Verif.Props.Column
import Verif.Props.ColumnMore
import Verif.Props.ModelLevels
import Verif.Props.Surface
import Verif.Props.Longitude
import Verif.Props.PrepRun
import Verif.Props.PrepGrid
import Verif.Props.Validate
import Verif.Props.Bounds
import Verif.Props.Checks
import Verif.Props.GridInfo
import Verif.Props.Regions
import Verif.Props.Shapes
import Verif.Props.Compare
import Verif.Props.Superposition
import Verif.Props.Contract
import Verif.Props.Window
import Verif.Props.Balance
import Verif.Props.Input
import Verif.Props.Template
import Verif.Props.InputMore
import Verif.Props.InputOk
import Verif.Props.InputComplete
import Verif.Props.ModelLayers
import Verif.Props.PrepInput
import Verif.Props.PrepInputDemo
import Verif.Props.PrepOrder
import Verif.Props.Rounded
import Verif.Props.Visualize
import Verif.Props.CalendarCheck
import Verif.Props.Pipeline
import Verif.Props.PipelineDemo
import Verif.Props.RegionGrid
import Verif.Props.Accuracy
import Verif.Props.AccuracyRun
import Verif.Props.AccuracyDemo
import Verif.Cases.Step
import Verif.Cases.Run
import Verif.Cases.Compare
import Verif.Cases.Column
import Verif.Cases.Prep
import Verif.Cases.IO
import Verif.Cases.Input
import Verif.Props.History
import Verif.Props.Excerpt
import Verif.Props.Regional
import Verif.Props.RegionalDemo
import Verif.Props.Domain
import Verif.Props.DomainDemo
import Verif.Props.Mirror
import Verif.Props.Units
import Verif.Props.Shift
import Verif.Props.Causal
import Verif.Props.ShiftArchive
import Verif.Props.DateLine
import Verif.Props.DateLineDemo
import Verif.Spec.Disk
import Verif.Model.Disk
import Verif.Lemmas.Disk
import Verif.Props.Disk
import Verif.Props.DiskMore
import Verif.Props.DiskDemo
import Verif.Spec.Dual
import Verif.Lemmas.Dual
import Verif.Props.Dual
import Verif.Props.DualDemo
import Verif.Props.Again
import Verif.Props.Command
import Verif.Props.CommandDemo
import Verif.Spec.Limit
import Verif.Lemmas.Limit
import Verif.Props.Limit
import Verif.Props.LimitDemo
import Verif.Model.PrepCommand
import Verif.Spec.PrepCommand
import Verif.Lemmas.PrepCommand
import Verif.Props.PrepCommand
import Verif.Lemmas.Works
import Verif.Spec.Works
import Verif.Props.Works
import Verif.Props.WorksDemo
import Verif.Props.Concurrent
import Verif.Props.ConcurrentDemo
import Verif.Spec.Winds
import Verif.Props.Winds
import Verif.Props.WindsDemo
import Verif.Spec.Split
import Verif.Props.Split
import Verif.Props.SplitDemo
import Verif.Spec.PrepParts
import Verif.Props.PrepParts
import Verif.Props.PrepPartsDemo
import Verif.Props.SplitSingle
import Verif.Props.SplitSingleDemo
import Verif.Spec.SplitMany
import Verif.Props.SplitMany
import Verif.Props.SplitManyDemo
import Verif.Model.Download
import Verif.Spec.Download
import Verif.Lemmas.Download
import Verif.Props.Download
import Verif.Props.DownloadDemo
import Verif.Model.Export
import Verif.Spec.Export
import Verif.Props.Export
import Verif.Props.ExportDemo
import Verif.Model.Netcdf
import Verif.Spec.Netcdf
import Verif.Lemmas.Netcdf
import Verif.Props.Netcdf
import Verif.Spec.PrepAccuracy
import Verif.Lemmas.ColumnRounded
import Verif.Lemmas.EdgesRounded
import Verif.Props.PrepAccuracy
import Verif.Props.PrepAccuracyDemo
import Verif.Model.RegionSource
import Verif.Spec.RegionSource
import Verif.Props.RegionSource
import Verif.Spec.Corrections
import Verif.Props.Corrections
import Verif.Props.CorrectionsDemo
import Verif.Model.Legacy
import Verif.Spec.Legacy
import Verif.Props.Legacy
import Verif.Model.Store
import Verif.Spec.PrepStored
import Verif.Props.PrepStored
import Verif.Props.PrepStoredDemo
import Verif.Lemmas.PressureRounded
import Verif.Lemmas.PressureColumn
import Verif.Lemmas.PressureLayers
import Verif.Spec.PressureAccuracy
import Verif.Props.PressureAccuracy
import Verif.Props.PressureAccuracyDemo
import Verif.Spec.SplitRounded
import Verif.Props.SplitRounded
import Verif.Props.SplitRoundedDemo
import Verif.Spec.Parts
import Verif.Props.Parts
import Verif.Spec.Cone
import Verif.Lemmas.Cone
import Verif.Props.Cone
import Verif.Spec.Full
import Verif.Lemmas.Full
import Verif.Props.Full
import Verif.Cases.Backward
