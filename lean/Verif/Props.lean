import Verif.Props.Access
import Verif.Props.AppConfig
import Verif.Props.AzGap
import Verif.Props.BatchLoader
import Verif.Props.Catalog
import Verif.Props.CatalogBuild
import Verif.Props.CatalogEdit
import Verif.Props.CatalogFile
import Verif.Props.CatalogSelection
import Verif.Props.CatalogText
import Verif.Props.ClusterFiles
import Verif.Props.Clusters
import Verif.Props.CommandLine
import Verif.Props.Configuration
import Verif.Props.Correlation
import Verif.Props.Csv
import Verif.Props.DDFile
import Verif.Props.DDSystem
import Verif.Props.Daemon
import Verif.Props.DaemonExample
import Verif.Props.DaemonRun
import Verif.Props.DataFactor
import Verif.Props.DateLine
import Verif.Props.DistanceReport
import Verif.Props.Double
import Verif.Props.DumpWaveforms
import Verif.Props.Ellipsoid
import Verif.Props.FittedData
import Verif.Props.FloatExact
import Verif.Props.FloatIteration
import Verif.Props.FloatSolve
import Verif.Props.FloatTime
import Verif.Props.FloatTrace
import Verif.Props.FloatXCorr
import Verif.Props.Geo
import Verif.Props.GreatCircle
import Verif.Props.Grid
import Verif.Props.GridHeader
import Verif.Props.GridIndex
import Verif.Props.GridTable
import Verif.Props.IdToIndex
import Verif.Props.Iteration
import Verif.Props.KdTree
import Verif.Props.LagShift
import Verif.Props.LeastSquares
import Verif.Props.ListOrg
import Verif.Props.Log
import Verif.Props.Lru
import Verif.Props.MapProject
import Verif.Props.MergeCatalogs
import Verif.Props.Messages
import Verif.Props.Modes
import Verif.Props.Neighbours
import Verif.Props.NllGrid
import Verif.Props.NllGridKeys
import Verif.Props.Observations
import Verif.Props.PairFile
import Verif.Props.PartRun
import Verif.Props.Preload
import Verif.Props.PreloadReport
import Verif.Props.ProfileLife
import Verif.Props.Region
import Verif.Props.Relocate
import Verif.Props.RelocateCatalog
import Verif.Props.RelocateEvent
import Verif.Props.RelocateOrder
import Verif.Props.RelocateTotal
import Verif.Props.Renumber
import Verif.Props.RenumberSelect
import Verif.Props.Repeaters
import Verif.Props.Requests
import Verif.Props.Resample
import Verif.Props.Residuals
import Verif.Props.Scheduler
import Verif.Props.SchedulerRate
import Verif.Props.SeisComP
import Verif.Props.SeisComPOrigin
import Verif.Props.Selection
import Verif.Props.SelectionFails
import Verif.Props.SelectionOrder
import Verif.Props.SingleEvent
import Verif.Props.SingleOrder
import Verif.Props.SolveDD
import Verif.Props.Solver
import Verif.Props.SolverAccepts
import Verif.Props.StationDistance
import Verif.Props.Stats
import Verif.Props.Tables
import Verif.Props.TimeShift
import Verif.Props.TimeWindow
import Verif.Props.Trace
import Verif.Props.TransMerc
import Verif.Props.Transform
import Verif.Props.TravelTime
import Verif.Props.Trim
import Verif.Props.Turn
import Verif.Props.UtcText
import Verif.Props.UtcTime
import Verif.Props.WaveformAccess
import Verif.Props.WaveformCache
import Verif.Props.WaveformTimes
import Verif.Props.WaveformTransform
import Verif.Props.WaveformWindow
import Verif.Props.WeightFactor
import Verif.Props.WorkingDir
import Verif.Props.XCorr
import Verif.Props.XCorrBuild
import Verif.Props.XCorrCache
import Verif.Props.XCorrFile
import Verif.Props.XCorrReport
import Verif.Props.XCorrReuse
import Verif.Props.XCorrText
