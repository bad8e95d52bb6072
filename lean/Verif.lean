import Verif.Props.Acf
import Verif.Props.Ages
import Verif.Props.Akima
import Verif.Props.AkimaC
import Verif.Props.AkimaSmooth
import Verif.Props.AkimaTracks
import Verif.Props.Angles
import Verif.Props.Annual
import Verif.Props.AnnualFit
import Verif.Props.AnnualProb
import Verif.Props.Arange64
import Verif.Props.Archive
import Verif.Props.Autoreg
import Verif.Props.Azimuth
import Verif.Props.Balance
import Verif.Props.Balanced
import Verif.Props.Binary64
import Verif.Props.Boundary
import Verif.Props.Cdf
import Verif.Props.CellStats
import Verif.Props.Cells
import Verif.Props.Circular
import Verif.Props.Climate
import Verif.Props.Closest
import Verif.Props.Compiled
import Verif.Props.Config
import Verif.Props.Consistent
import Verif.Props.Convex
import Verif.Props.Counts
import Verif.Props.Crossing
import Verif.Props.CurveRuns
import Verif.Props.DataDownload
import Verif.Props.DataProc
import Verif.Props.Database
import Verif.Props.Datasets
import Verif.Props.DateColumns
import Verif.Props.DateText
import Verif.Props.Dates
import Verif.Props.Defaults
import Verif.Props.Dispatch
import Verif.Props.DispatchFail
import Verif.Props.DomainMesh
import Verif.Props.Draws
import Verif.Props.DynArray
import Verif.Props.Ekman
import Verif.Props.EkmanHolland
import Verif.Props.EvalSave
import Verif.Props.Evaluate
import Verif.Props.EvaluateStats
import Verif.Props.Evd
import Verif.Props.Event
import Verif.Props.EventTable
import Verif.Props.Extract
import Verif.Props.Figures
import Verif.Props.Folders
import Verif.Props.Foliation
import Verif.Props.Fuzzy
import Verif.Props.Geometry
import Verif.Props.GevNewton
import Verif.Props.Grid
import Verif.Props.GustFiles
import Verif.Props.HazardEvents
import Verif.Props.HazardRun
import Verif.Props.Humidity
import Verif.Props.Impact
import Verif.Props.JtwcPosition
import Verif.Props.Kde
import Verif.Props.LMoments
import Verif.Props.LMomentsAll
import Verif.Props.LMomentsGev
import Verif.Props.LandDecay
import Verif.Props.LandMask
import Verif.Props.Landfall
import Verif.Props.LandfallGates
import Verif.Props.LandfallSummary
import Verif.Props.LoadTrack
import Verif.Props.LocalSeries
import Verif.Props.LocalWind
import Verif.Props.LowRes
import Verif.Props.Mesh
import Verif.Props.Mirror
import Verif.Props.MultiplierFiles
import Verif.Props.MultiplierTiles
import Verif.Props.Multipliers
import Verif.Props.NcGrid
import Verif.Props.NewHolland
import Verif.Props.Origin
import Verif.Props.OriginCdf
import Verif.Props.Pipeline
import Verif.Props.Places
import Verif.Props.Plots
import Verif.Props.Pressure
import Verif.Props.PressureWind
import Verif.Props.Profiles
import Verif.Props.Profiles2
import Verif.Props.Progress
import Verif.Props.QuantilePlot
import Verif.Props.Rates
import Verif.Props.RawTiles
import Verif.Props.Register
import Verif.Props.Registry
import Verif.Props.RemoteRun
import Verif.Props.Rerun
import Verif.Props.RingFile
import Verif.Props.ScaleBar
import Verif.Props.SeasonalPressure
import Verif.Props.Seasons
import Verif.Props.Selection
import Verif.Props.SeriesPlots
import Verif.Props.ShapeTable
import Verif.Props.Shapes
import Verif.Props.SimRates
import Verif.Props.SizeDraw
import Verif.Props.SizeFit
import Verif.Props.SizeTable
import Verif.Props.Smooth
import Verif.Props.Sphere
import Verif.Props.Startup
import Verif.Props.StatPlots
import Verif.Props.StatRange
import Verif.Props.StationRuns
import Verif.Props.Stations
import Verif.Props.Storms
import Verif.Props.Template
import Verif.Props.TextFiles
import Verif.Props.TextGrid
import Verif.Props.TileScript
import Verif.Props.Tiles
import Verif.Props.Times64
import Verif.Props.Timing
import Verif.Props.TrackDates
import Verif.Props.TrackDomain
import Verif.Props.TrackFiles
import Verif.Props.TrackGen
import Verif.Props.TrackInterp
import Verif.Props.TrackMap
import Verif.Props.TrackModel
import Verif.Props.TrackPressure
import Verif.Props.Unbiased
import Verif.Props.Units
import Verif.Props.UtmBand
import Verif.Props.Variates
import Verif.Props.Vmax
import Verif.Props.WindCurl
import Verif.Props.WindDir
import Verif.Props.WindRun
import Verif.Props.WindRunEvents
import Verif.Props.WindTable
import Verif.Props.Windfield
import Verif.Props.WindfieldAll
import Verif.Axioms
