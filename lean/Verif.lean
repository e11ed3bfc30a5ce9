import Verif.OrderedSet.Props
import Verif.FileList.Props
import Verif.IndexIter.Props
import Verif.KDTree.Props
import Verif.DataIndex.Props
import Verif.Geo.Props
import Verif.HavTree.Nearest
import Verif.Lon.Gridded
import Verif.Colloc.Collocate
import Verif.Colloc.Cache
import Verif.Interp.Hybrid
import Verif.Time.Parse
import Verif.Parse.Options
import Verif.Write.Props
import Verif.Write.RoundTrip
import Verif.Masks.Props
import Verif.Subset.Props
import Verif.Agg.Collapse
import Verif.Coords.Props
import Verif.Lazy.Props
import Verif.Hyper.Views
import Verif.Ungridded.Props
import Verif.DataList.Props
import Verif.Maths.Props
import Verif.Evaluate.Props
import Verif.Plugin.Props
import Verif.Interp.Cached
import Verif.GridColloc.Props
import Verif.Read.Decode
import Verif.Read.Groups
import Verif.Read.Many
import Verif.Read.Modis
import Verif.Read.Reader
import Verif.Read.Aeronet
import Verif.Read.Profile
import Verif.Read.Raf
import Verif.Read.EarthCare
import Verif.Read.Cci
import Verif.Read.Gridded
import Verif.Plot.Taylor
import Verif.Plot.Layers
import Verif.Plot.Axes
import Verif.Plot.Mesh
import Verif.Plot.Format
import Verif.Parse.Limits
import Verif.Parse.LimitsProps
import Verif.Subset.Gridded
import Verif.Parse.Method
import Verif.Parse.Distance
import Verif.Main.Commands
import Verif.Write.Crash
import Verif.Plot.Histogram
import Verif.Read.ModisInterp
import Verif.Read.AeronetLoad
import Verif.Collapse.Props
import Verif.Meta.Frame
import Verif.Read.ModisL3
import Verif.Agg.Request
import Verif.Read.Listing
import Verif.Lon.Sharing
import Verif.Meta.Files
import Verif.Time.Convert
import Verif.Parse.Args
import Verif.Colloc.Inputs
import Verif.DataList.Ops
import Verif.Read.Errors
import Verif.Read.Ascii
import Verif.Hyper.Assign
import Verif.Ungridded.Sharing
import Verif.Read.Together
import Verif.Stats.Regress
import Verif.Plot.TimeAxis
import Verif.Plot.MapLimits
import Verif.Main.Options
import Verif.Parse.Datagroups
import Verif.Read.Hdf4
import Verif.Colloc.TreeCollocate
import Verif.Plot.TaylorDraw
import Verif.Write.Attrs
import Verif.Write.GriddedAttrs
import Verif.Subset.Steps
import Verif.Colloc.Local
import Verif.Agg.Compose
import Verif.Plot.TaylorLimits
import Verif.Fp.Round
import Verif.Fp.Lon
import Verif.Fp.Grid
import Verif.Fp.Kernel
import Verif.Fp.Time
import Verif.Agg.Clip
import Verif.Meta.Ranges
import Verif.Fp.Interp
import Verif.Collapse.Steps
import Verif.Interp.Local
import Verif.HavTree.Same
import Verif.Colloc.Self
import Verif.Subset.GridSteps
import Verif.Evaluate.Commute
import Verif.Agg.CellSubset
import Verif.Write.SubsetFile
import Verif.Colloc.Options
import Verif.Time.Order
import Verif.Main.SubsetCommand
import Verif.Main.AggregateCommand
import Verif.Colloc.Command
import Verif.Stats.Command
import Verif.Evaluate.Command
import Verif.Collapse.Command
import Verif.Main.SubsetGridded
import Verif.Interp.Command
import Verif.HavTree.NearestRegion
import Verif.Main.Names
import Verif.Agg.BinCommand
import Verif.GridColloc.Command
import Verif.Agg.Reorder
import Verif.Agg.BinReorder
import Verif.Stats.Reorder
import Verif.Main.SubsetFiles
import Verif.Main.InfoCommand
import Verif.Colloc.Wider
import Verif.Agg.Units
import Verif.Collapse.Units
import Verif.Colloc.Units
import Verif.Interp.Units
import Verif.Plot.Command
import Verif.Plot.CommandSpec
import Verif.Plot.CommandBugs
import Verif.Colloc.Origin
import Verif.Agg.Origin
import Verif.Interp.Origin
import Verif.Subset.Origin
import Verif.Main.SubsetApi
import Verif.Main.Concurrent
import Verif.Main.Batch
import Verif.Write.Pipeline
import Verif.Write.EvalStep
import Verif.Write.ColFile
import Verif.Write.ColGridFile
import Verif.Write.ColSubset
import Verif.Main.SubsetAggregate
import Verif.Colloc.Api
import Verif.Write.ColGridSubset
import Verif.Main.SubsetColGrid
import Verif.Main.SubsetCollapse
import Verif.Main.SubsetStats
import Verif.Main.SubsetGridStats
import Verif.Interp.Vertical
import Verif.Write.AttrsEarthCare
import Verif.Read.HadGem
