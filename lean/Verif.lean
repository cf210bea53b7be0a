import Verif.Base.Arr
import Verif.Heap.Props
import Verif.CostDistance.Props
import Verif.Proximity.Props
import Verif.Mosaic.Props
import Verif.Nulls.ScalarProps
import Verif.Nulls.RasterProps
import Verif.Grid.Props
import Verif.Grid.BlockProps
import Verif.Bands.Props
import Verif.Remap.Props
import Verif.Regions.Props
import Verif.Stats.Props
import Verif.Focal.Props
import Verif.Focal.Correlate
import Verif.Zonal.Props
import Verif.Utils.Reshape
import Verif.Rasterize.Props
import Verif.Clip.Props
import Verif.Blocks.Props
import Verif.Blocks.Geo
import Verif.Surface.Props
import Verif.Vector.Props
import Verif.Reduce.Predict
import Verif.Morph.Props
import Verif.Build.Props
import Verif.Create.Props
import Verif.Whole.Props
import Verif.Files.Props
import Verif.Extract.Props
import Verif.Polygons.Props
import Verif.Lines.Props
import Verif.Batch.Props
import Verif.Tpi.Props
import Verif.CostRaster.Props
import Verif.ProxRaster.Props
import Verif.Pair.Props
import Verif.Boxes.Props
import Verif.ZonalTable.Props
import Verif.RemapFile.Props
import Verif.PredictVector.Props
import Verif.Warp.Props
import Verif.FromData.Props
import Verif.OpenDataset.Props
import Verif.Layers.Props
import Verif.GeoBlocks.Props
import Verif.PadBox.Props
import Verif.Coarse.Props
import Verif.GreatCircle.Props
import Verif.MosaicRaster.Props
import Verif.Round.Props
import Verif.Trips.Polygons
import Verif.Trips.Costs
import Verif.Trips.Patches
import Verif.Trips.Aggregates
import Verif.Trips.Symmetry
import Verif.Nulls.FloatProps
import Verif.Nulls.HistoryProps
import Verif.Trips.Selections
import Verif.Trips.Zones
import Verif.Trips.Windows
import Verif.Trips.Stacks
import Verif.Versions.Props
import Verif.Trips.Twice
import Verif.Trips.Points
import Verif.Trips.Tables
import Verif.ClipBox.Props
import Verif.Trips.Single
import Verif.Kwargs.Props
import Verif.Trips.Pieces
import Verif.Trips.Clips
import Verif.Trips.Expressions
import Verif.Trips.Choices
import Verif.Trips.Variety
import Verif.Trips.Ways
import Verif.Focal.Infinite
import Verif.Trips.Nearby
import Verif.Trips.Burns
import Verif.Trips.Cutouts
import Verif.Trips.Ranges
import Verif.Trips.Dicts
import Verif.Trips.Islands
import Verif.Trips.Heights
import Verif.Trips.Bandwise
import Verif.Trips.Conversions
import Verif.Trips.Forecasts
import Verif.Trips.Readings
import Verif.Trips.Samples
import Verif.Trips.Probes
import Verif.Trips.Frames
import Verif.Nulls.SafeFloat
import Verif.Nulls.Operands
import Verif.ZonalTable.Parts
