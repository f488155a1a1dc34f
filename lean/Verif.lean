import Verif.Base.Err
import Verif.Base.Affine
import Verif.Tiles.Props
import Verif.Ortho.Props
import Verif.Common.Props
import Verif.ParamIO.SchemaProps
import Verif.ParamIO.OtyProps
import Verif.ParamIO.RoundTrip
import Verif.ParamIO.RoundTrip2
import Verif.ParamIO.IntRead
import Verif.ParamIO.Alias
import Verif.Files.Props
import Verif.Readers.Pool
import Verif.Readers.Osfm
import Verif.Readers.OsfmInt
import Verif.Readers.OsfmErr
import Verif.Readers.Csv
import Verif.Readers.Header
import Verif.Factory.Rpc
import Verif.Rpc.Degenerate
import Verif.Frame.RotationProps
import Verif.Frame.Gimbal
import Verif.Frame.Pinhole
import Verif.Frame.Boundary
import Verif.Frame.Distort
import Verif.Frame.Undistort
import Verif.PanSharp.Props
import Verif.PanSharp.Tiles
import Verif.PanSharp.Grids
import Verif.Dem.Props
import Verif.Dem.Mask
import Verif.Dem.Gsd
import Verif.Exif.Props
import Verif.Exif.Interior
import Verif.Exif.Utm
import Verif.Exif.Orient
import Verif.Exif.View
import Verif.Cli.Props
import Verif.Cli.Errors
import Verif.Cli.Refined
import Verif.Frame.UndistortSpec
import Verif.PanSharp.Params
import Verif.Files.Saved
import Verif.Files.Handles
import Verif.Files.Locks
import Verif.Files.Progress
import Verif.Base.Rounding
import Verif.Frame.Rounding
import Verif.Factory.ReadParam
import Verif.Rpc.Inverse
import Verif.Readers.Tags
import Verif.Frame.Fit
import Verif.Frame.FitInt
import Verif.Cli.Options
import Verif.Readers.Crs
import Verif.Cli.Legacy
import Verif.Frame.WorldBoundary
import Verif.Frame.IntSurface
import Verif.Factory.Create
import Verif.Factory.ReadIm
import Verif.Ortho.Process
import Verif.Ortho.Interp
import Verif.Ortho.Radiometry
import Verif.Ortho.Nearest
import Verif.Ortho.Bands
import Verif.Rpc.Again
import Verif.Factory.Raised
import Verif.PanSharp.Rounding
import Verif.PanSharp.RoundingProps
import Verif.PanSharp.Schedule
import Verif.PanSharp.Repeat
import Verif.Exif.Bad
import Verif.Frame.Threads
import Verif.Factory.Threads
import Verif.Ortho.Vertical
import Verif.Cli.Dataset
import Verif.Cli.Exported
import Verif.Ortho.SrcNodata
import Verif.Ortho.FromFiles
import Verif.Ortho.Moved
import Verif.Ortho.MovedFrame
import Verif.PanSharp.Formula
import Verif.PanSharp.Process
import Verif.PanSharp.Radiometry
import Verif.PanSharp.BandOrder
import Verif.Ortho.Faults
import Verif.Ortho.Unfinished
import Verif.PanSharp.Faults
import Verif.PanSharp.Unfinished
import Verif.Ortho.Undistorted
import Verif.Cli.Command
import Verif.Cli.CommandRpc
import Verif.Cli.CommandUnd
import Verif.Cli.CommandSharp
import Verif.Cli.Inputs
import Verif.Files.Names
import Verif.Readers.Utm
import Verif.Readers.Warnings
import Verif.Readers.Prj
import Verif.Rpc.Whole
import Verif.Rpc.GcpInit
import Verif.Factory.CsvPose
import Verif.Cli.Again
import Verif.Frame.FitRounding
import Verif.Factory.Fitted
import Verif.Factory.OsfmSees
import Verif.Dem.Sees
import Verif.Dem.Covered
import Verif.Dem.CoveredRpc
import Verif.Dem.Footprint
import Verif.Rpc.Boundary
import Verif.Dem.SeesRpc
import Verif.Dem.SeesCrs
import Verif.Dem.SeesGcp
import Verif.Dem.Relief
import Verif.Dem.FootprintGcp
import Verif.Dem.FootprintRpc
import Verif.Dem.Range
import Verif.Cli.Logging
import Verif.Ortho.Mosaic
import Verif.Ortho.MosaicCrs
import Verif.Rpc.Accepts
import Verif.Rpc.Rounding
import Verif.Memory.Props
