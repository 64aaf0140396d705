import Verif.Py.Err
import Verif.Py.Str
import Verif.Py.Num
import Verif.Py.Dict
import Verif.Py.Date
import Verif.Model.Common
import Verif.Model.Header
import Verif.Model.Obs2
import Verif.Model.Obs3
import Verif.Model.Nav
import Verif.Proofs.Except
import Verif.Proofs.Str
import Verif.Proofs.Num
import Verif.Proofs.Rat
import Verif.Spec.Calendar
import Verif.Proofs.Calendar
import Verif.Props.Time
import Verif.Spec.Rinex2
import Verif.Proofs.Render
import Verif.Proofs.Obs2
import Verif.Proofs.Obs2Epoch
import Verif.Proofs.Obs2Body
import Verif.Proofs.Obs2Append
import Verif.Proofs.Obs2Err
import Verif.Spec.Interval
import Verif.Proofs.Interval
import Verif.Spec.Header
import Verif.Proofs.ObsTypes
import Verif.Proofs.Header
import Verif.Proofs.Obs2File
import Verif.Proofs.HeaderLines
import Verif.Props.Header
import Verif.Props.Rinex2
import Verif.Props.Rinex2File
import Verif.Spec.Rinex3
import Verif.Proofs.Split
import Verif.Proofs.Obs3Header
import Verif.Props.Rinex3Header
import Verif.Proofs.Obs3Line
import Verif.Proofs.Obs3Body
import Verif.Spec.Interval3
import Verif.Props.Rinex3
import Verif.Props.Interval3
import Verif.Props.Rinex3File
import Verif.Py.Re
import Verif.Model.FUtils
import Verif.Proofs.Re
import Verif.Spec.Names
import Verif.Proofs.Names
import Verif.Props.FileDate
import Verif.Spec.Version
import Verif.Props.Version
import Verif.Props.ObsNames
import Verif.Spec.Xyz
import Verif.Proofs.Xyz
import Verif.Props.Xyz
import Verif.Model.NmUtils
import Verif.Spec.NavNames
import Verif.Props.NavNames
import Verif.Spec.Select
import Verif.Props.Select
import Verif.Spec.Nav
import Verif.Proofs.Nav
import Verif.Props.Nav
import Verif.Proofs.NavFile
import Verif.Props.NavFile
import Verif.Model.Label
import Verif.Spec.Label
import Verif.Props.Label
import Verif.Model.Tec
import Verif.Spec.Tec
import Verif.Props.Tec
import Verif.Py.Format
import Verif.Model.Config
import Verif.Spec.Config
import Verif.Props.Config
import Verif.Spec.Columns
import Verif.Props.Columns
import Verif.Model.Writer
import Verif.Spec.Writer
import Verif.Props.Writer
import Verif.Model.Main
import Verif.Spec.Main
import Verif.Proofs.Main
import Verif.Proofs.MainRecord
import Verif.Proofs.MainRun
import Verif.Proofs.MainFile
import Verif.Proofs.MainThin
import Verif.Proofs.MainMore
import Verif.Props.Main
import Verif.Props.MainExamples
import Verif.Model.Geo
import Verif.Spec.Geo
import Verif.Proofs.Geo
import Verif.Props.Geo
import Verif.Props.Orbit
import Verif.Model.Program
import Verif.Spec.Fetch
import Verif.Spec.Program
import Verif.Proofs.Program
import Verif.Props.Program
import Verif.Props.ProgramNav
import Verif.Props.ProgramEnd
import Verif.Proofs.MainHeader
import Verif.Props.MainHeader
import Verif.Spec.Output
import Verif.Proofs.Output
import Verif.Props.Output
import Verif.Props.ProgramExamples
import Verif.Py.Bytes
import Verif.Model.Raw
import Verif.Spec.Bytes
import Verif.Proofs.Bytes
import Verif.Props.Bytes
import Verif.Model.Run
import Verif.Spec.Run
import Verif.Proofs.Run
import Verif.Props.Run
import Verif.Props.RunExamples
import Verif.Spec.Motion
import Verif.Proofs.Nystrom
import Verif.Props.Nystrom
import Verif.Spec.ConfigLists
import Verif.Props.ConfigLists
import Verif.Py.Double
import Verif.Model.Double
import Verif.Proofs.Double
import Verif.Proofs.DoubleErr
import Verif.Props.Double
import Verif.Props.DoubleTec
import Verif.Props.DoubleWeek
import Verif.Spec.Rerun
import Verif.Proofs.Rerun
import Verif.Props.Rerun
import Verif.Spec.Readback
import Verif.Props.Readback
import Verif.Props.Order
import Verif.Spec.Shared
import Verif.Props.Shared
import Verif.Spec.Moved
import Verif.Proofs.Moved
import Verif.Props.Moved
import Verif.Spec.Batch
import Verif.Props.Batch
import Verif.Spec.Moved3
import Verif.Proofs.Moved3
import Verif.Props.Moved3
import Verif.Spec.Tail
import Verif.Proofs.Tail
import Verif.Props.Tail
import Verif.Props.Close
import Verif.Py.Binary64
import Verif.Spec.Binary64
import Verif.Model.DoubleGeo
import Verif.Proofs.Rnd
import Verif.Proofs.Near
import Verif.Proofs.Rel
import Verif.Props.DoubleKepler
import Verif.Props.DoubleGps
import Verif.Props.DoubleLat
import Verif.Props.DoubleGlonass
import Verif.Props.DoubleLook
import Verif.Props.MoreExamples
import Verif.Proofs.Drift
import Verif.Props.Drift
import Verif.Props.DriftBound
import Verif.Spec.AnyOrder
import Verif.Proofs.AnyOrder
import Verif.Props.AnyOrder
import Verif.Spec.Sky
import Verif.Props.Sky
import Verif.Props.Cut
import Verif.Spec.Ends
import Verif.Props.Ends
import Verif.Proofs.Elev
import Verif.Props.Elev
import Verif.Spec.Look
import Verif.Props.Look
import Verif.Spec.EndToEnd
import Verif.Props.EndToEnd
import Verif.Spec.Archive
import Verif.Props.Archive
import Verif.Spec.ArchiveSky
import Verif.Props.ArchiveSky
import Verif.Props.ArchiveExamples
import Verif.Spec.Start
import Verif.Props.Start
import Verif.Props.StartExamples
import Verif.Spec.Stops
import Verif.Props.Stops
import Verif.Props.Eccentric
import Verif.Spec.Apart
import Verif.Props.Apart
import Verif.Spec.NavCut
import Verif.Props.NavCut
import Verif.Spec.NavSame
import Verif.Props.NavSame
import Verif.Spec.ObsSame
import Verif.Props.ObsSame
import Verif.Spec.CoordSame
import Verif.Props.CoordSame
import Verif.Spec.ConfigSame
import Verif.Props.ConfigSame
import Verif.Props.NavCutRun
import Verif.Props.SatOrder
import Verif.Props.Cols
import Verif.Props.Foreign
import Verif.Props.Strength
import Verif.Props.OtherDays
import Verif.Props.Alike3
import Verif.Props.DirOrder
