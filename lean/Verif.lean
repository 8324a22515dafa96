import Verif.C.Basic
import Verif.Model.Codec
import Verif.Spec.Codec
import Verif.Lemmas.Codec
import Verif.Props.Codec
import Verif.C.Float
import Verif.Lemmas.Float
import Verif.Model.Helper
import Verif.Spec.Calendar
import Verif.Lemmas.Helper
import Verif.Props.Helper
import Verif.C.Strto
import Verif.Model.Gnss
import Verif.Spec.Nmea
import Verif.Spec.NmeaLines
import Verif.Lemmas.Strto
import Verif.Lemmas.Nmea
import Verif.Lemmas.NmeaChecksum
import Verif.Lemmas.NmeaFloat
import Verif.Lemmas.NmeaFields
import Verif.Props.GnssFrame
import Verif.Props.GnssState
import Verif.Props.GnssSafety
import Verif.Props.GnssFields
import Verif.Model.NexStar
import Verif.Spec.NexStar
import Verif.Lemmas.NexStar
import Verif.Props.NexStar
import Verif.Props.NexStarFields
import Verif.Model.Linalg
import Verif.Spec.Linalg
import Verif.Lemmas.Linalg
import Verif.Props.Linalg
import Verif.Model.Triangulate
import Verif.Model.Align
import Verif.Spec.Align
import Verif.Spec.AlignDemo
import Verif.Lemmas.Triangulate
import Verif.Lemmas.Align
import Verif.Lemmas.AlignMaps
import Verif.Lemmas.AlignReset
import Verif.Props.AlignStore
import Verif.Props.AlignMaps
import Verif.Props.AlignReset
import Verif.Props.InTriangle
import Verif.Model.Coord
import Verif.Spec.Coord
import Verif.Lemmas.Coord
import Verif.Props.Coord
import Verif.Model.Telescope
import Verif.Spec.Telescope
import Verif.Lemmas.Telescope
import Verif.Props.Telescope
import Verif.Props.EndToEnd
import Verif.Model.Sched
import Verif.Spec.Sched
import Verif.Props.Sched
import Verif.Model.Led
import Verif.Spec.Led
import Verif.Props.Led
import Verif.Model.Heading
import Verif.Lemmas.FloatRep
import Verif.Props.Heading
import Verif.Model.Imu
import Verif.Model.Pitch
import Verif.Props.Imu
import Verif.Model.Persist
import Verif.Props.Persist
import Verif.Model.Net
import Verif.Props.Net
import Verif.Model.Printf
import Verif.Model.Main
import Verif.Spec.Main
import Verif.Spec.MainDemo
import Verif.Lemmas.Main
import Verif.Lemmas.MainStep
import Verif.Props.Main
import Verif.Props.MainProtocol
import Verif.Lemmas.Printf
import Verif.Spec.Decimal
import Verif.Lemmas.Decimal
import Verif.Props.MainPublish
import Verif.Props.MainReport
import Verif.Lemmas.Plane
import Verif.Lemmas.Tagging
import Verif.Lemmas.Mesh
import Verif.Lemmas.Circum
import Verif.Lemmas.MeshCount
import Verif.Lemmas.MeshRun
import Verif.Spec.Delaunay
import Verif.Lemmas.Super
import Verif.Lemmas.Delaunay
import Verif.Props.Delaunay
import Verif.Props.TelescopeMany
import Verif.Model.System
import Verif.Spec.System
import Verif.Lemmas.System
import Verif.Props.System
import Verif.Props.SystemDemo
import Verif.Spec.Stars
import Verif.Props.SystemStill
import Verif.Props.SystemStillDemo
import Verif.Model.Node
import Verif.Spec.Node
import Verif.Lemmas.Node
import Verif.Props.Node
import Verif.Model.NodeCoord
import Verif.Props.NodeCoord
import Verif.Model.Python
import Verif.Spec.Python
import Verif.Props.Python
import Verif.Spec.Safety
import Verif.Lemmas.SafetyGnss
import Verif.Lemmas.SafetyTel
import Verif.Lemmas.SafetyMain
import Verif.Lemmas.Safety
import Verif.Props.Safety
import Verif.Spec.Sensors
import Verif.Lemmas.Sensors
import Verif.Props.Sensors
import Verif.Spec.Report
import Verif.Props.Report
import Verif.Model.Codec64
import Verif.Props.Codec64
import Verif.Model.Setup
import Verif.Props.Setup
import Verif.Model.Link
import Verif.Props.Link
import Verif.Model.Coord64
import Verif.Props.Coord64
import Verif.Model.Sidereal64
import Verif.Props.Sidereal64
import Verif.Model.OneStar64
import Verif.Props.OneStar64
import Verif.Model.Bla
import Verif.Spec.Bla
import Verif.Lemmas.Bla
import Verif.Props.Bla
import Verif.Model.Imu32
import Verif.Props.Imu32
import Verif.Model.Race
import Verif.Props.Race
import Verif.Model.Shared
import Verif.Spec.Shared
import Verif.Lemmas.Shared
import Verif.Lemmas.SharedTri
import Verif.Lemmas.SharedSync
import Verif.Lemmas.SharedRely
import Verif.Lemmas.SharedSafe
import Verif.Lemmas.SharedPar
import Verif.Props.Shared
import Verif.Model.Sparse
import Verif.Props.Sparse
import Verif.Model.SharedGnss
import Verif.Spec.SharedGnss
import Verif.Props.SharedGnss
import Verif.Model.Linalg64
import Verif.Spec.Linalg64
import Verif.Lemmas.Linalg64
import Verif.Lemmas.Linalg64Lu
import Verif.Lemmas.Linalg64Run
import Verif.Lemmas.Linalg64Acc
import Verif.Lemmas.Linalg64Tri
import Verif.Lemmas.Linalg64Line
import Verif.Props.Linalg64
import Verif.Model.Telescope64
import Verif.Spec.Telescope64
import Verif.Lemmas.Telescope64
import Verif.Lemmas.Telescope64Read
import Verif.Lemmas.Telescope64Use
import Verif.Lemmas.Telescope64Run
import Verif.Props.Telescope64
import Verif.Props.Telescope64Demo
import Verif.Model.Session64
import Verif.Spec.Session64
import Verif.Lemmas.Session64
import Verif.Props.Session64
import Verif.Props.Session64Demo
import Verif.Model.SharedWords
import Verif.Lemmas.SharedWords
import Verif.Lemmas.TornDouble
import Verif.Props.SharedWords
import Verif.Lemmas.Delivered
import Verif.Lemmas.Circum64
import Verif.Lemmas.Circum64Test
import Verif.Lemmas.Super64
import Verif.Spec.Delaunay64
import Verif.Lemmas.Delaunay64
import Verif.Props.Delaunay64
import Verif.Props.Delaunay64Demo
import Verif.Props.SharedWordsAccess
import Verif.Props.Session64Stars
import Verif.Props.Session64StarsDemo
import Verif.Lemmas.Delaunay64One
import Verif.Props.Delaunay64Run
import Verif.Props.Delaunay64RunDemo
import Verif.Props.Session64Run
import Verif.Props.Session64RunDemo
import Verif.Model.Gyro32
import Verif.Props.Gyro32
import Verif.Model.Firmware64
import Verif.Spec.Firmware64
import Verif.Lemmas.Firmware64
import Verif.Props.Firmware64
import Verif.Props.Firmware64Stars
import Verif.Props.Firmware64Demo
import Verif.Spec.Firmware64Stop
import Verif.Lemmas.Firmware64Stop
import Verif.Props.Firmware64Stop
