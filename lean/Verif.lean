import Verif.Base.RealTrig
import Verif.Base.Fl
import Verif.Base.Mx
import Verif.Model.GeoConv
import Verif.Props.Geo
import Verif.Props.Modis
import Verif.Props.ModisNum
import Verif.Props.ModisCoef
import Verif.Props.ModisSimple
import Verif.Props.ModisAny
import Verif.Props.ModisSimpleAny
import Verif.Props.ModisSimpleNum
import Verif.Props.ModisDask
import Verif.Props.Interpolator
import Verif.Props.InterpolatorNum
import Verif.Props.Multi
import Verif.Props.Presets
import Verif.Props.PresetsMore
import Verif.Props.PresetsNan
import Verif.Props.Grid
import Verif.Props.GridGeo
import Verif.Props.GeoSphere
import Verif.Props.GeoArc
import Verif.Props.GeoModes
import Verif.Props.Vii
import Verif.Props.ViiGeo
import Verif.Props.ViiLabels
import Verif.Spec.Motion
import Verif.Props.GeoMotion
import Verif.Props.Multilinear
import Verif.Props.Multilinear5
import Verif.Props.MultilinearObj
import Verif.Props.Extra
import Verif.Props.PresetsValue
import Verif.Props.PresetsMotion
import Verif.Spec.Mirror
import Verif.Proofs.Mirror
import Verif.Proofs.MirrorInterp
import Verif.Props.Mirror
import Verif.Props.MirrorPresets
import Verif.Props.Basic
import Verif.Props.ModisWrap
import Verif.Props.GridMore
import Verif.Props.FlGeo
import Verif.Props.FlGrid
import Verif.Props.FlModis
import Verif.Props.FlPresets
import Verif.Props.FlColumn
import Verif.Props.FlCores
import Verif.Props.FlVii
import Verif.Props.FlMulti
import Verif.Props.MxGeo
import Verif.Props.MxModis
import Verif.Props.ModisDType
import Verif.Props.ModisLazyDType
import Verif.Props.FlRound
import Verif.Props.Version
import Verif.Props.VersionGit
import Verif.Props.VersionArchive
import Verif.Props.VersionStyles
import Verif.Props.VersionMore
import Verif.Props.VersionFile
import Verif.Props.MxRound
import Verif.Props.FlGeoGrid
import Verif.Props.FlViiGeo
import Verif.Props.GridDType
import Verif.Props.InterpDType
import Verif.Props.MxWeights
import Verif.Props.MxPipeline
import Verif.Props.MxSimple
import Verif.Tests.Interpolator
import Verif.Tests.Grid
import Verif.Tests.Multilinear
import Verif.Tests.Vii
import Verif.Tests.Modis
import Verif.Tests.Presets
import Verif.Tests.ModisData
import Verif.Props.InterpolatorObj
import Verif.Props.ModisGap
import Verif.Props.ModisAgree
import Verif.Props.Sensitivity
import Verif.Props.ModisOrder
import Verif.Base.Ov
import Verif.Proofs.OvInst
import Verif.Proofs.OvGeo
import Verif.Proofs.OvCoef
import Verif.Props.Overflow
import Verif.Props.OverflowSimple
import Verif.Proofs.LonOrder
import Verif.Props.LonOrder
import Verif.Spec.Scan
import Verif.Proofs.QuadErr
import Verif.Proofs.ScanGeom
import Verif.Proofs.RayHit
import Verif.Props.ScanGeom
import Verif.Props.BowTie
import Verif.Props.ScanRounded
import Verif.Proofs.OvVii
import Verif.Props.OverflowVii
import Verif.Props.OverflowMulti
import Verif.Proofs.OvFill
import Verif.Props.OverflowFill
import Verif.Props.OverflowGrid
import Verif.Props.ScanSimple
import Verif.Proofs.RowHit
import Verif.Props.BowTieCell
import Verif.Props.BowTieRounded
import Verif.Props.SimpleSeen
