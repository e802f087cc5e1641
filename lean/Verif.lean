import Verif.Props.Storage
import Verif.Props.Matrix
import Verif.Props.MatrixExpr
import Verif.Props.MatrixKept
import Verif.Props.EopThreads
import Verif.Props.Stokes
import Verif.Props.Doodson
import Verif.Props.Angle
import Verif.Props.Kahan
import Verif.Props.Clock
import Verif.Props.Grid
import Verif.Props.Relativity
import Verif.Props.Planets
import Verif.Props.Fcn
import Verif.Props.Eop
import Verif.Props.EopFile
import Verif.Props.Icgem
import Verif.Props.Aod1b
import Verif.Props.Aod1bStream
import Verif.Props.Tide
import Verif.Props.OceanOwn
import Verif.Props.Groops
import Verif.Props.GroopsFiles
import Verif.Props.PoleTide
import Verif.Props.OceanPole
import Verif.Props.DesaiGrid
import Verif.Props.SolidTide
import Verif.Props.SolidTideSite
import Verif.Props.Alf
import Verif.Props.AlfD
import Verif.Props.Cunningham
import Verif.Props.PointMass
import Verif.Props.EarthRot
import Verif.Props.EopTides
import Verif.Props.Cip
import Verif.Props.Gcrs
import Verif.Props.IcgemHeader
import Verif.Props.Aod1bHeader
import Verif.Props.PlanetState
import Verif.Props.Aod1bFiles
import Verif.Props.Aod1bOwn
import Verif.Props.Aod1bCopy
import Verif.Props.GroopsDisk
import Verif.Props.TideName
import Verif.Props.MergeAod1b
import Verif.Props.Costg
import Verif.Props.CostgAccept
import Verif.Props.StokesValue
import Verif.Props.Rounding
import Verif.Props.RoundedCip
import Verif.Props.RoundedGcrs
import Verif.Props.RoundedPoint
import Verif.Props.RoundedEop
import Verif.Props.TideForce
import Verif.Props.CostgTide
import Verif.Props.CostgSuccess
import Verif.Props.CostgField
import Verif.Props.CostgAtm
import Verif.Props.CostgSolid
import Verif.Props.CostgAod
import Verif.Props.OrientCheck
import Verif.Props.OrientEdge
import Verif.Props.Frames
import Verif.Props.FramesFail
import Verif.Props.OrientExample
import Verif.Props.PoleExample
import Verif.Props.SolidTideDoc
import Verif.Props.GetAod1b
import Verif.Props.RoundedRelativity
import Verif.Props.RoundedEopTides
import Verif.Props.RoundedTides
import Verif.Props.RoundedSite
import Verif.Props.RoundedAtlas
import Verif.Props.RoundedOceanPole
import Verif.Props.RoundedIcgem
import Verif.Props.RoundedAod1b
import Verif.Props.RoundedGrid
import Verif.Props.RoundedFcn
import Verif.Props.RoundedRotation
import Verif.Props.RoundedGmst
import Verif.Props.RoundedCelestial
import Verif.Props.RoundedOrient
import Verif.Props.RoundedState
import Verif.Props.Aod1bHistory
import Verif.Props.Aod1bArchive
import Verif.Props.CostgAodHistory
import Verif.Props.RoundedForms
import Verif.Props.RoundedStateTight
import Verif.Props.RoundedOptions
import Verif.Props.RoundedRaw
import Verif.Props.RoundedCheck
import Verif.Props.RoundedEopsCheck
import Verif.Props.RoundedSofa
import Verif.Props.RoundedSeries
import Verif.Props.LibrationCheck
import Verif.Props.OceanCheck
import Verif.Props.ZonalCheck
import Verif.Props.RegularizeCheck
import Verif.Props.EdgesCheck
import Verif.Props.CountCheck
