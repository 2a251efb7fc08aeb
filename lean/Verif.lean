import Verif.Fl
import Verif.Np
import Verif.Model.Aliasing
import Verif.Model.Broadcast
import Verif.Model.Examples
import Verif.Model.Faculae
import Verif.Model.Flares
import Verif.Model.Float
import Verif.Model.FloatAge
import Verif.Model.FloatAll
import Verif.Model.FloatCircle
import Verif.Model.FloatDraws
import Verif.Model.FloatEnergy
import Verif.Model.FloatFlare
import Verif.Model.FloatMask
import Verif.Model.FloatPeaks
import Verif.Model.FloatSky
import Verif.Model.FloatTransit
import Verif.Model.GranSeed
import Verif.Model.Granules
import Verif.Model.Grid
import Verif.Model.Helpers
import Verif.Model.Plot
import Verif.Model.Random
import Verif.Model.Settings
import Verif.Model.Single
import Verif.Model.Spots
import Verif.Model.Star
import Verif.Model.Units
import Verif.Model.UnitsFlares
import Verif.Model.UnitsObs
import Verif.Model.UnitsStar
import Verif.Model.Warnings
import Verif.Model.World
import Verif.Spec
import Verif.Lemmas.CapSum
import Verif.Lemmas.CircleArea
import Verif.Lemmas.Dict
import Verif.Lemmas.Gauss
import Verif.Lemmas.Ortho
import Verif.Lemmas.Quadrature
import Verif.Lemmas.Round
import Verif.Lemmas.SolidAngle
import Verif.Lemmas.Sphere
import Verif.Lemmas.SpiralCells
import Verif.Lemmas.Trapz
import Verif.Lemmas.TrapzError
import Verif.Props.AreaScatter
import Verif.Props.Averages
import Verif.Props.Broadcast
import Verif.Props.Chance
import Verif.Props.Circle
import Verif.Props.CoverageAccuracy
import Verif.Props.DiskAccuracy
import Verif.Props.DiskAccuracy2
import Verif.Props.FaculaAccuracy
import Verif.Props.FaculaAccuracy2
import Verif.Props.FaculaAge
import Verif.Props.FaculaGeom
import Verif.Props.FaculaLight
import Verif.Props.FaculaMap
import Verif.Props.FarSide
import Verif.Props.FlareCurve
import Verif.Props.FlareEnergy
import Verif.Props.FlareGen
import Verif.Props.FlareNumbers
import Verif.Props.FlareUse
import Verif.Props.Float
import Verif.Props.FloatAge
import Verif.Props.FloatAll
import Verif.Props.FloatCircle
import Verif.Props.FloatCircleGen
import Verif.Props.FloatDraws
import Verif.Props.FloatEnergy
import Verif.Props.FloatFac
import Verif.Props.FloatFlare
import Verif.Props.FloatMask
import Verif.Props.FloatPeaks
import Verif.Props.FloatPlanet
import Verif.Props.FloatReport
import Verif.Props.FloatSky
import Verif.Props.FloatTimearea
import Verif.Props.FloatTransit
import Verif.Props.Gradual
import Verif.Props.GranSeed
import Verif.Props.GranStats
import Verif.Props.Granulation
import Verif.Props.Grid
import Verif.Props.Grid2
import Verif.Props.GridSpacing
import Verif.Props.Growth
import Verif.Props.LightScatter
import Verif.Props.MatureNumber
import Verif.Props.MatureSpots
import Verif.Props.MeanCoverage
import Verif.Props.MeanFacula
import Verif.Props.MeanLight
import Verif.Props.MeanReport
import Verif.Props.Memory
import Verif.Props.NoGrowth
import Verif.Props.Numbers
import Verif.Props.Observers
import Verif.Props.Plot
import Verif.Props.Population
import Verif.Props.Projection
import Verif.Props.QuietAgain
import Verif.Props.Random
import Verif.Props.Refused
import Verif.Props.Regions
import Verif.Props.Reject
import Verif.Props.Rotation
import Verif.Props.Sharing
import Verif.Props.Single
import Verif.Props.Solar
import Verif.Props.SpiralAccuracy
import Verif.Props.SpiralDepth
import Verif.Props.SpiralDisk
import Verif.Props.SpiralShow
import Verif.Props.Split
import Verif.Props.SpotAge
import Verif.Props.SpotFraction
import Verif.Props.SpotGen
import Verif.Props.SpotGeom
import Verif.Props.SpotShape
import Verif.Props.SpotSteady
import Verif.Props.StarCoverage
import Verif.Props.StarCoverage2
import Verif.Props.StarDisk
import Verif.Props.StarHistory
import Verif.Props.StarShares
import Verif.Props.StarState
import Verif.Props.Steady
import Verif.Props.SurfaceMap
import Verif.Props.Symmetry
import Verif.Props.Ties
import Verif.Props.Transit
import Verif.Props.TransitAccuracy
import Verif.Props.TransitAccuracy2
import Verif.Props.TransitDepth
import Verif.Props.TransitWarning
import Verif.Props.UnionCoverage
import Verif.Props.Units
import Verif.Props.UnitsFlares
import Verif.Props.UnitsObs
import Verif.Props.UnitsStar
import Verif.Props.Warnings
import Verif.Props.World
import Verif.Tests.Examples
import Verif.Tests.Faculae
import Verif.Tests.Helpers
import Verif.Tests.Spots
import Verif.Tests.Star
