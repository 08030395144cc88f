import Verif.Eval
import Verif.Lemmas.AuthRound
import Verif.Lemmas.AuthTrue
import Verif.Lemmas.Bd
import Verif.Lemmas.CalendarLemmas
import Verif.Lemmas.Close
import Verif.Lemmas.Conf
import Verif.Lemmas.Double
import Verif.Lemmas.Ell
import Verif.Lemmas.FloatErr
import Verif.Lemmas.FloatGeo
import Verif.Lemmas.FloatGeo2
import Verif.Lemmas.FloatGeo3
import Verif.Lemmas.FloatGeo4
import Verif.Lemmas.FloatMat
import Verif.Lemmas.GeodesicCurve
import Verif.Lemmas.GeodesicUnique
import Verif.Lemmas.Jet
import Verif.Lemmas.KarneyLen
import Verif.Lemmas.KarneyRev
import Verif.Lemmas.KindLemmas
import Verif.Lemmas.LongSeries
import Verif.Lemmas.RectRound
import Verif.Lemmas.RectTrue
import Verif.Lemmas.Shortest1
import Verif.Lemmas.Shortest2
import Verif.Lemmas.Shortest3
import Verif.Lemmas.Shortest4
import Verif.Lemmas.Shortest5
import Verif.Lemmas.Shortest6
import Verif.Lemmas.Shortest7
import Verif.Lemmas.Shortest8
import Verif.Lemmas.Shortest9
import Verif.Lemmas.SpecLemmas
import Verif.Lemmas.SphereLemmas
import Verif.Lemmas.TM
import Verif.Lemmas.Trig
import Verif.Lemmas.TrigTaylor
import Verif.Lemmas.VincentySeries
import Verif.Lemmas.YouBound
import Verif.Model.Aer
import Verif.Model.ArrayCode
import Verif.Model.Astropy
import Verif.Model.Body
import Verif.Model.Cli
import Verif.Model.CliCall
import Verif.Model.CliTable
import Verif.Model.DateTime
import Verif.Model.Dca
import Verif.Model.EarthOrientation
import Verif.Model.Ecef
import Verif.Model.Eci
import Verif.Model.Ellipsoid
import Verif.Model.EllipsoidCache
import Verif.Model.Enu
import Verif.Model.Frames
import Verif.Model.Haversine
import Verif.Model.Heap
import Verif.Model.HeapSkel
import Verif.Model.Karney
import Verif.Model.Latitude
import Verif.Model.Los
import Verif.Model.Lox
import Verif.Model.Mixed
import Verif.Model.MixedVal
import Verif.Model.Ned
import Verif.Model.Nvector
import Verif.Model.Nwu
import Verif.Model.Rcurve
import Verif.Model.Rsphere
import Verif.Model.RsphereEuler
import Verif.Model.Sez
import Verif.Model.Spherical
import Verif.Model.Utils
import Verif.Model.Vallado
import Verif.Model.Vincenty
import Verif.Props.Aer
import Verif.Props.ArrayCode
import Verif.Props.ArrayElem
import Verif.Props.ArrayEx
import Verif.Props.Astroid
import Verif.Props.Astropy
import Verif.Props.AuthRoundTrip
import Verif.Props.Authalic
import Verif.Props.AuthalicTrue
import Verif.Props.Body
import Verif.Props.Broadcast
import Verif.Props.Broadcast2
import Verif.Props.Broadcast3
import Verif.Props.BroadcastBase
import Verif.Props.BroadcastElem
import Verif.Props.Cache
import Verif.Props.Cli
import Verif.Props.Cli2
import Verif.Props.Defaults
import Verif.Props.EcefAccuracy
import Verif.Props.EcefAccuracy2
import Verif.Props.EcefGeodetic
import Verif.Props.EcefGeodetic2
import Verif.Props.Eci
import Verif.Props.Eci2
import Verif.Props.EciArray
import Verif.Props.EciIau
import Verif.Props.EciRate
import Verif.Props.EllipsoidTable
import Verif.Props.Euler
import Verif.Props.FloatAer
import Verif.Props.FloatBody
import Verif.Props.FloatEcef
import Verif.Props.FloatEci
import Verif.Props.FloatFrames
import Verif.Props.FloatGeodetic
import Verif.Props.FloatGeodetic2
import Verif.Props.FloatGeodetic3
import Verif.Props.FloatGeodetic4
import Verif.Props.FloatGeodetic5
import Verif.Props.FloatLat
import Verif.Props.FloatPole
import Verif.Props.FloatRadii
import Verif.Props.FloatRadii2
import Verif.Props.FloatSep
import Verif.Props.FloatSidereal
import Verif.Props.FloatState
import Verif.Props.FloatTime
import Verif.Props.FrameRoundTrip
import Verif.Props.Geoc2geod
import Verif.Props.GeodesicTrue
import Verif.Props.GeodeticEcef
import Verif.Props.Haversine
import Verif.Props.Karney
import Verif.Props.KarneyDirect
import Verif.Props.KarneyDirect2
import Verif.Props.KarneyInverse
import Verif.Props.KarneyInverse2
import Verif.Props.KarneyInverseSphere
import Verif.Props.KarneyLine
import Verif.Props.KarneyNewton
import Verif.Props.KarneyNewton10
import Verif.Props.KarneyNewton2
import Verif.Props.KarneyNewton3
import Verif.Props.KarneyNewton4
import Verif.Props.KarneyNewton5
import Verif.Props.KarneyNewton6
import Verif.Props.KarneyNewton7
import Verif.Props.KarneyNewton8
import Verif.Props.KarneyNewton9
import Verif.Props.KarneyRoundTrip
import Verif.Props.KarneySeries
import Verif.Props.KarneySolves
import Verif.Props.KarneyTrue
import Verif.Props.KarneyTrue2
import Verif.Props.KarneyTrue3
import Verif.Props.KarneyTrue4
import Verif.Props.Latitude
import Verif.Props.LocalFrames
import Verif.Props.Los
import Verif.Props.Lox
import Verif.Props.Meanm
import Verif.Props.MeridianShortest
import Verif.Props.MeridianTrue
import Verif.Props.Mixed
import Verif.Props.Mixed2
import Verif.Props.Mutation
import Verif.Props.Mutation2
import Verif.Props.Mutation3
import Verif.Props.Mutation4
import Verif.Props.Mutation5
import Verif.Props.Nan
import Verif.Props.Nan2
import Verif.Props.NanBase
import Verif.Props.NanElem
import Verif.Props.NanEx
import Verif.Props.Nvector
import Verif.Props.Radii
import Verif.Props.Reckon
import Verif.Props.RectRoundTrip
import Verif.Props.Rhumb
import Verif.Props.Rhumb2
import Verif.Props.Rhumb3
import Verif.Props.Rhumb4
import Verif.Props.Rhumb5
import Verif.Props.Rhumb6
import Verif.Props.SeriesLatitude
import Verif.Props.Shortest
import Verif.Props.Shortest2
import Verif.Props.Shortest3
import Verif.Props.Shortest4
import Verif.Props.Shortest5
import Verif.Props.Sidereal
import Verif.Props.Spherical
import Verif.Props.Time
import Verif.Props.Time2
import Verif.Props.Track2
import Verif.Props.Units
import Verif.Props.UnitsReal
import Verif.Props.Vallado
import Verif.Props.Vdist
import Verif.Props.VdistConv
import Verif.Props.VdistEquator
import Verif.Props.VdistLoop
import Verif.Props.VdistSolves
import Verif.Props.VdistTrue
import Verif.Props.VdistTrue2
import Verif.Props.VdistTrue3
import Verif.Props.VdistTrue4
import Verif.Props.Vincenty
import Verif.Props.VincentyTrue
import Verif.Props.Vreckon
import Verif.Props.VreckonGeom
import Verif.Props.VreckonTrue
import Verif.Py.Arr
import Verif.Py.Basic
import Verif.Py.FloatArith
import Verif.Py.FloatInst
import Verif.Py.Kind
import Verif.Py.ND
import Verif.Py.Nan
import Verif.Py.Real
import Verif.Py.RealPi
import Verif.Spec.Area
import Verif.Spec.Bodies
import Verif.Spec.Calendar
import Verif.Spec.EarthRotation
import Verif.Spec.Geodesic
import Verif.Spec.Geometry
import Verif.Spec.Meridian
import Verif.Spec.Rhumb
import Verif.Spec.Shortest
import Verif.Spec.Sphere
