import Verif.Model.Py
import Verif.Props.DRA
import Verif.Props.GdalConfig
import Verif.Props.GdalEnvironment
import Verif.Props.MapTiles
import Verif.Props.MapTilesMercator
import Verif.Props.Coordinates
import Verif.Props.DemTileSet
import Verif.Props.Dem
import Verif.Props.DemRace
import Verif.Props.Transforms
import Verif.Props.Sensors
import Verif.Props.Rpc
import Verif.Props.Rsm
import Verif.Props.RsmModel
import Verif.Props.Tre
import Verif.Props.TreModel
import Verif.Props.Des
import Verif.Props.Factory
import Verif.Props.Updaters
import Verif.Props.GdalUtils
import Verif.Props.Sar
import Verif.Props.TileFactory
import Verif.Props.TileThreads
import Verif.Props.OrthophotoNear
import Verif.Props.Features
import Verif.Props.Geolocation
import Verif.Props.GeolocationGrid
import Verif.Props.Sicd
import Verif.Props.SicdBuilder
import Verif.Props.SicdSurface
import Verif.Props.Orthophoto
import Verif.Props.SarTiles
import Verif.Props.DemFiles
import Verif.Props.Loading
import Verif.Props.MapTilesFloat
import Verif.Props.SicdRoundTrip
import Verif.Props.SicdContour
import Verif.Spec.Ellipsoid
import Verif.Props.SicdEllipsoid
import Verif.Model.SicdDem
import Verif.Props.SicdDem
import Verif.Props.SicdSide
import Verif.Props.SicdFiles
import Verif.Props.SiddFiles
import Verif.Props.SarFiles
import Verif.Props.Extensions
import Verif.Props.Memory
import Verif.Model.Rounded
import Verif.Spec.Rounded
import Verif.Lemmas.Rounded
import Verif.Props.Rounded
import Verif.Props.RoundedRsm
import Verif.Props.RoundedAffine
import Verif.Spec.Nearby
import Verif.Lemmas.Nearby
import Verif.Props.Nearby
import Verif.Props.NearbyRsm
import Verif.Model.DRARounded
import Verif.Props.DRARounded
import Verif.Spec.Seams
import Verif.Props.Seams
import Verif.Props.GeolocationRepeat
import Verif.Props.OrthophotoSeams
import Verif.Props.NelderMead
import Verif.Props.Mercator
import Verif.Props.Composite
import Verif.Props.Slopes
import Verif.Props.RoundedSicd
import Verif.Props.OrthophotoLarge
import Verif.Props.RoundedTransforms
import Verif.Props.Remap
import Verif.Model.Xsdata
import Verif.Model.Schemas
import Verif.Model.SarXml
import Verif.Props.Xsdata
import Verif.Props.Objects
import Verif.Props.Schemas
import Verif.Props.SarXml
import Verif.Props.SiddXml
import Verif.Props.Nested
import Verif.Props.FeaturesInPlace
import Verif.Props.Geodesy
import Verif.Props.DesText
import Verif.Props.ScaledTiles
import Verif.Props.XmlPaths
import Verif.Props.XmlComplete
import Verif.Model.IndexInPlace
import Verif.Props.IndexInPlace
import Verif.Spec.Scene
import Verif.Props.Located
import Verif.Props.DocumentLocated
import Verif.Props.SiddLocated
import Verif.Spec.Simplex
import Verif.Props.SimplexSearch
import Verif.Spec.Detections
import Verif.Props.Detections
import Verif.Model.SarRounded
import Verif.Spec.SarDisplay
import Verif.Props.SarRounded
import Verif.Props.TerrainLocated
import Verif.Model.GridRounded
import Verif.Props.GridRounded
import Verif.Props.SiddTerrain
import Verif.Props.AffineFeatures
import Verif.Model.TileAffineRounded
import Verif.Props.TileAffine
import Verif.Props.GridSmooth
import Verif.Props.OrthophotoSmooth
import Verif.Props.RpcSmooth
import Verif.Props.RpcTiles
import Verif.Props.RsmSmooth
import Verif.Props.RsmTiles
