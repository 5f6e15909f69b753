import Verif.Model.Xsdata

/-!
# The dataclasses of `formats/sidd/models/sicommon_types.py`

Written by `tools/gen_schema.py` from the text of the module; the comment of a class gives the lines of its declaration, and fields of a base class come first, as in Python.
Ranges, lengths, patterns and occurrence counts are left out: xsdata does not check them when it reads or writes.
-/

namespace Verif.Schema.SiCommon01

open Verif.Xsdata Verif.Xsdata.Field Verif.Xsdata.Namespace

/-- `sicommon_types.py` L17-38 -/
def AngleMagnitudeType : Class := ⟨n!"sicommon01.AngleMagnitudeType", [], sicommon01, n!"AngleMagnitudeType", [
  val n!"angle" sicommon01 n!"Angle" [n!"float"],
  val n!"magnitude" sicommon01 n!"Magnitude" [n!"float"]]⟩

/-- `sicommon_types.py` L41-55 -/
def ArrayDoubleType : Class := ⟨n!"sicommon01.ArrayDoubleType", [], sicommon01, n!"ArrayDoubleType", [
  text n!"value" [n!"float"] none,
  att n!"index" 0 n!"index" [n!"int"]]⟩

/-- `sicommon_types.py` L63-82 -/
def ComplexType : Class := ⟨n!"sicommon01.ComplexType", [], sicommon01, n!"ComplexType", [
  val n!"real" sicommon01 n!"Real" [n!"float"],
  val n!"imag" sicommon01 n!"Imag" [n!"float"]]⟩

/-- `sicommon_types.py` L103-136 -/
def ImageCreationType : Class := ⟨n!"sicommon01.ImageCreationType", [], sicommon01, n!"ImageCreationType", [
  val n!"application" sicommon01 n!"Application" [n!"str"],
  val n!"date_time" sicommon01 n!"DateTime" [n!"XmlDateTime"],
  val n!"site" sicommon01 n!"Site" [n!"str"],
  val n!"profile" sicommon01 n!"Profile" [n!"str"]]⟩

/-- `sicommon_types.py` L139-167 -/
def LLHType : Class := ⟨n!"sicommon01.LLHType", [], sicommon01, n!"LLHType", [
  val n!"lat" sicommon01 n!"Lat" [n!"float"],
  val n!"lon" sicommon01 n!"Lon" [n!"float"],
  val n!"hae" sicommon01 n!"HAE" [n!"float"]]⟩

/-- `sicommon_types.py` L170-198 -/
def LatLonCornerType : Class := ⟨n!"sicommon01.LatLonCornerType", [], sicommon01, n!"LatLonCornerType", [
  val n!"lat" sicommon01 n!"Lat" [n!"float"],
  val n!"lon" sicommon01 n!"Lon" [n!"float"],
  att n!"index" 0 n!"index" [n!"int"]]⟩

/-- `sicommon_types.py` L201-238 -/
def LatLonHAECornerType : Class := ⟨n!"sicommon01.LatLonHAECornerType", [], sicommon01, n!"LatLonHAECornerType", [
  val n!"lat" sicommon01 n!"Lat" [n!"float"],
  val n!"lon" sicommon01 n!"Lon" [n!"float"],
  val n!"hae" sicommon01 n!"HAE" [n!"float"],
  att n!"index" 0 n!"index" [n!"int"]]⟩

/-- `sicommon_types.py` L241-260 -/
def LatLonType : Class := ⟨n!"sicommon01.LatLonType", [], sicommon01, n!"LatLonType", [
  val n!"lat" sicommon01 n!"Lat" [n!"float"],
  val n!"lon" sicommon01 n!"Lon" [n!"float"]]⟩

/-- `sicommon_types.py` L263-289 -/
def LatLonVertexType : Class := ⟨n!"sicommon01.LatLonVertexType", [], sicommon01, n!"LatLonVertexType", [
  val n!"lat" sicommon01 n!"Lat" [n!"float"],
  val n!"lon" sicommon01 n!"Lon" [n!"float"],
  att n!"index" 0 n!"index" [n!"int"]]⟩

/-- `sicommon_types.py` L292-337 -/
def LineType : Class := ⟨n!"sicommon01.LineType", [], sicommon01, n!"LineType", [
  els n!"endpoint" sicommon01 n!"Endpoint" n!"sicommon01.LineType.Endpoint",
  att n!"size" 0 n!"size" [n!"int"]]⟩

/-- `sicommon_types.py` L311-337 -/
def LineType_Endpoint : Class := ⟨n!"sicommon01.LineType.Endpoint", [], sicommon01, n!"Endpoint", [
  val n!"lat" sicommon01 n!"Lat" [n!"float"],
  val n!"lon" sicommon01 n!"Lon" [n!"float"],
  att n!"index" 0 n!"index" [n!"int"]]⟩

/-- `sicommon_types.py` L347-361 -/
def ParameterType : Class := ⟨n!"sicommon01.ParameterType", [], sicommon01, n!"ParameterType", [
  text n!"value" [n!"str"] (some ""),
  att n!"name" 0 n!"name" [n!"str"]]⟩

/-- `sicommon_types.py` L372-386 -/
def PolyCoef1DType : Class := ⟨n!"sicommon01.PolyCoef1DType", [], sicommon01, n!"PolyCoef1DType", [
  text n!"value" [n!"float"] none,
  att n!"exponent1" 0 n!"exponent1" [n!"int"]]⟩

/-- `sicommon_types.py` L389-410 -/
def PolyCoef2DType : Class := ⟨n!"sicommon01.PolyCoef2DType", [], sicommon01, n!"PolyCoef2DType", [
  text n!"value" [n!"float"] none,
  att n!"exponent1" 0 n!"exponent1" [n!"int"],
  att n!"exponent2" 0 n!"exponent2" [n!"int"]]⟩

/-- `sicommon_types.py` L413-458 -/
def PolygonType : Class := ⟨n!"sicommon01.PolygonType", [], sicommon01, n!"PolygonType", [
  els n!"vertex" sicommon01 n!"Vertex" n!"sicommon01.PolygonType.Vertex",
  att n!"size" 0 n!"size" [n!"int"]]⟩

/-- `sicommon_types.py` L432-458 -/
def PolygonType_Vertex : Class := ⟨n!"sicommon01.PolygonType.Vertex", [], sicommon01, n!"Vertex", [
  val n!"lat" sicommon01 n!"Lat" [n!"float"],
  val n!"lon" sicommon01 n!"Lon" [n!"float"],
  att n!"index" 0 n!"index" [n!"int"]]⟩

/-- `sicommon_types.py` L461-487 -/
def RangeAzimuthType : Class := ⟨n!"sicommon01.RangeAzimuthType", [], sicommon01, n!"RangeAzimuthType", [
  val n!"range" sicommon01 n!"Range" [n!"float"],
  val n!"azimuth" sicommon01 n!"Azimuth" [n!"float"]]⟩

/-- `sicommon_types.py` L490-509 -/
def RowColDoubleType : Class := ⟨n!"sicommon01.RowColDoubleType", [], sicommon01, n!"RowColDoubleType", [
  val n!"row" sicommon01 n!"Row" [n!"float"],
  val n!"col" sicommon01 n!"Col" [n!"float"]]⟩

/-- `sicommon_types.py` L512-531 -/
def RowColIntType : Class := ⟨n!"sicommon01.RowColIntType", [], sicommon01, n!"RowColIntType", [
  val n!"row" sicommon01 n!"Row" [n!"int"],
  val n!"col" sicommon01 n!"Col" [n!"int"]]⟩

/-- `sicommon_types.py` L534-560 -/
def RowColVertexType : Class := ⟨n!"sicommon01.RowColVertexType", [], sicommon01, n!"RowColVertexType", [
  val n!"row" sicommon01 n!"Row" [n!"int"],
  val n!"col" sicommon01 n!"Col" [n!"int"],
  att n!"index" 0 n!"index" [n!"int"]]⟩

/-- `sicommon_types.py` L568-596 -/
def XYZType : Class := ⟨n!"sicommon01.XYZType", [], sicommon01, n!"XYZType", [
  val n!"x" sicommon01 n!"X" [n!"float"],
  val n!"y" sicommon01 n!"Y" [n!"float"],
  val n!"z" sicommon01 n!"Z" [n!"float"]]⟩

/-- `sicommon_types.py` L599-1153 -/
def ErrorStatisticsType : Class := ⟨n!"sicommon01.ErrorStatisticsType", [], sicommon01, n!"ErrorStatisticsType", [
  el n!"composite_scp" sicommon01 n!"CompositeSCP" n!"sicommon01.ErrorStatisticsType.CompositeSCP",
  el n!"components" sicommon01 n!"Components" n!"sicommon01.ErrorStatisticsType.Components",
  el n!"additional_parms" sicommon01 n!"AdditionalParms" n!"sicommon01.ErrorStatisticsType.AdditionalParms"]⟩

/-- `sicommon_types.py` L626-703 -/
def ErrorStatisticsType_CompositeSCP : Class := ⟨n!"sicommon01.ErrorStatisticsType.CompositeSCP", [], sicommon01, n!"CompositeSCP", [
  el n!"rg_az_err" sicommon01 n!"RgAzErr" n!"sicommon01.ErrorStatisticsType.CompositeSCP.RgAzErr",
  el n!"row_col_err" sicommon01 n!"RowColErr" n!"sicommon01.ErrorStatisticsType.CompositeSCP.RowColErr"]⟩

/-- `sicommon_types.py` L645-673 -/
def ErrorStatisticsType_CompositeSCP_RgAzErr : Class := ⟨n!"sicommon01.ErrorStatisticsType.CompositeSCP.RgAzErr", [], sicommon01, n!"RgAzErr", [
  val n!"rg" sicommon01 n!"Rg" [n!"float"],
  val n!"az" sicommon01 n!"Az" [n!"float"],
  val n!"rg_az" sicommon01 n!"RgAz" [n!"float"]]⟩

/-- `sicommon_types.py` L675-703 -/
def ErrorStatisticsType_CompositeSCP_RowColErr : Class := ⟨n!"sicommon01.ErrorStatisticsType.CompositeSCP.RowColErr", [], sicommon01, n!"RowColErr", [
  val n!"row" sicommon01 n!"Row" [n!"float"],
  val n!"col" sicommon01 n!"Col" [n!"float"],
  val n!"row_col" sicommon01 n!"RowCol" [n!"float"]]⟩

/-- `sicommon_types.py` L705-1141 -/
def ErrorStatisticsType_Components : Class := ⟨n!"sicommon01.ErrorStatisticsType.Components", [], sicommon01, n!"Components", [
  el n!"pos_vel_err" sicommon01 n!"PosVelErr" n!"sicommon01.ErrorStatisticsType.Components.PosVelErr",
  el n!"radar_sensor" sicommon01 n!"RadarSensor" n!"sicommon01.ErrorStatisticsType.Components.RadarSensor",
  el n!"tropo_error" sicommon01 n!"TropoError" n!"sicommon01.ErrorStatisticsType.Components.TropoError",
  el n!"iono_error" sicommon01 n!"IonoError" n!"sicommon01.ErrorStatisticsType.Components.IonoError"]⟩

/-- `sicommon_types.py` L740-979 -/
def ErrorStatisticsType_Components_PosVelErr : Class := ⟨n!"sicommon01.ErrorStatisticsType.Components.PosVelErr", [], sicommon01, n!"PosVelErr", [
  val n!"frame" sicommon01 n!"Frame" [n!"ErrorFrameType"],
  val n!"p1" sicommon01 n!"P1" [n!"float"],
  val n!"p2" sicommon01 n!"P2" [n!"float"],
  val n!"p3" sicommon01 n!"P3" [n!"float"],
  val n!"v1" sicommon01 n!"V1" [n!"float"],
  val n!"v2" sicommon01 n!"V2" [n!"float"],
  val n!"v3" sicommon01 n!"V3" [n!"float"],
  el n!"corr_coefs" sicommon01 n!"CorrCoefs" n!"sicommon01.ErrorStatisticsType.Components.PosVelErr.CorrCoefs",
  el n!"position_decorr" sicommon01 n!"PositionDecorr" n!"sicommon01.ErrorStatisticsType.Components.PosVelErr.PositionDecorr"]⟩

/-- `sicommon_types.py` L822-958 -/
def ErrorStatisticsType_Components_PosVelErr_CorrCoefs : Class := ⟨n!"sicommon01.ErrorStatisticsType.Components.PosVelErr.CorrCoefs", [], sicommon01, n!"CorrCoefs", [
  val n!"p1_p2" sicommon01 n!"P1P2" [n!"float"],
  val n!"p1_p3" sicommon01 n!"P1P3" [n!"float"],
  val n!"p1_v1" sicommon01 n!"P1V1" [n!"float"],
  val n!"p1_v2" sicommon01 n!"P1V2" [n!"float"],
  val n!"p1_v3" sicommon01 n!"P1V3" [n!"float"],
  val n!"p2_p3" sicommon01 n!"P2P3" [n!"float"],
  val n!"p2_v1" sicommon01 n!"P2V1" [n!"float"],
  val n!"p2_v2" sicommon01 n!"P2V2" [n!"float"],
  val n!"p2_v3" sicommon01 n!"P2V3" [n!"float"],
  val n!"p3_v1" sicommon01 n!"P3V1" [n!"float"],
  val n!"p3_v2" sicommon01 n!"P3V2" [n!"float"],
  val n!"p3_v3" sicommon01 n!"P3V3" [n!"float"],
  val n!"v1_v2" sicommon01 n!"V1V2" [n!"float"],
  val n!"v1_v3" sicommon01 n!"V1V3" [n!"float"],
  val n!"v2_v3" sicommon01 n!"V2V3" [n!"float"]]⟩

/-- `sicommon_types.py` L960-979 -/
def ErrorStatisticsType_Components_PosVelErr_PositionDecorr : Class := ⟨n!"sicommon01.ErrorStatisticsType.Components.PosVelErr.PositionDecorr", [], sicommon01, n!"PositionDecorr", [
  val n!"corr_coef_zero" sicommon01 n!"CorrCoefZero" [n!"float"],
  val n!"decorr_rate" sicommon01 n!"DecorrRate" [n!"float"]]⟩

/-- `sicommon_types.py` L981-1036 -/
def ErrorStatisticsType_Components_RadarSensor : Class := ⟨n!"sicommon01.ErrorStatisticsType.Components.RadarSensor", [], sicommon01, n!"RadarSensor", [
  val n!"range_bias" sicommon01 n!"RangeBias" [n!"float"],
  val n!"clock_freq_sf" sicommon01 n!"ClockFreqSF" [n!"float"],
  val n!"transmit_freq_sf" sicommon01 n!"TransmitFreqSF" [n!"float"],
  el n!"range_bias_decorr" sicommon01 n!"RangeBiasDecorr" n!"sicommon01.ErrorStatisticsType.Components.RadarSensor.RangeBiasDecorr"]⟩

/-- `sicommon_types.py` L1017-1036 -/
def ErrorStatisticsType_Components_RadarSensor_RangeBiasDecorr : Class := ⟨n!"sicommon01.ErrorStatisticsType.Components.RadarSensor.RangeBiasDecorr", [], sicommon01, n!"RangeBiasDecorr", [
  val n!"corr_coef_zero" sicommon01 n!"CorrCoefZero" [n!"float"],
  val n!"decorr_rate" sicommon01 n!"DecorrRate" [n!"float"]]⟩

/-- `sicommon_types.py` L1038-1084 -/
def ErrorStatisticsType_Components_TropoError : Class := ⟨n!"sicommon01.ErrorStatisticsType.Components.TropoError", [], sicommon01, n!"TropoError", [
  val n!"tropo_range_vertical" sicommon01 n!"TropoRangeVertical" [n!"float"],
  val n!"tropo_range_slant" sicommon01 n!"TropoRangeSlant" [n!"float"],
  el n!"tropo_range_decorr" sicommon01 n!"TropoRangeDecorr" n!"sicommon01.ErrorStatisticsType.Components.TropoError.TropoRangeDecorr"]⟩

/-- `sicommon_types.py` L1065-1084 -/
def ErrorStatisticsType_Components_TropoError_TropoRangeDecorr : Class := ⟨n!"sicommon01.ErrorStatisticsType.Components.TropoError.TropoRangeDecorr", [], sicommon01, n!"TropoRangeDecorr", [
  val n!"corr_coef_zero" sicommon01 n!"CorrCoefZero" [n!"float"],
  val n!"decorr_rate" sicommon01 n!"DecorrRate" [n!"float"]]⟩

/-- `sicommon_types.py` L1086-1141 -/
def ErrorStatisticsType_Components_IonoError : Class := ⟨n!"sicommon01.ErrorStatisticsType.Components.IonoError", [], sicommon01, n!"IonoError", [
  val n!"iono_range_vertical" sicommon01 n!"IonoRangeVertical" [n!"float"],
  val n!"iono_range_rate_vertical" sicommon01 n!"IonoRangeRateVertical" [n!"float"],
  val n!"iono_rg_rg_rate_cc" sicommon01 n!"IonoRgRgRateCC" [n!"float"],
  el n!"iono_range_vert_decorr" sicommon01 n!"IonoRangeVertDecorr" n!"sicommon01.ErrorStatisticsType.Components.IonoError.IonoRangeVertDecorr"]⟩

/-- `sicommon_types.py` L1122-1141 -/
def ErrorStatisticsType_Components_IonoError_IonoRangeVertDecorr : Class := ⟨n!"sicommon01.ErrorStatisticsType.Components.IonoError.IonoRangeVertDecorr", [], sicommon01, n!"IonoRangeVertDecorr", [
  val n!"corr_coef_zero" sicommon01 n!"CorrCoefZero" [n!"float"],
  val n!"decorr_rate" sicommon01 n!"DecorrRate" [n!"float"]]⟩

/-- `sicommon_types.py` L1143-1153 -/
def ErrorStatisticsType_AdditionalParms : Class := ⟨n!"sicommon01.ErrorStatisticsType.AdditionalParms", [], sicommon01, n!"AdditionalParms", [
  els n!"parameter" sicommon01 n!"Parameter" n!"sicommon01.ParameterType"]⟩

/-- `sicommon_types.py` L1156-1191 -/
def LLHCornerStringType : Class := ⟨n!"sicommon01.LLHCornerStringType", [], sicommon01, n!"LLHCornerStringType", [
  val n!"lat" sicommon01 n!"Lat" [n!"float"],
  val n!"lon" sicommon01 n!"Lon" [n!"float"],
  val n!"hae" sicommon01 n!"HAE" [n!"float"],
  att n!"index" 0 n!"index" [n!"CornerStringType"]]⟩

/-- `sicommon_types.py` L1194-1220 -/
def LatLonCornerStringType : Class := ⟨n!"sicommon01.LatLonCornerStringType", [], sicommon01, n!"LatLonCornerStringType", [
  val n!"lat" sicommon01 n!"Lat" [n!"float"],
  val n!"lon" sicommon01 n!"Lon" [n!"float"],
  att n!"index" 0 n!"index" [n!"CornerStringType"]]⟩

/-- `sicommon_types.py` L1223-1240 -/
def Poly1DType : Class := ⟨n!"sicommon01.Poly1DType", [], sicommon01, n!"Poly1DType", [
  els n!"coef" sicommon01 n!"Coef" n!"sicommon01.PolyCoef1DType",
  att n!"order1" 0 n!"order1" [n!"int"]]⟩

/-- `sicommon_types.py` L1243-1267 -/
def Poly2DType : Class := ⟨n!"sicommon01.Poly2DType", [], sicommon01, n!"Poly2DType", [
  els n!"coef" sicommon01 n!"Coef" n!"sicommon01.PolyCoef2DType",
  att n!"order1" 0 n!"order1" [n!"int"],
  att n!"order2" 0 n!"order2" [n!"int"]]⟩

/-- `sicommon_types.py` L1270-1288 -/
def RadarModeType : Class := ⟨n!"sicommon01.RadarModeType", [], sicommon01, n!"RadarModeType", [
  val n!"mode_type" sicommon01 n!"ModeType" [n!"ModeIdentifierType"],
  val n!"mode_id" sicommon01 n!"ModeID" [n!"str"]]⟩

/-- `sicommon_types.py` L1291-1324 -/
def ReferencePointType : Class := ⟨n!"sicommon01.ReferencePointType", [], sicommon01, n!"ReferencePointType", [
  el n!"ecef" sicommon01 n!"ECEF" n!"sicommon01.XYZType",
  el n!"point" sicommon01 n!"Point" n!"sicommon01.RowColDoubleType",
  att n!"name" 0 n!"name" [n!"str"]]⟩

/-- `sicommon_types.py` L1327-1344 -/
def ValidDataType : Class := ⟨n!"sicommon01.ValidDataType", [], sicommon01, n!"ValidDataType", [
  els n!"vertex" sicommon01 n!"Vertex" n!"sicommon01.RowColVertexType",
  att n!"size" 0 n!"size" [n!"int"]]⟩

/-- `sicommon_types.py` L1347-1354 -/
def XYZAttributeType : Class := ⟨n!"sicommon01.XYZAttributeType", [n!"sicommon01.XYZType"], sicommon01, n!"XYZAttributeType", [
  val n!"x" sicommon01 n!"X" [n!"float"],
  val n!"y" sicommon01 n!"Y" [n!"float"],
  val n!"z" sicommon01 n!"Z" [n!"float"],
  att n!"name" 0 n!"name" [n!"str"]]⟩

/-- `sicommon_types.py` L1357-1426 -/
def CollectionInfoType : Class := ⟨n!"sicommon01.CollectionInfoType", [], sicommon01, n!"CollectionInfoType", [
  val n!"collector_name" sicommon01 n!"CollectorName" [n!"str"],
  val n!"illuminator_name" sicommon01 n!"IlluminatorName" [n!"str"],
  val n!"core_name" sicommon01 n!"CoreName" [n!"str"],
  val n!"collect_type" sicommon01 n!"CollectType" [n!"CollectIdentifierType"],
  el n!"radar_mode" sicommon01 n!"RadarMode" n!"sicommon01.RadarModeType",
  val n!"classification" sicommon01 n!"Classification" [n!"str"],
  vals n!"country_code" sicommon01 n!"CountryCode" [n!"str"],
  els n!"parameter" sicommon01 n!"Parameter" n!"sicommon01.ParameterType"]⟩

/-- `sicommon_types.py` L1429-1486 -/
def RadiometricType : Class := ⟨n!"sicommon01.RadiometricType", [], sicommon01, n!"RadiometricType", [
  el n!"noise_poly" sicommon01 n!"NoisePoly" n!"sicommon01.Poly2DType",
  el n!"rcssfpoly" sicommon01 n!"RCSSFPoly" n!"sicommon01.Poly2DType",
  el n!"beta_zero_sfpoly" sicommon01 n!"BetaZeroSFPoly" n!"sicommon01.Poly2DType",
  el n!"sigma_zero_sfpoly" sicommon01 n!"SigmaZeroSFPoly" n!"sicommon01.Poly2DType",
  val n!"sigma_zero_sfincidence_map" sicommon01 n!"SigmaZeroSFIncidenceMap" [n!"SigmaZeroSFIncidenceMapType"],
  el n!"gamma_zero_sfpoly" sicommon01 n!"GammaZeroSFPoly" n!"sicommon01.Poly2DType",
  val n!"gamma_zero_sfincidence_map" sicommon01 n!"GammaZeroSFIncidenceMap" [n!"GammaZeroSFIncidenceMapType"]]⟩

/-- `sicommon_types.py` L1489-1517 -/
def XYZPolyType : Class := ⟨n!"sicommon01.XYZPolyType", [], sicommon01, n!"XYZPolyType", [
  el n!"x" sicommon01 n!"X" n!"sicommon01.Poly1DType",
  el n!"y" sicommon01 n!"Y" n!"sicommon01.Poly1DType",
  el n!"z" sicommon01 n!"Z" n!"sicommon01.Poly1DType"]⟩

/-- `sicommon_types.py` L1520-1528 -/
def XYZPolyAttributeType : Class := ⟨n!"sicommon01.XYZPolyAttributeType", [n!"sicommon01.XYZPolyType"], sicommon01, n!"XYZPolyAttributeType", [
  el n!"x" sicommon01 n!"X" n!"sicommon01.Poly1DType",
  el n!"y" sicommon01 n!"Y" n!"sicommon01.Poly1DType",
  el n!"z" sicommon01 n!"Z" n!"sicommon01.Poly1DType",
  att n!"index" 0 n!"index" [n!"int"]]⟩

/-- The dataclasses of `sicommon_types.py` (its enumerations are types of text). -/
def classes : List Class := [
  AngleMagnitudeType, ArrayDoubleType, ComplexType, ImageCreationType, LLHType, LatLonCornerType, LatLonHAECornerType, LatLonType, LatLonVertexType,
  LineType, LineType_Endpoint, ParameterType, PolyCoef1DType, PolyCoef2DType, PolygonType, PolygonType_Vertex, RangeAzimuthType, RowColDoubleType,
  RowColIntType, RowColVertexType, XYZType, ErrorStatisticsType, ErrorStatisticsType_CompositeSCP, ErrorStatisticsType_CompositeSCP_RgAzErr,
  ErrorStatisticsType_CompositeSCP_RowColErr, ErrorStatisticsType_Components, ErrorStatisticsType_Components_PosVelErr,
  ErrorStatisticsType_Components_PosVelErr_CorrCoefs, ErrorStatisticsType_Components_PosVelErr_PositionDecorr,
  ErrorStatisticsType_Components_RadarSensor, ErrorStatisticsType_Components_RadarSensor_RangeBiasDecorr, ErrorStatisticsType_Components_TropoError,
  ErrorStatisticsType_Components_TropoError_TropoRangeDecorr, ErrorStatisticsType_Components_IonoError,
  ErrorStatisticsType_Components_IonoError_IonoRangeVertDecorr, ErrorStatisticsType_AdditionalParms, LLHCornerStringType, LatLonCornerStringType,
  Poly1DType, Poly2DType, RadarModeType, ReferencePointType, ValidDataType, XYZAttributeType, CollectionInfoType, RadiometricType, XYZPolyType,
  XYZPolyAttributeType]

end Verif.Schema.SiCommon01
