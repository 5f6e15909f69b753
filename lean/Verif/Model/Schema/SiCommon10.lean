import Verif.Model.Xsdata

/-!
# The dataclasses of `formats/sidd/models/sicommon_types_v1_0.py`

Written by `tools/gen_schema.py` from the text of the module; the comment of a class gives the lines of its declaration, and fields of a base class come first, as in Python.
Ranges, lengths, patterns and occurrence counts are left out: xsdata does not check them when it reads or writes.
-/

namespace Verif.Schema.SiCommon10

open Verif.Xsdata Verif.Xsdata.Field Verif.Xsdata.Namespace

/-- `sicommon_types_v1_0.py` L17-38 -/
def AngleMagnitudeType : Class := ⟨n!"sicommon10.AngleMagnitudeType", [], sicommon10, n!"AngleMagnitudeType", [
  val n!"angle" sicommon10 n!"Angle" [n!"float"],
  val n!"magnitude" sicommon10 n!"Magnitude" [n!"float"]]⟩

/-- `sicommon_types_v1_0.py` L41-62 -/
def AngleZeroToExclusive360MagnitudeType : Class := ⟨n!"sicommon10.AngleZeroToExclusive360MagnitudeType", [], sicommon10, n!"AngleZeroToExclusive360MagnitudeType", [
  val n!"angle" sicommon10 n!"Angle" [n!"float"],
  val n!"magnitude" sicommon10 n!"Magnitude" [n!"float"]]⟩

/-- `sicommon_types_v1_0.py` L65-79 -/
def ArrayDoubleType : Class := ⟨n!"sicommon10.ArrayDoubleType", [], sicommon10, n!"ArrayDoubleType", [
  text n!"value" [n!"float"] none,
  att n!"index" 0 n!"index" [n!"int"]]⟩

/-- `sicommon_types_v1_0.py` L87-106 -/
def ComplexType : Class := ⟨n!"sicommon10.ComplexType", [], sicommon10, n!"ComplexType", [
  val n!"real" sicommon10 n!"Real" [n!"float"],
  val n!"imag" sicommon10 n!"Imag" [n!"float"]]⟩

/-- `sicommon_types_v1_0.py` L122-155 -/
def ImageCreationType : Class := ⟨n!"sicommon10.ImageCreationType", [], sicommon10, n!"ImageCreationType", [
  val n!"application" sicommon10 n!"Application" [n!"str"],
  val n!"date_time" sicommon10 n!"DateTime" [n!"XmlDateTime"],
  val n!"site" sicommon10 n!"Site" [n!"str"],
  val n!"profile" sicommon10 n!"Profile" [n!"str"]]⟩

/-- `sicommon_types_v1_0.py` L158-186 -/
def LLHType : Class := ⟨n!"sicommon10.LLHType", [], sicommon10, n!"LLHType", [
  val n!"lat" sicommon10 n!"Lat" [n!"float"],
  val n!"lon" sicommon10 n!"Lon" [n!"float"],
  val n!"hae" sicommon10 n!"HAE" [n!"float"]]⟩

/-- `sicommon_types_v1_0.py` L189-217 -/
def LatLonCornerType : Class := ⟨n!"sicommon10.LatLonCornerType", [], sicommon10, n!"LatLonCornerType", [
  val n!"lat" sicommon10 n!"Lat" [n!"float"],
  val n!"lon" sicommon10 n!"Lon" [n!"float"],
  att n!"index" 0 n!"index" [n!"int"]]⟩

/-- `sicommon_types_v1_0.py` L220-257 -/
def LatLonHAECornerType : Class := ⟨n!"sicommon10.LatLonHAECornerType", [], sicommon10, n!"LatLonHAECornerType", [
  val n!"lat" sicommon10 n!"Lat" [n!"float"],
  val n!"lon" sicommon10 n!"Lon" [n!"float"],
  val n!"hae" sicommon10 n!"HAE" [n!"float"],
  att n!"index" 0 n!"index" [n!"int"]]⟩

/-- `sicommon_types_v1_0.py` L260-283 -/
def LatLonRestrictionType : Class := ⟨n!"sicommon10.LatLonRestrictionType", [], sicommon10, n!"LatLonRestrictionType", [
  val n!"lat" sicommon10 n!"Lat" [n!"float"],
  val n!"lon" sicommon10 n!"Lon" [n!"float"]]⟩

/-- `sicommon_types_v1_0.py` L286-305 -/
def LatLonType : Class := ⟨n!"sicommon10.LatLonType", [], sicommon10, n!"LatLonType", [
  val n!"lat" sicommon10 n!"Lat" [n!"float"],
  val n!"lon" sicommon10 n!"Lon" [n!"float"]]⟩

/-- `sicommon_types_v1_0.py` L308-334 -/
def LatLonVertexType : Class := ⟨n!"sicommon10.LatLonVertexType", [], sicommon10, n!"LatLonVertexType", [
  val n!"lat" sicommon10 n!"Lat" [n!"float"],
  val n!"lon" sicommon10 n!"Lon" [n!"float"],
  att n!"index" 0 n!"index" [n!"int"]]⟩

/-- `sicommon_types_v1_0.py` L337-382 -/
def LineType : Class := ⟨n!"sicommon10.LineType", [], sicommon10, n!"LineType", [
  els n!"endpoint" sicommon10 n!"Endpoint" n!"sicommon10.LineType.Endpoint",
  att n!"size" 0 n!"size" [n!"int"]]⟩

/-- `sicommon_types_v1_0.py` L356-382 -/
def LineType_Endpoint : Class := ⟨n!"sicommon10.LineType.Endpoint", [], sicommon10, n!"Endpoint", [
  val n!"lat" sicommon10 n!"Lat" [n!"float"],
  val n!"lon" sicommon10 n!"Lon" [n!"float"],
  att n!"index" 0 n!"index" [n!"int"]]⟩

/-- `sicommon_types_v1_0.py` L397-411 -/
def ParameterType : Class := ⟨n!"sicommon10.ParameterType", [], sicommon10, n!"ParameterType", [
  text n!"value" [n!"str"] (some ""),
  att n!"name" 0 n!"name" [n!"str"]]⟩

/-- `sicommon_types_v1_0.py` L428-442 -/
def PolyCoef1DType : Class := ⟨n!"sicommon10.PolyCoef1DType", [], sicommon10, n!"PolyCoef1DType", [
  text n!"value" [n!"float"] none,
  att n!"exponent1" 0 n!"exponent1" [n!"int"]]⟩

/-- `sicommon_types_v1_0.py` L445-466 -/
def PolyCoef2DType : Class := ⟨n!"sicommon10.PolyCoef2DType", [], sicommon10, n!"PolyCoef2DType", [
  text n!"value" [n!"float"] none,
  att n!"exponent1" 0 n!"exponent1" [n!"int"],
  att n!"exponent2" 0 n!"exponent2" [n!"int"]]⟩

/-- `sicommon_types_v1_0.py` L469-514 -/
def PolygonType : Class := ⟨n!"sicommon10.PolygonType", [], sicommon10, n!"PolygonType", [
  els n!"vertex" sicommon10 n!"Vertex" n!"sicommon10.PolygonType.Vertex",
  att n!"size" 0 n!"size" [n!"int"]]⟩

/-- `sicommon_types_v1_0.py` L488-514 -/
def PolygonType_Vertex : Class := ⟨n!"sicommon10.PolygonType.Vertex", [], sicommon10, n!"Vertex", [
  val n!"lat" sicommon10 n!"Lat" [n!"float"],
  val n!"lon" sicommon10 n!"Lon" [n!"float"],
  att n!"index" 0 n!"index" [n!"int"]]⟩

/-- `sicommon_types_v1_0.py` L522-548 -/
def RangeAzimuthType : Class := ⟨n!"sicommon10.RangeAzimuthType", [], sicommon10, n!"RangeAzimuthType", [
  val n!"range" sicommon10 n!"Range" [n!"float"],
  val n!"azimuth" sicommon10 n!"Azimuth" [n!"float"]]⟩

/-- `sicommon_types_v1_0.py` L551-570 -/
def RowColDoubleType : Class := ⟨n!"sicommon10.RowColDoubleType", [], sicommon10, n!"RowColDoubleType", [
  val n!"row" sicommon10 n!"Row" [n!"float"],
  val n!"col" sicommon10 n!"Col" [n!"float"]]⟩

/-- `sicommon_types_v1_0.py` L573-592 -/
def RowColIntType : Class := ⟨n!"sicommon10.RowColIntType", [], sicommon10, n!"RowColIntType", [
  val n!"row" sicommon10 n!"Row" [n!"int"],
  val n!"col" sicommon10 n!"Col" [n!"int"]]⟩

/-- `sicommon_types_v1_0.py` L595-621 -/
def RowColVertexType : Class := ⟨n!"sicommon10.RowColVertexType", [], sicommon10, n!"RowColVertexType", [
  val n!"row" sicommon10 n!"Row" [n!"int"],
  val n!"col" sicommon10 n!"Col" [n!"int"],
  att n!"index" 0 n!"index" [n!"int"]]⟩

/-- `sicommon_types_v1_0.py` L624-652 -/
def XYZType : Class := ⟨n!"sicommon10.XYZType", [], sicommon10, n!"XYZType", [
  val n!"x" sicommon10 n!"X" [n!"float"],
  val n!"y" sicommon10 n!"Y" [n!"float"],
  val n!"z" sicommon10 n!"Z" [n!"float"]]⟩

/-- `sicommon_types_v1_0.py` L655-1271 -/
def ErrorStatisticsType : Class := ⟨n!"sicommon10.ErrorStatisticsType", [], sicommon10, n!"ErrorStatisticsType", [
  el n!"composite_scp" sicommon10 n!"CompositeSCP" n!"sicommon10.ErrorStatisticsType.CompositeSCP",
  el n!"components" sicommon10 n!"Components" n!"sicommon10.ErrorStatisticsType.Components",
  el n!"unmodeled" sicommon10 n!"Unmodeled" n!"sicommon10.ErrorStatisticsType.Unmodeled",
  el n!"additional_parms" sicommon10 n!"AdditionalParms" n!"sicommon10.ErrorStatisticsType.AdditionalParms"]⟩

/-- `sicommon_types_v1_0.py` L690-718 -/
def ErrorStatisticsType_CompositeSCP : Class := ⟨n!"sicommon10.ErrorStatisticsType.CompositeSCP", [], sicommon10, n!"CompositeSCP", [
  val n!"rg" sicommon10 n!"Rg" [n!"float"],
  val n!"az" sicommon10 n!"Az" [n!"float"],
  val n!"rg_az" sicommon10 n!"RgAz" [n!"float"]]⟩

/-- `sicommon_types_v1_0.py` L720-1158 -/
def ErrorStatisticsType_Components : Class := ⟨n!"sicommon10.ErrorStatisticsType.Components", [], sicommon10, n!"Components", [
  el n!"pos_vel_err" sicommon10 n!"PosVelErr" n!"sicommon10.ErrorStatisticsType.Components.PosVelErr",
  el n!"radar_sensor" sicommon10 n!"RadarSensor" n!"sicommon10.ErrorStatisticsType.Components.RadarSensor",
  el n!"tropo_error" sicommon10 n!"TropoError" n!"sicommon10.ErrorStatisticsType.Components.TropoError",
  el n!"iono_error" sicommon10 n!"IonoError" n!"sicommon10.ErrorStatisticsType.Components.IonoError"]⟩

/-- `sicommon_types_v1_0.py` L757-996 -/
def ErrorStatisticsType_Components_PosVelErr : Class := ⟨n!"sicommon10.ErrorStatisticsType.Components.PosVelErr", [], sicommon10, n!"PosVelErr", [
  val n!"frame" sicommon10 n!"Frame" [n!"ErrorFrameType"],
  val n!"p1" sicommon10 n!"P1" [n!"float"],
  val n!"p2" sicommon10 n!"P2" [n!"float"],
  val n!"p3" sicommon10 n!"P3" [n!"float"],
  val n!"v1" sicommon10 n!"V1" [n!"float"],
  val n!"v2" sicommon10 n!"V2" [n!"float"],
  val n!"v3" sicommon10 n!"V3" [n!"float"],
  el n!"corr_coefs" sicommon10 n!"CorrCoefs" n!"sicommon10.ErrorStatisticsType.Components.PosVelErr.CorrCoefs",
  el n!"position_decorr" sicommon10 n!"PositionDecorr" n!"sicommon10.ErrorStatisticsType.Components.PosVelErr.PositionDecorr"]⟩

/-- `sicommon_types_v1_0.py` L839-975 -/
def ErrorStatisticsType_Components_PosVelErr_CorrCoefs : Class := ⟨n!"sicommon10.ErrorStatisticsType.Components.PosVelErr.CorrCoefs", [], sicommon10, n!"CorrCoefs", [
  val n!"p1_p2" sicommon10 n!"P1P2" [n!"float"],
  val n!"p1_p3" sicommon10 n!"P1P3" [n!"float"],
  val n!"p1_v1" sicommon10 n!"P1V1" [n!"float"],
  val n!"p1_v2" sicommon10 n!"P1V2" [n!"float"],
  val n!"p1_v3" sicommon10 n!"P1V3" [n!"float"],
  val n!"p2_p3" sicommon10 n!"P2P3" [n!"float"],
  val n!"p2_v1" sicommon10 n!"P2V1" [n!"float"],
  val n!"p2_v2" sicommon10 n!"P2V2" [n!"float"],
  val n!"p2_v3" sicommon10 n!"P2V3" [n!"float"],
  val n!"p3_v1" sicommon10 n!"P3V1" [n!"float"],
  val n!"p3_v2" sicommon10 n!"P3V2" [n!"float"],
  val n!"p3_v3" sicommon10 n!"P3V3" [n!"float"],
  val n!"v1_v2" sicommon10 n!"V1V2" [n!"float"],
  val n!"v1_v3" sicommon10 n!"V1V3" [n!"float"],
  val n!"v2_v3" sicommon10 n!"V2V3" [n!"float"]]⟩

/-- `sicommon_types_v1_0.py` L977-996 -/
def ErrorStatisticsType_Components_PosVelErr_PositionDecorr : Class := ⟨n!"sicommon10.ErrorStatisticsType.Components.PosVelErr.PositionDecorr", [], sicommon10, n!"PositionDecorr", [
  val n!"corr_coef_zero" sicommon10 n!"CorrCoefZero" [n!"float"],
  val n!"decorr_rate" sicommon10 n!"DecorrRate" [n!"float"]]⟩

/-- `sicommon_types_v1_0.py` L998-1053 -/
def ErrorStatisticsType_Components_RadarSensor : Class := ⟨n!"sicommon10.ErrorStatisticsType.Components.RadarSensor", [], sicommon10, n!"RadarSensor", [
  val n!"range_bias" sicommon10 n!"RangeBias" [n!"float"],
  val n!"clock_freq_sf" sicommon10 n!"ClockFreqSF" [n!"float"],
  val n!"transmit_freq_sf" sicommon10 n!"TransmitFreqSF" [n!"float"],
  el n!"range_bias_decorr" sicommon10 n!"RangeBiasDecorr" n!"sicommon10.ErrorStatisticsType.Components.RadarSensor.RangeBiasDecorr"]⟩

/-- `sicommon_types_v1_0.py` L1034-1053 -/
def ErrorStatisticsType_Components_RadarSensor_RangeBiasDecorr : Class := ⟨n!"sicommon10.ErrorStatisticsType.Components.RadarSensor.RangeBiasDecorr", [], sicommon10, n!"RangeBiasDecorr", [
  val n!"corr_coef_zero" sicommon10 n!"CorrCoefZero" [n!"float"],
  val n!"decorr_rate" sicommon10 n!"DecorrRate" [n!"float"]]⟩

/-- `sicommon_types_v1_0.py` L1055-1101 -/
def ErrorStatisticsType_Components_TropoError : Class := ⟨n!"sicommon10.ErrorStatisticsType.Components.TropoError", [], sicommon10, n!"TropoError", [
  val n!"tropo_range_vertical" sicommon10 n!"TropoRangeVertical" [n!"float"],
  val n!"tropo_range_slant" sicommon10 n!"TropoRangeSlant" [n!"float"],
  el n!"tropo_range_decorr" sicommon10 n!"TropoRangeDecorr" n!"sicommon10.ErrorStatisticsType.Components.TropoError.TropoRangeDecorr"]⟩

/-- `sicommon_types_v1_0.py` L1082-1101 -/
def ErrorStatisticsType_Components_TropoError_TropoRangeDecorr : Class := ⟨n!"sicommon10.ErrorStatisticsType.Components.TropoError.TropoRangeDecorr", [], sicommon10, n!"TropoRangeDecorr", [
  val n!"corr_coef_zero" sicommon10 n!"CorrCoefZero" [n!"float"],
  val n!"decorr_rate" sicommon10 n!"DecorrRate" [n!"float"]]⟩

/-- `sicommon_types_v1_0.py` L1103-1158 -/
def ErrorStatisticsType_Components_IonoError : Class := ⟨n!"sicommon10.ErrorStatisticsType.Components.IonoError", [], sicommon10, n!"IonoError", [
  val n!"iono_range_vertical" sicommon10 n!"IonoRangeVertical" [n!"float"],
  val n!"iono_range_rate_vertical" sicommon10 n!"IonoRangeRateVertical" [n!"float"],
  val n!"iono_rg_rg_rate_cc" sicommon10 n!"IonoRgRgRateCC" [n!"float"],
  el n!"iono_range_vert_decorr" sicommon10 n!"IonoRangeVertDecorr" n!"sicommon10.ErrorStatisticsType.Components.IonoError.IonoRangeVertDecorr"]⟩

/-- `sicommon_types_v1_0.py` L1139-1158 -/
def ErrorStatisticsType_Components_IonoError_IonoRangeVertDecorr : Class := ⟨n!"sicommon10.ErrorStatisticsType.Components.IonoError.IonoRangeVertDecorr", [], sicommon10, n!"IonoRangeVertDecorr", [
  val n!"corr_coef_zero" sicommon10 n!"CorrCoefZero" [n!"float"],
  val n!"decorr_rate" sicommon10 n!"DecorrRate" [n!"float"]]⟩

/-- `sicommon_types_v1_0.py` L1160-1259 -/
def ErrorStatisticsType_Unmodeled : Class := ⟨n!"sicommon10.ErrorStatisticsType.Unmodeled", [], sicommon10, n!"Unmodeled", [
  val n!"xrow" sicommon10 n!"Xrow" [n!"float"],
  val n!"ycol" sicommon10 n!"Ycol" [n!"float"],
  val n!"xrow_ycol" sicommon10 n!"XrowYcol" [n!"float"],
  el n!"unmodeled_decorr" sicommon10 n!"UnmodeledDecorr" n!"sicommon10.ErrorStatisticsType.Unmodeled.UnmodeledDecorr"]⟩

/-- `sicommon_types_v1_0.py` L1198-1259 -/
def ErrorStatisticsType_Unmodeled_UnmodeledDecorr : Class := ⟨n!"sicommon10.ErrorStatisticsType.Unmodeled.UnmodeledDecorr", [], sicommon10, n!"UnmodeledDecorr", [
  el n!"xrow" sicommon10 n!"Xrow" n!"sicommon10.ErrorStatisticsType.Unmodeled.UnmodeledDecorr.Xrow",
  el n!"ycol" sicommon10 n!"Ycol" n!"sicommon10.ErrorStatisticsType.Unmodeled.UnmodeledDecorr.Ycol"]⟩

/-- `sicommon_types_v1_0.py` L1219-1238 -/
def ErrorStatisticsType_Unmodeled_UnmodeledDecorr_Xrow : Class := ⟨n!"sicommon10.ErrorStatisticsType.Unmodeled.UnmodeledDecorr.Xrow", [], sicommon10, n!"Xrow", [
  val n!"corr_coef_zero" sicommon10 n!"CorrCoefZero" [n!"float"],
  val n!"decorr_rate" sicommon10 n!"DecorrRate" [n!"float"]]⟩

/-- `sicommon_types_v1_0.py` L1240-1259 -/
def ErrorStatisticsType_Unmodeled_UnmodeledDecorr_Ycol : Class := ⟨n!"sicommon10.ErrorStatisticsType.Unmodeled.UnmodeledDecorr.Ycol", [], sicommon10, n!"Ycol", [
  val n!"corr_coef_zero" sicommon10 n!"CorrCoefZero" [n!"float"],
  val n!"decorr_rate" sicommon10 n!"DecorrRate" [n!"float"]]⟩

/-- `sicommon_types_v1_0.py` L1261-1271 -/
def ErrorStatisticsType_AdditionalParms : Class := ⟨n!"sicommon10.ErrorStatisticsType.AdditionalParms", [], sicommon10, n!"AdditionalParms", [
  els n!"parameter" sicommon10 n!"Parameter" n!"sicommon10.ParameterType"]⟩

/-- `sicommon_types_v1_0.py` L1274-1322 -/
def GeoInfoType : Class := ⟨n!"sicommon10.GeoInfoType", [], sicommon10, n!"GeoInfoType", [
  els n!"desc" sicommon10 n!"Desc" n!"sicommon10.ParameterType",
  el n!"point" sicommon10 n!"Point" n!"sicommon10.LatLonRestrictionType",
  el n!"line" sicommon10 n!"Line" n!"sicommon10.LineType",
  el n!"polygon" sicommon10 n!"Polygon" n!"sicommon10.PolygonType",
  els n!"geo_info" sicommon10 n!"GeoInfo" n!"sicommon10.GeoInfoType",
  att n!"name" 0 n!"name" [n!"str"]]⟩

/-- `sicommon_types_v1_0.py` L1325-1360 -/
def LLHCornerStringType : Class := ⟨n!"sicommon10.LLHCornerStringType", [], sicommon10, n!"LLHCornerStringType", [
  val n!"lat" sicommon10 n!"Lat" [n!"float"],
  val n!"lon" sicommon10 n!"Lon" [n!"float"],
  val n!"hae" sicommon10 n!"HAE" [n!"float"],
  att n!"index" 0 n!"index" [n!"CornerStringType"]]⟩

/-- `sicommon_types_v1_0.py` L1363-1389 -/
def LatLonCornerStringType : Class := ⟨n!"sicommon10.LatLonCornerStringType", [], sicommon10, n!"LatLonCornerStringType", [
  val n!"lat" sicommon10 n!"Lat" [n!"float"],
  val n!"lon" sicommon10 n!"Lon" [n!"float"],
  att n!"index" 0 n!"index" [n!"CornerStringType"]]⟩

/-- `sicommon_types_v1_0.py` L1392-1490 -/
def MatchInfoType : Class := ⟨n!"sicommon10.MatchInfoType", [], sicommon10, n!"MatchInfoType", [
  val n!"num_match_types" sicommon10 n!"NumMatchTypes" [n!"int"],
  els n!"match_type" sicommon10 n!"MatchType" n!"sicommon10.MatchInfoType.MatchType"]⟩

/-- `sicommon_types_v1_0.py` L1413-1490 -/
def MatchInfoType_MatchType : Class := ⟨n!"sicommon10.MatchInfoType.MatchType", [], sicommon10, n!"MatchType", [
  val n!"type_id" sicommon10 n!"TypeID" [n!"str"],
  val n!"current_index" sicommon10 n!"CurrentIndex" [n!"int"],
  val n!"num_match_collections" sicommon10 n!"NumMatchCollections" [n!"int"],
  els n!"match_collection" sicommon10 n!"MatchCollection" n!"sicommon10.MatchInfoType.MatchType.MatchCollection",
  att n!"index" 0 n!"index" [n!"int"]]⟩

/-- `sicommon_types_v1_0.py` L1457-1490 -/
def MatchInfoType_MatchType_MatchCollection : Class := ⟨n!"sicommon10.MatchInfoType.MatchType.MatchCollection", [], sicommon10, n!"MatchCollection", [
  val n!"core_name" sicommon10 n!"CoreName" [n!"str"],
  val n!"match_index" sicommon10 n!"MatchIndex" [n!"int"],
  els n!"parameter" sicommon10 n!"Parameter" n!"sicommon10.ParameterType",
  att n!"index" 0 n!"index" [n!"int"]]⟩

/-- `sicommon_types_v1_0.py` L1493-1510 -/
def Poly1DType : Class := ⟨n!"sicommon10.Poly1DType", [], sicommon10, n!"Poly1DType", [
  els n!"coef" sicommon10 n!"Coef" n!"sicommon10.PolyCoef1DType",
  att n!"order1" 0 n!"order1" [n!"int"]]⟩

/-- `sicommon_types_v1_0.py` L1513-1537 -/
def Poly2DType : Class := ⟨n!"sicommon10.Poly2DType", [], sicommon10, n!"Poly2DType", [
  els n!"coef" sicommon10 n!"Coef" n!"sicommon10.PolyCoef2DType",
  att n!"order1" 0 n!"order1" [n!"int"],
  att n!"order2" 0 n!"order2" [n!"int"]]⟩

/-- `sicommon_types_v1_0.py` L1540-1558 -/
def RadarModeType : Class := ⟨n!"sicommon10.RadarModeType", [], sicommon10, n!"RadarModeType", [
  val n!"mode_type" sicommon10 n!"ModeType" [n!"ModeIdentifierType"],
  val n!"mode_id" sicommon10 n!"ModeID" [n!"str"]]⟩

/-- `sicommon_types_v1_0.py` L1561-1594 -/
def ReferencePointType : Class := ⟨n!"sicommon10.ReferencePointType", [], sicommon10, n!"ReferencePointType", [
  el n!"ecef" sicommon10 n!"ECEF" n!"sicommon10.XYZType",
  el n!"point" sicommon10 n!"Point" n!"sicommon10.RowColDoubleType",
  att n!"name" 0 n!"name" [n!"str"]]⟩

/-- `sicommon_types_v1_0.py` L1597-1614 -/
def ValidDataType : Class := ⟨n!"sicommon10.ValidDataType", [], sicommon10, n!"ValidDataType", [
  els n!"vertex" sicommon10 n!"Vertex" n!"sicommon10.RowColVertexType",
  att n!"size" 0 n!"size" [n!"int"]]⟩

/-- `sicommon_types_v1_0.py` L1617-1624 -/
def XYZAttributeType : Class := ⟨n!"sicommon10.XYZAttributeType", [n!"sicommon10.XYZType"], sicommon10, n!"XYZAttributeType", [
  val n!"x" sicommon10 n!"X" [n!"float"],
  val n!"y" sicommon10 n!"Y" [n!"float"],
  val n!"z" sicommon10 n!"Z" [n!"float"],
  att n!"name" 0 n!"name" [n!"str"]]⟩

/-- `sicommon_types_v1_0.py` L1627-1696 -/
def CollectionInfoType : Class := ⟨n!"sicommon10.CollectionInfoType", [], sicommon10, n!"CollectionInfoType", [
  val n!"collector_name" sicommon10 n!"CollectorName" [n!"str"],
  val n!"illuminator_name" sicommon10 n!"IlluminatorName" [n!"str"],
  val n!"core_name" sicommon10 n!"CoreName" [n!"str"],
  val n!"collect_type" sicommon10 n!"CollectType" [n!"CollectIdentifierType"],
  el n!"radar_mode" sicommon10 n!"RadarMode" n!"sicommon10.RadarModeType",
  val n!"classification" sicommon10 n!"Classification" [n!"str"],
  vals n!"country_code" sicommon10 n!"CountryCode" [n!"str"],
  els n!"parameter" sicommon10 n!"Parameter" n!"sicommon10.ParameterType"]⟩

/-- `sicommon_types_v1_0.py` L1699-1702 -/
def GeoInfo : Class := ⟨n!"sicommon10.GeoInfo", [n!"sicommon10.GeoInfoType"], sicommon10, n!"GeoInfo", [
  els n!"desc" sicommon10 n!"Desc" n!"sicommon10.ParameterType",
  el n!"point" sicommon10 n!"Point" n!"sicommon10.LatLonRestrictionType",
  el n!"line" sicommon10 n!"Line" n!"sicommon10.LineType",
  el n!"polygon" sicommon10 n!"Polygon" n!"sicommon10.PolygonType",
  els n!"geo_info" sicommon10 n!"GeoInfo" n!"sicommon10.GeoInfoType",
  att n!"name" 0 n!"name" [n!"str"]]⟩

/-- `sicommon_types_v1_0.py` L1705-1783 -/
def RadiometricType : Class := ⟨n!"sicommon10.RadiometricType", [], sicommon10, n!"RadiometricType", [
  el n!"noise_level" sicommon10 n!"NoiseLevel" n!"sicommon10.RadiometricType.NoiseLevel",
  el n!"noise_poly" sicommon10 n!"NoisePoly" n!"sicommon10.Poly2DType",
  el n!"rcssfpoly" sicommon10 n!"RCSSFPoly" n!"sicommon10.Poly2DType",
  el n!"sigma_zero_sfpoly" sicommon10 n!"SigmaZeroSFPoly" n!"sicommon10.Poly2DType",
  el n!"beta_zero_sfpoly" sicommon10 n!"BetaZeroSFPoly" n!"sicommon10.Poly2DType",
  val n!"sigma_zero_sfincidence_map" sicommon10 n!"SigmaZeroSFIncidenceMap" [n!"RadiometricTypeSigmaZeroSFIncidenceMap"],
  el n!"gamma_zero_sfpoly" sicommon10 n!"GammaZeroSFPoly" n!"sicommon10.Poly2DType"]⟩

/-- `sicommon_types_v1_0.py` L1764-1783 -/
def RadiometricType_NoiseLevel : Class := ⟨n!"sicommon10.RadiometricType.NoiseLevel", [], sicommon10, n!"NoiseLevel", [
  val n!"noise_level_type" sicommon10 n!"NoiseLevelType" [n!"NoiseLevelNoiseLevelType"],
  el n!"noise_poly" sicommon10 n!"NoisePoly" n!"sicommon10.Poly2DType"]⟩

/-- `sicommon_types_v1_0.py` L1786-1814 -/
def XYZPolyType : Class := ⟨n!"sicommon10.XYZPolyType", [], sicommon10, n!"XYZPolyType", [
  el n!"x" sicommon10 n!"X" n!"sicommon10.Poly1DType",
  el n!"y" sicommon10 n!"Y" n!"sicommon10.Poly1DType",
  el n!"z" sicommon10 n!"Z" n!"sicommon10.Poly1DType"]⟩

/-- `sicommon_types_v1_0.py` L1817-1825 -/
def XYZPolyAttributeType : Class := ⟨n!"sicommon10.XYZPolyAttributeType", [n!"sicommon10.XYZPolyType"], sicommon10, n!"XYZPolyAttributeType", [
  el n!"x" sicommon10 n!"X" n!"sicommon10.Poly1DType",
  el n!"y" sicommon10 n!"Y" n!"sicommon10.Poly1DType",
  el n!"z" sicommon10 n!"Z" n!"sicommon10.Poly1DType",
  att n!"index" 0 n!"index" [n!"int"]]⟩

/-- The dataclasses of `sicommon_types_v1_0.py` (its enumerations are types of text). -/
def classes : List Class := [
  AngleMagnitudeType, AngleZeroToExclusive360MagnitudeType, ArrayDoubleType, ComplexType, ImageCreationType, LLHType, LatLonCornerType,
  LatLonHAECornerType, LatLonRestrictionType, LatLonType, LatLonVertexType, LineType, LineType_Endpoint, ParameterType, PolyCoef1DType,
  PolyCoef2DType, PolygonType, PolygonType_Vertex, RangeAzimuthType, RowColDoubleType, RowColIntType, RowColVertexType, XYZType, ErrorStatisticsType,
  ErrorStatisticsType_CompositeSCP, ErrorStatisticsType_Components, ErrorStatisticsType_Components_PosVelErr,
  ErrorStatisticsType_Components_PosVelErr_CorrCoefs, ErrorStatisticsType_Components_PosVelErr_PositionDecorr,
  ErrorStatisticsType_Components_RadarSensor, ErrorStatisticsType_Components_RadarSensor_RangeBiasDecorr, ErrorStatisticsType_Components_TropoError,
  ErrorStatisticsType_Components_TropoError_TropoRangeDecorr, ErrorStatisticsType_Components_IonoError,
  ErrorStatisticsType_Components_IonoError_IonoRangeVertDecorr, ErrorStatisticsType_Unmodeled, ErrorStatisticsType_Unmodeled_UnmodeledDecorr,
  ErrorStatisticsType_Unmodeled_UnmodeledDecorr_Xrow, ErrorStatisticsType_Unmodeled_UnmodeledDecorr_Ycol, ErrorStatisticsType_AdditionalParms,
  GeoInfoType, LLHCornerStringType, LatLonCornerStringType, MatchInfoType, MatchInfoType_MatchType, MatchInfoType_MatchType_MatchCollection,
  Poly1DType, Poly2DType, RadarModeType, ReferencePointType, ValidDataType, XYZAttributeType, CollectionInfoType, GeoInfo, RadiometricType,
  RadiometricType_NoiseLevel, XYZPolyType, XYZPolyAttributeType]

end Verif.Schema.SiCommon10
