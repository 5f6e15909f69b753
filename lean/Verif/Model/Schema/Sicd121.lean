import Verif.Model.Xsdata

/-!
# The dataclasses of `formats/sicd/models/sicd_v1_2_1.py`

Written by `tools/gen_schema.py` from the text of the module; the comment of a class gives the lines of its declaration, and fields of a base class come first, as in Python.
Ranges, lengths, patterns and occurrence counts are left out: xsdata does not check them when it reads or writes.
-/

namespace Verif.Schema.Sicd121

open Verif.Xsdata Verif.Xsdata.Field Verif.Xsdata.Namespace

/-- `sicd_v1_2_1.py` L17-31 -/
def ArrayDouble : Class := ⟨n!"sicd121.ArrayDouble", [], sicd121, n!"ArrayDouble", [
  text n!"value" [n!"float"] none,
  att n!"index" 0 n!"index" [n!"int"]]⟩

/-- `sicd_v1_2_1.py` L39-58 -/
def ComplexType : Class := ⟨n!"sicd121.ComplexType", [], sicd121, n!"ComplexType", [
  val n!"real" sicd121 n!"Real" [n!"float"],
  val n!"imag" sicd121 n!"Imag" [n!"float"]]⟩

/-- `sicd_v1_2_1.py` L94-113 -/
def ErrorDecorrFuncType : Class := ⟨n!"sicd121.ErrorDecorrFuncType", [], sicd121, n!"ErrorDecorrFuncType", [
  val n!"corr_coef_zero" sicd121 n!"CorrCoefZero" [n!"float"],
  val n!"decorr_rate" sicd121 n!"DecorrRate" [n!"float"]]⟩

/-- `sicd_v1_2_1.py` L134-167 -/
def ImageCreationType : Class := ⟨n!"sicd121.ImageCreationType", [], sicd121, n!"ImageCreationType", [
  val n!"application" sicd121 n!"Application" [n!"str"],
  val n!"date_time" sicd121 n!"DateTime" [n!"XmlDateTime"],
  val n!"site" sicd121 n!"Site" [n!"str"],
  val n!"profile" sicd121 n!"Profile" [n!"str"]]⟩

/-- `sicd_v1_2_1.py` L206-238 -/
def LatLonHAERestrictionType : Class := ⟨n!"sicd121.LatLonHAERestrictionType", [], sicd121, n!"LatLonHAERestrictionType", [
  val n!"lat" sicd121 n!"Lat" [n!"float"],
  val n!"lon" sicd121 n!"Lon" [n!"float"],
  val n!"hae" sicd121 n!"HAE" [n!"float"]]⟩

/-- `sicd_v1_2_1.py` L241-269 -/
def LatLonHAEType : Class := ⟨n!"sicd121.LatLonHAEType", [], sicd121, n!"LatLonHAEType", [
  val n!"lat" sicd121 n!"Lat" [n!"float"],
  val n!"lon" sicd121 n!"Lon" [n!"float"],
  val n!"hae" sicd121 n!"HAE" [n!"float"]]⟩

/-- `sicd_v1_2_1.py` L272-295 -/
def LatLonRestrictionType : Class := ⟨n!"sicd121.LatLonRestrictionType", [], sicd121, n!"LatLonRestrictionType", [
  val n!"lat" sicd121 n!"Lat" [n!"float"],
  val n!"lon" sicd121 n!"Lon" [n!"float"]]⟩

/-- `sicd_v1_2_1.py` L298-317 -/
def LatLonType : Class := ⟨n!"sicd121.LatLonType", [], sicd121, n!"LatLonType", [
  val n!"lat" sicd121 n!"Lat" [n!"float"],
  val n!"lon" sicd121 n!"Lon" [n!"float"]]⟩

/-- `sicd_v1_2_1.py` L333-347 -/
def ParameterType : Class := ⟨n!"sicd121.ParameterType", [], sicd121, n!"ParameterType", [
  text n!"value" [n!"str"] (some ""),
  att n!"name" 0 n!"name" [n!"str"]]⟩

/-- `sicd_v1_2_1.py` L368-382 -/
def PolyCoef1DType : Class := ⟨n!"sicd121.PolyCoef1DType", [], sicd121, n!"PolyCoef1DType", [
  text n!"value" [n!"float"] none,
  att n!"exponent1" 0 n!"exponent1" [n!"int"]]⟩

/-- `sicd_v1_2_1.py` L385-406 -/
def PolyCoef2DType : Class := ⟨n!"sicd121.PolyCoef2DType", [], sicd121, n!"PolyCoef2DType", [
  text n!"value" [n!"float"] none,
  att n!"exponent1" 0 n!"exponent1" [n!"int"],
  att n!"exponent2" 0 n!"exponent2" [n!"int"]]⟩

/-- `sicd_v1_2_1.py` L433-452 -/
def RowColType : Class := ⟨n!"sicd121.RowColType", [], sicd121, n!"RowColType", [
  val n!"row" sicd121 n!"Row" [n!"int"],
  val n!"col" sicd121 n!"Col" [n!"int"]]⟩

/-- `sicd_v1_2_1.py` L465-493 -/
def XYZType : Class := ⟨n!"sicd121.XYZType", [], sicd121, n!"XYZType", [
  val n!"x" sicd121 n!"X" [n!"float"],
  val n!"y" sicd121 n!"Y" [n!"float"],
  val n!"z" sicd121 n!"Z" [n!"float"]]⟩

/-- `sicd_v1_2_1.py` L496-585 -/
def CollectionInfoType : Class := ⟨n!"sicd121.CollectionInfoType", [], sicd121, n!"CollectionInfoType", [
  val n!"collector_name" sicd121 n!"CollectorName" [n!"str"],
  val n!"illuminator_name" sicd121 n!"IlluminatorName" [n!"str"],
  val n!"core_name" sicd121 n!"CoreName" [n!"str"],
  val n!"collect_type" sicd121 n!"CollectType" [n!"CollectType"],
  el n!"radar_mode" sicd121 n!"RadarMode" n!"sicd121.CollectionInfoType.RadarMode",
  val n!"classification" sicd121 n!"Classification" [n!"str"],
  vals n!"country_code" sicd121 n!"CountryCode" [n!"str"],
  els n!"parameter" sicd121 n!"Parameter" n!"sicd121.ParameterType"]⟩

/-- `sicd_v1_2_1.py` L567-585 -/
def CollectionInfoType_RadarMode : Class := ⟨n!"sicd121.CollectionInfoType.RadarMode", [], sicd121, n!"RadarMode", [
  val n!"mode_type" sicd121 n!"ModeType" [n!"RadarModeType"],
  val n!"mode_id" sicd121 n!"ModeID" [n!"str"]]⟩

/-- `sicd_v1_2_1.py` L588-1011 -/
def ErrorStatisticsType : Class := ⟨n!"sicd121.ErrorStatisticsType", [], sicd121, n!"ErrorStatisticsType", [
  el n!"composite_scp" sicd121 n!"CompositeSCP" n!"sicd121.ErrorStatisticsType.CompositeSCP",
  el n!"components" sicd121 n!"Components" n!"sicd121.ErrorStatisticsType.Components",
  el n!"additional_parms" sicd121 n!"AdditionalParms" n!"sicd121.ErrorStatisticsType.AdditionalParms"]⟩

/-- `sicd_v1_2_1.py` L615-643 -/
def ErrorStatisticsType_CompositeSCP : Class := ⟨n!"sicd121.ErrorStatisticsType.CompositeSCP", [], sicd121, n!"CompositeSCP", [
  val n!"rg" sicd121 n!"Rg" [n!"float"],
  val n!"az" sicd121 n!"Az" [n!"float"],
  val n!"rg_az" sicd121 n!"RgAz" [n!"float"]]⟩

/-- `sicd_v1_2_1.py` L645-999 -/
def ErrorStatisticsType_Components : Class := ⟨n!"sicd121.ErrorStatisticsType.Components", [], sicd121, n!"Components", [
  el n!"pos_vel_err" sicd121 n!"PosVelErr" n!"sicd121.ErrorStatisticsType.Components.PosVelErr",
  el n!"radar_sensor" sicd121 n!"RadarSensor" n!"sicd121.ErrorStatisticsType.Components.RadarSensor",
  el n!"tropo_error" sicd121 n!"TropoError" n!"sicd121.ErrorStatisticsType.Components.TropoError",
  el n!"iono_error" sicd121 n!"IonoError" n!"sicd121.ErrorStatisticsType.Components.IonoError"]⟩

/-- `sicd_v1_2_1.py` L682-900 -/
def ErrorStatisticsType_Components_PosVelErr : Class := ⟨n!"sicd121.ErrorStatisticsType.Components.PosVelErr", [], sicd121, n!"PosVelErr", [
  val n!"frame" sicd121 n!"Frame" [n!"PosVelErrFrame"],
  val n!"p1" sicd121 n!"P1" [n!"float"],
  val n!"p2" sicd121 n!"P2" [n!"float"],
  val n!"p3" sicd121 n!"P3" [n!"float"],
  val n!"v1" sicd121 n!"V1" [n!"float"],
  val n!"v2" sicd121 n!"V2" [n!"float"],
  val n!"v3" sicd121 n!"V3" [n!"float"],
  el n!"corr_coefs" sicd121 n!"CorrCoefs" n!"sicd121.ErrorStatisticsType.Components.PosVelErr.CorrCoefs",
  el n!"position_decorr" sicd121 n!"PositionDecorr" n!"sicd121.ErrorDecorrFuncType"]⟩

/-- `sicd_v1_2_1.py` L764-900 -/
def ErrorStatisticsType_Components_PosVelErr_CorrCoefs : Class := ⟨n!"sicd121.ErrorStatisticsType.Components.PosVelErr.CorrCoefs", [], sicd121, n!"CorrCoefs", [
  val n!"p1_p2" sicd121 n!"P1P2" [n!"float"],
  val n!"p1_p3" sicd121 n!"P1P3" [n!"float"],
  val n!"p1_v1" sicd121 n!"P1V1" [n!"float"],
  val n!"p1_v2" sicd121 n!"P1V2" [n!"float"],
  val n!"p1_v3" sicd121 n!"P1V3" [n!"float"],
  val n!"p2_p3" sicd121 n!"P2P3" [n!"float"],
  val n!"p2_v1" sicd121 n!"P2V1" [n!"float"],
  val n!"p2_v2" sicd121 n!"P2V2" [n!"float"],
  val n!"p2_v3" sicd121 n!"P2V3" [n!"float"],
  val n!"p3_v1" sicd121 n!"P3V1" [n!"float"],
  val n!"p3_v2" sicd121 n!"P3V2" [n!"float"],
  val n!"p3_v3" sicd121 n!"P3V3" [n!"float"],
  val n!"v1_v2" sicd121 n!"V1V2" [n!"float"],
  val n!"v1_v3" sicd121 n!"V1V3" [n!"float"],
  val n!"v2_v3" sicd121 n!"V2V3" [n!"float"]]⟩

/-- `sicd_v1_2_1.py` L902-936 -/
def ErrorStatisticsType_Components_RadarSensor : Class := ⟨n!"sicd121.ErrorStatisticsType.Components.RadarSensor", [], sicd121, n!"RadarSensor", [
  val n!"range_bias" sicd121 n!"RangeBias" [n!"float"],
  val n!"clock_freq_sf" sicd121 n!"ClockFreqSF" [n!"float"],
  val n!"transmit_freq_sf" sicd121 n!"TransmitFreqSF" [n!"float"],
  el n!"range_bias_decorr" sicd121 n!"RangeBiasDecorr" n!"sicd121.ErrorDecorrFuncType"]⟩

/-- `sicd_v1_2_1.py` L938-963 -/
def ErrorStatisticsType_Components_TropoError : Class := ⟨n!"sicd121.ErrorStatisticsType.Components.TropoError", [], sicd121, n!"TropoError", [
  val n!"tropo_range_vertical" sicd121 n!"TropoRangeVertical" [n!"float"],
  val n!"tropo_range_slant" sicd121 n!"TropoRangeSlant" [n!"float"],
  el n!"tropo_range_decorr" sicd121 n!"TropoRangeDecorr" n!"sicd121.ErrorDecorrFuncType"]⟩

/-- `sicd_v1_2_1.py` L965-999 -/
def ErrorStatisticsType_Components_IonoError : Class := ⟨n!"sicd121.ErrorStatisticsType.Components.IonoError", [], sicd121, n!"IonoError", [
  val n!"iono_range_vertical" sicd121 n!"IonoRangeVertical" [n!"float"],
  val n!"iono_range_rate_vertical" sicd121 n!"IonoRangeRateVertical" [n!"float"],
  val n!"iono_rg_rg_rate_cc" sicd121 n!"IonoRgRgRateCC" [n!"float"],
  el n!"iono_range_vert_decorr" sicd121 n!"IonoRangeVertDecorr" n!"sicd121.ErrorDecorrFuncType"]⟩

/-- `sicd_v1_2_1.py` L1001-1011 -/
def ErrorStatisticsType_AdditionalParms : Class := ⟨n!"sicd121.ErrorStatisticsType.AdditionalParms", [], sicd121, n!"AdditionalParms", [
  els n!"parameter" sicd121 n!"Parameter" n!"sicd121.ParameterType"]⟩

/-- `sicd_v1_2_1.py` L1014-1343 -/
def ImageFormationType : Class := ⟨n!"sicd121.ImageFormationType", [], sicd121, n!"ImageFormationType", [
  el n!"rcv_chan_proc" sicd121 n!"RcvChanProc" n!"sicd121.ImageFormationType.RcvChanProc",
  val n!"tx_rcv_polarization_proc" sicd121 n!"TxRcvPolarizationProc" [n!"DualPolarizationType"],
  val n!"tstart_proc" sicd121 n!"TStartProc" [n!"float"],
  val n!"tend_proc" sicd121 n!"TEndProc" [n!"float"],
  el n!"tx_frequency_proc" sicd121 n!"TxFrequencyProc" n!"sicd121.ImageFormationType.TxFrequencyProc",
  val n!"segment_identifier" sicd121 n!"SegmentIdentifier" [n!"str"],
  val n!"image_form_algo" sicd121 n!"ImageFormAlgo" [n!"ImageFormAlgo"],
  val n!"stbeam_comp" sicd121 n!"STBeamComp" [n!"STBeamComp"],
  val n!"image_beam_comp" sicd121 n!"ImageBeamComp" [n!"ImageBeamComp"],
  val n!"az_autofocus" sicd121 n!"AzAutofocus" [n!"AzAutofocus"],
  val n!"rg_autofocus" sicd121 n!"RgAutofocus" [n!"RgAutofocus"],
  els n!"processing" sicd121 n!"Processing" n!"sicd121.ImageFormationType.Processing",
  el n!"polarization_calibration" sicd121 n!"PolarizationCalibration" n!"sicd121.ImageFormationType.PolarizationCalibration"]⟩

/-- `sicd_v1_2_1.py` L1131-1158 -/
def ImageFormationType_RcvChanProc : Class := ⟨n!"sicd121.ImageFormationType.RcvChanProc", [], sicd121, n!"RcvChanProc", [
  val n!"num_chan_proc" sicd121 n!"NumChanProc" [n!"int"],
  val n!"prfscale_factor" sicd121 n!"PRFScaleFactor" [n!"float"],
  vals n!"chan_index" sicd121 n!"ChanIndex" [n!"int"]]⟩

/-- `sicd_v1_2_1.py` L1160-1179 -/
def ImageFormationType_TxFrequencyProc : Class := ⟨n!"sicd121.ImageFormationType.TxFrequencyProc", [], sicd121, n!"TxFrequencyProc", [
  val n!"min_proc" sicd121 n!"MinProc" [n!"float"],
  val n!"max_proc" sicd121 n!"MaxProc" [n!"float"]]⟩

/-- `sicd_v1_2_1.py` L1181-1208 -/
def ImageFormationType_Processing : Class := ⟨n!"sicd121.ImageFormationType.Processing", [], sicd121, n!"Processing", [
  val n!"type_value" sicd121 n!"Type" [n!"str"],
  val n!"applied" sicd121 n!"Applied" [n!"bool"],
  els n!"parameter" sicd121 n!"Parameter" n!"sicd121.ParameterType"]⟩

/-- `sicd_v1_2_1.py` L1210-1343 -/
def ImageFormationType_PolarizationCalibration : Class := ⟨n!"sicd121.ImageFormationType.PolarizationCalibration", [], sicd121, n!"PolarizationCalibration", [
  val n!"distort_correction_applied" sicd121 n!"DistortCorrectionApplied" [n!"bool"],
  el n!"distortion" sicd121 n!"Distortion" n!"sicd121.ImageFormationType.PolarizationCalibration.Distortion"]⟩

/-- `sicd_v1_2_1.py` L1231-1343 -/
def ImageFormationType_PolarizationCalibration_Distortion : Class := ⟨n!"sicd121.ImageFormationType.PolarizationCalibration.Distortion", [], sicd121, n!"Distortion", [
  val n!"calibration_date" sicd121 n!"CalibrationDate" [n!"XmlDateTime"],
  val n!"a" sicd121 n!"A" [n!"float"],
  el n!"f1" sicd121 n!"F1" n!"sicd121.ComplexType",
  el n!"q1" sicd121 n!"Q1" n!"sicd121.ComplexType",
  el n!"q2" sicd121 n!"Q2" n!"sicd121.ComplexType",
  el n!"f2" sicd121 n!"F2" n!"sicd121.ComplexType",
  el n!"q3" sicd121 n!"Q3" n!"sicd121.ComplexType",
  el n!"q4" sicd121 n!"Q4" n!"sicd121.ComplexType",
  val n!"gain_error_a" sicd121 n!"GainErrorA" [n!"float"],
  val n!"gain_error_f1" sicd121 n!"GainErrorF1" [n!"float"],
  val n!"gain_error_f2" sicd121 n!"GainErrorF2" [n!"float"],
  val n!"phase_error_f1" sicd121 n!"PhaseErrorF1" [n!"float"],
  val n!"phase_error_f2" sicd121 n!"PhaseErrorF2" [n!"float"]]⟩

/-- `sicd_v1_2_1.py` L1346-1354 -/
def LatLonCornerStringType : Class := ⟨n!"sicd121.LatLonCornerStringType", [n!"sicd121.LatLonType"], sicd121, n!"LatLonCornerStringType", [
  val n!"lat" sicd121 n!"Lat" [n!"float"],
  val n!"lon" sicd121 n!"Lon" [n!"float"],
  att n!"index" 0 n!"index" [n!"CornerStringType"]]⟩

/-- `sicd_v1_2_1.py` L1357-1367 -/
def LatLonCornerType : Class := ⟨n!"sicd121.LatLonCornerType", [n!"sicd121.LatLonType"], sicd121, n!"LatLonCornerType", [
  val n!"lat" sicd121 n!"Lat" [n!"float"],
  val n!"lon" sicd121 n!"Lon" [n!"float"],
  att n!"index" 0 n!"index" [n!"int"]]⟩

/-- `sicd_v1_2_1.py` L1370-1380 -/
def LatLonHAECornerRestrictType : Class := ⟨n!"sicd121.LatLonHAECornerRestrictType", [n!"sicd121.LatLonHAERestrictionType"], sicd121, n!"LatLonHAECornerRestrictType", [
  val n!"lat" sicd121 n!"Lat" [n!"float"],
  val n!"lon" sicd121 n!"Lon" [n!"float"],
  val n!"hae" sicd121 n!"HAE" [n!"float"],
  att n!"index" 0 n!"index" [n!"int"]]⟩

/-- `sicd_v1_2_1.py` L1383-1391 -/
def LatLonHAECornerStringType : Class := ⟨n!"sicd121.LatLonHAECornerStringType", [n!"sicd121.LatLonHAEType"], sicd121, n!"LatLonHAECornerStringType", [
  val n!"lat" sicd121 n!"Lat" [n!"float"],
  val n!"lon" sicd121 n!"Lon" [n!"float"],
  val n!"hae" sicd121 n!"HAE" [n!"float"],
  att n!"index" 0 n!"index" [n!"CornerStringType"]]⟩

/-- `sicd_v1_2_1.py` L1394-1421 -/
def LineType : Class := ⟨n!"sicd121.LineType", [], sicd121, n!"LineType", [
  els n!"endpoint" sicd121 n!"Endpoint" n!"sicd121.LineType.Endpoint",
  att n!"size" 0 n!"size" [n!"int"]]⟩

/-- `sicd_v1_2_1.py` L1413-1421 -/
def LineType_Endpoint : Class := ⟨n!"sicd121.LineType.Endpoint", [n!"sicd121.LatLonType"], sicd121, n!"Endpoint", [
  val n!"lat" sicd121 n!"Lat" [n!"float"],
  val n!"lon" sicd121 n!"Lon" [n!"float"],
  att n!"index" 0 n!"index" [n!"int"]]⟩

/-- `sicd_v1_2_1.py` L1424-1522 -/
def MatchInfoType : Class := ⟨n!"sicd121.MatchInfoType", [], sicd121, n!"MatchInfoType", [
  val n!"num_match_types" sicd121 n!"NumMatchTypes" [n!"int"],
  els n!"match_type" sicd121 n!"MatchType" n!"sicd121.MatchInfoType.MatchType"]⟩

/-- `sicd_v1_2_1.py` L1445-1522 -/
def MatchInfoType_MatchType : Class := ⟨n!"sicd121.MatchInfoType.MatchType", [], sicd121, n!"MatchType", [
  val n!"type_id" sicd121 n!"TypeID" [n!"str"],
  val n!"current_index" sicd121 n!"CurrentIndex" [n!"int"],
  val n!"num_match_collections" sicd121 n!"NumMatchCollections" [n!"int"],
  els n!"match_collection" sicd121 n!"MatchCollection" n!"sicd121.MatchInfoType.MatchType.MatchCollection",
  att n!"index" 0 n!"index" [n!"int"]]⟩

/-- `sicd_v1_2_1.py` L1489-1522 -/
def MatchInfoType_MatchType_MatchCollection : Class := ⟨n!"sicd121.MatchInfoType.MatchType.MatchCollection", [], sicd121, n!"MatchCollection", [
  val n!"core_name" sicd121 n!"CoreName" [n!"str"],
  val n!"match_index" sicd121 n!"MatchIndex" [n!"int"],
  els n!"parameter" sicd121 n!"Parameter" n!"sicd121.ParameterType",
  att n!"index" 0 n!"index" [n!"int"]]⟩

/-- `sicd_v1_2_1.py` L1525-1542 -/
def Poly1DType : Class := ⟨n!"sicd121.Poly1DType", [], sicd121, n!"Poly1DType", [
  els n!"coef" sicd121 n!"Coef" n!"sicd121.PolyCoef1DType",
  att n!"order1" 0 n!"order1" [n!"int"]]⟩

/-- `sicd_v1_2_1.py` L1545-1569 -/
def Poly2DType : Class := ⟨n!"sicd121.Poly2DType", [], sicd121, n!"Poly2DType", [
  els n!"coef" sicd121 n!"Coef" n!"sicd121.PolyCoef2DType",
  att n!"order1" 0 n!"order1" [n!"int"],
  att n!"order2" 0 n!"order2" [n!"int"]]⟩

/-- `sicd_v1_2_1.py` L1572-1599 -/
def PolygonType : Class := ⟨n!"sicd121.PolygonType", [], sicd121, n!"PolygonType", [
  els n!"vertex" sicd121 n!"Vertex" n!"sicd121.PolygonType.Vertex",
  att n!"size" 0 n!"size" [n!"int"]]⟩

/-- `sicd_v1_2_1.py` L1591-1599 -/
def PolygonType_Vertex : Class := ⟨n!"sicd121.PolygonType.Vertex", [n!"sicd121.LatLonRestrictionType"], sicd121, n!"Vertex", [
  val n!"lat" sicd121 n!"Lat" [n!"float"],
  val n!"lon" sicd121 n!"Lon" [n!"float"],
  att n!"index" 0 n!"index" [n!"int"]]⟩

/-- `sicd_v1_2_1.py` L1602-1610 -/
def RowColvertexType : Class := ⟨n!"sicd121.RowColvertexType", [n!"sicd121.RowColType"], sicd121, n!"RowColvertexType", [
  val n!"row" sicd121 n!"Row" [n!"int"],
  val n!"col" sicd121 n!"Col" [n!"int"],
  att n!"index" 0 n!"index" [n!"int"]]⟩

/-- `sicd_v1_2_1.py` L1613-1752 -/
def SCPCOAType : Class := ⟨n!"sicd121.SCPCOAType", [], sicd121, n!"SCPCOAType", [
  val n!"scptime" sicd121 n!"SCPTime" [n!"float"],
  el n!"arppos" sicd121 n!"ARPPos" n!"sicd121.XYZType",
  el n!"arpvel" sicd121 n!"ARPVel" n!"sicd121.XYZType",
  el n!"arpacc" sicd121 n!"ARPAcc" n!"sicd121.XYZType",
  val n!"side_of_track" sicd121 n!"SideOfTrack" [n!"SideOfTrack"],
  val n!"slant_range" sicd121 n!"SlantRange" [n!"float"],
  val n!"ground_range" sicd121 n!"GroundRange" [n!"float"],
  val n!"doppler_cone_ang" sicd121 n!"DopplerConeAng" [n!"float"],
  val n!"graze_ang" sicd121 n!"GrazeAng" [n!"float"],
  val n!"incidence_ang" sicd121 n!"IncidenceAng" [n!"float"],
  val n!"twist_ang" sicd121 n!"TwistAng" [n!"float"],
  val n!"slope_ang" sicd121 n!"SlopeAng" [n!"float"],
  val n!"azim_ang" sicd121 n!"AzimAng" [n!"float"],
  val n!"layover_ang" sicd121 n!"LayoverAng" [n!"float"]]⟩

/-- `sicd_v1_2_1.py` L1755-1891 -/
def DirParamType : Class := ⟨n!"sicd121.DirParamType", [], sicd121, n!"DirParamType", [
  el n!"uvect_ecf" sicd121 n!"UVectECF" n!"sicd121.XYZType",
  val n!"ss" sicd121 n!"SS" [n!"float"],
  val n!"imp_resp_wid" sicd121 n!"ImpRespWid" [n!"float"],
  val n!"sgn" sicd121 n!"Sgn" [n!"DirParamTypeSgn"],
  val n!"imp_resp_bw" sicd121 n!"ImpRespBW" [n!"float"],
  val n!"kctr" sicd121 n!"KCtr" [n!"float"],
  val n!"delta_k1" sicd121 n!"DeltaK1" [n!"float"],
  val n!"delta_k2" sicd121 n!"DeltaK2" [n!"float"],
  el n!"delta_kcoapoly" sicd121 n!"DeltaKCOAPoly" n!"sicd121.Poly2DType",
  el n!"wgt_type" sicd121 n!"WgtType" n!"sicd121.DirParamType.WgtType",
  el n!"wgt_funct" sicd121 n!"WgtFunct" n!"sicd121.DirParamType.WgtFunct"]⟩

/-- `sicd_v1_2_1.py` L1854-1872 -/
def DirParamType_WgtType : Class := ⟨n!"sicd121.DirParamType.WgtType", [], sicd121, n!"WgtType", [
  val n!"window_name" sicd121 n!"WindowName" [n!"str"],
  els n!"parameter" sicd121 n!"Parameter" n!"sicd121.ParameterType"]⟩

/-- `sicd_v1_2_1.py` L1874-1891 -/
def DirParamType_WgtFunct : Class := ⟨n!"sicd121.DirParamType.WgtFunct", [], sicd121, n!"WgtFunct", [
  els n!"wgt" sicd121 n!"Wgt" n!"sicd121.ArrayDouble",
  att n!"size" 0 n!"size" [n!"int"]]⟩

/-- `sicd_v1_2_1.py` L1894-1913 -/
def GainPhasePolyType : Class := ⟨n!"sicd121.GainPhasePolyType", [], sicd121, n!"GainPhasePolyType", [
  el n!"gain_poly" sicd121 n!"GainPoly" n!"sicd121.Poly2DType",
  el n!"phase_poly" sicd121 n!"PhasePoly" n!"sicd121.Poly2DType"]⟩

/-- `sicd_v1_2_1.py` L1916-1964 -/
def GeoInfoType : Class := ⟨n!"sicd121.GeoInfoType", [], sicd121, n!"GeoInfoType", [
  els n!"desc" sicd121 n!"Desc" n!"sicd121.ParameterType",
  el n!"point" sicd121 n!"Point" n!"sicd121.LatLonRestrictionType",
  el n!"line" sicd121 n!"Line" n!"sicd121.LineType",
  el n!"polygon" sicd121 n!"Polygon" n!"sicd121.PolygonType",
  els n!"geo_info" sicd121 n!"GeoInfo" n!"sicd121.GeoInfoType",
  att n!"name" 0 n!"name" [n!"str"]]⟩

/-- `sicd_v1_2_1.py` L1967-2107 -/
def ImageDataType : Class := ⟨n!"sicd121.ImageDataType", [], sicd121, n!"ImageDataType", [
  val n!"pixel_type" sicd121 n!"PixelType" [n!"ImagePixelType"],
  el n!"amp_table" sicd121 n!"AmpTable" n!"sicd121.ImageDataType.AmpTable",
  val n!"num_rows" sicd121 n!"NumRows" [n!"int"],
  val n!"num_cols" sicd121 n!"NumCols" [n!"int"],
  val n!"first_row" sicd121 n!"FirstRow" [n!"int"],
  val n!"first_col" sicd121 n!"FirstCol" [n!"int"],
  el n!"full_image" sicd121 n!"FullImage" n!"sicd121.ImageDataType.FullImage",
  el n!"scppixel" sicd121 n!"SCPPixel" n!"sicd121.RowColType",
  el n!"valid_data" sicd121 n!"ValidData" n!"sicd121.ImageDataType.ValidData"]⟩

/-- `sicd_v1_2_1.py` L2049-2067 -/
def ImageDataType_AmpTable : Class := ⟨n!"sicd121.ImageDataType.AmpTable", [], sicd121, n!"AmpTable", [
  els n!"amplitude" sicd121 n!"Amplitude" n!"sicd121.ArrayDouble",
  att n!"size" 0 n!"size" [n!"int"]]⟩

/-- `sicd_v1_2_1.py` L2069-2088 -/
def ImageDataType_FullImage : Class := ⟨n!"sicd121.ImageDataType.FullImage", [], sicd121, n!"FullImage", [
  val n!"num_rows" sicd121 n!"NumRows" [n!"int"],
  val n!"num_cols" sicd121 n!"NumCols" [n!"int"]]⟩

/-- `sicd_v1_2_1.py` L2090-2107 -/
def ImageDataType_ValidData : Class := ⟨n!"sicd121.ImageDataType.ValidData", [], sicd121, n!"ValidData", [
  els n!"vertex" sicd121 n!"Vertex" n!"sicd121.RowColvertexType",
  att n!"size" 0 n!"size" [n!"int"]]⟩

/-- `sicd_v1_2_1.py` L2110-2221 -/
def PFAType : Class := ⟨n!"sicd121.PFAType", [], sicd121, n!"PFAType", [
  el n!"fpn" sicd121 n!"FPN" n!"sicd121.XYZType",
  el n!"ipn" sicd121 n!"IPN" n!"sicd121.XYZType",
  val n!"polar_ang_ref_time" sicd121 n!"PolarAngRefTime" [n!"float"],
  el n!"polar_ang_poly" sicd121 n!"PolarAngPoly" n!"sicd121.Poly1DType",
  el n!"spatial_freq_sfpoly" sicd121 n!"SpatialFreqSFPoly" n!"sicd121.Poly1DType",
  val n!"krg1" sicd121 n!"Krg1" [n!"float"],
  val n!"krg2" sicd121 n!"Krg2" [n!"float"],
  val n!"kaz1" sicd121 n!"Kaz1" [n!"float"],
  val n!"kaz2" sicd121 n!"Kaz2" [n!"float"],
  el n!"stdeskew" sicd121 n!"STDeskew" n!"sicd121.PFAType.STDeskew"]⟩

/-- `sicd_v1_2_1.py` L2202-2221 -/
def PFAType_STDeskew : Class := ⟨n!"sicd121.PFAType.STDeskew", [], sicd121, n!"STDeskew", [
  val n!"applied" sicd121 n!"Applied" [n!"bool"],
  el n!"stdsphase_poly" sicd121 n!"STDSPhasePoly" n!"sicd121.Poly2DType"]⟩

/-- `sicd_v1_2_1.py` L2224-2382 -/
def RMAType : Class := ⟨n!"sicd121.RMAType", [], sicd121, n!"RMAType", [
  val n!"rmalgo_type" sicd121 n!"RMAlgoType" [n!"RMAlgorithm"],
  val n!"image_type" sicd121 n!"ImageType" [n!"RMAImageType"],
  el n!"rmat" sicd121 n!"RMAT" n!"sicd121.RMAType.RMAT",
  el n!"rmcr" sicd121 n!"RMCR" n!"sicd121.RMAType.RMCR",
  el n!"inca" sicd121 n!"INCA" n!"sicd121.RMAType.INCA"]⟩

/-- `sicd_v1_2_1.py` L2269-2297 -/
def RMAType_RMAT : Class := ⟨n!"sicd121.RMAType.RMAT", [], sicd121, n!"RMAT", [
  el n!"pos_ref" sicd121 n!"PosRef" n!"sicd121.XYZType",
  el n!"vel_ref" sicd121 n!"VelRef" n!"sicd121.XYZType",
  val n!"dop_cone_ang_ref" sicd121 n!"DopConeAngRef" [n!"float"]]⟩

/-- `sicd_v1_2_1.py` L2299-2327 -/
def RMAType_RMCR : Class := ⟨n!"sicd121.RMAType.RMCR", [], sicd121, n!"RMCR", [
  el n!"pos_ref" sicd121 n!"PosRef" n!"sicd121.XYZType",
  el n!"vel_ref" sicd121 n!"VelRef" n!"sicd121.XYZType",
  val n!"dop_cone_ang_ref" sicd121 n!"DopConeAngRef" [n!"float"]]⟩

/-- `sicd_v1_2_1.py` L2329-2382 -/
def RMAType_INCA : Class := ⟨n!"sicd121.RMAType.INCA", [], sicd121, n!"INCA", [
  el n!"time_capoly" sicd121 n!"TimeCAPoly" n!"sicd121.Poly1DType",
  val n!"r_ca_scp" sicd121 n!"R_CA_SCP" [n!"float"],
  val n!"freq_zero" sicd121 n!"FreqZero" [n!"float"],
  el n!"drate_sfpoly" sicd121 n!"DRateSFPoly" n!"sicd121.Poly2DType",
  el n!"dop_centroid_poly" sicd121 n!"DopCentroidPoly" n!"sicd121.Poly2DType",
  val n!"dop_centroid_coa" sicd121 n!"DopCentroidCOA" [n!"bool"]]⟩

/-- `sicd_v1_2_1.py` L2385-2941 -/
def RadarCollectionType : Class := ⟨n!"sicd121.RadarCollectionType", [], sicd121, n!"RadarCollectionType", [
  el n!"tx_frequency" sicd121 n!"TxFrequency" n!"sicd121.RadarCollectionType.TxFrequency",
  val n!"ref_freq_index" sicd121 n!"RefFreqIndex" [n!"int"],
  el n!"waveform" sicd121 n!"Waveform" n!"sicd121.RadarCollectionType.Waveform",
  val n!"tx_polarization" sicd121 n!"TxPolarization" [n!"Polarization1Type"],
  el n!"tx_sequence" sicd121 n!"TxSequence" n!"sicd121.RadarCollectionType.TxSequence",
  el n!"rcv_channels" sicd121 n!"RcvChannels" n!"sicd121.RadarCollectionType.RcvChannels",
  el n!"area" sicd121 n!"Area" n!"sicd121.RadarCollectionType.Area",
  els n!"parameter" sicd121 n!"Parameter" n!"sicd121.ParameterType"]⟩

/-- `sicd_v1_2_1.py` L2455-2474 -/
def RadarCollectionType_TxFrequency : Class := ⟨n!"sicd121.RadarCollectionType.TxFrequency", [], sicd121, n!"TxFrequency", [
  val n!"min" sicd121 n!"Min" [n!"float"],
  val n!"max" sicd121 n!"Max" [n!"float"]]⟩

/-- `sicd_v1_2_1.py` L2476-2583 -/
def RadarCollectionType_Waveform : Class := ⟨n!"sicd121.RadarCollectionType.Waveform", [], sicd121, n!"Waveform", [
  els n!"wfparameters" sicd121 n!"WFParameters" n!"sicd121.RadarCollectionType.Waveform.WFParameters",
  att n!"size" 0 n!"size" [n!"int"]]⟩

/-- `sicd_v1_2_1.py` L2495-2583 -/
def RadarCollectionType_Waveform_WFParameters : Class := ⟨n!"sicd121.RadarCollectionType.Waveform.WFParameters", [], sicd121, n!"WFParameters", [
  val n!"tx_pulse_length" sicd121 n!"TxPulseLength" [n!"float"],
  val n!"tx_rfbandwidth" sicd121 n!"TxRFBandwidth" [n!"float"],
  val n!"tx_freq_start" sicd121 n!"TxFreqStart" [n!"float"],
  val n!"tx_fmrate" sicd121 n!"TxFMRate" [n!"float"],
  val n!"rcv_demod_type" sicd121 n!"RcvDemodType" [n!"WFParametersRcvDemodType"],
  val n!"rcv_window_length" sicd121 n!"RcvWindowLength" [n!"float"],
  val n!"adcsample_rate" sicd121 n!"ADCSampleRate" [n!"float"],
  val n!"rcv_ifbandwidth" sicd121 n!"RcvIFBandwidth" [n!"float"],
  val n!"rcv_freq_start" sicd121 n!"RcvFreqStart" [n!"float"],
  val n!"rcv_fmrate" sicd121 n!"RcvFMRate" [n!"float"],
  att n!"index" 0 n!"index" [n!"int"]]⟩

/-- `sicd_v1_2_1.py` L2585-2628 -/
def RadarCollectionType_TxSequence : Class := ⟨n!"sicd121.RadarCollectionType.TxSequence", [], sicd121, n!"TxSequence", [
  els n!"tx_step" sicd121 n!"TxStep" n!"sicd121.RadarCollectionType.TxSequence.TxStep",
  att n!"size" 0 n!"size" [n!"int"]]⟩

/-- `sicd_v1_2_1.py` L2604-2628 -/
def RadarCollectionType_TxSequence_TxStep : Class := ⟨n!"sicd121.RadarCollectionType.TxSequence.TxStep", [], sicd121, n!"TxStep", [
  val n!"wfindex" sicd121 n!"WFIndex" [n!"int"],
  val n!"tx_polarization" sicd121 n!"TxPolarization" [n!"Polarization2Type"],
  att n!"index" 0 n!"index" [n!"int"]]⟩

/-- `sicd_v1_2_1.py` L2630-2674 -/
def RadarCollectionType_RcvChannels : Class := ⟨n!"sicd121.RadarCollectionType.RcvChannels", [], sicd121, n!"RcvChannels", [
  els n!"chan_parameters" sicd121 n!"ChanParameters" n!"sicd121.RadarCollectionType.RcvChannels.ChanParameters",
  att n!"size" 0 n!"size" [n!"int"]]⟩

/-- `sicd_v1_2_1.py` L2649-2674 -/
def RadarCollectionType_RcvChannels_ChanParameters : Class := ⟨n!"sicd121.RadarCollectionType.RcvChannels.ChanParameters", [], sicd121, n!"ChanParameters", [
  val n!"tx_rcv_polarization" sicd121 n!"TxRcvPolarization" [n!"DualPolarizationType"],
  val n!"rcv_apcindex" sicd121 n!"RcvAPCIndex" [n!"int"],
  att n!"index" 0 n!"index" [n!"int"]]⟩

/-- `sicd_v1_2_1.py` L2676-2941 -/
def RadarCollectionType_Area : Class := ⟨n!"sicd121.RadarCollectionType.Area", [], sicd121, n!"Area", [
  el n!"corner" sicd121 n!"Corner" n!"sicd121.RadarCollectionType.Area.Corner",
  el n!"plane" sicd121 n!"Plane" n!"sicd121.RadarCollectionType.Area.Plane"]⟩

/-- `sicd_v1_2_1.py` L2696-2707 -/
def RadarCollectionType_Area_Corner : Class := ⟨n!"sicd121.RadarCollectionType.Area.Corner", [], sicd121, n!"Corner", [
  els n!"acp" sicd121 n!"ACP" n!"sicd121.LatLonHAECornerRestrictType"]⟩

/-- `sicd_v1_2_1.py` L2709-2941 -/
def RadarCollectionType_Area_Plane : Class := ⟨n!"sicd121.RadarCollectionType.Area.Plane", [], sicd121, n!"Plane", [
  el n!"ref_pt" sicd121 n!"RefPt" n!"sicd121.RadarCollectionType.Area.Plane.RefPt",
  el n!"xdir" sicd121 n!"XDir" n!"sicd121.RadarCollectionType.Area.Plane.XDir",
  el n!"ydir" sicd121 n!"YDir" n!"sicd121.RadarCollectionType.Area.Plane.YDir",
  el n!"segment_list" sicd121 n!"SegmentList" n!"sicd121.RadarCollectionType.Area.Plane.SegmentList",
  val n!"orientation" sicd121 n!"Orientation" [n!"OrientationType"]]⟩

/-- `sicd_v1_2_1.py` L2755-2789 -/
def RadarCollectionType_Area_Plane_RefPt : Class := ⟨n!"sicd121.RadarCollectionType.Area.Plane.RefPt", [], sicd121, n!"RefPt", [
  el n!"ecf" sicd121 n!"ECF" n!"sicd121.XYZType",
  val n!"line" sicd121 n!"Line" [n!"float"],
  val n!"sample" sicd121 n!"Sample" [n!"float"],
  att n!"name" 0 n!"name" [n!"str"]]⟩

/-- `sicd_v1_2_1.py` L2791-2828 -/
def RadarCollectionType_Area_Plane_XDir : Class := ⟨n!"sicd121.RadarCollectionType.Area.Plane.XDir", [], sicd121, n!"XDir", [
  el n!"uvect_ecf" sicd121 n!"UVectECF" n!"sicd121.XYZType",
  val n!"line_spacing" sicd121 n!"LineSpacing" [n!"float"],
  val n!"num_lines" sicd121 n!"NumLines" [n!"int"],
  val n!"first_line" sicd121 n!"FirstLine" [n!"int"]]⟩

/-- `sicd_v1_2_1.py` L2830-2867 -/
def RadarCollectionType_Area_Plane_YDir : Class := ⟨n!"sicd121.RadarCollectionType.Area.Plane.YDir", [], sicd121, n!"YDir", [
  el n!"uvect_ecf" sicd121 n!"UVectECF" n!"sicd121.XYZType",
  val n!"sample_spacing" sicd121 n!"SampleSpacing" [n!"float"],
  val n!"num_samples" sicd121 n!"NumSamples" [n!"int"],
  val n!"first_sample" sicd121 n!"FirstSample" [n!"int"]]⟩

/-- `sicd_v1_2_1.py` L2869-2941 -/
def RadarCollectionType_Area_Plane_SegmentList : Class := ⟨n!"sicd121.RadarCollectionType.Area.Plane.SegmentList", [], sicd121, n!"SegmentList", [
  els n!"segment" sicd121 n!"Segment" n!"sicd121.RadarCollectionType.Area.Plane.SegmentList.Segment",
  att n!"size" 0 n!"size" [n!"int"]]⟩

/-- `sicd_v1_2_1.py` L2888-2941 -/
def RadarCollectionType_Area_Plane_SegmentList_Segment : Class := ⟨n!"sicd121.RadarCollectionType.Area.Plane.SegmentList.Segment", [], sicd121, n!"Segment", [
  val n!"start_line" sicd121 n!"StartLine" [n!"int"],
  val n!"start_sample" sicd121 n!"StartSample" [n!"int"],
  val n!"end_line" sicd121 n!"EndLine" [n!"int"],
  val n!"end_sample" sicd121 n!"EndSample" [n!"int"],
  val n!"identifier" sicd121 n!"Identifier" [n!"str"],
  att n!"index" 0 n!"index" [n!"int"]]⟩

/-- `sicd_v1_2_1.py` L2944-3006 -/
def RadiometricType : Class := ⟨n!"sicd121.RadiometricType", [], sicd121, n!"RadiometricType", [
  el n!"noise_level" sicd121 n!"NoiseLevel" n!"sicd121.RadiometricType.NoiseLevel",
  el n!"rcssfpoly" sicd121 n!"RCSSFPoly" n!"sicd121.Poly2DType",
  el n!"sigma_zero_sfpoly" sicd121 n!"SigmaZeroSFPoly" n!"sicd121.Poly2DType",
  el n!"beta_zero_sfpoly" sicd121 n!"BetaZeroSFPoly" n!"sicd121.Poly2DType",
  el n!"gamma_zero_sfpoly" sicd121 n!"GammaZeroSFPoly" n!"sicd121.Poly2DType"]⟩

/-- `sicd_v1_2_1.py` L2987-3006 -/
def RadiometricType_NoiseLevel : Class := ⟨n!"sicd121.RadiometricType.NoiseLevel", [], sicd121, n!"NoiseLevel", [
  val n!"noise_level_type" sicd121 n!"NoiseLevelType" [n!"NoiseLevelType"],
  el n!"noise_poly" sicd121 n!"NoisePoly" n!"sicd121.Poly2DType"]⟩

/-- `sicd_v1_2_1.py` L3009-3028 -/
def RgAzCompType : Class := ⟨n!"sicd121.RgAzCompType", [], sicd121, n!"RgAzCompType", [
  val n!"az_sf" sicd121 n!"AzSF" [n!"float"],
  el n!"kaz_poly" sicd121 n!"KazPoly" n!"sicd121.Poly1DType"]⟩

/-- `sicd_v1_2_1.py` L3031-3132 -/
def TimelineType : Class := ⟨n!"sicd121.TimelineType", [], sicd121, n!"TimelineType", [
  val n!"collect_start" sicd121 n!"CollectStart" [n!"XmlDateTime"],
  val n!"collect_duration" sicd121 n!"CollectDuration" [n!"float"],
  el n!"ipp" sicd121 n!"IPP" n!"sicd121.TimelineType.IPP"]⟩

/-- `sicd_v1_2_1.py` L3060-3132 -/
def TimelineType_IPP : Class := ⟨n!"sicd121.TimelineType.IPP", [], sicd121, n!"IPP", [
  els n!"set" sicd121 n!"Set" n!"sicd121.TimelineType.IPP.Set",
  att n!"size" 0 n!"size" [n!"int"]]⟩

/-- `sicd_v1_2_1.py` L3079-3132 -/
def TimelineType_IPP_Set : Class := ⟨n!"sicd121.TimelineType.IPP.Set", [], sicd121, n!"Set", [
  val n!"tstart" sicd121 n!"TStart" [n!"float"],
  val n!"tend" sicd121 n!"TEnd" [n!"float"],
  val n!"ippstart" sicd121 n!"IPPStart" [n!"int"],
  val n!"ippend" sicd121 n!"IPPEnd" [n!"int"],
  el n!"ipppoly" sicd121 n!"IPPPoly" n!"sicd121.Poly1DType",
  att n!"index" 0 n!"index" [n!"int"]]⟩

/-- `sicd_v1_2_1.py` L3135-3163 -/
def XYZPolyType : Class := ⟨n!"sicd121.XYZPolyType", [], sicd121, n!"XYZPolyType", [
  el n!"x" sicd121 n!"X" n!"sicd121.Poly1DType",
  el n!"y" sicd121 n!"Y" n!"sicd121.Poly1DType",
  el n!"z" sicd121 n!"Z" n!"sicd121.Poly1DType"]⟩

/-- `sicd_v1_2_1.py` L3166-3264 -/
def AntParamType : Class := ⟨n!"sicd121.AntParamType", [], sicd121, n!"AntParamType", [
  el n!"xaxis_poly" sicd121 n!"XAxisPoly" n!"sicd121.XYZPolyType",
  el n!"yaxis_poly" sicd121 n!"YAxisPoly" n!"sicd121.XYZPolyType",
  val n!"freq_zero" sicd121 n!"FreqZero" [n!"float"],
  el n!"eb" sicd121 n!"EB" n!"sicd121.AntParamType.EB",
  el n!"array" sicd121 n!"Array" n!"sicd121.GainPhasePolyType",
  el n!"elem" sicd121 n!"Elem" n!"sicd121.GainPhasePolyType",
  el n!"gain_bspoly" sicd121 n!"GainBSPoly" n!"sicd121.Poly1DType",
  val n!"ebfreq_shift" sicd121 n!"EBFreqShift" [n!"bool"],
  val n!"mlfreq_dilation" sicd121 n!"MLFreqDilation" [n!"bool"]]⟩

/-- `sicd_v1_2_1.py` L3245-3264 -/
def AntParamType_EB : Class := ⟨n!"sicd121.AntParamType.EB", [], sicd121, n!"EB", [
  el n!"dcxpoly" sicd121 n!"DCXPoly" n!"sicd121.Poly1DType",
  el n!"dcypoly" sicd121 n!"DCYPoly" n!"sicd121.Poly1DType"]⟩

/-- `sicd_v1_2_1.py` L3267-3345 -/
def GeoDataType : Class := ⟨n!"sicd121.GeoDataType", [], sicd121, n!"GeoDataType", [
  val n!"earth_model" sicd121 n!"EarthModel" [n!"EarthModel"],
  el n!"scp" sicd121 n!"SCP" n!"sicd121.GeoDataType.SCP",
  el n!"image_corners" sicd121 n!"ImageCorners" n!"sicd121.GeoDataType.ImageCorners",
  el n!"valid_data" sicd121 n!"ValidData" n!"sicd121.PolygonType",
  els n!"geo_info" sicd121 n!"GeoInfo" n!"sicd121.GeoInfoType"]⟩

/-- `sicd_v1_2_1.py` L3313-3332 -/
def GeoDataType_SCP : Class := ⟨n!"sicd121.GeoDataType.SCP", [], sicd121, n!"SCP", [
  el n!"ecf" sicd121 n!"ECF" n!"sicd121.XYZType",
  el n!"llh" sicd121 n!"LLH" n!"sicd121.LatLonHAERestrictionType"]⟩

/-- `sicd_v1_2_1.py` L3334-3345 -/
def GeoDataType_ImageCorners : Class := ⟨n!"sicd121.GeoDataType.ImageCorners", [], sicd121, n!"ImageCorners", [
  els n!"icp" sicd121 n!"ICP" n!"sicd121.LatLonCornerStringType"]⟩

/-- `sicd_v1_2_1.py` L3348-3394 -/
def GridType : Class := ⟨n!"sicd121.GridType", [], sicd121, n!"GridType", [
  val n!"image_plane" sicd121 n!"ImagePlane" [n!"ImagePlane"],
  val n!"type_value" sicd121 n!"Type" [n!"ImageGridType"],
  el n!"time_coapoly" sicd121 n!"TimeCOAPoly" n!"sicd121.Poly2DType",
  el n!"row" sicd121 n!"Row" n!"sicd121.DirParamType",
  el n!"col" sicd121 n!"Col" n!"sicd121.DirParamType"]⟩

/-- `sicd_v1_2_1.py` L3397-3405 -/
def XYZPolyAttributeType : Class := ⟨n!"sicd121.XYZPolyAttributeType", [n!"sicd121.XYZPolyType"], sicd121, n!"XYZPolyAttributeType", [
  el n!"x" sicd121 n!"X" n!"sicd121.Poly1DType",
  el n!"y" sicd121 n!"Y" n!"sicd121.Poly1DType",
  el n!"z" sicd121 n!"Z" n!"sicd121.Poly1DType",
  att n!"index" 0 n!"index" [n!"int"]]⟩

/-- `sicd_v1_2_1.py` L3408-3433 -/
def AntennaType : Class := ⟨n!"sicd121.AntennaType", [], sicd121, n!"AntennaType", [
  el n!"tx" sicd121 n!"Tx" n!"sicd121.AntParamType",
  el n!"rcv" sicd121 n!"Rcv" n!"sicd121.AntParamType",
  el n!"two_way" sicd121 n!"TwoWay" n!"sicd121.AntParamType"]⟩

/-- `sicd_v1_2_1.py` L3436-3489 -/
def PositionType : Class := ⟨n!"sicd121.PositionType", [], sicd121, n!"PositionType", [
  el n!"arppoly" sicd121 n!"ARPPoly" n!"sicd121.XYZPolyType",
  el n!"grppoly" sicd121 n!"GRPPoly" n!"sicd121.XYZPolyType",
  el n!"tx_apcpoly" sicd121 n!"TxAPCPoly" n!"sicd121.XYZPolyType",
  el n!"rcv_apc" sicd121 n!"RcvAPC" n!"sicd121.PositionType.RcvAPC"]⟩

/-- `sicd_v1_2_1.py` L3472-3489 -/
def PositionType_RcvAPC : Class := ⟨n!"sicd121.PositionType.RcvAPC", [], sicd121, n!"RcvAPC", [
  els n!"rcv_apcpoly" sicd121 n!"RcvAPCPoly" n!"sicd121.XYZPolyAttributeType",
  att n!"size" 0 n!"size" [n!"int"]]⟩

/-- `sicd_v1_2_1.py` L3492-3624 -/
def SICD : Class := ⟨n!"sicd121.SICD", [], sicd121, n!"SICD", [
  el n!"collection_info" sicd121 n!"CollectionInfo" n!"sicd121.CollectionInfoType",
  el n!"image_creation" sicd121 n!"ImageCreation" n!"sicd121.ImageCreationType",
  el n!"image_data" sicd121 n!"ImageData" n!"sicd121.ImageDataType",
  el n!"geo_data" sicd121 n!"GeoData" n!"sicd121.GeoDataType",
  el n!"grid" sicd121 n!"Grid" n!"sicd121.GridType",
  el n!"timeline" sicd121 n!"Timeline" n!"sicd121.TimelineType",
  el n!"position" sicd121 n!"Position" n!"sicd121.PositionType",
  el n!"radar_collection" sicd121 n!"RadarCollection" n!"sicd121.RadarCollectionType",
  el n!"image_formation" sicd121 n!"ImageFormation" n!"sicd121.ImageFormationType",
  el n!"scpcoa" sicd121 n!"SCPCOA" n!"sicd121.SCPCOAType",
  el n!"radiometric" sicd121 n!"Radiometric" n!"sicd121.RadiometricType",
  el n!"antenna" sicd121 n!"Antenna" n!"sicd121.AntennaType",
  el n!"error_statistics" sicd121 n!"ErrorStatistics" n!"sicd121.ErrorStatisticsType",
  el n!"match_info" sicd121 n!"MatchInfo" n!"sicd121.MatchInfoType",
  el n!"rg_az_comp" sicd121 n!"RgAzComp" n!"sicd121.RgAzCompType",
  el n!"pfa" sicd121 n!"PFA" n!"sicd121.PFAType",
  el n!"rma" sicd121 n!"RMA" n!"sicd121.RMAType"]⟩

/-- The dataclasses of `sicd_v1_2_1.py` (its enumerations are types of text). -/
def classes : List Class := [
  ArrayDouble, ComplexType, ErrorDecorrFuncType, ImageCreationType, LatLonHAERestrictionType, LatLonHAEType, LatLonRestrictionType, LatLonType,
  ParameterType, PolyCoef1DType, PolyCoef2DType, RowColType, XYZType, CollectionInfoType, CollectionInfoType_RadarMode, ErrorStatisticsType,
  ErrorStatisticsType_CompositeSCP, ErrorStatisticsType_Components, ErrorStatisticsType_Components_PosVelErr,
  ErrorStatisticsType_Components_PosVelErr_CorrCoefs, ErrorStatisticsType_Components_RadarSensor, ErrorStatisticsType_Components_TropoError,
  ErrorStatisticsType_Components_IonoError, ErrorStatisticsType_AdditionalParms, ImageFormationType, ImageFormationType_RcvChanProc,
  ImageFormationType_TxFrequencyProc, ImageFormationType_Processing, ImageFormationType_PolarizationCalibration,
  ImageFormationType_PolarizationCalibration_Distortion, LatLonCornerStringType, LatLonCornerType, LatLonHAECornerRestrictType,
  LatLonHAECornerStringType, LineType, LineType_Endpoint, MatchInfoType, MatchInfoType_MatchType, MatchInfoType_MatchType_MatchCollection,
  Poly1DType, Poly2DType, PolygonType, PolygonType_Vertex, RowColvertexType, SCPCOAType, DirParamType, DirParamType_WgtType, DirParamType_WgtFunct,
  GainPhasePolyType, GeoInfoType, ImageDataType, ImageDataType_AmpTable, ImageDataType_FullImage, ImageDataType_ValidData, PFAType, PFAType_STDeskew,
  RMAType, RMAType_RMAT, RMAType_RMCR, RMAType_INCA, RadarCollectionType, RadarCollectionType_TxFrequency, RadarCollectionType_Waveform,
  RadarCollectionType_Waveform_WFParameters, RadarCollectionType_TxSequence, RadarCollectionType_TxSequence_TxStep, RadarCollectionType_RcvChannels,
  RadarCollectionType_RcvChannels_ChanParameters, RadarCollectionType_Area, RadarCollectionType_Area_Corner, RadarCollectionType_Area_Plane,
  RadarCollectionType_Area_Plane_RefPt, RadarCollectionType_Area_Plane_XDir, RadarCollectionType_Area_Plane_YDir,
  RadarCollectionType_Area_Plane_SegmentList, RadarCollectionType_Area_Plane_SegmentList_Segment, RadiometricType, RadiometricType_NoiseLevel,
  RgAzCompType, TimelineType, TimelineType_IPP, TimelineType_IPP_Set, XYZPolyType, AntParamType, AntParamType_EB, GeoDataType, GeoDataType_SCP,
  GeoDataType_ImageCorners, GridType, XYZPolyAttributeType, AntennaType, PositionType, PositionType_RcvAPC, SICD]

end Verif.Schema.Sicd121
