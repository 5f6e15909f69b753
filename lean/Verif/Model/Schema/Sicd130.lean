import Verif.Model.Xsdata

/-!
# The dataclasses of `formats/sicd/models/sicd_v1_3_0.py`

Written by `tools/gen_schema.py` from the text of the module; the comment of a class gives the lines of its declaration, and fields of a base class come first, as in Python.
Ranges, lengths, patterns and occurrence counts are left out: xsdata does not check them when it reads or writes.
-/

namespace Verif.Schema.Sicd130

open Verif.Xsdata Verif.Xsdata.Field Verif.Xsdata.Namespace

/-- `sicd_v1_3_0.py` L17-31 -/
def ArrayDouble : Class := ⟨n!"sicd130.ArrayDouble", [], sicd130, n!"ArrayDouble", [
  text n!"value" [n!"float"] none,
  att n!"index" 0 n!"index" [n!"int"]]⟩

/-- `sicd_v1_3_0.py` L39-58 -/
def ComplexType : Class := ⟨n!"sicd130.ComplexType", [], sicd130, n!"ComplexType", [
  val n!"real" sicd130 n!"Real" [n!"float"],
  val n!"imag" sicd130 n!"Imag" [n!"float"]]⟩

/-- `sicd_v1_3_0.py` L73-92 -/
def ErrorDecorrFuncType : Class := ⟨n!"sicd130.ErrorDecorrFuncType", [], sicd130, n!"ErrorDecorrFuncType", [
  val n!"corr_coef_zero" sicd130 n!"CorrCoefZero" [n!"float"],
  val n!"decorr_rate" sicd130 n!"DecorrRate" [n!"float"]]⟩

/-- `sicd_v1_3_0.py` L113-146 -/
def ImageCreationType : Class := ⟨n!"sicd130.ImageCreationType", [], sicd130, n!"ImageCreationType", [
  val n!"application" sicd130 n!"Application" [n!"str"],
  val n!"date_time" sicd130 n!"DateTime" [n!"XmlDateTime"],
  val n!"site" sicd130 n!"Site" [n!"str"],
  val n!"profile" sicd130 n!"Profile" [n!"str"]]⟩

/-- `sicd_v1_3_0.py` L185-217 -/
def LatLonHAERestrictionType : Class := ⟨n!"sicd130.LatLonHAERestrictionType", [], sicd130, n!"LatLonHAERestrictionType", [
  val n!"lat" sicd130 n!"Lat" [n!"float"],
  val n!"lon" sicd130 n!"Lon" [n!"float"],
  val n!"hae" sicd130 n!"HAE" [n!"float"]]⟩

/-- `sicd_v1_3_0.py` L220-248 -/
def LatLonHAEType : Class := ⟨n!"sicd130.LatLonHAEType", [], sicd130, n!"LatLonHAEType", [
  val n!"lat" sicd130 n!"Lat" [n!"float"],
  val n!"lon" sicd130 n!"Lon" [n!"float"],
  val n!"hae" sicd130 n!"HAE" [n!"float"]]⟩

/-- `sicd_v1_3_0.py` L251-274 -/
def LatLonRestrictionType : Class := ⟨n!"sicd130.LatLonRestrictionType", [], sicd130, n!"LatLonRestrictionType", [
  val n!"lat" sicd130 n!"Lat" [n!"float"],
  val n!"lon" sicd130 n!"Lon" [n!"float"]]⟩

/-- `sicd_v1_3_0.py` L277-296 -/
def LatLonType : Class := ⟨n!"sicd130.LatLonType", [], sicd130, n!"LatLonType", [
  val n!"lat" sicd130 n!"Lat" [n!"float"],
  val n!"lon" sicd130 n!"Lon" [n!"float"]]⟩

/-- `sicd_v1_3_0.py` L312-326 -/
def ParameterType : Class := ⟨n!"sicd130.ParameterType", [], sicd130, n!"ParameterType", [
  text n!"value" [n!"str"] (some ""),
  att n!"name" 0 n!"name" [n!"str"]]⟩

/-- `sicd_v1_3_0.py` L329-343 -/
def PolyCoef1DType : Class := ⟨n!"sicd130.PolyCoef1DType", [], sicd130, n!"PolyCoef1DType", [
  text n!"value" [n!"float"] none,
  att n!"exponent1" 0 n!"exponent1" [n!"int"]]⟩

/-- `sicd_v1_3_0.py` L346-367 -/
def PolyCoef2DType : Class := ⟨n!"sicd130.PolyCoef2DType", [], sicd130, n!"PolyCoef2DType", [
  text n!"value" [n!"float"] none,
  att n!"exponent1" 0 n!"exponent1" [n!"int"],
  att n!"exponent2" 0 n!"exponent2" [n!"int"]]⟩

/-- `sicd_v1_3_0.py` L394-413 -/
def RowColType : Class := ⟨n!"sicd130.RowColType", [], sicd130, n!"RowColType", [
  val n!"row" sicd130 n!"Row" [n!"int"],
  val n!"col" sicd130 n!"Col" [n!"int"]]⟩

/-- `sicd_v1_3_0.py` L426-454 -/
def XYZType : Class := ⟨n!"sicd130.XYZType", [], sicd130, n!"XYZType", [
  val n!"x" sicd130 n!"X" [n!"float"],
  val n!"y" sicd130 n!"Y" [n!"float"],
  val n!"z" sicd130 n!"Z" [n!"float"]]⟩

/-- `sicd_v1_3_0.py` L457-546 -/
def CollectionInfoType : Class := ⟨n!"sicd130.CollectionInfoType", [], sicd130, n!"CollectionInfoType", [
  val n!"collector_name" sicd130 n!"CollectorName" [n!"str"],
  val n!"illuminator_name" sicd130 n!"IlluminatorName" [n!"str"],
  val n!"core_name" sicd130 n!"CoreName" [n!"str"],
  val n!"collect_type" sicd130 n!"CollectType" [n!"CollectType"],
  el n!"radar_mode" sicd130 n!"RadarMode" n!"sicd130.CollectionInfoType.RadarMode",
  val n!"classification" sicd130 n!"Classification" [n!"str"],
  vals n!"country_code" sicd130 n!"CountryCode" [n!"str"],
  els n!"parameter" sicd130 n!"Parameter" n!"sicd130.ParameterType"]⟩

/-- `sicd_v1_3_0.py` L528-546 -/
def CollectionInfoType_RadarMode : Class := ⟨n!"sicd130.CollectionInfoType.RadarMode", [], sicd130, n!"RadarMode", [
  val n!"mode_type" sicd130 n!"ModeType" [n!"RadarModeType"],
  val n!"mode_id" sicd130 n!"ModeID" [n!"str"]]⟩

/-- `sicd_v1_3_0.py` L549-1039 -/
def ErrorStatisticsType : Class := ⟨n!"sicd130.ErrorStatisticsType", [], sicd130, n!"ErrorStatisticsType", [
  el n!"composite_scp" sicd130 n!"CompositeSCP" n!"sicd130.ErrorStatisticsType.CompositeSCP",
  el n!"components" sicd130 n!"Components" n!"sicd130.ErrorStatisticsType.Components",
  el n!"unmodeled" sicd130 n!"Unmodeled" n!"sicd130.ErrorStatisticsType.Unmodeled",
  el n!"additional_parms" sicd130 n!"AdditionalParms" n!"sicd130.ErrorStatisticsType.AdditionalParms"]⟩

/-- `sicd_v1_3_0.py` L584-612 -/
def ErrorStatisticsType_CompositeSCP : Class := ⟨n!"sicd130.ErrorStatisticsType.CompositeSCP", [], sicd130, n!"CompositeSCP", [
  val n!"rg" sicd130 n!"Rg" [n!"float"],
  val n!"az" sicd130 n!"Az" [n!"float"],
  val n!"rg_az" sicd130 n!"RgAz" [n!"float"]]⟩

/-- `sicd_v1_3_0.py` L614-968 -/
def ErrorStatisticsType_Components : Class := ⟨n!"sicd130.ErrorStatisticsType.Components", [], sicd130, n!"Components", [
  el n!"pos_vel_err" sicd130 n!"PosVelErr" n!"sicd130.ErrorStatisticsType.Components.PosVelErr",
  el n!"radar_sensor" sicd130 n!"RadarSensor" n!"sicd130.ErrorStatisticsType.Components.RadarSensor",
  el n!"tropo_error" sicd130 n!"TropoError" n!"sicd130.ErrorStatisticsType.Components.TropoError",
  el n!"iono_error" sicd130 n!"IonoError" n!"sicd130.ErrorStatisticsType.Components.IonoError"]⟩

/-- `sicd_v1_3_0.py` L651-869 -/
def ErrorStatisticsType_Components_PosVelErr : Class := ⟨n!"sicd130.ErrorStatisticsType.Components.PosVelErr", [], sicd130, n!"PosVelErr", [
  val n!"frame" sicd130 n!"Frame" [n!"PosVelErrFrame"],
  val n!"p1" sicd130 n!"P1" [n!"float"],
  val n!"p2" sicd130 n!"P2" [n!"float"],
  val n!"p3" sicd130 n!"P3" [n!"float"],
  val n!"v1" sicd130 n!"V1" [n!"float"],
  val n!"v2" sicd130 n!"V2" [n!"float"],
  val n!"v3" sicd130 n!"V3" [n!"float"],
  el n!"corr_coefs" sicd130 n!"CorrCoefs" n!"sicd130.ErrorStatisticsType.Components.PosVelErr.CorrCoefs",
  el n!"position_decorr" sicd130 n!"PositionDecorr" n!"sicd130.ErrorDecorrFuncType"]⟩

/-- `sicd_v1_3_0.py` L733-869 -/
def ErrorStatisticsType_Components_PosVelErr_CorrCoefs : Class := ⟨n!"sicd130.ErrorStatisticsType.Components.PosVelErr.CorrCoefs", [], sicd130, n!"CorrCoefs", [
  val n!"p1_p2" sicd130 n!"P1P2" [n!"float"],
  val n!"p1_p3" sicd130 n!"P1P3" [n!"float"],
  val n!"p1_v1" sicd130 n!"P1V1" [n!"float"],
  val n!"p1_v2" sicd130 n!"P1V2" [n!"float"],
  val n!"p1_v3" sicd130 n!"P1V3" [n!"float"],
  val n!"p2_p3" sicd130 n!"P2P3" [n!"float"],
  val n!"p2_v1" sicd130 n!"P2V1" [n!"float"],
  val n!"p2_v2" sicd130 n!"P2V2" [n!"float"],
  val n!"p2_v3" sicd130 n!"P2V3" [n!"float"],
  val n!"p3_v1" sicd130 n!"P3V1" [n!"float"],
  val n!"p3_v2" sicd130 n!"P3V2" [n!"float"],
  val n!"p3_v3" sicd130 n!"P3V3" [n!"float"],
  val n!"v1_v2" sicd130 n!"V1V2" [n!"float"],
  val n!"v1_v3" sicd130 n!"V1V3" [n!"float"],
  val n!"v2_v3" sicd130 n!"V2V3" [n!"float"]]⟩

/-- `sicd_v1_3_0.py` L871-905 -/
def ErrorStatisticsType_Components_RadarSensor : Class := ⟨n!"sicd130.ErrorStatisticsType.Components.RadarSensor", [], sicd130, n!"RadarSensor", [
  val n!"range_bias" sicd130 n!"RangeBias" [n!"float"],
  val n!"clock_freq_sf" sicd130 n!"ClockFreqSF" [n!"float"],
  val n!"transmit_freq_sf" sicd130 n!"TransmitFreqSF" [n!"float"],
  el n!"range_bias_decorr" sicd130 n!"RangeBiasDecorr" n!"sicd130.ErrorDecorrFuncType"]⟩

/-- `sicd_v1_3_0.py` L907-932 -/
def ErrorStatisticsType_Components_TropoError : Class := ⟨n!"sicd130.ErrorStatisticsType.Components.TropoError", [], sicd130, n!"TropoError", [
  val n!"tropo_range_vertical" sicd130 n!"TropoRangeVertical" [n!"float"],
  val n!"tropo_range_slant" sicd130 n!"TropoRangeSlant" [n!"float"],
  el n!"tropo_range_decorr" sicd130 n!"TropoRangeDecorr" n!"sicd130.ErrorDecorrFuncType"]⟩

/-- `sicd_v1_3_0.py` L934-968 -/
def ErrorStatisticsType_Components_IonoError : Class := ⟨n!"sicd130.ErrorStatisticsType.Components.IonoError", [], sicd130, n!"IonoError", [
  val n!"iono_range_vertical" sicd130 n!"IonoRangeVertical" [n!"float"],
  val n!"iono_range_rate_vertical" sicd130 n!"IonoRangeRateVertical" [n!"float"],
  val n!"iono_rg_rg_rate_cc" sicd130 n!"IonoRgRgRateCC" [n!"float"],
  el n!"iono_range_vert_decorr" sicd130 n!"IonoRangeVertDecorr" n!"sicd130.ErrorDecorrFuncType"]⟩

/-- `sicd_v1_3_0.py` L970-1027 -/
def ErrorStatisticsType_Unmodeled : Class := ⟨n!"sicd130.ErrorStatisticsType.Unmodeled", [], sicd130, n!"Unmodeled", [
  val n!"xrow" sicd130 n!"Xrow" [n!"float"],
  val n!"ycol" sicd130 n!"Ycol" [n!"float"],
  val n!"xrow_ycol" sicd130 n!"XrowYcol" [n!"float"],
  el n!"unmodeled_decorr" sicd130 n!"UnmodeledDecorr" n!"sicd130.ErrorStatisticsType.Unmodeled.UnmodeledDecorr"]⟩

/-- `sicd_v1_3_0.py` L1008-1027 -/
def ErrorStatisticsType_Unmodeled_UnmodeledDecorr : Class := ⟨n!"sicd130.ErrorStatisticsType.Unmodeled.UnmodeledDecorr", [], sicd130, n!"UnmodeledDecorr", [
  el n!"xrow" sicd130 n!"Xrow" n!"sicd130.ErrorDecorrFuncType",
  el n!"ycol" sicd130 n!"Ycol" n!"sicd130.ErrorDecorrFuncType"]⟩

/-- `sicd_v1_3_0.py` L1029-1039 -/
def ErrorStatisticsType_AdditionalParms : Class := ⟨n!"sicd130.ErrorStatisticsType.AdditionalParms", [], sicd130, n!"AdditionalParms", [
  els n!"parameter" sicd130 n!"Parameter" n!"sicd130.ParameterType"]⟩

/-- `sicd_v1_3_0.py` L1042-1372 -/
def ImageFormationType : Class := ⟨n!"sicd130.ImageFormationType", [], sicd130, n!"ImageFormationType", [
  el n!"rcv_chan_proc" sicd130 n!"RcvChanProc" n!"sicd130.ImageFormationType.RcvChanProc",
  val n!"tx_rcv_polarization_proc" sicd130 n!"TxRcvPolarizationProc" [n!"str"],
  val n!"tstart_proc" sicd130 n!"TStartProc" [n!"float"],
  val n!"tend_proc" sicd130 n!"TEndProc" [n!"float"],
  el n!"tx_frequency_proc" sicd130 n!"TxFrequencyProc" n!"sicd130.ImageFormationType.TxFrequencyProc",
  val n!"segment_identifier" sicd130 n!"SegmentIdentifier" [n!"str"],
  val n!"image_form_algo" sicd130 n!"ImageFormAlgo" [n!"ImageFormAlgo"],
  val n!"stbeam_comp" sicd130 n!"STBeamComp" [n!"STBeamComp"],
  val n!"image_beam_comp" sicd130 n!"ImageBeamComp" [n!"ImageBeamComp"],
  val n!"az_autofocus" sicd130 n!"AzAutofocus" [n!"AzAutofocus"],
  val n!"rg_autofocus" sicd130 n!"RgAutofocus" [n!"RgAutofocus"],
  els n!"processing" sicd130 n!"Processing" n!"sicd130.ImageFormationType.Processing",
  el n!"polarization_calibration" sicd130 n!"PolarizationCalibration" n!"sicd130.ImageFormationType.PolarizationCalibration"]⟩

/-- `sicd_v1_3_0.py` L1160-1187 -/
def ImageFormationType_RcvChanProc : Class := ⟨n!"sicd130.ImageFormationType.RcvChanProc", [], sicd130, n!"RcvChanProc", [
  val n!"num_chan_proc" sicd130 n!"NumChanProc" [n!"int"],
  val n!"prfscale_factor" sicd130 n!"PRFScaleFactor" [n!"float"],
  vals n!"chan_index" sicd130 n!"ChanIndex" [n!"int"]]⟩

/-- `sicd_v1_3_0.py` L1189-1208 -/
def ImageFormationType_TxFrequencyProc : Class := ⟨n!"sicd130.ImageFormationType.TxFrequencyProc", [], sicd130, n!"TxFrequencyProc", [
  val n!"min_proc" sicd130 n!"MinProc" [n!"float"],
  val n!"max_proc" sicd130 n!"MaxProc" [n!"float"]]⟩

/-- `sicd_v1_3_0.py` L1210-1237 -/
def ImageFormationType_Processing : Class := ⟨n!"sicd130.ImageFormationType.Processing", [], sicd130, n!"Processing", [
  val n!"type_value" sicd130 n!"Type" [n!"str"],
  val n!"applied" sicd130 n!"Applied" [n!"bool"],
  els n!"parameter" sicd130 n!"Parameter" n!"sicd130.ParameterType"]⟩

/-- `sicd_v1_3_0.py` L1239-1372 -/
def ImageFormationType_PolarizationCalibration : Class := ⟨n!"sicd130.ImageFormationType.PolarizationCalibration", [], sicd130, n!"PolarizationCalibration", [
  val n!"distort_correction_applied" sicd130 n!"DistortCorrectionApplied" [n!"bool"],
  el n!"distortion" sicd130 n!"Distortion" n!"sicd130.ImageFormationType.PolarizationCalibration.Distortion"]⟩

/-- `sicd_v1_3_0.py` L1260-1372 -/
def ImageFormationType_PolarizationCalibration_Distortion : Class := ⟨n!"sicd130.ImageFormationType.PolarizationCalibration.Distortion", [], sicd130, n!"Distortion", [
  val n!"calibration_date" sicd130 n!"CalibrationDate" [n!"XmlDateTime"],
  val n!"a" sicd130 n!"A" [n!"float"],
  el n!"f1" sicd130 n!"F1" n!"sicd130.ComplexType",
  el n!"q1" sicd130 n!"Q1" n!"sicd130.ComplexType",
  el n!"q2" sicd130 n!"Q2" n!"sicd130.ComplexType",
  el n!"f2" sicd130 n!"F2" n!"sicd130.ComplexType",
  el n!"q3" sicd130 n!"Q3" n!"sicd130.ComplexType",
  el n!"q4" sicd130 n!"Q4" n!"sicd130.ComplexType",
  val n!"gain_error_a" sicd130 n!"GainErrorA" [n!"float"],
  val n!"gain_error_f1" sicd130 n!"GainErrorF1" [n!"float"],
  val n!"gain_error_f2" sicd130 n!"GainErrorF2" [n!"float"],
  val n!"phase_error_f1" sicd130 n!"PhaseErrorF1" [n!"float"],
  val n!"phase_error_f2" sicd130 n!"PhaseErrorF2" [n!"float"]]⟩

/-- `sicd_v1_3_0.py` L1375-1383 -/
def LatLonCornerStringType : Class := ⟨n!"sicd130.LatLonCornerStringType", [n!"sicd130.LatLonType"], sicd130, n!"LatLonCornerStringType", [
  val n!"lat" sicd130 n!"Lat" [n!"float"],
  val n!"lon" sicd130 n!"Lon" [n!"float"],
  att n!"index" 0 n!"index" [n!"CornerStringType"]]⟩

/-- `sicd_v1_3_0.py` L1386-1396 -/
def LatLonCornerType : Class := ⟨n!"sicd130.LatLonCornerType", [n!"sicd130.LatLonType"], sicd130, n!"LatLonCornerType", [
  val n!"lat" sicd130 n!"Lat" [n!"float"],
  val n!"lon" sicd130 n!"Lon" [n!"float"],
  att n!"index" 0 n!"index" [n!"int"]]⟩

/-- `sicd_v1_3_0.py` L1399-1409 -/
def LatLonHAECornerRestrictType : Class := ⟨n!"sicd130.LatLonHAECornerRestrictType", [n!"sicd130.LatLonHAERestrictionType"], sicd130, n!"LatLonHAECornerRestrictType", [
  val n!"lat" sicd130 n!"Lat" [n!"float"],
  val n!"lon" sicd130 n!"Lon" [n!"float"],
  val n!"hae" sicd130 n!"HAE" [n!"float"],
  att n!"index" 0 n!"index" [n!"int"]]⟩

/-- `sicd_v1_3_0.py` L1412-1420 -/
def LatLonHAECornerStringType : Class := ⟨n!"sicd130.LatLonHAECornerStringType", [n!"sicd130.LatLonHAEType"], sicd130, n!"LatLonHAECornerStringType", [
  val n!"lat" sicd130 n!"Lat" [n!"float"],
  val n!"lon" sicd130 n!"Lon" [n!"float"],
  val n!"hae" sicd130 n!"HAE" [n!"float"],
  att n!"index" 0 n!"index" [n!"CornerStringType"]]⟩

/-- `sicd_v1_3_0.py` L1423-1450 -/
def LineType : Class := ⟨n!"sicd130.LineType", [], sicd130, n!"LineType", [
  els n!"endpoint" sicd130 n!"Endpoint" n!"sicd130.LineType.Endpoint",
  att n!"size" 0 n!"size" [n!"int"]]⟩

/-- `sicd_v1_3_0.py` L1442-1450 -/
def LineType_Endpoint : Class := ⟨n!"sicd130.LineType.Endpoint", [n!"sicd130.LatLonType"], sicd130, n!"Endpoint", [
  val n!"lat" sicd130 n!"Lat" [n!"float"],
  val n!"lon" sicd130 n!"Lon" [n!"float"],
  att n!"index" 0 n!"index" [n!"int"]]⟩

/-- `sicd_v1_3_0.py` L1453-1551 -/
def MatchInfoType : Class := ⟨n!"sicd130.MatchInfoType", [], sicd130, n!"MatchInfoType", [
  val n!"num_match_types" sicd130 n!"NumMatchTypes" [n!"int"],
  els n!"match_type" sicd130 n!"MatchType" n!"sicd130.MatchInfoType.MatchType"]⟩

/-- `sicd_v1_3_0.py` L1474-1551 -/
def MatchInfoType_MatchType : Class := ⟨n!"sicd130.MatchInfoType.MatchType", [], sicd130, n!"MatchType", [
  val n!"type_id" sicd130 n!"TypeID" [n!"str"],
  val n!"current_index" sicd130 n!"CurrentIndex" [n!"int"],
  val n!"num_match_collections" sicd130 n!"NumMatchCollections" [n!"int"],
  els n!"match_collection" sicd130 n!"MatchCollection" n!"sicd130.MatchInfoType.MatchType.MatchCollection",
  att n!"index" 0 n!"index" [n!"int"]]⟩

/-- `sicd_v1_3_0.py` L1518-1551 -/
def MatchInfoType_MatchType_MatchCollection : Class := ⟨n!"sicd130.MatchInfoType.MatchType.MatchCollection", [], sicd130, n!"MatchCollection", [
  val n!"core_name" sicd130 n!"CoreName" [n!"str"],
  val n!"match_index" sicd130 n!"MatchIndex" [n!"int"],
  els n!"parameter" sicd130 n!"Parameter" n!"sicd130.ParameterType",
  att n!"index" 0 n!"index" [n!"int"]]⟩

/-- `sicd_v1_3_0.py` L1554-1571 -/
def Poly1DType : Class := ⟨n!"sicd130.Poly1DType", [], sicd130, n!"Poly1DType", [
  els n!"coef" sicd130 n!"Coef" n!"sicd130.PolyCoef1DType",
  att n!"order1" 0 n!"order1" [n!"int"]]⟩

/-- `sicd_v1_3_0.py` L1574-1598 -/
def Poly2DType : Class := ⟨n!"sicd130.Poly2DType", [], sicd130, n!"Poly2DType", [
  els n!"coef" sicd130 n!"Coef" n!"sicd130.PolyCoef2DType",
  att n!"order1" 0 n!"order1" [n!"int"],
  att n!"order2" 0 n!"order2" [n!"int"]]⟩

/-- `sicd_v1_3_0.py` L1601-1628 -/
def PolygonType : Class := ⟨n!"sicd130.PolygonType", [], sicd130, n!"PolygonType", [
  els n!"vertex" sicd130 n!"Vertex" n!"sicd130.PolygonType.Vertex",
  att n!"size" 0 n!"size" [n!"int"]]⟩

/-- `sicd_v1_3_0.py` L1620-1628 -/
def PolygonType_Vertex : Class := ⟨n!"sicd130.PolygonType.Vertex", [n!"sicd130.LatLonRestrictionType"], sicd130, n!"Vertex", [
  val n!"lat" sicd130 n!"Lat" [n!"float"],
  val n!"lon" sicd130 n!"Lon" [n!"float"],
  att n!"index" 0 n!"index" [n!"int"]]⟩

/-- `sicd_v1_3_0.py` L1631-1639 -/
def RowColvertexType : Class := ⟨n!"sicd130.RowColvertexType", [n!"sicd130.RowColType"], sicd130, n!"RowColvertexType", [
  val n!"row" sicd130 n!"Row" [n!"int"],
  val n!"col" sicd130 n!"Col" [n!"int"],
  att n!"index" 0 n!"index" [n!"int"]]⟩

/-- `sicd_v1_3_0.py` L1642-1781 -/
def SCPCOAType : Class := ⟨n!"sicd130.SCPCOAType", [], sicd130, n!"SCPCOAType", [
  val n!"scptime" sicd130 n!"SCPTime" [n!"float"],
  el n!"arppos" sicd130 n!"ARPPos" n!"sicd130.XYZType",
  el n!"arpvel" sicd130 n!"ARPVel" n!"sicd130.XYZType",
  el n!"arpacc" sicd130 n!"ARPAcc" n!"sicd130.XYZType",
  val n!"side_of_track" sicd130 n!"SideOfTrack" [n!"SideOfTrack"],
  val n!"slant_range" sicd130 n!"SlantRange" [n!"float"],
  val n!"ground_range" sicd130 n!"GroundRange" [n!"float"],
  val n!"doppler_cone_ang" sicd130 n!"DopplerConeAng" [n!"float"],
  val n!"graze_ang" sicd130 n!"GrazeAng" [n!"float"],
  val n!"incidence_ang" sicd130 n!"IncidenceAng" [n!"float"],
  val n!"twist_ang" sicd130 n!"TwistAng" [n!"float"],
  val n!"slope_ang" sicd130 n!"SlopeAng" [n!"float"],
  val n!"azim_ang" sicd130 n!"AzimAng" [n!"float"],
  val n!"layover_ang" sicd130 n!"LayoverAng" [n!"float"]]⟩

/-- `sicd_v1_3_0.py` L1784-1920 -/
def DirParamType : Class := ⟨n!"sicd130.DirParamType", [], sicd130, n!"DirParamType", [
  el n!"uvect_ecf" sicd130 n!"UVectECF" n!"sicd130.XYZType",
  val n!"ss" sicd130 n!"SS" [n!"float"],
  val n!"imp_resp_wid" sicd130 n!"ImpRespWid" [n!"float"],
  val n!"sgn" sicd130 n!"Sgn" [n!"DirParamTypeSgn"],
  val n!"imp_resp_bw" sicd130 n!"ImpRespBW" [n!"float"],
  val n!"kctr" sicd130 n!"KCtr" [n!"float"],
  val n!"delta_k1" sicd130 n!"DeltaK1" [n!"float"],
  val n!"delta_k2" sicd130 n!"DeltaK2" [n!"float"],
  el n!"delta_kcoapoly" sicd130 n!"DeltaKCOAPoly" n!"sicd130.Poly2DType",
  el n!"wgt_type" sicd130 n!"WgtType" n!"sicd130.DirParamType.WgtType",
  el n!"wgt_funct" sicd130 n!"WgtFunct" n!"sicd130.DirParamType.WgtFunct"]⟩

/-- `sicd_v1_3_0.py` L1883-1901 -/
def DirParamType_WgtType : Class := ⟨n!"sicd130.DirParamType.WgtType", [], sicd130, n!"WgtType", [
  val n!"window_name" sicd130 n!"WindowName" [n!"str"],
  els n!"parameter" sicd130 n!"Parameter" n!"sicd130.ParameterType"]⟩

/-- `sicd_v1_3_0.py` L1903-1920 -/
def DirParamType_WgtFunct : Class := ⟨n!"sicd130.DirParamType.WgtFunct", [], sicd130, n!"WgtFunct", [
  els n!"wgt" sicd130 n!"Wgt" n!"sicd130.ArrayDouble",
  att n!"size" 0 n!"size" [n!"int"]]⟩

/-- `sicd_v1_3_0.py` L1923-1942 -/
def GainPhasePolyType : Class := ⟨n!"sicd130.GainPhasePolyType", [], sicd130, n!"GainPhasePolyType", [
  el n!"gain_poly" sicd130 n!"GainPoly" n!"sicd130.Poly2DType",
  el n!"phase_poly" sicd130 n!"PhasePoly" n!"sicd130.Poly2DType"]⟩

/-- `sicd_v1_3_0.py` L1945-1993 -/
def GeoInfoType : Class := ⟨n!"sicd130.GeoInfoType", [], sicd130, n!"GeoInfoType", [
  els n!"desc" sicd130 n!"Desc" n!"sicd130.ParameterType",
  el n!"point" sicd130 n!"Point" n!"sicd130.LatLonRestrictionType",
  el n!"line" sicd130 n!"Line" n!"sicd130.LineType",
  el n!"polygon" sicd130 n!"Polygon" n!"sicd130.PolygonType",
  els n!"geo_info" sicd130 n!"GeoInfo" n!"sicd130.GeoInfoType",
  att n!"name" 0 n!"name" [n!"str"]]⟩

/-- `sicd_v1_3_0.py` L1996-2136 -/
def ImageDataType : Class := ⟨n!"sicd130.ImageDataType", [], sicd130, n!"ImageDataType", [
  val n!"pixel_type" sicd130 n!"PixelType" [n!"ImagePixelType"],
  el n!"amp_table" sicd130 n!"AmpTable" n!"sicd130.ImageDataType.AmpTable",
  val n!"num_rows" sicd130 n!"NumRows" [n!"int"],
  val n!"num_cols" sicd130 n!"NumCols" [n!"int"],
  val n!"first_row" sicd130 n!"FirstRow" [n!"int"],
  val n!"first_col" sicd130 n!"FirstCol" [n!"int"],
  el n!"full_image" sicd130 n!"FullImage" n!"sicd130.ImageDataType.FullImage",
  el n!"scppixel" sicd130 n!"SCPPixel" n!"sicd130.RowColType",
  el n!"valid_data" sicd130 n!"ValidData" n!"sicd130.ImageDataType.ValidData"]⟩

/-- `sicd_v1_3_0.py` L2078-2096 -/
def ImageDataType_AmpTable : Class := ⟨n!"sicd130.ImageDataType.AmpTable", [], sicd130, n!"AmpTable", [
  els n!"amplitude" sicd130 n!"Amplitude" n!"sicd130.ArrayDouble",
  att n!"size" 0 n!"size" [n!"int"]]⟩

/-- `sicd_v1_3_0.py` L2098-2117 -/
def ImageDataType_FullImage : Class := ⟨n!"sicd130.ImageDataType.FullImage", [], sicd130, n!"FullImage", [
  val n!"num_rows" sicd130 n!"NumRows" [n!"int"],
  val n!"num_cols" sicd130 n!"NumCols" [n!"int"]]⟩

/-- `sicd_v1_3_0.py` L2119-2136 -/
def ImageDataType_ValidData : Class := ⟨n!"sicd130.ImageDataType.ValidData", [], sicd130, n!"ValidData", [
  els n!"vertex" sicd130 n!"Vertex" n!"sicd130.RowColvertexType",
  att n!"size" 0 n!"size" [n!"int"]]⟩

/-- `sicd_v1_3_0.py` L2139-2250 -/
def PFAType : Class := ⟨n!"sicd130.PFAType", [], sicd130, n!"PFAType", [
  el n!"fpn" sicd130 n!"FPN" n!"sicd130.XYZType",
  el n!"ipn" sicd130 n!"IPN" n!"sicd130.XYZType",
  val n!"polar_ang_ref_time" sicd130 n!"PolarAngRefTime" [n!"float"],
  el n!"polar_ang_poly" sicd130 n!"PolarAngPoly" n!"sicd130.Poly1DType",
  el n!"spatial_freq_sfpoly" sicd130 n!"SpatialFreqSFPoly" n!"sicd130.Poly1DType",
  val n!"krg1" sicd130 n!"Krg1" [n!"float"],
  val n!"krg2" sicd130 n!"Krg2" [n!"float"],
  val n!"kaz1" sicd130 n!"Kaz1" [n!"float"],
  val n!"kaz2" sicd130 n!"Kaz2" [n!"float"],
  el n!"stdeskew" sicd130 n!"STDeskew" n!"sicd130.PFAType.STDeskew"]⟩

/-- `sicd_v1_3_0.py` L2231-2250 -/
def PFAType_STDeskew : Class := ⟨n!"sicd130.PFAType.STDeskew", [], sicd130, n!"STDeskew", [
  val n!"applied" sicd130 n!"Applied" [n!"bool"],
  el n!"stdsphase_poly" sicd130 n!"STDSPhasePoly" n!"sicd130.Poly2DType"]⟩

/-- `sicd_v1_3_0.py` L2253-2411 -/
def RMAType : Class := ⟨n!"sicd130.RMAType", [], sicd130, n!"RMAType", [
  val n!"rmalgo_type" sicd130 n!"RMAlgoType" [n!"RMAlgorithm"],
  val n!"image_type" sicd130 n!"ImageType" [n!"RMAImageType"],
  el n!"rmat" sicd130 n!"RMAT" n!"sicd130.RMAType.RMAT",
  el n!"rmcr" sicd130 n!"RMCR" n!"sicd130.RMAType.RMCR",
  el n!"inca" sicd130 n!"INCA" n!"sicd130.RMAType.INCA"]⟩

/-- `sicd_v1_3_0.py` L2298-2326 -/
def RMAType_RMAT : Class := ⟨n!"sicd130.RMAType.RMAT", [], sicd130, n!"RMAT", [
  el n!"pos_ref" sicd130 n!"PosRef" n!"sicd130.XYZType",
  el n!"vel_ref" sicd130 n!"VelRef" n!"sicd130.XYZType",
  val n!"dop_cone_ang_ref" sicd130 n!"DopConeAngRef" [n!"float"]]⟩

/-- `sicd_v1_3_0.py` L2328-2356 -/
def RMAType_RMCR : Class := ⟨n!"sicd130.RMAType.RMCR", [], sicd130, n!"RMCR", [
  el n!"pos_ref" sicd130 n!"PosRef" n!"sicd130.XYZType",
  el n!"vel_ref" sicd130 n!"VelRef" n!"sicd130.XYZType",
  val n!"dop_cone_ang_ref" sicd130 n!"DopConeAngRef" [n!"float"]]⟩

/-- `sicd_v1_3_0.py` L2358-2411 -/
def RMAType_INCA : Class := ⟨n!"sicd130.RMAType.INCA", [], sicd130, n!"INCA", [
  el n!"time_capoly" sicd130 n!"TimeCAPoly" n!"sicd130.Poly1DType",
  val n!"r_ca_scp" sicd130 n!"R_CA_SCP" [n!"float"],
  val n!"freq_zero" sicd130 n!"FreqZero" [n!"float"],
  el n!"drate_sfpoly" sicd130 n!"DRateSFPoly" n!"sicd130.Poly2DType",
  el n!"dop_centroid_poly" sicd130 n!"DopCentroidPoly" n!"sicd130.Poly2DType",
  val n!"dop_centroid_coa" sicd130 n!"DopCentroidCOA" [n!"bool"]]⟩

/-- `sicd_v1_3_0.py` L2414-2973 -/
def RadarCollectionType : Class := ⟨n!"sicd130.RadarCollectionType", [], sicd130, n!"RadarCollectionType", [
  el n!"tx_frequency" sicd130 n!"TxFrequency" n!"sicd130.RadarCollectionType.TxFrequency",
  val n!"ref_freq_index" sicd130 n!"RefFreqIndex" [n!"int"],
  el n!"waveform" sicd130 n!"Waveform" n!"sicd130.RadarCollectionType.Waveform",
  val n!"tx_polarization" sicd130 n!"TxPolarization" [n!"str"],
  el n!"tx_sequence" sicd130 n!"TxSequence" n!"sicd130.RadarCollectionType.TxSequence",
  el n!"rcv_channels" sicd130 n!"RcvChannels" n!"sicd130.RadarCollectionType.RcvChannels",
  el n!"area" sicd130 n!"Area" n!"sicd130.RadarCollectionType.Area",
  els n!"parameter" sicd130 n!"Parameter" n!"sicd130.ParameterType"]⟩

/-- `sicd_v1_3_0.py` L2485-2504 -/
def RadarCollectionType_TxFrequency : Class := ⟨n!"sicd130.RadarCollectionType.TxFrequency", [], sicd130, n!"TxFrequency", [
  val n!"min" sicd130 n!"Min" [n!"float"],
  val n!"max" sicd130 n!"Max" [n!"float"]]⟩

/-- `sicd_v1_3_0.py` L2506-2613 -/
def RadarCollectionType_Waveform : Class := ⟨n!"sicd130.RadarCollectionType.Waveform", [], sicd130, n!"Waveform", [
  els n!"wfparameters" sicd130 n!"WFParameters" n!"sicd130.RadarCollectionType.Waveform.WFParameters",
  att n!"size" 0 n!"size" [n!"int"]]⟩

/-- `sicd_v1_3_0.py` L2525-2613 -/
def RadarCollectionType_Waveform_WFParameters : Class := ⟨n!"sicd130.RadarCollectionType.Waveform.WFParameters", [], sicd130, n!"WFParameters", [
  val n!"tx_pulse_length" sicd130 n!"TxPulseLength" [n!"float"],
  val n!"tx_rfbandwidth" sicd130 n!"TxRFBandwidth" [n!"float"],
  val n!"tx_freq_start" sicd130 n!"TxFreqStart" [n!"float"],
  val n!"tx_fmrate" sicd130 n!"TxFMRate" [n!"float"],
  val n!"rcv_demod_type" sicd130 n!"RcvDemodType" [n!"WFParametersRcvDemodType"],
  val n!"rcv_window_length" sicd130 n!"RcvWindowLength" [n!"float"],
  val n!"adcsample_rate" sicd130 n!"ADCSampleRate" [n!"float"],
  val n!"rcv_ifbandwidth" sicd130 n!"RcvIFBandwidth" [n!"float"],
  val n!"rcv_freq_start" sicd130 n!"RcvFreqStart" [n!"float"],
  val n!"rcv_fmrate" sicd130 n!"RcvFMRate" [n!"float"],
  att n!"index" 0 n!"index" [n!"int"]]⟩

/-- `sicd_v1_3_0.py` L2615-2659 -/
def RadarCollectionType_TxSequence : Class := ⟨n!"sicd130.RadarCollectionType.TxSequence", [], sicd130, n!"TxSequence", [
  els n!"tx_step" sicd130 n!"TxStep" n!"sicd130.RadarCollectionType.TxSequence.TxStep",
  att n!"size" 0 n!"size" [n!"int"]]⟩

/-- `sicd_v1_3_0.py` L2634-2659 -/
def RadarCollectionType_TxSequence_TxStep : Class := ⟨n!"sicd130.RadarCollectionType.TxSequence.TxStep", [], sicd130, n!"TxStep", [
  val n!"wfindex" sicd130 n!"WFIndex" [n!"int"],
  val n!"tx_polarization" sicd130 n!"TxPolarization" [n!"str"],
  att n!"index" 0 n!"index" [n!"int"]]⟩

/-- `sicd_v1_3_0.py` L2661-2706 -/
def RadarCollectionType_RcvChannels : Class := ⟨n!"sicd130.RadarCollectionType.RcvChannels", [], sicd130, n!"RcvChannels", [
  els n!"chan_parameters" sicd130 n!"ChanParameters" n!"sicd130.RadarCollectionType.RcvChannels.ChanParameters",
  att n!"size" 0 n!"size" [n!"int"]]⟩

/-- `sicd_v1_3_0.py` L2680-2706 -/
def RadarCollectionType_RcvChannels_ChanParameters : Class := ⟨n!"sicd130.RadarCollectionType.RcvChannels.ChanParameters", [], sicd130, n!"ChanParameters", [
  val n!"tx_rcv_polarization" sicd130 n!"TxRcvPolarization" [n!"str"],
  val n!"rcv_apcindex" sicd130 n!"RcvAPCIndex" [n!"int"],
  att n!"index" 0 n!"index" [n!"int"]]⟩

/-- `sicd_v1_3_0.py` L2708-2973 -/
def RadarCollectionType_Area : Class := ⟨n!"sicd130.RadarCollectionType.Area", [], sicd130, n!"Area", [
  el n!"corner" sicd130 n!"Corner" n!"sicd130.RadarCollectionType.Area.Corner",
  el n!"plane" sicd130 n!"Plane" n!"sicd130.RadarCollectionType.Area.Plane"]⟩

/-- `sicd_v1_3_0.py` L2728-2739 -/
def RadarCollectionType_Area_Corner : Class := ⟨n!"sicd130.RadarCollectionType.Area.Corner", [], sicd130, n!"Corner", [
  els n!"acp" sicd130 n!"ACP" n!"sicd130.LatLonHAECornerRestrictType"]⟩

/-- `sicd_v1_3_0.py` L2741-2973 -/
def RadarCollectionType_Area_Plane : Class := ⟨n!"sicd130.RadarCollectionType.Area.Plane", [], sicd130, n!"Plane", [
  el n!"ref_pt" sicd130 n!"RefPt" n!"sicd130.RadarCollectionType.Area.Plane.RefPt",
  el n!"xdir" sicd130 n!"XDir" n!"sicd130.RadarCollectionType.Area.Plane.XDir",
  el n!"ydir" sicd130 n!"YDir" n!"sicd130.RadarCollectionType.Area.Plane.YDir",
  el n!"segment_list" sicd130 n!"SegmentList" n!"sicd130.RadarCollectionType.Area.Plane.SegmentList",
  val n!"orientation" sicd130 n!"Orientation" [n!"OrientationType"]]⟩

/-- `sicd_v1_3_0.py` L2787-2821 -/
def RadarCollectionType_Area_Plane_RefPt : Class := ⟨n!"sicd130.RadarCollectionType.Area.Plane.RefPt", [], sicd130, n!"RefPt", [
  el n!"ecf" sicd130 n!"ECF" n!"sicd130.XYZType",
  val n!"line" sicd130 n!"Line" [n!"float"],
  val n!"sample" sicd130 n!"Sample" [n!"float"],
  att n!"name" 0 n!"name" [n!"str"]]⟩

/-- `sicd_v1_3_0.py` L2823-2860 -/
def RadarCollectionType_Area_Plane_XDir : Class := ⟨n!"sicd130.RadarCollectionType.Area.Plane.XDir", [], sicd130, n!"XDir", [
  el n!"uvect_ecf" sicd130 n!"UVectECF" n!"sicd130.XYZType",
  val n!"line_spacing" sicd130 n!"LineSpacing" [n!"float"],
  val n!"num_lines" sicd130 n!"NumLines" [n!"int"],
  val n!"first_line" sicd130 n!"FirstLine" [n!"int"]]⟩

/-- `sicd_v1_3_0.py` L2862-2899 -/
def RadarCollectionType_Area_Plane_YDir : Class := ⟨n!"sicd130.RadarCollectionType.Area.Plane.YDir", [], sicd130, n!"YDir", [
  el n!"uvect_ecf" sicd130 n!"UVectECF" n!"sicd130.XYZType",
  val n!"sample_spacing" sicd130 n!"SampleSpacing" [n!"float"],
  val n!"num_samples" sicd130 n!"NumSamples" [n!"int"],
  val n!"first_sample" sicd130 n!"FirstSample" [n!"int"]]⟩

/-- `sicd_v1_3_0.py` L2901-2973 -/
def RadarCollectionType_Area_Plane_SegmentList : Class := ⟨n!"sicd130.RadarCollectionType.Area.Plane.SegmentList", [], sicd130, n!"SegmentList", [
  els n!"segment" sicd130 n!"Segment" n!"sicd130.RadarCollectionType.Area.Plane.SegmentList.Segment",
  att n!"size" 0 n!"size" [n!"int"]]⟩

/-- `sicd_v1_3_0.py` L2920-2973 -/
def RadarCollectionType_Area_Plane_SegmentList_Segment : Class := ⟨n!"sicd130.RadarCollectionType.Area.Plane.SegmentList.Segment", [], sicd130, n!"Segment", [
  val n!"start_line" sicd130 n!"StartLine" [n!"int"],
  val n!"start_sample" sicd130 n!"StartSample" [n!"int"],
  val n!"end_line" sicd130 n!"EndLine" [n!"int"],
  val n!"end_sample" sicd130 n!"EndSample" [n!"int"],
  val n!"identifier" sicd130 n!"Identifier" [n!"str"],
  att n!"index" 0 n!"index" [n!"int"]]⟩

/-- `sicd_v1_3_0.py` L2976-3038 -/
def RadiometricType : Class := ⟨n!"sicd130.RadiometricType", [], sicd130, n!"RadiometricType", [
  el n!"noise_level" sicd130 n!"NoiseLevel" n!"sicd130.RadiometricType.NoiseLevel",
  el n!"rcssfpoly" sicd130 n!"RCSSFPoly" n!"sicd130.Poly2DType",
  el n!"sigma_zero_sfpoly" sicd130 n!"SigmaZeroSFPoly" n!"sicd130.Poly2DType",
  el n!"beta_zero_sfpoly" sicd130 n!"BetaZeroSFPoly" n!"sicd130.Poly2DType",
  el n!"gamma_zero_sfpoly" sicd130 n!"GammaZeroSFPoly" n!"sicd130.Poly2DType"]⟩

/-- `sicd_v1_3_0.py` L3019-3038 -/
def RadiometricType_NoiseLevel : Class := ⟨n!"sicd130.RadiometricType.NoiseLevel", [], sicd130, n!"NoiseLevel", [
  val n!"noise_level_type" sicd130 n!"NoiseLevelType" [n!"NoiseLevelType"],
  el n!"noise_poly" sicd130 n!"NoisePoly" n!"sicd130.Poly2DType"]⟩

/-- `sicd_v1_3_0.py` L3041-3060 -/
def RgAzCompType : Class := ⟨n!"sicd130.RgAzCompType", [], sicd130, n!"RgAzCompType", [
  val n!"az_sf" sicd130 n!"AzSF" [n!"float"],
  el n!"kaz_poly" sicd130 n!"KazPoly" n!"sicd130.Poly1DType"]⟩

/-- `sicd_v1_3_0.py` L3063-3164 -/
def TimelineType : Class := ⟨n!"sicd130.TimelineType", [], sicd130, n!"TimelineType", [
  val n!"collect_start" sicd130 n!"CollectStart" [n!"XmlDateTime"],
  val n!"collect_duration" sicd130 n!"CollectDuration" [n!"float"],
  el n!"ipp" sicd130 n!"IPP" n!"sicd130.TimelineType.IPP"]⟩

/-- `sicd_v1_3_0.py` L3092-3164 -/
def TimelineType_IPP : Class := ⟨n!"sicd130.TimelineType.IPP", [], sicd130, n!"IPP", [
  els n!"set" sicd130 n!"Set" n!"sicd130.TimelineType.IPP.Set",
  att n!"size" 0 n!"size" [n!"int"]]⟩

/-- `sicd_v1_3_0.py` L3111-3164 -/
def TimelineType_IPP_Set : Class := ⟨n!"sicd130.TimelineType.IPP.Set", [], sicd130, n!"Set", [
  val n!"tstart" sicd130 n!"TStart" [n!"float"],
  val n!"tend" sicd130 n!"TEnd" [n!"float"],
  val n!"ippstart" sicd130 n!"IPPStart" [n!"int"],
  val n!"ippend" sicd130 n!"IPPEnd" [n!"int"],
  el n!"ipppoly" sicd130 n!"IPPPoly" n!"sicd130.Poly1DType",
  att n!"index" 0 n!"index" [n!"int"]]⟩

/-- `sicd_v1_3_0.py` L3167-3195 -/
def XYZPolyType : Class := ⟨n!"sicd130.XYZPolyType", [], sicd130, n!"XYZPolyType", [
  el n!"x" sicd130 n!"X" n!"sicd130.Poly1DType",
  el n!"y" sicd130 n!"Y" n!"sicd130.Poly1DType",
  el n!"z" sicd130 n!"Z" n!"sicd130.Poly1DType"]⟩

/-- `sicd_v1_3_0.py` L3198-3296 -/
def AntParamType : Class := ⟨n!"sicd130.AntParamType", [], sicd130, n!"AntParamType", [
  el n!"xaxis_poly" sicd130 n!"XAxisPoly" n!"sicd130.XYZPolyType",
  el n!"yaxis_poly" sicd130 n!"YAxisPoly" n!"sicd130.XYZPolyType",
  val n!"freq_zero" sicd130 n!"FreqZero" [n!"float"],
  el n!"eb" sicd130 n!"EB" n!"sicd130.AntParamType.EB",
  el n!"array" sicd130 n!"Array" n!"sicd130.GainPhasePolyType",
  el n!"elem" sicd130 n!"Elem" n!"sicd130.GainPhasePolyType",
  el n!"gain_bspoly" sicd130 n!"GainBSPoly" n!"sicd130.Poly1DType",
  val n!"ebfreq_shift" sicd130 n!"EBFreqShift" [n!"bool"],
  val n!"mlfreq_dilation" sicd130 n!"MLFreqDilation" [n!"bool"]]⟩

/-- `sicd_v1_3_0.py` L3277-3296 -/
def AntParamType_EB : Class := ⟨n!"sicd130.AntParamType.EB", [], sicd130, n!"EB", [
  el n!"dcxpoly" sicd130 n!"DCXPoly" n!"sicd130.Poly1DType",
  el n!"dcypoly" sicd130 n!"DCYPoly" n!"sicd130.Poly1DType"]⟩

/-- `sicd_v1_3_0.py` L3299-3377 -/
def GeoDataType : Class := ⟨n!"sicd130.GeoDataType", [], sicd130, n!"GeoDataType", [
  val n!"earth_model" sicd130 n!"EarthModel" [n!"EarthModel"],
  el n!"scp" sicd130 n!"SCP" n!"sicd130.GeoDataType.SCP",
  el n!"image_corners" sicd130 n!"ImageCorners" n!"sicd130.GeoDataType.ImageCorners",
  el n!"valid_data" sicd130 n!"ValidData" n!"sicd130.PolygonType",
  els n!"geo_info" sicd130 n!"GeoInfo" n!"sicd130.GeoInfoType"]⟩

/-- `sicd_v1_3_0.py` L3345-3364 -/
def GeoDataType_SCP : Class := ⟨n!"sicd130.GeoDataType.SCP", [], sicd130, n!"SCP", [
  el n!"ecf" sicd130 n!"ECF" n!"sicd130.XYZType",
  el n!"llh" sicd130 n!"LLH" n!"sicd130.LatLonHAERestrictionType"]⟩

/-- `sicd_v1_3_0.py` L3366-3377 -/
def GeoDataType_ImageCorners : Class := ⟨n!"sicd130.GeoDataType.ImageCorners", [], sicd130, n!"ImageCorners", [
  els n!"icp" sicd130 n!"ICP" n!"sicd130.LatLonCornerStringType"]⟩

/-- `sicd_v1_3_0.py` L3380-3426 -/
def GridType : Class := ⟨n!"sicd130.GridType", [], sicd130, n!"GridType", [
  val n!"image_plane" sicd130 n!"ImagePlane" [n!"ImagePlane"],
  val n!"type_value" sicd130 n!"Type" [n!"ImageGridType"],
  el n!"time_coapoly" sicd130 n!"TimeCOAPoly" n!"sicd130.Poly2DType",
  el n!"row" sicd130 n!"Row" n!"sicd130.DirParamType",
  el n!"col" sicd130 n!"Col" n!"sicd130.DirParamType"]⟩

/-- `sicd_v1_3_0.py` L3429-3437 -/
def XYZPolyAttributeType : Class := ⟨n!"sicd130.XYZPolyAttributeType", [n!"sicd130.XYZPolyType"], sicd130, n!"XYZPolyAttributeType", [
  el n!"x" sicd130 n!"X" n!"sicd130.Poly1DType",
  el n!"y" sicd130 n!"Y" n!"sicd130.Poly1DType",
  el n!"z" sicd130 n!"Z" n!"sicd130.Poly1DType",
  att n!"index" 0 n!"index" [n!"int"]]⟩

/-- `sicd_v1_3_0.py` L3440-3465 -/
def AntennaType : Class := ⟨n!"sicd130.AntennaType", [], sicd130, n!"AntennaType", [
  el n!"tx" sicd130 n!"Tx" n!"sicd130.AntParamType",
  el n!"rcv" sicd130 n!"Rcv" n!"sicd130.AntParamType",
  el n!"two_way" sicd130 n!"TwoWay" n!"sicd130.AntParamType"]⟩

/-- `sicd_v1_3_0.py` L3468-3521 -/
def PositionType : Class := ⟨n!"sicd130.PositionType", [], sicd130, n!"PositionType", [
  el n!"arppoly" sicd130 n!"ARPPoly" n!"sicd130.XYZPolyType",
  el n!"grppoly" sicd130 n!"GRPPoly" n!"sicd130.XYZPolyType",
  el n!"tx_apcpoly" sicd130 n!"TxAPCPoly" n!"sicd130.XYZPolyType",
  el n!"rcv_apc" sicd130 n!"RcvAPC" n!"sicd130.PositionType.RcvAPC"]⟩

/-- `sicd_v1_3_0.py` L3504-3521 -/
def PositionType_RcvAPC : Class := ⟨n!"sicd130.PositionType.RcvAPC", [], sicd130, n!"RcvAPC", [
  els n!"rcv_apcpoly" sicd130 n!"RcvAPCPoly" n!"sicd130.XYZPolyAttributeType",
  att n!"size" 0 n!"size" [n!"int"]]⟩

/-- `sicd_v1_3_0.py` L3524-3656 -/
def SICD : Class := ⟨n!"sicd130.SICD", [], sicd130, n!"SICD", [
  el n!"collection_info" sicd130 n!"CollectionInfo" n!"sicd130.CollectionInfoType",
  el n!"image_creation" sicd130 n!"ImageCreation" n!"sicd130.ImageCreationType",
  el n!"image_data" sicd130 n!"ImageData" n!"sicd130.ImageDataType",
  el n!"geo_data" sicd130 n!"GeoData" n!"sicd130.GeoDataType",
  el n!"grid" sicd130 n!"Grid" n!"sicd130.GridType",
  el n!"timeline" sicd130 n!"Timeline" n!"sicd130.TimelineType",
  el n!"position" sicd130 n!"Position" n!"sicd130.PositionType",
  el n!"radar_collection" sicd130 n!"RadarCollection" n!"sicd130.RadarCollectionType",
  el n!"image_formation" sicd130 n!"ImageFormation" n!"sicd130.ImageFormationType",
  el n!"scpcoa" sicd130 n!"SCPCOA" n!"sicd130.SCPCOAType",
  el n!"radiometric" sicd130 n!"Radiometric" n!"sicd130.RadiometricType",
  el n!"antenna" sicd130 n!"Antenna" n!"sicd130.AntennaType",
  el n!"error_statistics" sicd130 n!"ErrorStatistics" n!"sicd130.ErrorStatisticsType",
  el n!"match_info" sicd130 n!"MatchInfo" n!"sicd130.MatchInfoType",
  el n!"rg_az_comp" sicd130 n!"RgAzComp" n!"sicd130.RgAzCompType",
  el n!"pfa" sicd130 n!"PFA" n!"sicd130.PFAType",
  el n!"rma" sicd130 n!"RMA" n!"sicd130.RMAType"]⟩

/-- The dataclasses of `sicd_v1_3_0.py` (its enumerations are types of text). -/
def classes : List Class := [
  ArrayDouble, ComplexType, ErrorDecorrFuncType, ImageCreationType, LatLonHAERestrictionType, LatLonHAEType, LatLonRestrictionType, LatLonType,
  ParameterType, PolyCoef1DType, PolyCoef2DType, RowColType, XYZType, CollectionInfoType, CollectionInfoType_RadarMode, ErrorStatisticsType,
  ErrorStatisticsType_CompositeSCP, ErrorStatisticsType_Components, ErrorStatisticsType_Components_PosVelErr,
  ErrorStatisticsType_Components_PosVelErr_CorrCoefs, ErrorStatisticsType_Components_RadarSensor, ErrorStatisticsType_Components_TropoError,
  ErrorStatisticsType_Components_IonoError, ErrorStatisticsType_Unmodeled, ErrorStatisticsType_Unmodeled_UnmodeledDecorr,
  ErrorStatisticsType_AdditionalParms, ImageFormationType, ImageFormationType_RcvChanProc, ImageFormationType_TxFrequencyProc,
  ImageFormationType_Processing, ImageFormationType_PolarizationCalibration, ImageFormationType_PolarizationCalibration_Distortion,
  LatLonCornerStringType, LatLonCornerType, LatLonHAECornerRestrictType, LatLonHAECornerStringType, LineType, LineType_Endpoint, MatchInfoType,
  MatchInfoType_MatchType, MatchInfoType_MatchType_MatchCollection, Poly1DType, Poly2DType, PolygonType, PolygonType_Vertex, RowColvertexType,
  SCPCOAType, DirParamType, DirParamType_WgtType, DirParamType_WgtFunct, GainPhasePolyType, GeoInfoType, ImageDataType, ImageDataType_AmpTable,
  ImageDataType_FullImage, ImageDataType_ValidData, PFAType, PFAType_STDeskew, RMAType, RMAType_RMAT, RMAType_RMCR, RMAType_INCA,
  RadarCollectionType, RadarCollectionType_TxFrequency, RadarCollectionType_Waveform, RadarCollectionType_Waveform_WFParameters,
  RadarCollectionType_TxSequence, RadarCollectionType_TxSequence_TxStep, RadarCollectionType_RcvChannels,
  RadarCollectionType_RcvChannels_ChanParameters, RadarCollectionType_Area, RadarCollectionType_Area_Corner, RadarCollectionType_Area_Plane,
  RadarCollectionType_Area_Plane_RefPt, RadarCollectionType_Area_Plane_XDir, RadarCollectionType_Area_Plane_YDir,
  RadarCollectionType_Area_Plane_SegmentList, RadarCollectionType_Area_Plane_SegmentList_Segment, RadiometricType, RadiometricType_NoiseLevel,
  RgAzCompType, TimelineType, TimelineType_IPP, TimelineType_IPP_Set, XYZPolyType, AntParamType, AntParamType_EB, GeoDataType, GeoDataType_SCP,
  GeoDataType_ImageCorners, GridType, XYZPolyAttributeType, AntennaType, PositionType, PositionType_RcvAPC, SICD]

end Verif.Schema.Sicd130
