import Verif.Model.Xsdata

/-!
# The dataclasses of `formats/sidd/models/sidd_v3_0_0.py`

Written by `tools/gen_schema.py` from the text of the module; the comment of a class gives the lines of its declaration, and fields of a base class come first, as in Python.
Ranges, lengths, patterns and occurrence counts are left out: xsdata does not check them when it reads or writes.
-/

namespace Verif.Schema.Sidd300

open Verif.Xsdata Verif.Xsdata.Field Verif.Xsdata.Namespace

/-- `sidd_v3_0_0.py` L58-77 -/
def AccuracyType : Class := ⟨n!"sidd300.AccuracyType", [], sidd300, n!"AccuracyType", [
  vals n!"horizontal" sidd300 n!"Horizontal" [n!"float"],
  vals n!"vertical" sidd300 n!"Vertical" [n!"float"]]⟩

/-- `sidd_v3_0_0.py` L80-84 -/
def AcheivedResolutionType : Class := ⟨n!"sidd300.AcheivedResolutionType", [], sidd300, n!"AcheivedResolutionType", []⟩

/-- `sidd_v3_0_0.py` L87-113 -/
def ClassificationGuidanceType : Class := ⟨n!"sidd300.ClassificationGuidanceType", [], sidd300, n!"ClassificationGuidanceType", [
  val n!"authority" sidd300 n!"Authority" [n!"str"],
  val n!"date" sidd300 n!"Date" [n!"XmlDate"]]⟩

/-- `sidd_v3_0_0.py` L116-142 -/
def DRAHistogramOverridesType : Class := ⟨n!"sidd300.DRAHistogramOverridesType", [], sidd300, n!"DRAHistogramOverridesType", [
  val n!"clip_min" sidd300 n!"ClipMin" [n!"int"],
  val n!"clip_max" sidd300 n!"ClipMax" [n!"int"]]⟩

/-- `sidd_v3_0_0.py` L145-169 -/
def DRAOverrides : Class := ⟨n!"sidd300.DRAOverrides", [], sidd300, n!"DRAOverrides", [
  val n!"subtractor" sidd300 n!"Subtractor" [n!"float"],
  val n!"multiplier" sidd300 n!"Multiplier" [n!"float"]]⟩

/-- `sidd_v3_0_0.py` L172-220 -/
def DRAParameters : Class := ⟨n!"sidd300.DRAParameters", [], sidd300, n!"DRAParameters", [
  val n!"pmin" sidd300 n!"Pmin" [n!"float"],
  val n!"pmax" sidd300 n!"Pmax" [n!"float"],
  val n!"emin_modifier" sidd300 n!"EminModifier" [n!"float"],
  val n!"emax_modifier" sidd300 n!"EmaxModifier" [n!"float"]]⟩

/-- `sidd_v3_0_0.py` L246-295 -/
def FilterBankCoefType : Class := ⟨n!"sidd300.FilterBankCoefType", [], sidd300, n!"FilterBankCoefType", [
  els n!"coef" sidd300 n!"Coef" n!"sidd300.FilterBankCoefType.Coef",
  att n!"num_phasings" 0 n!"numPhasings" [n!"int"],
  att n!"num_points" 0 n!"numPoints" [n!"int"]]⟩

/-- `sidd_v3_0_0.py` L274-295 -/
def FilterBankCoefType_Coef : Class := ⟨n!"sidd300.FilterBankCoefType.Coef", [], sidd300, n!"Coef", [
  text n!"value" [n!"float"] none,
  att n!"phasing" 0 n!"phasing" [n!"int"],
  att n!"point" 0 n!"point" [n!"int"]]⟩

/-- `sidd_v3_0_0.py` L305-354 -/
def FilterKernelCoefType : Class := ⟨n!"sidd300.FilterKernelCoefType", [], sidd300, n!"FilterKernelCoefType", [
  els n!"coef" sidd300 n!"Coef" n!"sidd300.FilterKernelCoefType.Coef",
  att n!"num_rows" 0 n!"numRows" [n!"int"],
  att n!"num_cols" 0 n!"numCols" [n!"int"]]⟩

/-- `sidd_v3_0_0.py` L333-354 -/
def FilterKernelCoefType_Coef : Class := ⟨n!"sidd300.FilterKernelCoefType.Coef", [], sidd300, n!"Coef", [
  text n!"value" [n!"float"] none,
  att n!"row" 0 n!"row" [n!"int"],
  att n!"col" 0 n!"col" [n!"int"]]⟩

/-- `sidd_v3_0_0.py` L383-407 -/
def LayerType : Class := ⟨n!"sidd300.LayerType", [], sidd300, n!"LayerType", [
  val n!"bitrate" sidd300 n!"Bitrate" [n!"float"],
  att n!"index" 0 n!"index" [n!"int"]]⟩

/-- `sidd_v3_0_0.py` L410-430 -/
def Lookup3TableType : Class := ⟨n!"sidd300.Lookup3TableType", [], sidd300, n!"Lookup3TableType", [
  texts n!"value" [n!"str"],
  att n!"size" 0 n!"size" [n!"int"]]⟩

/-- `sidd_v3_0_0.py` L433-452 -/
def LookupTableType : Class := ⟨n!"sidd300.LookupTableType", [], sidd300, n!"LookupTableType", [
  texts n!"value" [n!"int"],
  att n!"lut" 0 n!"lut" [n!"int"]]⟩

/-- `sidd_v3_0_0.py` L475-506 -/
def PredefinedLookupType : Class := ⟨n!"sidd300.PredefinedLookupType", [], sidd300, n!"PredefinedLookupType", [
  val n!"database_name" sidd300 n!"DatabaseName" [n!"str"],
  val n!"remap_family" sidd300 n!"RemapFamily" [n!"int"],
  val n!"remap_member" sidd300 n!"RemapMember" [n!"int"]]⟩

/-- `sidd_v3_0_0.py` L509-553 -/
def ProcessorInformationType : Class := ⟨n!"sidd300.ProcessorInformationType", [], sidd300, n!"ProcessorInformationType", [
  val n!"application" sidd300 n!"Application" [n!"str"],
  val n!"processing_date_time" sidd300 n!"ProcessingDateTime" [n!"XmlDateTime"],
  val n!"site" sidd300 n!"Site" [n!"str"],
  val n!"profile" sidd300 n!"Profile" [n!"str"]]⟩

/-- `sidd_v3_0_0.py` L585-654 -/
def AnnotationObjectType : Class := ⟨n!"sidd300.AnnotationObjectType", [], sidd300, n!"AnnotationObjectType", [
  el n!"point" sidd300 n!"Point" n!"sfa.PointType",
  el n!"line" sidd300 n!"Line" n!"sfa.LineType",
  el n!"linear_ring" sidd300 n!"LinearRing" n!"sfa.LinearRingType",
  el n!"polygon" sidd300 n!"Polygon" n!"sfa.PolygonType",
  el n!"polyhedral_surface" sidd300 n!"PolyhedralSurface" n!"sfa.PolyhedralSurfaceType",
  el n!"multi_polygon" sidd300 n!"MultiPolygon" n!"sfa.MultiPolygonType",
  el n!"multi_line_string" sidd300 n!"MultiLineString" n!"sfa.MultiLineStringType",
  el n!"multi_point" sidd300 n!"MultiPoint" n!"sfa.MultiPointType"]⟩

/-- `sidd_v3_0_0.py` L657-667 -/
def BankCustomType : Class := ⟨n!"sidd300.BankCustomType", [], sidd300, n!"BankCustomType", [
  el n!"filter_coefficients" sidd300 n!"FilterCoefficients" n!"sidd300.FilterBankCoefType"]⟩

/-- `sidd_v3_0_0.py` L670-684 -/
def BaseProjectionType : Class := ⟨n!"sidd300.BaseProjectionType", [], sidd300, n!"BaseProjectionType", [
  el n!"reference_point" sidd300 n!"ReferencePoint" n!"sicommon10.ReferencePointType"]⟩

/-- `sidd_v3_0_0.py` L687-703 -/
def ColorDisplayRemapType : Class := ⟨n!"sidd300.ColorDisplayRemapType", [], sidd300, n!"ColorDisplayRemapType", [
  el n!"remap_lut" sidd300 n!"RemapLUT" n!"sidd300.Lookup3TableType"]⟩

/-- `sidd_v3_0_0.py` L706-750 -/
def ColorManagementModuleType : Class := ⟨n!"sidd300.ColorManagementModuleType", [], sidd300, n!"ColorManagementModuleType", [
  val n!"rendering_intent" sidd300 n!"RenderingIntent" [n!"RenderingIntentType"],
  val n!"source_profile" sidd300 n!"SourceProfile" [n!"str"],
  val n!"display_profile" sidd300 n!"DisplayProfile" [n!"str"],
  val n!"iccprofile_signature" sidd300 n!"ICCProfileSignature" [n!"str"]]⟩

/-- `sidd_v3_0_0.py` L753-798 -/
def DynamicRangeAdjustmentType : Class := ⟨n!"sidd300.DynamicRangeAdjustmentType", [], sidd300, n!"DynamicRangeAdjustmentType", [
  val n!"algorithm_type" sidd300 n!"AlgorithmType" [n!"RangeAdjustmentAlgorithmType"],
  val n!"band_stats_source" sidd300 n!"BandStatsSource" [n!"int"],
  el n!"draparameters" sidd300 n!"DRAParameters" n!"sidd300.DRAParameters",
  el n!"draoverrides" sidd300 n!"DRAOverrides" n!"sidd300.DRAOverrides"]⟩

/-- `sidd_v3_0_0.py` L801-886 -/
def ExploitationFeaturesCollectionGeometryType : Class := ⟨n!"sidd300.ExploitationFeaturesCollectionGeometryType", [], sidd300, n!"ExploitationFeaturesCollectionGeometryType", [
  val n!"azimuth" sidd300 n!"Azimuth" [n!"float"],
  val n!"slope" sidd300 n!"Slope" [n!"float"],
  val n!"squint" sidd300 n!"Squint" [n!"float"],
  val n!"graze" sidd300 n!"Graze" [n!"float"],
  val n!"tilt" sidd300 n!"Tilt" [n!"float"],
  val n!"doppler_cone_angle" sidd300 n!"DopplerConeAngle" [n!"float"],
  els n!"extension" sidd300 n!"Extension" n!"sicommon10.ParameterType"]⟩

/-- `sidd_v3_0_0.py` L889-947 -/
def ExploitationFeaturesCollectionPhenomenologyType : Class := ⟨n!"sidd300.ExploitationFeaturesCollectionPhenomenologyType", [], sidd300, n!"ExploitationFeaturesCollectionPhenomenologyType", [
  el n!"shadow" sidd300 n!"Shadow" n!"sicommon10.AngleZeroToExclusive360MagnitudeType",
  el n!"layover" sidd300 n!"Layover" n!"sicommon10.AngleZeroToExclusive360MagnitudeType",
  val n!"multi_path" sidd300 n!"MultiPath" [n!"float"],
  val n!"ground_track" sidd300 n!"GroundTrack" [n!"float"],
  els n!"extension" sidd300 n!"Extension" n!"sicommon10.ParameterType"]⟩

/-- `sidd_v3_0_0.py` L950-989 -/
def GeographicCoordinatesType : Class := ⟨n!"sidd300.GeographicCoordinatesType", [], sidd300, n!"GeographicCoordinatesType", [
  val n!"longitude_density" sidd300 n!"LongitudeDensity" [n!"float"],
  val n!"latitude_density" sidd300 n!"LatitudeDensity" [n!"float"],
  el n!"reference_origin" sidd300 n!"ReferenceOrigin" n!"sicommon10.LatLonType"]⟩

/-- `sidd_v3_0_0.py` L992-1053 -/
def GeometricChipType : Class := ⟨n!"sidd300.GeometricChipType", [], sidd300, n!"GeometricChipType", [
  el n!"chip_size" sidd300 n!"ChipSize" n!"sicommon10.RowColIntType",
  el n!"original_upper_left_coordinate" sidd300 n!"OriginalUpperLeftCoordinate" n!"sicommon10.RowColDoubleType",
  el n!"original_upper_right_coordinate" sidd300 n!"OriginalUpperRightCoordinate" n!"sicommon10.RowColDoubleType",
  el n!"original_lower_left_coordinate" sidd300 n!"OriginalLowerLeftCoordinate" n!"sicommon10.RowColDoubleType",
  el n!"original_lower_right_coordinate" sidd300 n!"OriginalLowerRightCoordinate" n!"sicommon10.RowColDoubleType"]⟩

/-- `sidd_v3_0_0.py` L1056-1132 -/
def GeopositioningType : Class := ⟨n!"sidd300.GeopositioningType", [], sidd300, n!"GeopositioningType", [
  val n!"coordinate_system_type" sidd300 n!"CoordinateSystemType" [n!"GeopositioningTypeCoordinateSystemType"],
  val n!"geodetic_datum" sidd300 n!"GeodeticDatum" [n!"GeopositioningTypeGeodeticDatum"],
  val n!"reference_ellipsoid" sidd300 n!"ReferenceEllipsoid" [n!"GeopositioningTypeReferenceEllipsoid"],
  val n!"vertical_datum" sidd300 n!"VerticalDatum" [n!"GeopositioningTypeVerticalDatum"],
  val n!"sounding_datum" sidd300 n!"SoundingDatum" [n!"GeopositioningTypeSoundingDatum"],
  val n!"false_origin" sidd300 n!"FalseOrigin" [n!"int"],
  val n!"utmgrid_zone_number" sidd300 n!"UTMGridZoneNumber" [n!"int"]]⟩

/-- `sidd_v3_0_0.py` L1135-1165 -/
def ImageCornersType : Class := ⟨n!"sidd300.ImageCornersType", [], sidd300, n!"ImageCornersType", [
  els n!"icp" sidd300 n!"ICP" n!"sidd300.ImageCornersType.ICP"]⟩

/-- `sidd_v3_0_0.py` L1157-1165 -/
def ImageCornersType_ICP : Class := ⟨n!"sidd300.ImageCornersType.ICP", [n!"sicommon10.LatLonType"], sidd300, n!"ICP", [
  val n!"lat" sicommon10 n!"Lat" [n!"float"],
  val n!"lon" sicommon10 n!"Lon" [n!"float"],
  att n!"index" 0 n!"index" [n!"CornerStringType"]]⟩

/-- `sidd_v3_0_0.py` L1168-1194 -/
def InputROIType : Class := ⟨n!"sidd300.InputROIType", [], sidd300, n!"InputROIType", [
  el n!"size" sidd300 n!"Size" n!"sicommon10.RowColIntType",
  el n!"upper_left" sidd300 n!"UpperLeft" n!"sicommon10.RowColIntType"]⟩

/-- `sidd_v3_0_0.py` L1197-1207 -/
def KernelCustomType : Class := ⟨n!"sidd300.KernelCustomType", [], sidd300, n!"KernelCustomType", [
  el n!"filter_coefficients" sidd300 n!"FilterCoefficients" n!"sidd300.FilterKernelCoefType"]⟩

/-- `sidd_v3_0_0.py` L1210-1235 -/
def LUTInfoType : Class := ⟨n!"sidd300.LUTInfoType", [], sidd300, n!"LUTInfoType", [
  els n!"lutvalues" sidd300 n!"LUTValues" n!"sidd300.LookupTableType",
  att n!"num_luts" 0 n!"numLuts" [n!"int"],
  att n!"size" 0 n!"size" [n!"int"]]⟩

/-- `sidd_v3_0_0.py` L1238-1266 -/
def LayerInfoType : Class := ⟨n!"sidd300.LayerInfoType", [], sidd300, n!"LayerInfoType", [
  els n!"layer" sidd300 n!"Layer" n!"sidd300.LayerType",
  att n!"num_layers" 0 n!"numLayers" [n!"int"]]⟩

/-- `sidd_v3_0_0.py` L1269-1308 -/
def MonochromeDisplayRemapType : Class := ⟨n!"sidd300.MonochromeDisplayRemapType", [], sidd300, n!"MonochromeDisplayRemapType", [
  val n!"remap_type" sidd300 n!"RemapType" [n!"str"],
  els n!"remap_parameter" sidd300 n!"RemapParameter" n!"sicommon10.ParameterType"]⟩

/-- `sidd_v3_0_0.py` L1311-1327 -/
def Orientation : Class := ⟨n!"sidd300.Orientation", [], sidd300, n!"Orientation", [
  val n!"shadow_direction" sidd300 n!"ShadowDirection" [n!"ShadowDirectionType"]]⟩

/-- `sidd_v3_0_0.py` L1330-1359 -/
def PolygonType : Class := ⟨n!"sidd300.PolygonType", [], sidd300, n!"PolygonType", [
  els n!"vertex" sidd300 n!"Vertex" n!"sicommon10.LatLonVertexType",
  att n!"size" 0 n!"size" [n!"int"]]⟩

/-- `sidd_v3_0_0.py` L1362-1399 -/
def PositionalAccuracyType : Class := ⟨n!"sidd300.PositionalAccuracyType", [], sidd300, n!"PositionalAccuracyType", [
  val n!"num_regions" sidd300 n!"NumRegions" [n!"int"],
  el n!"absolute_accuracy" sidd300 n!"AbsoluteAccuracy" n!"sidd300.AccuracyType",
  el n!"point_to_point_accuracy" sidd300 n!"PointToPointAccuracy" n!"sidd300.AccuracyType"]⟩

/-- `sidd_v3_0_0.py` L1402-1427 -/
def PredefinedFilterType : Class := ⟨n!"sidd300.PredefinedFilterType", [], sidd300, n!"PredefinedFilterType", [
  val n!"database_name" sidd300 n!"DatabaseName" [n!"FilterDatabaseNameType"],
  val n!"filter_family" sidd300 n!"FilterFamily" [n!"int"],
  val n!"filter_member" sidd300 n!"FilterMember" [n!"int"]]⟩

/-- `sidd_v3_0_0.py` L1430-1456 -/
def ProcTxRcvPolarizationType : Class := ⟨n!"sidd300.ProcTxRcvPolarizationType", [], sidd300, n!"ProcTxRcvPolarizationType", [
  val n!"tx_polarization_proc" sidd300 n!"TxPolarizationProc" [n!"str", n!"Polarization1Typevalue"],
  val n!"rcv_polarization_proc" sidd300 n!"RcvPolarizationProc" [n!"str", n!"Polarization1Typevalue"]]⟩

/-- `sidd_v3_0_0.py` L1459-1502 -/
def ProcessingEventType : Class := ⟨n!"sidd300.ProcessingEventType", [], sidd300, n!"ProcessingEventType", [
  val n!"application_name" sidd300 n!"ApplicationName" [n!"str"],
  val n!"applied_date_time" sidd300 n!"AppliedDateTime" [n!"XmlDateTime"],
  val n!"interpolation_method" sidd300 n!"InterpolationMethod" [n!"str"],
  els n!"descriptor" sidd300 n!"Descriptor" n!"sicommon10.ParameterType"]⟩

/-- `sidd_v3_0_0.py` L1505-1538 -/
def ProcessingModuleType : Class := ⟨n!"sidd300.ProcessingModuleType", [], sidd300, n!"ProcessingModuleType", [
  el n!"module_name" sidd300 n!"ModuleName" n!"sicommon10.ParameterType",
  els n!"module_parameter" sidd300 n!"ModuleParameter" n!"sicommon10.ParameterType",
  els n!"processing_module" sidd300 n!"ProcessingModule" n!"sidd300.ProcessingModuleType"]⟩

/-- `sidd_v3_0_0.py` L1541-1883 -/
def ProductClassificationType : Class := ⟨n!"sidd300.ProductClassificationType", [], sidd300, n!"ProductClassificationType", [
  els n!"security_extension" sidd300 n!"SecurityExtension" n!"sicommon10.ParameterType",
  att n!"desversion" ism13 n!"DESVersion" [n!"str"],
  att n!"ismcatcesversion" ism13 n!"ISMCATCESVersion" [n!"str"],
  att n!"resource_element" ism13 n!"resourceElement" [n!"bool"],
  atts n!"complies_with" ism13 n!"compliesWith" [n!"CVEnumISMCompliesWithValues"],
  att n!"create_date" ism13 n!"createDate" [n!"XmlDate"],
  atts n!"exempt_from" ism13 n!"exemptFrom" [n!"CVEnumISMExemptFromValues"],
  att n!"classification" ism13 n!"classification" [n!"CVEnumISMClassificationAll"],
  atts n!"owner_producer" ism13 n!"ownerProducer" [n!"str", n!"CVEnumISMCATOwnerProducerValuesvalue"],
  att n!"joint" ism13 n!"joint" [n!"bool"],
  atts n!"scicontrols" ism13 n!"SCIcontrols" [n!"str", n!"CVEnumISMSCIControlsValuesvalue"],
  atts n!"saridentifier" ism13 n!"SARIdentifier" [n!"str"],
  atts n!"atomic_energy_markings" ism13 n!"atomicEnergyMarkings" [n!"str", n!"CVEnumISMatomicEnergyMarkingsValuesvalue"],
  atts n!"dissemination_controls" ism13 n!"disseminationControls" [n!"CVEnumISMDissemValues"],
  atts n!"display_only_to" ism13 n!"displayOnlyTo" [n!"str", n!"CVEnumISMCATRelToValuesvalue"],
  atts n!"fgisource_open" ism13 n!"FGIsourceOpen" [n!"str", n!"CVEnumISMCATFGIOpenValuesvalue"],
  atts n!"fgisource_protected" ism13 n!"FGIsourceProtected" [n!"str", n!"CVEnumISMCATFGIProtectedValuesvalue"],
  atts n!"releasable_to" ism13 n!"releasableTo" [n!"str", n!"CVEnumISMCATRelToValuesvalue"],
  atts n!"non_icmarkings" ism13 n!"nonICmarkings" [n!"str", n!"CVEnumISMNonICValuesvalue"],
  att n!"classified_by" ism13 n!"classifiedBy" [n!"str"],
  att n!"compilation_reason" ism13 n!"compilationReason" [n!"str"],
  att n!"derivatively_classified_by" ism13 n!"derivativelyClassifiedBy" [n!"str"],
  att n!"classification_reason" ism13 n!"classificationReason" [n!"str"],
  atts n!"non_uscontrols" ism13 n!"nonUSControls" [n!"CVEnumISMNonUSControlsValues"],
  att n!"derived_from" ism13 n!"derivedFrom" [n!"str"],
  att n!"declass_date" ism13 n!"declassDate" [n!"XmlDate"],
  att n!"declass_event" ism13 n!"declassEvent" [n!"str"],
  att n!"declass_exception" ism13 n!"declassException" [n!"CVEnumISM25X"],
  atts n!"notice_type" ism13 n!"noticeType" [n!"CVEnumISMNoticeValues"],
  att n!"notice_reason" ism13 n!"noticeReason" [n!"str"],
  att n!"notice_date" ism13 n!"noticeDate" [n!"XmlDate"],
  att n!"unregistered_notice_type" ism13 n!"unregisteredNoticeType" [n!"str"],
  att n!"external_notice" ism13 n!"externalNotice" [n!"bool"]]⟩

/-- `sidd_v3_0_0.py` L1886-1914 -/
def ProductPlaneType : Class := ⟨n!"sidd300.ProductPlaneType", [], sidd300, n!"ProductPlaneType", [
  el n!"row_unit_vector" sidd300 n!"RowUnitVector" n!"sicommon10.XYZType",
  el n!"col_unit_vector" sidd300 n!"ColUnitVector" n!"sicommon10.XYZType"]⟩

/-- `sidd_v3_0_0.py` L1917-1954 -/
def TxRcvPolarizationType : Class := ⟨n!"sidd300.TxRcvPolarizationType", [], sidd300, n!"TxRcvPolarizationType", [
  val n!"tx_polarization" sidd300 n!"TxPolarization" [n!"str", n!"Polarization1Typevalue"],
  val n!"rcv_polarization" sidd300 n!"RcvPolarization" [n!"str", n!"Polarization1Typevalue"],
  val n!"rcv_polarization_offset" sidd300 n!"RcvPolarizationOffset" [n!"float"]]⟩

/-- `sidd_v3_0_0.py` L1957-1986 -/
def ValidDataType : Class := ⟨n!"sidd300.ValidDataType", [], sidd300, n!"ValidDataType", [
  els n!"vertex" sidd300 n!"Vertex" n!"sicommon10.RowColVertexType",
  att n!"size" 0 n!"size" [n!"int"]]⟩

/-- `sidd_v3_0_0.py` L1989-2027 -/
def AnnotationType : Class := ⟨n!"sidd300.AnnotationType", [], sidd300, n!"AnnotationType", [
  val n!"identifier" sidd300 n!"Identifier" [n!"str"],
  el n!"spatial_reference_system" sidd300 n!"SpatialReferenceSystem" n!"sfa.ReferenceSystemType",
  els n!"object_value" sidd300 n!"Object" n!"sidd300.AnnotationObjectType"]⟩

/-- `sidd_v3_0_0.py` L2030-2044 -/
def ColorSpaceTransformType : Class := ⟨n!"sidd300.ColorSpaceTransformType", [], sidd300, n!"ColorSpaceTransformType", [
  el n!"color_management_module" sidd300 n!"ColorManagementModule" n!"sidd300.ColorManagementModuleType"]⟩

/-- `sidd_v3_0_0.py` L2047-2057 -/
def CustomLookupType : Class := ⟨n!"sidd300.CustomLookupType", [], sidd300, n!"CustomLookupType", [
  el n!"lutinfo" sidd300 n!"LUTInfo" n!"sidd300.LUTInfoType"]⟩

/-- `sidd_v3_0_0.py` L2060-2107 -/
def DigitalElevationDataType : Class := ⟨n!"sidd300.DigitalElevationDataType", [], sidd300, n!"DigitalElevationDataType", [
  el n!"geographic_coordinates" sidd300 n!"GeographicCoordinates" n!"sidd300.GeographicCoordinatesType",
  el n!"geopositioning" sidd300 n!"Geopositioning" n!"sidd300.GeopositioningType",
  el n!"positional_accuracy" sidd300 n!"PositionalAccuracy" n!"sidd300.PositionalAccuracyType",
  val n!"null_value" sidd300 n!"NullValue" [n!"int"]]⟩

/-- `sidd_v3_0_0.py` L2110-2132 -/
def DownstreamReprocessingType : Class := ⟨n!"sidd300.DownstreamReprocessingType", [], sidd300, n!"DownstreamReprocessingType", [
  el n!"geometric_chip" sidd300 n!"GeometricChip" n!"sidd300.GeometricChipType",
  els n!"processing_event" sidd300 n!"ProcessingEvent" n!"sidd300.ProcessingEventType"]⟩

/-- `sidd_v3_0_0.py` L2135-2219 -/
def ExploitationFeaturesCollectionInformationType : Class := ⟨n!"sidd300.ExploitationFeaturesCollectionInformationType", [], sidd300, n!"ExploitationFeaturesCollectionInformationType", [
  val n!"sensor_name" sidd300 n!"SensorName" [n!"str"],
  el n!"radar_mode" sidd300 n!"RadarMode" n!"sicommon10.RadarModeType",
  val n!"collection_date_time" sidd300 n!"CollectionDateTime" [n!"XmlDateTime"],
  val n!"local_date_time" sidd300 n!"LocalDateTime" [n!"XmlDateTime"],
  val n!"collection_duration" sidd300 n!"CollectionDuration" [n!"float"],
  el n!"resolution" sidd300 n!"Resolution" n!"sicommon10.RangeAzimuthType",
  el n!"input_roi" sidd300 n!"InputROI" n!"sidd300.InputROIType",
  els n!"polarization" sidd300 n!"Polarization" n!"sidd300.TxRcvPolarizationType"]⟩

/-- `sidd_v3_0_0.py` L2222-2279 -/
def ExploitationFeaturesProductType : Class := ⟨n!"sidd300.ExploitationFeaturesProductType", [], sidd300, n!"ExploitationFeaturesProductType", [
  el n!"resolution" sidd300 n!"Resolution" n!"sicommon10.RowColDoubleType",
  val n!"ellipticity" sidd300 n!"Ellipticity" [n!"float"],
  els n!"polarization" sidd300 n!"Polarization" n!"sidd300.ProcTxRcvPolarizationType",
  val n!"north" sidd300 n!"North" [n!"float"],
  els n!"extension" sidd300 n!"Extension" n!"sicommon10.ParameterType"]⟩

/-- `sidd_v3_0_0.py` L2282-2299 -/
def FilterBankType : Class := ⟨n!"sidd300.FilterBankType", [], sidd300, n!"FilterBankType", [
  el n!"predefined" sidd300 n!"Predefined" n!"sidd300.PredefinedFilterType",
  el n!"custom" sidd300 n!"Custom" n!"sidd300.BankCustomType"]⟩

/-- `sidd_v3_0_0.py` L2302-2319 -/
def FilterKernelType : Class := ⟨n!"sidd300.FilterKernelType", [], sidd300, n!"FilterKernelType", [
  el n!"predefined" sidd300 n!"Predefined" n!"sidd300.PredefinedFilterType",
  el n!"custom" sidd300 n!"Custom" n!"sidd300.KernelCustomType"]⟩

/-- `sidd_v3_0_0.py` L2322-2358 -/
def GeoDataType : Class := ⟨n!"sidd300.GeoDataType", [], sidd300, n!"GeoDataType", [
  val n!"earth_model" sidd300 n!"EarthModel" [n!"EarthModelType"],
  el n!"image_corners" sidd300 n!"ImageCorners" n!"sidd300.ImageCornersType",
  el n!"valid_data" sidd300 n!"ValidData" n!"sidd300.PolygonType",
  els n!"geo_info" sicommon10 n!"GeoInfo" n!"sicommon10.GeoInfo"]⟩

/-- `sidd_v3_0_0.py` L2361-2396 -/
def J2KSubtype : Class := ⟨n!"sidd300.J2KSubtype", [], sidd300, n!"J2KSubtype", [
  val n!"num_wavelet_levels" sidd300 n!"NumWaveletLevels" [n!"int"],
  val n!"num_bands" sidd300 n!"NumBands" [n!"int"],
  el n!"layer_info" sidd300 n!"LayerInfo" n!"sidd300.LayerInfoType"]⟩

/-- `sidd_v3_0_0.py` L2399-2424 -/
def MeasurableProjectionType : Class := ⟨n!"sidd300.MeasurableProjectionType", [n!"sidd300.BaseProjectionType"], sidd300, n!"MeasurableProjectionType", [
  el n!"reference_point" sidd300 n!"ReferencePoint" n!"sicommon10.ReferencePointType",
  el n!"sample_spacing" sidd300 n!"SampleSpacing" n!"sicommon10.RowColDoubleType",
  el n!"time_coapoly" sidd300 n!"TimeCOAPoly" n!"sicommon10.Poly2DType"]⟩

/-- `sidd_v3_0_0.py` L2427-2485 -/
def PolynomialProjectionType : Class := ⟨n!"sidd300.PolynomialProjectionType", [n!"sidd300.BaseProjectionType"], sidd300, n!"PolynomialProjectionType", [
  el n!"reference_point" sidd300 n!"ReferencePoint" n!"sicommon10.ReferencePointType",
  el n!"row_col_to_lat" sidd300 n!"RowColToLat" n!"sicommon10.Poly2DType",
  el n!"row_col_to_lon" sidd300 n!"RowColToLon" n!"sicommon10.Poly2DType",
  el n!"row_col_to_alt" sidd300 n!"RowColToAlt" n!"sicommon10.Poly2DType",
  el n!"lat_lon_to_row" sidd300 n!"LatLonToRow" n!"sicommon10.Poly2DType",
  el n!"lat_lon_to_col" sidd300 n!"LatLonToCol" n!"sicommon10.Poly2DType"]⟩

/-- `sidd_v3_0_0.py` L2488-2555 -/
def ProductCreationType : Class := ⟨n!"sidd300.ProductCreationType", [], sidd300, n!"ProductCreationType", [
  el n!"processor_information" sidd300 n!"ProcessorInformation" n!"sidd300.ProcessorInformationType",
  el n!"classification" sidd300 n!"Classification" n!"sidd300.ProductClassificationType",
  val n!"product_name" sidd300 n!"ProductName" [n!"str"],
  val n!"product_class" sidd300 n!"ProductClass" [n!"str"],
  val n!"product_type" sidd300 n!"ProductType" [n!"str"],
  els n!"product_creation_extension" sidd300 n!"ProductCreationExtension" n!"sicommon10.ParameterType"]⟩

/-- `sidd_v3_0_0.py` L2558-2576 -/
def ProductProcessingType : Class := ⟨n!"sidd300.ProductProcessingType", [], sidd300, n!"ProductProcessingType", [
  els n!"processing_module" sidd300 n!"ProcessingModule" n!"sidd300.ProcessingModuleType"]⟩

/-- `sidd_v3_0_0.py` L2579-2601 -/
def RemapChoiceType : Class := ⟨n!"sidd300.RemapChoiceType", [], sidd300, n!"RemapChoiceType", [
  el n!"color_display_remap" sidd300 n!"ColorDisplayRemap" n!"sidd300.ColorDisplayRemapType",
  el n!"monochrome_display_remap" sidd300 n!"MonochromeDisplayRemap" n!"sidd300.MonochromeDisplayRemapType"]⟩

/-- `sidd_v3_0_0.py` L2604-2618 -/
def AnnotationsType : Class := ⟨n!"sidd300.AnnotationsType", [], sidd300, n!"AnnotationsType", [
  els n!"annotation" sidd300 n!"Annotation" n!"sidd300.AnnotationType"]⟩

/-- `sidd_v3_0_0.py` L2621-2647 -/
def CylindricalProjectionType : Class := ⟨n!"sidd300.CylindricalProjectionType", [n!"sidd300.MeasurableProjectionType", n!"sidd300.BaseProjectionType"], sidd300, n!"CylindricalProjectionType", [
  el n!"reference_point" sidd300 n!"ReferencePoint" n!"sicommon10.ReferencePointType",
  el n!"sample_spacing" sidd300 n!"SampleSpacing" n!"sicommon10.RowColDoubleType",
  el n!"time_coapoly" sidd300 n!"TimeCOAPoly" n!"sicommon10.Poly2DType",
  el n!"stripmap_direction" sidd300 n!"StripmapDirection" n!"sicommon10.XYZType",
  val n!"curvature_radius" sidd300 n!"CurvatureRadius" [n!"float"]]⟩

/-- `sidd_v3_0_0.py` L2650-2682 -/
def ExploitationFeaturesCollectionType : Class := ⟨n!"sidd300.ExploitationFeaturesCollectionType", [], sidd300, n!"ExploitationFeaturesCollectionType", [
  el n!"information" sidd300 n!"Information" n!"sidd300.ExploitationFeaturesCollectionInformationType",
  el n!"geometry" sidd300 n!"Geometry" n!"sidd300.ExploitationFeaturesCollectionGeometryType",
  el n!"phenomenology" sidd300 n!"Phenomenology" n!"sidd300.ExploitationFeaturesCollectionPhenomenologyType"]⟩

/-- `sidd_v3_0_0.py` L2685-2720 -/
def FilterType : Class := ⟨n!"sidd300.FilterType", [], sidd300, n!"FilterType", [
  val n!"filter_name" sidd300 n!"FilterName" [n!"str"],
  el n!"filter_kernel" sidd300 n!"FilterKernel" n!"sidd300.FilterKernelType",
  el n!"filter_bank" sidd300 n!"FilterBank" n!"sidd300.FilterBankType",
  val n!"operation" sidd300 n!"Operation" [n!"FilterOperationType"]]⟩

/-- `sidd_v3_0_0.py` L2723-2727 -/
def GeographicProjectionType : Class := ⟨n!"sidd300.GeographicProjectionType", [n!"sidd300.MeasurableProjectionType", n!"sidd300.BaseProjectionType"], sidd300, n!"GeographicProjectionType", [
  el n!"reference_point" sidd300 n!"ReferencePoint" n!"sicommon10.ReferencePointType",
  el n!"sample_spacing" sidd300 n!"SampleSpacing" n!"sicommon10.RowColDoubleType",
  el n!"time_coapoly" sidd300 n!"TimeCOAPoly" n!"sicommon10.Poly2DType"]⟩

/-- `sidd_v3_0_0.py` L2730-2753 -/
def J2KType : Class := ⟨n!"sidd300.J2KType", [], sidd300, n!"J2KType", [
  el n!"original" sidd300 n!"Original" n!"sidd300.J2KSubtype",
  el n!"parsed" sidd300 n!"Parsed" n!"sidd300.J2KSubtype"]⟩

/-- `sidd_v3_0_0.py` L2756-2782 -/
def NewLookupTableType : Class := ⟨n!"sidd300.NewLookupTableType", [], sidd300, n!"NewLookupTableType", [
  val n!"lutname" sidd300 n!"LUTName" [n!"str"],
  el n!"predefined" sidd300 n!"Predefined" n!"sidd300.PredefinedLookupType",
  el n!"custom" sidd300 n!"Custom" n!"sidd300.CustomLookupType"]⟩

/-- `sidd_v3_0_0.py` L2785-2801 -/
def PlaneProjectionType : Class := ⟨n!"sidd300.PlaneProjectionType", [n!"sidd300.MeasurableProjectionType", n!"sidd300.BaseProjectionType"], sidd300, n!"PlaneProjectionType", [
  el n!"reference_point" sidd300 n!"ReferencePoint" n!"sicommon10.ReferencePointType",
  el n!"sample_spacing" sidd300 n!"SampleSpacing" n!"sicommon10.RowColDoubleType",
  el n!"time_coapoly" sidd300 n!"TimeCOAPoly" n!"sicommon10.Poly2DType",
  el n!"product_plane" sidd300 n!"ProductPlane" n!"sidd300.ProductPlaneType"]⟩

/-- `sidd_v3_0_0.py` L2804-2842 -/
def BandEqualizationType : Class := ⟨n!"sidd300.BandEqualizationType", [], sidd300, n!"BandEqualizationType", [
  val n!"algorithm" sidd300 n!"Algorithm" [n!"EqualizationAlgorithmType"],
  els n!"band_lut" sidd300 n!"BandLUT" n!"sidd300.BandEqualizationType.BandLUT"]⟩

/-- `sidd_v3_0_0.py` L2834-2842 -/
def BandEqualizationType_BandLUT : Class := ⟨n!"sidd300.BandEqualizationType.BandLUT", [n!"sidd300.NewLookupTableType"], sidd300, n!"BandLUT", [
  val n!"lutname" sidd300 n!"LUTName" [n!"str"],
  el n!"predefined" sidd300 n!"Predefined" n!"sidd300.PredefinedLookupType",
  el n!"custom" sidd300 n!"Custom" n!"sidd300.CustomLookupType",
  att n!"k" 0 n!"k" [n!"int"]]⟩

/-- `sidd_v3_0_0.py` L2845-2862 -/
def CompressionType : Class := ⟨n!"sidd300.CompressionType", [], sidd300, n!"CompressionType", [
  el n!"j2_k" sidd300 n!"J2K" n!"sidd300.J2KType"]⟩

/-- `sidd_v3_0_0.py` L2865-2901 -/
def ExploitationFeaturesType : Class := ⟨n!"sidd300.ExploitationFeaturesType", [], sidd300, n!"ExploitationFeaturesType", [
  els n!"collection" sidd300 n!"Collection" n!"sidd300.ExploitationFeaturesType.Collection",
  els n!"product" sidd300 n!"Product" n!"sidd300.ExploitationFeaturesProductType"]⟩

/-- `sidd_v3_0_0.py` L2893-2901 -/
def ExploitationFeaturesType_Collection : Class := ⟨n!"sidd300.ExploitationFeaturesType.Collection", [n!"sidd300.ExploitationFeaturesCollectionType"], sidd300, n!"Collection", [
  el n!"information" sidd300 n!"Information" n!"sidd300.ExploitationFeaturesCollectionInformationType",
  el n!"geometry" sidd300 n!"Geometry" n!"sidd300.ExploitationFeaturesCollectionGeometryType",
  el n!"phenomenology" sidd300 n!"Phenomenology" n!"sidd300.ExploitationFeaturesCollectionPhenomenologyType",
  att n!"identifier" 0 n!"identifier" [n!"str"]]⟩

/-- `sidd_v3_0_0.py` L2904-2992 -/
def MeasurementType : Class := ⟨n!"sidd300.MeasurementType", [], sidd300, n!"MeasurementType", [
  el n!"polynomial_projection" sidd300 n!"PolynomialProjection" n!"sidd300.PolynomialProjectionType",
  el n!"geographic_projection" sidd300 n!"GeographicProjection" n!"sidd300.GeographicProjectionType",
  el n!"plane_projection" sidd300 n!"PlaneProjection" n!"sidd300.PlaneProjectionType",
  el n!"cylindrical_projection" sidd300 n!"CylindricalProjection" n!"sidd300.CylindricalProjectionType",
  el n!"pixel_footprint" sidd300 n!"PixelFootprint" n!"sicommon10.RowColIntType",
  val n!"arpflag" sidd300 n!"ARPFlag" [n!"MeasurementTypeARPFlag"],
  el n!"arppoly" sidd300 n!"ARPPoly" n!"sicommon10.XYZPolyType",
  el n!"valid_data" sidd300 n!"ValidData" n!"sidd300.ValidDataType"]⟩

/-- `sidd_v3_0_0.py` L2995-3027 -/
def RRDSType : Class := ⟨n!"sidd300.RRDSType", [], sidd300, n!"RRDSType", [
  val n!"downsampling_method" sidd300 n!"DownsamplingMethod" [n!"DownsamplingMethodType"],
  el n!"anti_alias" sidd300 n!"AntiAlias" n!"sidd300.FilterType",
  el n!"interpolation" sidd300 n!"Interpolation" n!"sidd300.FilterType"]⟩

/-- `sidd_v3_0_0.py` L3030-3056 -/
def ScalingType : Class := ⟨n!"sidd300.ScalingType", [], sidd300, n!"ScalingType", [
  el n!"anti_alias" sidd300 n!"AntiAlias" n!"sidd300.FilterType",
  el n!"interpolation" sidd300 n!"Interpolation" n!"sidd300.FilterType"]⟩

/-- `sidd_v3_0_0.py` L3059-3083 -/
def SharpnessEnhancementType : Class := ⟨n!"sidd300.SharpnessEnhancementType", [], sidd300, n!"SharpnessEnhancementType", [
  el n!"modular_transfer_function_compensation" sidd300 n!"ModularTransferFunctionCompensation" n!"sidd300.FilterType",
  el n!"modular_transfer_function_enhancement" sidd300 n!"ModularTransferFunctionEnhancement" n!"sidd300.FilterType"]⟩

/-- `sidd_v3_0_0.py` L3086-3110 -/
def GeometricTransformType : Class := ⟨n!"sidd300.GeometricTransformType", [], sidd300, n!"GeometricTransformType", [
  el n!"scaling" sidd300 n!"Scaling" n!"sidd300.ScalingType",
  el n!"orientation" sidd300 n!"Orientation" n!"sidd300.Orientation"]⟩

/-- `sidd_v3_0_0.py` L3113-3159 -/
def ProductGenerationOptionsType : Class := ⟨n!"sidd300.ProductGenerationOptionsType", [], sidd300, n!"ProductGenerationOptionsType", [
  el n!"band_equalization" sidd300 n!"BandEqualization" n!"sidd300.BandEqualizationType",
  el n!"modular_transfer_function_restoration" sidd300 n!"ModularTransferFunctionRestoration" n!"sidd300.FilterType",
  el n!"data_remapping" sidd300 n!"DataRemapping" n!"sidd300.NewLookupTableType",
  el n!"asymmetric_pixel_correction" sidd300 n!"AsymmetricPixelCorrection" n!"sidd300.FilterType"]⟩

/-- `sidd_v3_0_0.py` L3162-3226 -/
def InteractiveProcessingType : Class := ⟨n!"sidd300.InteractiveProcessingType", [], sidd300, n!"InteractiveProcessingType", [
  el n!"geometric_transform" sidd300 n!"GeometricTransform" n!"sidd300.GeometricTransformType",
  el n!"sharpness_enhancement" sidd300 n!"SharpnessEnhancement" n!"sidd300.SharpnessEnhancementType",
  el n!"color_space_transform" sidd300 n!"ColorSpaceTransform" n!"sidd300.ColorSpaceTransformType",
  el n!"dynamic_range_adjustment" sidd300 n!"DynamicRangeAdjustment" n!"sidd300.DynamicRangeAdjustmentType",
  el n!"tonal_transfer_curve" sidd300 n!"TonalTransferCurve" n!"sidd300.NewLookupTableType",
  att n!"band" 0 n!"band" [n!"int"]]⟩

/-- `sidd_v3_0_0.py` L3229-3263 -/
def NonInteractiveProcessingType : Class := ⟨n!"sidd300.NonInteractiveProcessingType", [], sidd300, n!"NonInteractiveProcessingType", [
  el n!"product_generation_options" sidd300 n!"ProductGenerationOptions" n!"sidd300.ProductGenerationOptionsType",
  el n!"rrds" sidd300 n!"RRDS" n!"sidd300.RRDSType",
  att n!"band" 0 n!"band" [n!"int"]]⟩

/-- `sidd_v3_0_0.py` L3266-3333 -/
def ProductDisplayType : Class := ⟨n!"sidd300.ProductDisplayType", [], sidd300, n!"ProductDisplayType", [
  val n!"pixel_type" sidd300 n!"PixelType" [n!"PixelType"],
  val n!"num_bands" sidd300 n!"NumBands" [n!"int"],
  val n!"default_band_display" sidd300 n!"DefaultBandDisplay" [n!"int"],
  els n!"non_interactive_processing" sidd300 n!"NonInteractiveProcessing" n!"sidd300.NonInteractiveProcessingType",
  els n!"interactive_processing" sidd300 n!"InteractiveProcessing" n!"sidd300.InteractiveProcessingType",
  els n!"display_extension" sidd300 n!"DisplayExtension" n!"sicommon10.ParameterType"]⟩

/-- `sidd_v3_0_0.py` L3336-3456 -/
def SIDD : Class := ⟨n!"sidd300.SIDD", [], sidd300, n!"SIDD", [
  el n!"product_creation" sidd300 n!"ProductCreation" n!"sidd300.ProductCreationType",
  el n!"display" sidd300 n!"Display" n!"sidd300.ProductDisplayType",
  el n!"geo_data" sidd300 n!"GeoData" n!"sidd300.GeoDataType",
  el n!"measurement" sidd300 n!"Measurement" n!"sidd300.MeasurementType",
  el n!"exploitation_features" sidd300 n!"ExploitationFeatures" n!"sidd300.ExploitationFeaturesType",
  el n!"downstream_reprocessing" sidd300 n!"DownstreamReprocessing" n!"sidd300.DownstreamReprocessingType",
  el n!"error_statistics" sidd300 n!"ErrorStatistics" n!"sicommon10.ErrorStatisticsType",
  el n!"radiometric" sidd300 n!"Radiometric" n!"sicommon10.RadiometricType",
  el n!"match_info" sidd300 n!"MatchInfo" n!"sicommon10.MatchInfoType",
  el n!"compression" sidd300 n!"Compression" n!"sidd300.CompressionType",
  el n!"digital_elevation_data" sidd300 n!"DigitalElevationData" n!"sidd300.DigitalElevationDataType",
  el n!"product_processing" sidd300 n!"ProductProcessing" n!"sidd300.ProductProcessingType",
  el n!"annotations" sidd300 n!"Annotations" n!"sidd300.AnnotationsType"]⟩

/-- The dataclasses of `sidd_v3_0_0.py` (its enumerations are types of text). -/
def classes : List Class := [
  AccuracyType, AcheivedResolutionType, ClassificationGuidanceType, DRAHistogramOverridesType, DRAOverrides, DRAParameters, FilterBankCoefType,
  FilterBankCoefType_Coef, FilterKernelCoefType, FilterKernelCoefType_Coef, LayerType, Lookup3TableType, LookupTableType, PredefinedLookupType,
  ProcessorInformationType, AnnotationObjectType, BankCustomType, BaseProjectionType, ColorDisplayRemapType, ColorManagementModuleType,
  DynamicRangeAdjustmentType, ExploitationFeaturesCollectionGeometryType, ExploitationFeaturesCollectionPhenomenologyType, GeographicCoordinatesType,
  GeometricChipType, GeopositioningType, ImageCornersType, ImageCornersType_ICP, InputROIType, KernelCustomType, LUTInfoType, LayerInfoType,
  MonochromeDisplayRemapType, Orientation, PolygonType, PositionalAccuracyType, PredefinedFilterType, ProcTxRcvPolarizationType, ProcessingEventType,
  ProcessingModuleType, ProductClassificationType, ProductPlaneType, TxRcvPolarizationType, ValidDataType, AnnotationType, ColorSpaceTransformType,
  CustomLookupType, DigitalElevationDataType, DownstreamReprocessingType, ExploitationFeaturesCollectionInformationType,
  ExploitationFeaturesProductType, FilterBankType, FilterKernelType, GeoDataType, J2KSubtype, MeasurableProjectionType, PolynomialProjectionType,
  ProductCreationType, ProductProcessingType, RemapChoiceType, AnnotationsType, CylindricalProjectionType, ExploitationFeaturesCollectionType,
  FilterType, GeographicProjectionType, J2KType, NewLookupTableType, PlaneProjectionType, BandEqualizationType, BandEqualizationType_BandLUT,
  CompressionType, ExploitationFeaturesType, ExploitationFeaturesType_Collection, MeasurementType, RRDSType, ScalingType, SharpnessEnhancementType,
  GeometricTransformType, ProductGenerationOptionsType, InteractiveProcessingType, NonInteractiveProcessingType, ProductDisplayType, SIDD]

end Verif.Schema.Sidd300
