import Verif.Model.Xsdata

/-!
# The dataclasses of `formats/sidd/models/sidd_v2_0_0.py`

Written by `tools/gen_schema.py` from the text of the module; the comment of a class gives the lines of its declaration, and fields of a base class come first, as in Python.
Ranges, lengths, patterns and occurrence counts are left out: xsdata does not check them when it reads or writes.
-/

namespace Verif.Schema.Sidd200

open Verif.Xsdata Verif.Xsdata.Field Verif.Xsdata.Namespace

/-- `sidd_v2_0_0.py` L58-77 -/
def AccuracyType : Class := ⟨n!"sidd200.AccuracyType", [], sidd200, n!"AccuracyType", [
  vals n!"horizontal" sidd200 n!"Horizontal" [n!"float"],
  vals n!"vertical" sidd200 n!"Vertical" [n!"float"]]⟩

/-- `sidd_v2_0_0.py` L80-84 -/
def AcheivedResolutionType : Class := ⟨n!"sidd200.AcheivedResolutionType", [], sidd200, n!"AcheivedResolutionType", []⟩

/-- `sidd_v2_0_0.py` L87-113 -/
def ClassificationGuidanceType : Class := ⟨n!"sidd200.ClassificationGuidanceType", [], sidd200, n!"ClassificationGuidanceType", [
  val n!"authority" sidd200 n!"Authority" [n!"str"],
  val n!"date" sidd200 n!"Date" [n!"XmlDate"]]⟩

/-- `sidd_v2_0_0.py` L116-142 -/
def DRAHistogramOverridesType : Class := ⟨n!"sidd200.DRAHistogramOverridesType", [], sidd200, n!"DRAHistogramOverridesType", [
  val n!"clip_min" sidd200 n!"ClipMin" [n!"int"],
  val n!"clip_max" sidd200 n!"ClipMax" [n!"int"]]⟩

/-- `sidd_v2_0_0.py` L145-169 -/
def DRAOverrides : Class := ⟨n!"sidd200.DRAOverrides", [], sidd200, n!"DRAOverrides", [
  val n!"subtractor" sidd200 n!"Subtractor" [n!"float"],
  val n!"multiplier" sidd200 n!"Multiplier" [n!"float"]]⟩

/-- `sidd_v2_0_0.py` L172-220 -/
def DRAParameters : Class := ⟨n!"sidd200.DRAParameters", [], sidd200, n!"DRAParameters", [
  val n!"pmin" sidd200 n!"Pmin" [n!"float"],
  val n!"pmax" sidd200 n!"Pmax" [n!"float"],
  val n!"emin_modifier" sidd200 n!"EminModifier" [n!"float"],
  val n!"emax_modifier" sidd200 n!"EmaxModifier" [n!"float"]]⟩

/-- `sidd_v2_0_0.py` L246-295 -/
def FilterBankCoefType : Class := ⟨n!"sidd200.FilterBankCoefType", [], sidd200, n!"FilterBankCoefType", [
  els n!"coef" sidd200 n!"Coef" n!"sidd200.FilterBankCoefType.Coef",
  att n!"num_phasings" 0 n!"numPhasings" [n!"int"],
  att n!"num_points" 0 n!"numPoints" [n!"int"]]⟩

/-- `sidd_v2_0_0.py` L274-295 -/
def FilterBankCoefType_Coef : Class := ⟨n!"sidd200.FilterBankCoefType.Coef", [], sidd200, n!"Coef", [
  text n!"value" [n!"float"] none,
  att n!"phasing" 0 n!"phasing" [n!"int"],
  att n!"point" 0 n!"point" [n!"int"]]⟩

/-- `sidd_v2_0_0.py` L305-354 -/
def FilterKernelCoefType : Class := ⟨n!"sidd200.FilterKernelCoefType", [], sidd200, n!"FilterKernelCoefType", [
  els n!"coef" sidd200 n!"Coef" n!"sidd200.FilterKernelCoefType.Coef",
  att n!"num_rows" 0 n!"numRows" [n!"int"],
  att n!"num_cols" 0 n!"numCols" [n!"int"]]⟩

/-- `sidd_v2_0_0.py` L333-354 -/
def FilterKernelCoefType_Coef : Class := ⟨n!"sidd200.FilterKernelCoefType.Coef", [], sidd200, n!"Coef", [
  text n!"value" [n!"float"] none,
  att n!"row" 0 n!"row" [n!"int"],
  att n!"col" 0 n!"col" [n!"int"]]⟩

/-- `sidd_v2_0_0.py` L383-407 -/
def LayerType : Class := ⟨n!"sidd200.LayerType", [], sidd200, n!"LayerType", [
  val n!"bitrate" sidd200 n!"Bitrate" [n!"float"],
  att n!"index" 0 n!"index" [n!"int"]]⟩

/-- `sidd_v2_0_0.py` L410-430 -/
def Lookup3TableType : Class := ⟨n!"sidd200.Lookup3TableType", [], sidd200, n!"Lookup3TableType", [
  texts n!"value" [n!"str"],
  att n!"size" 0 n!"size" [n!"int"]]⟩

/-- `sidd_v2_0_0.py` L433-452 -/
def LookupTableType : Class := ⟨n!"sidd200.LookupTableType", [], sidd200, n!"LookupTableType", [
  texts n!"value" [n!"int"],
  att n!"lut" 0 n!"lut" [n!"int"]]⟩

/-- `sidd_v2_0_0.py` L475-506 -/
def PredefinedLookupType : Class := ⟨n!"sidd200.PredefinedLookupType", [], sidd200, n!"PredefinedLookupType", [
  val n!"database_name" sidd200 n!"DatabaseName" [n!"str"],
  val n!"remap_family" sidd200 n!"RemapFamily" [n!"int"],
  val n!"remap_member" sidd200 n!"RemapMember" [n!"int"]]⟩

/-- `sidd_v2_0_0.py` L509-553 -/
def ProcessorInformationType : Class := ⟨n!"sidd200.ProcessorInformationType", [], sidd200, n!"ProcessorInformationType", [
  val n!"application" sidd200 n!"Application" [n!"str"],
  val n!"processing_date_time" sidd200 n!"ProcessingDateTime" [n!"XmlDateTime"],
  val n!"site" sidd200 n!"Site" [n!"str"],
  val n!"profile" sidd200 n!"Profile" [n!"str"]]⟩

/-- `sidd_v2_0_0.py` L585-654 -/
def AnnotationObjectType : Class := ⟨n!"sidd200.AnnotationObjectType", [], sidd200, n!"AnnotationObjectType", [
  el n!"point" sidd200 n!"Point" n!"sfa.PointType",
  el n!"line" sidd200 n!"Line" n!"sfa.LineType",
  el n!"linear_ring" sidd200 n!"LinearRing" n!"sfa.LinearRingType",
  el n!"polygon" sidd200 n!"Polygon" n!"sfa.PolygonType",
  el n!"polyhedral_surface" sidd200 n!"PolyhedralSurface" n!"sfa.PolyhedralSurfaceType",
  el n!"multi_polygon" sidd200 n!"MultiPolygon" n!"sfa.MultiPolygonType",
  el n!"multi_line_string" sidd200 n!"MultiLineString" n!"sfa.MultiLineStringType",
  el n!"multi_point" sidd200 n!"MultiPoint" n!"sfa.MultiPointType"]⟩

/-- `sidd_v2_0_0.py` L657-667 -/
def BankCustomType : Class := ⟨n!"sidd200.BankCustomType", [], sidd200, n!"BankCustomType", [
  el n!"filter_coefficients" sidd200 n!"FilterCoefficients" n!"sidd200.FilterBankCoefType"]⟩

/-- `sidd_v2_0_0.py` L670-684 -/
def BaseProjectionType : Class := ⟨n!"sidd200.BaseProjectionType", [], sidd200, n!"BaseProjectionType", [
  el n!"reference_point" sidd200 n!"ReferencePoint" n!"sicommon10.ReferencePointType"]⟩

/-- `sidd_v2_0_0.py` L687-703 -/
def ColorDisplayRemapType : Class := ⟨n!"sidd200.ColorDisplayRemapType", [], sidd200, n!"ColorDisplayRemapType", [
  el n!"remap_lut" sidd200 n!"RemapLUT" n!"sidd200.Lookup3TableType"]⟩

/-- `sidd_v2_0_0.py` L706-750 -/
def ColorManagementModuleType : Class := ⟨n!"sidd200.ColorManagementModuleType", [], sidd200, n!"ColorManagementModuleType", [
  val n!"rendering_intent" sidd200 n!"RenderingIntent" [n!"RenderingIntentType"],
  val n!"source_profile" sidd200 n!"SourceProfile" [n!"str"],
  val n!"display_profile" sidd200 n!"DisplayProfile" [n!"str"],
  val n!"iccprofile_signature" sidd200 n!"ICCProfileSignature" [n!"str"]]⟩

/-- `sidd_v2_0_0.py` L753-798 -/
def DynamicRangeAdjustmentType : Class := ⟨n!"sidd200.DynamicRangeAdjustmentType", [], sidd200, n!"DynamicRangeAdjustmentType", [
  val n!"algorithm_type" sidd200 n!"AlgorithmType" [n!"RangeAdjustmentAlgorithmType"],
  val n!"band_stats_source" sidd200 n!"BandStatsSource" [n!"int"],
  el n!"draparameters" sidd200 n!"DRAParameters" n!"sidd200.DRAParameters",
  el n!"draoverrides" sidd200 n!"DRAOverrides" n!"sidd200.DRAOverrides"]⟩

/-- `sidd_v2_0_0.py` L801-884 -/
def ExploitationFeaturesCollectionGeometryType : Class := ⟨n!"sidd200.ExploitationFeaturesCollectionGeometryType", [], sidd200, n!"ExploitationFeaturesCollectionGeometryType", [
  val n!"azimuth" sidd200 n!"Azimuth" [n!"float"],
  val n!"slope" sidd200 n!"Slope" [n!"float"],
  val n!"squint" sidd200 n!"Squint" [n!"float"],
  val n!"graze" sidd200 n!"Graze" [n!"float"],
  val n!"tilt" sidd200 n!"Tilt" [n!"float"],
  val n!"doppler_cone_angle" sidd200 n!"DopplerConeAngle" [n!"float"],
  els n!"extension" sidd200 n!"Extension" n!"sicommon10.ParameterType"]⟩

/-- `sidd_v2_0_0.py` L887-945 -/
def ExploitationFeaturesCollectionPhenomenologyType : Class := ⟨n!"sidd200.ExploitationFeaturesCollectionPhenomenologyType", [], sidd200, n!"ExploitationFeaturesCollectionPhenomenologyType", [
  el n!"shadow" sidd200 n!"Shadow" n!"sicommon10.AngleMagnitudeType",
  el n!"layover" sidd200 n!"Layover" n!"sicommon10.AngleMagnitudeType",
  val n!"multi_path" sidd200 n!"MultiPath" [n!"float"],
  val n!"ground_track" sidd200 n!"GroundTrack" [n!"float"],
  els n!"extension" sidd200 n!"Extension" n!"sicommon10.ParameterType"]⟩

/-- `sidd_v2_0_0.py` L948-987 -/
def GeographicCoordinatesType : Class := ⟨n!"sidd200.GeographicCoordinatesType", [], sidd200, n!"GeographicCoordinatesType", [
  val n!"longitude_density" sidd200 n!"LongitudeDensity" [n!"float"],
  val n!"latitude_density" sidd200 n!"LatitudeDensity" [n!"float"],
  el n!"reference_origin" sidd200 n!"ReferenceOrigin" n!"sicommon10.LatLonType"]⟩

/-- `sidd_v2_0_0.py` L990-1051 -/
def GeometricChipType : Class := ⟨n!"sidd200.GeometricChipType", [], sidd200, n!"GeometricChipType", [
  el n!"chip_size" sidd200 n!"ChipSize" n!"sicommon10.RowColIntType",
  el n!"original_upper_left_coordinate" sidd200 n!"OriginalUpperLeftCoordinate" n!"sicommon10.RowColDoubleType",
  el n!"original_upper_right_coordinate" sidd200 n!"OriginalUpperRightCoordinate" n!"sicommon10.RowColDoubleType",
  el n!"original_lower_left_coordinate" sidd200 n!"OriginalLowerLeftCoordinate" n!"sicommon10.RowColDoubleType",
  el n!"original_lower_right_coordinate" sidd200 n!"OriginalLowerRightCoordinate" n!"sicommon10.RowColDoubleType"]⟩

/-- `sidd_v2_0_0.py` L1054-1130 -/
def GeopositioningType : Class := ⟨n!"sidd200.GeopositioningType", [], sidd200, n!"GeopositioningType", [
  val n!"coordinate_system_type" sidd200 n!"CoordinateSystemType" [n!"GeopositioningTypeCoordinateSystemType"],
  val n!"geodetic_datum" sidd200 n!"GeodeticDatum" [n!"GeopositioningTypeGeodeticDatum"],
  val n!"reference_ellipsoid" sidd200 n!"ReferenceEllipsoid" [n!"GeopositioningTypeReferenceEllipsoid"],
  val n!"vertical_datum" sidd200 n!"VerticalDatum" [n!"GeopositioningTypeVerticalDatum"],
  val n!"sounding_datum" sidd200 n!"SoundingDatum" [n!"GeopositioningTypeSoundingDatum"],
  val n!"false_origin" sidd200 n!"FalseOrigin" [n!"int"],
  val n!"utmgrid_zone_number" sidd200 n!"UTMGridZoneNumber" [n!"int"]]⟩

/-- `sidd_v2_0_0.py` L1133-1163 -/
def ImageCornersType : Class := ⟨n!"sidd200.ImageCornersType", [], sidd200, n!"ImageCornersType", [
  els n!"icp" sidd200 n!"ICP" n!"sidd200.ImageCornersType.ICP"]⟩

/-- `sidd_v2_0_0.py` L1155-1163 -/
def ImageCornersType_ICP : Class := ⟨n!"sidd200.ImageCornersType.ICP", [n!"sicommon10.LatLonType"], sidd200, n!"ICP", [
  val n!"lat" sicommon10 n!"Lat" [n!"float"],
  val n!"lon" sicommon10 n!"Lon" [n!"float"],
  att n!"index" 0 n!"index" [n!"CornerStringType"]]⟩

/-- `sidd_v2_0_0.py` L1166-1192 -/
def InputROIType : Class := ⟨n!"sidd200.InputROIType", [], sidd200, n!"InputROIType", [
  el n!"size" sidd200 n!"Size" n!"sicommon10.RowColIntType",
  el n!"upper_left" sidd200 n!"UpperLeft" n!"sicommon10.RowColIntType"]⟩

/-- `sidd_v2_0_0.py` L1195-1205 -/
def KernelCustomType : Class := ⟨n!"sidd200.KernelCustomType", [], sidd200, n!"KernelCustomType", [
  el n!"filter_coefficients" sidd200 n!"FilterCoefficients" n!"sidd200.FilterKernelCoefType"]⟩

/-- `sidd_v2_0_0.py` L1208-1233 -/
def LUTInfoType : Class := ⟨n!"sidd200.LUTInfoType", [], sidd200, n!"LUTInfoType", [
  els n!"lutvalues" sidd200 n!"LUTValues" n!"sidd200.LookupTableType",
  att n!"num_luts" 0 n!"numLuts" [n!"int"],
  att n!"size" 0 n!"size" [n!"int"]]⟩

/-- `sidd_v2_0_0.py` L1236-1264 -/
def LayerInfoType : Class := ⟨n!"sidd200.LayerInfoType", [], sidd200, n!"LayerInfoType", [
  els n!"layer" sidd200 n!"Layer" n!"sidd200.LayerType",
  att n!"num_layers" 0 n!"numLayers" [n!"int"]]⟩

/-- `sidd_v2_0_0.py` L1267-1306 -/
def MonochromeDisplayRemapType : Class := ⟨n!"sidd200.MonochromeDisplayRemapType", [], sidd200, n!"MonochromeDisplayRemapType", [
  val n!"remap_type" sidd200 n!"RemapType" [n!"str"],
  els n!"remap_parameter" sidd200 n!"RemapParameter" n!"sicommon10.ParameterType"]⟩

/-- `sidd_v2_0_0.py` L1309-1325 -/
def Orientation : Class := ⟨n!"sidd200.Orientation", [], sidd200, n!"Orientation", [
  val n!"shadow_direction" sidd200 n!"ShadowDirection" [n!"ShadowDirectionType"]]⟩

/-- `sidd_v2_0_0.py` L1328-1357 -/
def PolygonType : Class := ⟨n!"sidd200.PolygonType", [], sidd200, n!"PolygonType", [
  els n!"vertex" sidd200 n!"Vertex" n!"sicommon10.LatLonVertexType",
  att n!"size" 0 n!"size" [n!"int"]]⟩

/-- `sidd_v2_0_0.py` L1360-1397 -/
def PositionalAccuracyType : Class := ⟨n!"sidd200.PositionalAccuracyType", [], sidd200, n!"PositionalAccuracyType", [
  val n!"num_regions" sidd200 n!"NumRegions" [n!"int"],
  el n!"absolute_accuracy" sidd200 n!"AbsoluteAccuracy" n!"sidd200.AccuracyType",
  el n!"point_to_point_accuracy" sidd200 n!"PointToPointAccuracy" n!"sidd200.AccuracyType"]⟩

/-- `sidd_v2_0_0.py` L1400-1425 -/
def PredefinedFilterType : Class := ⟨n!"sidd200.PredefinedFilterType", [], sidd200, n!"PredefinedFilterType", [
  val n!"database_name" sidd200 n!"DatabaseName" [n!"FilterDatabaseNameType"],
  val n!"filter_family" sidd200 n!"FilterFamily" [n!"int"],
  val n!"filter_member" sidd200 n!"FilterMember" [n!"int"]]⟩

/-- `sidd_v2_0_0.py` L1428-1454 -/
def ProcTxRcvPolarizationType : Class := ⟨n!"sidd200.ProcTxRcvPolarizationType", [], sidd200, n!"ProcTxRcvPolarizationType", [
  val n!"tx_polarization_proc" sidd200 n!"TxPolarizationProc" [n!"str", n!"Polarization1Typevalue"],
  val n!"rcv_polarization_proc" sidd200 n!"RcvPolarizationProc" [n!"str", n!"Polarization1Typevalue"]]⟩

/-- `sidd_v2_0_0.py` L1457-1500 -/
def ProcessingEventType : Class := ⟨n!"sidd200.ProcessingEventType", [], sidd200, n!"ProcessingEventType", [
  val n!"application_name" sidd200 n!"ApplicationName" [n!"str"],
  val n!"applied_date_time" sidd200 n!"AppliedDateTime" [n!"XmlDateTime"],
  val n!"interpolation_method" sidd200 n!"InterpolationMethod" [n!"str"],
  els n!"descriptor" sidd200 n!"Descriptor" n!"sicommon10.ParameterType"]⟩

/-- `sidd_v2_0_0.py` L1503-1536 -/
def ProcessingModuleType : Class := ⟨n!"sidd200.ProcessingModuleType", [], sidd200, n!"ProcessingModuleType", [
  el n!"module_name" sidd200 n!"ModuleName" n!"sicommon10.ParameterType",
  els n!"module_parameter" sidd200 n!"ModuleParameter" n!"sicommon10.ParameterType",
  els n!"processing_module" sidd200 n!"ProcessingModule" n!"sidd200.ProcessingModuleType"]⟩

/-- `sidd_v2_0_0.py` L1539-1881 -/
def ProductClassificationType : Class := ⟨n!"sidd200.ProductClassificationType", [], sidd200, n!"ProductClassificationType", [
  els n!"security_extension" sidd200 n!"SecurityExtension" n!"sicommon10.ParameterType",
  att n!"desversion" ism13 n!"DESVersion" [n!"str"],
  att n!"ismcatcesversion" ism13 n!"ISMCATCESVersion" [n!"str"],
  att n!"resource_element" ism13 n!"resourceElement" [n!"bool"],
  atts n!"complies_with" ism13 n!"compliesWith" [n!"CVEnumISMCompliesWithValues"],
  att n!"create_date" ism13 n!"createDate" [n!"XmlDate"],
  atts n!"exempt_from" ism13 n!"exemptFrom" [n!"CVEnumISMExemptFromValues"],
  att n!"classification" ism13 n!"classification" [n!"CVEnumISMClassificationAll"],
  atts n!"owner_producer" ism13 n!"ownerProducer" [n!"str", n!"CVEnumISMCATOwnerProducerValuesvalue"],
  att n!"joint" ism13 n!"joint" [n!"bool"],
  atts n!"scicontrols" ism13 n!"SCIcontrols" [n!"str", n!"CVEnumISMSCIControlsValuesvalue"],
  atts n!"saridentifier" ism13 n!"SARIdentifier" [n!"str"],
  atts n!"atomic_energy_markings" ism13 n!"atomicEnergyMarkings" [n!"str", n!"CVEnumISMatomicEnergyMarkingsValuesvalue"],
  atts n!"dissemination_controls" ism13 n!"disseminationControls" [n!"CVEnumISMDissemValues"],
  atts n!"display_only_to" ism13 n!"displayOnlyTo" [n!"str", n!"CVEnumISMCATRelToValuesvalue"],
  atts n!"fgisource_open" ism13 n!"FGIsourceOpen" [n!"str", n!"CVEnumISMCATFGIOpenValuesvalue"],
  atts n!"fgisource_protected" ism13 n!"FGIsourceProtected" [n!"str", n!"CVEnumISMCATFGIProtectedValuesvalue"],
  atts n!"releasable_to" ism13 n!"releasableTo" [n!"str", n!"CVEnumISMCATRelToValuesvalue"],
  atts n!"non_icmarkings" ism13 n!"nonICmarkings" [n!"str", n!"CVEnumISMNonICValuesvalue"],
  att n!"classified_by" ism13 n!"classifiedBy" [n!"str"],
  att n!"compilation_reason" ism13 n!"compilationReason" [n!"str"],
  att n!"derivatively_classified_by" ism13 n!"derivativelyClassifiedBy" [n!"str"],
  att n!"classification_reason" ism13 n!"classificationReason" [n!"str"],
  atts n!"non_uscontrols" ism13 n!"nonUSControls" [n!"CVEnumISMNonUSControlsValues"],
  att n!"derived_from" ism13 n!"derivedFrom" [n!"str"],
  att n!"declass_date" ism13 n!"declassDate" [n!"XmlDate"],
  att n!"declass_event" ism13 n!"declassEvent" [n!"str"],
  att n!"declass_exception" ism13 n!"declassException" [n!"CVEnumISM25X"],
  atts n!"notice_type" ism13 n!"noticeType" [n!"CVEnumISMNoticeValues"],
  att n!"notice_reason" ism13 n!"noticeReason" [n!"str"],
  att n!"notice_date" ism13 n!"noticeDate" [n!"XmlDate"],
  att n!"unregistered_notice_type" ism13 n!"unregisteredNoticeType" [n!"str"],
  att n!"external_notice" ism13 n!"externalNotice" [n!"bool"]]⟩

/-- `sidd_v2_0_0.py` L1884-1912 -/
def ProductPlaneType : Class := ⟨n!"sidd200.ProductPlaneType", [], sidd200, n!"ProductPlaneType", [
  el n!"row_unit_vector" sidd200 n!"RowUnitVector" n!"sicommon10.XYZType",
  el n!"col_unit_vector" sidd200 n!"ColUnitVector" n!"sicommon10.XYZType"]⟩

/-- `sidd_v2_0_0.py` L1915-1952 -/
def TxRcvPolarizationType : Class := ⟨n!"sidd200.TxRcvPolarizationType", [], sidd200, n!"TxRcvPolarizationType", [
  val n!"tx_polarization" sidd200 n!"TxPolarization" [n!"str", n!"Polarization1Typevalue"],
  val n!"rcv_polarization" sidd200 n!"RcvPolarization" [n!"str", n!"Polarization1Typevalue"],
  val n!"rcv_polarization_offset" sidd200 n!"RcvPolarizationOffset" [n!"float"]]⟩

/-- `sidd_v2_0_0.py` L1955-1984 -/
def ValidDataType : Class := ⟨n!"sidd200.ValidDataType", [], sidd200, n!"ValidDataType", [
  els n!"vertex" sidd200 n!"Vertex" n!"sicommon10.RowColVertexType",
  att n!"size" 0 n!"size" [n!"int"]]⟩

/-- `sidd_v2_0_0.py` L1987-2025 -/
def AnnotationType : Class := ⟨n!"sidd200.AnnotationType", [], sidd200, n!"AnnotationType", [
  val n!"identifier" sidd200 n!"Identifier" [n!"str"],
  el n!"spatial_reference_system" sidd200 n!"SpatialReferenceSystem" n!"sfa.ReferenceSystemType",
  els n!"object_value" sidd200 n!"Object" n!"sidd200.AnnotationObjectType"]⟩

/-- `sidd_v2_0_0.py` L2028-2042 -/
def ColorSpaceTransformType : Class := ⟨n!"sidd200.ColorSpaceTransformType", [], sidd200, n!"ColorSpaceTransformType", [
  el n!"color_management_module" sidd200 n!"ColorManagementModule" n!"sidd200.ColorManagementModuleType"]⟩

/-- `sidd_v2_0_0.py` L2045-2055 -/
def CustomLookupType : Class := ⟨n!"sidd200.CustomLookupType", [], sidd200, n!"CustomLookupType", [
  el n!"lutinfo" sidd200 n!"LUTInfo" n!"sidd200.LUTInfoType"]⟩

/-- `sidd_v2_0_0.py` L2058-2105 -/
def DigitalElevationDataType : Class := ⟨n!"sidd200.DigitalElevationDataType", [], sidd200, n!"DigitalElevationDataType", [
  el n!"geographic_coordinates" sidd200 n!"GeographicCoordinates" n!"sidd200.GeographicCoordinatesType",
  el n!"geopositioning" sidd200 n!"Geopositioning" n!"sidd200.GeopositioningType",
  el n!"positional_accuracy" sidd200 n!"PositionalAccuracy" n!"sidd200.PositionalAccuracyType",
  val n!"null_value" sidd200 n!"NullValue" [n!"int"]]⟩

/-- `sidd_v2_0_0.py` L2108-2130 -/
def DownstreamReprocessingType : Class := ⟨n!"sidd200.DownstreamReprocessingType", [], sidd200, n!"DownstreamReprocessingType", [
  el n!"geometric_chip" sidd200 n!"GeometricChip" n!"sidd200.GeometricChipType",
  els n!"processing_event" sidd200 n!"ProcessingEvent" n!"sidd200.ProcessingEventType"]⟩

/-- `sidd_v2_0_0.py` L2133-2217 -/
def ExploitationFeaturesCollectionInformationType : Class := ⟨n!"sidd200.ExploitationFeaturesCollectionInformationType", [], sidd200, n!"ExploitationFeaturesCollectionInformationType", [
  val n!"sensor_name" sidd200 n!"SensorName" [n!"str"],
  el n!"radar_mode" sidd200 n!"RadarMode" n!"sicommon10.RadarModeType",
  val n!"collection_date_time" sidd200 n!"CollectionDateTime" [n!"XmlDateTime"],
  val n!"local_date_time" sidd200 n!"LocalDateTime" [n!"XmlDateTime"],
  val n!"collection_duration" sidd200 n!"CollectionDuration" [n!"float"],
  el n!"resolution" sidd200 n!"Resolution" n!"sicommon10.RangeAzimuthType",
  el n!"input_roi" sidd200 n!"InputROI" n!"sidd200.InputROIType",
  els n!"polarization" sidd200 n!"Polarization" n!"sidd200.TxRcvPolarizationType"]⟩

/-- `sidd_v2_0_0.py` L2220-2277 -/
def ExploitationFeaturesProductType : Class := ⟨n!"sidd200.ExploitationFeaturesProductType", [], sidd200, n!"ExploitationFeaturesProductType", [
  el n!"resolution" sidd200 n!"Resolution" n!"sicommon10.RowColDoubleType",
  val n!"ellipticity" sidd200 n!"Ellipticity" [n!"float"],
  els n!"polarization" sidd200 n!"Polarization" n!"sidd200.ProcTxRcvPolarizationType",
  val n!"north" sidd200 n!"North" [n!"float"],
  els n!"extension" sidd200 n!"Extension" n!"sicommon10.ParameterType"]⟩

/-- `sidd_v2_0_0.py` L2280-2297 -/
def FilterBankType : Class := ⟨n!"sidd200.FilterBankType", [], sidd200, n!"FilterBankType", [
  el n!"predefined" sidd200 n!"Predefined" n!"sidd200.PredefinedFilterType",
  el n!"custom" sidd200 n!"Custom" n!"sidd200.BankCustomType"]⟩

/-- `sidd_v2_0_0.py` L2300-2317 -/
def FilterKernelType : Class := ⟨n!"sidd200.FilterKernelType", [], sidd200, n!"FilterKernelType", [
  el n!"predefined" sidd200 n!"Predefined" n!"sidd200.PredefinedFilterType",
  el n!"custom" sidd200 n!"Custom" n!"sidd200.KernelCustomType"]⟩

/-- `sidd_v2_0_0.py` L2320-2371 -/
def GeoDataType : Class := ⟨n!"sidd200.GeoDataType", [], sidd200, n!"GeoDataType", [
  val n!"earth_model" sidd200 n!"EarthModel" [n!"EarthModelType"],
  el n!"image_corners" sidd200 n!"ImageCorners" n!"sidd200.ImageCornersType",
  el n!"valid_data" sidd200 n!"ValidData" n!"sidd200.PolygonType",
  els n!"geo_info" sicommon10 n!"GeoInfo" n!"sicommon10.GeoInfo"]⟩

/-- `sidd_v2_0_0.py` L2374-2409 -/
def J2KSubtype : Class := ⟨n!"sidd200.J2KSubtype", [], sidd200, n!"J2KSubtype", [
  val n!"num_wavelet_levels" sidd200 n!"NumWaveletLevels" [n!"int"],
  val n!"num_bands" sidd200 n!"NumBands" [n!"int"],
  el n!"layer_info" sidd200 n!"LayerInfo" n!"sidd200.LayerInfoType"]⟩

/-- `sidd_v2_0_0.py` L2412-2437 -/
def MeasurableProjectionType : Class := ⟨n!"sidd200.MeasurableProjectionType", [n!"sidd200.BaseProjectionType"], sidd200, n!"MeasurableProjectionType", [
  el n!"reference_point" sidd200 n!"ReferencePoint" n!"sicommon10.ReferencePointType",
  el n!"sample_spacing" sidd200 n!"SampleSpacing" n!"sicommon10.RowColDoubleType",
  el n!"time_coapoly" sidd200 n!"TimeCOAPoly" n!"sicommon10.Poly2DType"]⟩

/-- `sidd_v2_0_0.py` L2440-2498 -/
def PolynomialProjectionType : Class := ⟨n!"sidd200.PolynomialProjectionType", [n!"sidd200.BaseProjectionType"], sidd200, n!"PolynomialProjectionType", [
  el n!"reference_point" sidd200 n!"ReferencePoint" n!"sicommon10.ReferencePointType",
  el n!"row_col_to_lat" sidd200 n!"RowColToLat" n!"sicommon10.Poly2DType",
  el n!"row_col_to_lon" sidd200 n!"RowColToLon" n!"sicommon10.Poly2DType",
  el n!"row_col_to_alt" sidd200 n!"RowColToAlt" n!"sicommon10.Poly2DType",
  el n!"lat_lon_to_row" sidd200 n!"LatLonToRow" n!"sicommon10.Poly2DType",
  el n!"lat_lon_to_col" sidd200 n!"LatLonToCol" n!"sicommon10.Poly2DType"]⟩

/-- `sidd_v2_0_0.py` L2501-2568 -/
def ProductCreationType : Class := ⟨n!"sidd200.ProductCreationType", [], sidd200, n!"ProductCreationType", [
  el n!"processor_information" sidd200 n!"ProcessorInformation" n!"sidd200.ProcessorInformationType",
  el n!"classification" sidd200 n!"Classification" n!"sidd200.ProductClassificationType",
  val n!"product_name" sidd200 n!"ProductName" [n!"str"],
  val n!"product_class" sidd200 n!"ProductClass" [n!"str"],
  val n!"product_type" sidd200 n!"ProductType" [n!"str"],
  els n!"product_creation_extension" sidd200 n!"ProductCreationExtension" n!"sicommon10.ParameterType"]⟩

/-- `sidd_v2_0_0.py` L2571-2589 -/
def ProductProcessingType : Class := ⟨n!"sidd200.ProductProcessingType", [], sidd200, n!"ProductProcessingType", [
  els n!"processing_module" sidd200 n!"ProcessingModule" n!"sidd200.ProcessingModuleType"]⟩

/-- `sidd_v2_0_0.py` L2592-2614 -/
def RemapChoiceType : Class := ⟨n!"sidd200.RemapChoiceType", [], sidd200, n!"RemapChoiceType", [
  el n!"color_display_remap" sidd200 n!"ColorDisplayRemap" n!"sidd200.ColorDisplayRemapType",
  el n!"monochrome_display_remap" sidd200 n!"MonochromeDisplayRemap" n!"sidd200.MonochromeDisplayRemapType"]⟩

/-- `sidd_v2_0_0.py` L2617-2631 -/
def AnnotationsType : Class := ⟨n!"sidd200.AnnotationsType", [], sidd200, n!"AnnotationsType", [
  els n!"annotation" sidd200 n!"Annotation" n!"sidd200.AnnotationType"]⟩

/-- `sidd_v2_0_0.py` L2634-2660 -/
def CylindricalProjectionType : Class := ⟨n!"sidd200.CylindricalProjectionType", [n!"sidd200.MeasurableProjectionType", n!"sidd200.BaseProjectionType"], sidd200, n!"CylindricalProjectionType", [
  el n!"reference_point" sidd200 n!"ReferencePoint" n!"sicommon10.ReferencePointType",
  el n!"sample_spacing" sidd200 n!"SampleSpacing" n!"sicommon10.RowColDoubleType",
  el n!"time_coapoly" sidd200 n!"TimeCOAPoly" n!"sicommon10.Poly2DType",
  el n!"stripmap_direction" sidd200 n!"StripmapDirection" n!"sicommon10.XYZType",
  val n!"curvature_radius" sidd200 n!"CurvatureRadius" [n!"float"]]⟩

/-- `sidd_v2_0_0.py` L2663-2695 -/
def ExploitationFeaturesCollectionType : Class := ⟨n!"sidd200.ExploitationFeaturesCollectionType", [], sidd200, n!"ExploitationFeaturesCollectionType", [
  el n!"information" sidd200 n!"Information" n!"sidd200.ExploitationFeaturesCollectionInformationType",
  el n!"geometry" sidd200 n!"Geometry" n!"sidd200.ExploitationFeaturesCollectionGeometryType",
  el n!"phenomenology" sidd200 n!"Phenomenology" n!"sidd200.ExploitationFeaturesCollectionPhenomenologyType"]⟩

/-- `sidd_v2_0_0.py` L2698-2733 -/
def FilterType : Class := ⟨n!"sidd200.FilterType", [], sidd200, n!"FilterType", [
  val n!"filter_name" sidd200 n!"FilterName" [n!"str"],
  el n!"filter_kernel" sidd200 n!"FilterKernel" n!"sidd200.FilterKernelType",
  el n!"filter_bank" sidd200 n!"FilterBank" n!"sidd200.FilterBankType",
  val n!"operation" sidd200 n!"Operation" [n!"FilterOperationType"]]⟩

/-- `sidd_v2_0_0.py` L2736-2740 -/
def GeographicProjectionType : Class := ⟨n!"sidd200.GeographicProjectionType", [n!"sidd200.MeasurableProjectionType", n!"sidd200.BaseProjectionType"], sidd200, n!"GeographicProjectionType", [
  el n!"reference_point" sidd200 n!"ReferencePoint" n!"sicommon10.ReferencePointType",
  el n!"sample_spacing" sidd200 n!"SampleSpacing" n!"sicommon10.RowColDoubleType",
  el n!"time_coapoly" sidd200 n!"TimeCOAPoly" n!"sicommon10.Poly2DType"]⟩

/-- `sidd_v2_0_0.py` L2743-2766 -/
def J2KType : Class := ⟨n!"sidd200.J2KType", [], sidd200, n!"J2KType", [
  el n!"original" sidd200 n!"Original" n!"sidd200.J2KSubtype",
  el n!"parsed" sidd200 n!"Parsed" n!"sidd200.J2KSubtype"]⟩

/-- `sidd_v2_0_0.py` L2769-2795 -/
def NewLookupTableType : Class := ⟨n!"sidd200.NewLookupTableType", [], sidd200, n!"NewLookupTableType", [
  val n!"lutname" sidd200 n!"LUTName" [n!"str"],
  el n!"predefined" sidd200 n!"Predefined" n!"sidd200.PredefinedLookupType",
  el n!"custom" sidd200 n!"Custom" n!"sidd200.CustomLookupType"]⟩

/-- `sidd_v2_0_0.py` L2798-2814 -/
def PlaneProjectionType : Class := ⟨n!"sidd200.PlaneProjectionType", [n!"sidd200.MeasurableProjectionType", n!"sidd200.BaseProjectionType"], sidd200, n!"PlaneProjectionType", [
  el n!"reference_point" sidd200 n!"ReferencePoint" n!"sicommon10.ReferencePointType",
  el n!"sample_spacing" sidd200 n!"SampleSpacing" n!"sicommon10.RowColDoubleType",
  el n!"time_coapoly" sidd200 n!"TimeCOAPoly" n!"sicommon10.Poly2DType",
  el n!"product_plane" sidd200 n!"ProductPlane" n!"sidd200.ProductPlaneType"]⟩

/-- `sidd_v2_0_0.py` L2817-2855 -/
def BandEqualizationType : Class := ⟨n!"sidd200.BandEqualizationType", [], sidd200, n!"BandEqualizationType", [
  val n!"algorithm" sidd200 n!"Algorithm" [n!"EqualizationAlgorithmType"],
  els n!"band_lut" sidd200 n!"BandLUT" n!"sidd200.BandEqualizationType.BandLUT"]⟩

/-- `sidd_v2_0_0.py` L2847-2855 -/
def BandEqualizationType_BandLUT : Class := ⟨n!"sidd200.BandEqualizationType.BandLUT", [n!"sidd200.NewLookupTableType"], sidd200, n!"BandLUT", [
  val n!"lutname" sidd200 n!"LUTName" [n!"str"],
  el n!"predefined" sidd200 n!"Predefined" n!"sidd200.PredefinedLookupType",
  el n!"custom" sidd200 n!"Custom" n!"sidd200.CustomLookupType",
  att n!"k" 0 n!"k" [n!"int"]]⟩

/-- `sidd_v2_0_0.py` L2858-2875 -/
def CompressionType : Class := ⟨n!"sidd200.CompressionType", [], sidd200, n!"CompressionType", [
  el n!"j2_k" sidd200 n!"J2K" n!"sidd200.J2KType"]⟩

/-- `sidd_v2_0_0.py` L2878-2914 -/
def ExploitationFeaturesType : Class := ⟨n!"sidd200.ExploitationFeaturesType", [], sidd200, n!"ExploitationFeaturesType", [
  els n!"collection" sidd200 n!"Collection" n!"sidd200.ExploitationFeaturesType.Collection",
  els n!"product" sidd200 n!"Product" n!"sidd200.ExploitationFeaturesProductType"]⟩

/-- `sidd_v2_0_0.py` L2906-2914 -/
def ExploitationFeaturesType_Collection : Class := ⟨n!"sidd200.ExploitationFeaturesType.Collection", [n!"sidd200.ExploitationFeaturesCollectionType"], sidd200, n!"Collection", [
  el n!"information" sidd200 n!"Information" n!"sidd200.ExploitationFeaturesCollectionInformationType",
  el n!"geometry" sidd200 n!"Geometry" n!"sidd200.ExploitationFeaturesCollectionGeometryType",
  el n!"phenomenology" sidd200 n!"Phenomenology" n!"sidd200.ExploitationFeaturesCollectionPhenomenologyType",
  att n!"identifier" 0 n!"identifier" [n!"str"]]⟩

/-- `sidd_v2_0_0.py` L2917-3005 -/
def MeasurementType : Class := ⟨n!"sidd200.MeasurementType", [], sidd200, n!"MeasurementType", [
  el n!"polynomial_projection" sidd200 n!"PolynomialProjection" n!"sidd200.PolynomialProjectionType",
  el n!"geographic_projection" sidd200 n!"GeographicProjection" n!"sidd200.GeographicProjectionType",
  el n!"plane_projection" sidd200 n!"PlaneProjection" n!"sidd200.PlaneProjectionType",
  el n!"cylindrical_projection" sidd200 n!"CylindricalProjection" n!"sidd200.CylindricalProjectionType",
  el n!"pixel_footprint" sidd200 n!"PixelFootprint" n!"sicommon10.RowColIntType",
  val n!"arpflag" sidd200 n!"ARPFlag" [n!"MeasurementTypeARPFlag"],
  el n!"arppoly" sidd200 n!"ARPPoly" n!"sicommon10.XYZPolyType",
  el n!"valid_data" sidd200 n!"ValidData" n!"sidd200.ValidDataType"]⟩

/-- `sidd_v2_0_0.py` L3008-3040 -/
def RRDSType : Class := ⟨n!"sidd200.RRDSType", [], sidd200, n!"RRDSType", [
  val n!"downsampling_method" sidd200 n!"DownsamplingMethod" [n!"DownsamplingMethodType"],
  el n!"anti_alias" sidd200 n!"AntiAlias" n!"sidd200.FilterType",
  el n!"interpolation" sidd200 n!"Interpolation" n!"sidd200.FilterType"]⟩

/-- `sidd_v2_0_0.py` L3043-3069 -/
def ScalingType : Class := ⟨n!"sidd200.ScalingType", [], sidd200, n!"ScalingType", [
  el n!"anti_alias" sidd200 n!"AntiAlias" n!"sidd200.FilterType",
  el n!"interpolation" sidd200 n!"Interpolation" n!"sidd200.FilterType"]⟩

/-- `sidd_v2_0_0.py` L3072-3096 -/
def SharpnessEnhancementType : Class := ⟨n!"sidd200.SharpnessEnhancementType", [], sidd200, n!"SharpnessEnhancementType", [
  el n!"modular_transfer_function_compensation" sidd200 n!"ModularTransferFunctionCompensation" n!"sidd200.FilterType",
  el n!"modular_transfer_function_enhancement" sidd200 n!"ModularTransferFunctionEnhancement" n!"sidd200.FilterType"]⟩

/-- `sidd_v2_0_0.py` L3099-3123 -/
def GeometricTransformType : Class := ⟨n!"sidd200.GeometricTransformType", [], sidd200, n!"GeometricTransformType", [
  el n!"scaling" sidd200 n!"Scaling" n!"sidd200.ScalingType",
  el n!"orientation" sidd200 n!"Orientation" n!"sidd200.Orientation"]⟩

/-- `sidd_v2_0_0.py` L3126-3172 -/
def ProductGenerationOptionsType : Class := ⟨n!"sidd200.ProductGenerationOptionsType", [], sidd200, n!"ProductGenerationOptionsType", [
  el n!"band_equalization" sidd200 n!"BandEqualization" n!"sidd200.BandEqualizationType",
  el n!"modular_transfer_function_restoration" sidd200 n!"ModularTransferFunctionRestoration" n!"sidd200.FilterType",
  el n!"data_remapping" sidd200 n!"DataRemapping" n!"sidd200.NewLookupTableType",
  el n!"asymmetric_pixel_correction" sidd200 n!"AsymmetricPixelCorrection" n!"sidd200.FilterType"]⟩

/-- `sidd_v2_0_0.py` L3175-3239 -/
def InteractiveProcessingType : Class := ⟨n!"sidd200.InteractiveProcessingType", [], sidd200, n!"InteractiveProcessingType", [
  el n!"geometric_transform" sidd200 n!"GeometricTransform" n!"sidd200.GeometricTransformType",
  el n!"sharpness_enhancement" sidd200 n!"SharpnessEnhancement" n!"sidd200.SharpnessEnhancementType",
  el n!"color_space_transform" sidd200 n!"ColorSpaceTransform" n!"sidd200.ColorSpaceTransformType",
  el n!"dynamic_range_adjustment" sidd200 n!"DynamicRangeAdjustment" n!"sidd200.DynamicRangeAdjustmentType",
  el n!"tonal_transfer_curve" sidd200 n!"TonalTransferCurve" n!"sidd200.NewLookupTableType",
  att n!"band" 0 n!"band" [n!"int"]]⟩

/-- `sidd_v2_0_0.py` L3242-3276 -/
def NonInteractiveProcessingType : Class := ⟨n!"sidd200.NonInteractiveProcessingType", [], sidd200, n!"NonInteractiveProcessingType", [
  el n!"product_generation_options" sidd200 n!"ProductGenerationOptions" n!"sidd200.ProductGenerationOptionsType",
  el n!"rrds" sidd200 n!"RRDS" n!"sidd200.RRDSType",
  att n!"band" 0 n!"band" [n!"int"]]⟩

/-- `sidd_v2_0_0.py` L3279-3346 -/
def ProductDisplayType : Class := ⟨n!"sidd200.ProductDisplayType", [], sidd200, n!"ProductDisplayType", [
  val n!"pixel_type" sidd200 n!"PixelType" [n!"PixelType"],
  val n!"num_bands" sidd200 n!"NumBands" [n!"int"],
  val n!"default_band_display" sidd200 n!"DefaultBandDisplay" [n!"int"],
  els n!"non_interactive_processing" sidd200 n!"NonInteractiveProcessing" n!"sidd200.NonInteractiveProcessingType",
  els n!"interactive_processing" sidd200 n!"InteractiveProcessing" n!"sidd200.InteractiveProcessingType",
  els n!"display_extension" sidd200 n!"DisplayExtension" n!"sicommon10.ParameterType"]⟩

/-- `sidd_v2_0_0.py` L3349-3469 -/
def SIDD : Class := ⟨n!"sidd200.SIDD", [], sidd200, n!"SIDD", [
  el n!"product_creation" sidd200 n!"ProductCreation" n!"sidd200.ProductCreationType",
  el n!"display" sidd200 n!"Display" n!"sidd200.ProductDisplayType",
  el n!"geo_data" sidd200 n!"GeoData" n!"sidd200.GeoDataType",
  el n!"measurement" sidd200 n!"Measurement" n!"sidd200.MeasurementType",
  el n!"exploitation_features" sidd200 n!"ExploitationFeatures" n!"sidd200.ExploitationFeaturesType",
  el n!"downstream_reprocessing" sidd200 n!"DownstreamReprocessing" n!"sidd200.DownstreamReprocessingType",
  el n!"error_statistics" sidd200 n!"ErrorStatistics" n!"sicommon10.ErrorStatisticsType",
  el n!"radiometric" sidd200 n!"Radiometric" n!"sicommon10.RadiometricType",
  el n!"match_info" sidd200 n!"MatchInfo" n!"sicommon10.MatchInfoType",
  el n!"compression" sidd200 n!"Compression" n!"sidd200.CompressionType",
  el n!"digital_elevation_data" sidd200 n!"DigitalElevationData" n!"sidd200.DigitalElevationDataType",
  el n!"product_processing" sidd200 n!"ProductProcessing" n!"sidd200.ProductProcessingType",
  el n!"annotations" sidd200 n!"Annotations" n!"sidd200.AnnotationsType"]⟩

/-- The dataclasses of `sidd_v2_0_0.py` (its enumerations are types of text). -/
def classes : List Class := [
  AccuracyType, AcheivedResolutionType, ClassificationGuidanceType, DRAHistogramOverridesType, DRAOverrides, DRAParameters, FilterBankCoefType,
  FilterBankCoefType_Coef, FilterKernelCoefType, FilterKernelCoefType_Coef, LayerType, Lookup3TableType, LookupTableType, PredefinedLookupType,
  ProcessorInformationType, AnnotationObjectType, BankCustomType, BaseProjectionType, ColorDisplayRemapType, ColorManagementModuleType,
  DynamicRangeAdjustmentType, ExploitationFeaturesCollectionGeometryType, ExploitationFeaturesCollectionPhenomenologyType, GeographicCoordinatesType,
  GeometricChipType, GeopositioningType, ImageCornersType, ImageCornersType_ICP, InputROIType, KernelCustomType, LUTInfoType, LayerInfoType,
  MonochromeDisplayRemapType, Orientation, PolygonType, PositionalAccuracyType, PredefinedFilterType, ProcTxRcvPolarizationType, ProcessingEventType,
  ProcessingModuleType, ProductClassificationType, ProductPlaneType, TxRcvPolarizationType, ValidDataType, AnnotationType, ColorSpaceTransformType,
  CustomLookupType, DigitalElevationDataType, DownstreamReprocessingType, ExploitationFeaturesCollectionInformationType,
  ExploitationFeaturesProductType, FilterBankType, FilterKernelType, GeoDataType, J2KSubtype, MeasurableProjectionType, PolynomialProjectionType,
  ProductCreationType, ProductProcessingType, RemapChoiceType, AnnotationsType, CylindricalProjectionType, ExploitationFeaturesCollectionType,
  FilterType, GeographicProjectionType, J2KType, NewLookupTableType, PlaneProjectionType, BandEqualizationType, BandEqualizationType_BandLUT,
  CompressionType, ExploitationFeaturesType, ExploitationFeaturesType_Collection, MeasurementType, RRDSType, ScalingType, SharpnessEnhancementType,
  GeometricTransformType, ProductGenerationOptionsType, InteractiveProcessingType, NonInteractiveProcessingType, ProductDisplayType, SIDD]

end Verif.Schema.Sidd200
