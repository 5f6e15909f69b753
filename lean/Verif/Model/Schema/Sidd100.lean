import Verif.Model.Xsdata

/-!
# The dataclasses of `formats/sidd/models/sidd_v1_0_0.py`

Written by `tools/gen_schema.py` from the text of the module; the comment of a class gives the lines of its declaration, and fields of a base class come first, as in Python.
Ranges, lengths, patterns and occurrence counts are left out: xsdata does not check them when it reads or writes.
-/

namespace Verif.Schema.Sidd100

open Verif.Xsdata Verif.Xsdata.Field Verif.Xsdata.Namespace

/-- `sidd_v1_0_0.py` L57-61 -/
def AcheivedResolutionType : Class := ⟨n!"sidd100.AcheivedResolutionType", [], sidd100, n!"AcheivedResolutionType", []⟩

/-- `sidd_v1_0_0.py` L64-90 -/
def ClassificationGuidanceType : Class := ⟨n!"sidd100.ClassificationGuidanceType", [], sidd100, n!"ClassificationGuidanceType", [
  val n!"authority" sidd100 n!"Authority" [n!"str"],
  val n!"date" sidd100 n!"Date" [n!"XmlDate"]]⟩

/-- `sidd_v1_0_0.py` L93-119 -/
def DRAHistogramOverridesType : Class := ⟨n!"sidd100.DRAHistogramOverridesType", [], sidd100, n!"DRAHistogramOverridesType", [
  val n!"clip_min" sidd100 n!"ClipMin" [n!"int"],
  val n!"clip_max" sidd100 n!"ClipMax" [n!"int"]]⟩

/-- `sidd_v1_0_0.py` L134-154 -/
def Lookup3TableType : Class := ⟨n!"sidd100.Lookup3TableType", [], sidd100, n!"Lookup3TableType", [
  texts n!"value" [n!"str"],
  att n!"size" 0 n!"size" [n!"int"]]⟩

/-- `sidd_v1_0_0.py` L157-176 -/
def LookupTableType : Class := ⟨n!"sidd100.LookupTableType", [], sidd100, n!"LookupTableType", [
  texts n!"value" [n!"int"],
  att n!"size" 0 n!"size" [n!"int"]]⟩

/-- `sidd_v1_0_0.py` L189-216 -/
def MonitorCompensationAppliedType : Class := ⟨n!"sidd100.MonitorCompensationAppliedType", [], sidd100, n!"MonitorCompensationAppliedType", [
  val n!"gamma" sidd100 n!"Gamma" [n!"float"],
  val n!"xmin" sidd100 n!"XMin" [n!"float"]]⟩

/-- `sidd_v1_0_0.py` L227-271 -/
def ProcessorInformationType : Class := ⟨n!"sidd100.ProcessorInformationType", [], sidd100, n!"ProcessorInformationType", [
  val n!"application" sidd100 n!"Application" [n!"str"],
  val n!"processing_date_time" sidd100 n!"ProcessingDateTime" [n!"XmlDateTime"],
  val n!"site" sidd100 n!"Site" [n!"str"],
  val n!"profile" sidd100 n!"Profile" [n!"str"]]⟩

/-- `sidd_v1_0_0.py` L274-343 -/
def AnnotationObjectType : Class := ⟨n!"sidd100.AnnotationObjectType", [], sidd100, n!"AnnotationObjectType", [
  el n!"point" sidd100 n!"Point" n!"sfa.PointType",
  el n!"line" sidd100 n!"Line" n!"sfa.LineType",
  el n!"linear_ring" sidd100 n!"LinearRing" n!"sfa.LinearRingType",
  el n!"polygon" sidd100 n!"Polygon" n!"sfa.PolygonType",
  el n!"polyhedral_surface" sidd100 n!"PolyhedralSurface" n!"sfa.PolyhedralSurfaceType",
  el n!"multi_polygon" sidd100 n!"MultiPolygon" n!"sfa.MultiPolygonType",
  el n!"multi_line_string" sidd100 n!"MultiLineString" n!"sfa.MultiLineStringType",
  el n!"multi_point" sidd100 n!"MultiPoint" n!"sfa.MultiPointType"]⟩

/-- `sidd_v1_0_0.py` L346-360 -/
def BaseProjectionType : Class := ⟨n!"sidd100.BaseProjectionType", [], sidd100, n!"BaseProjectionType", [
  el n!"reference_point" sidd100 n!"ReferencePoint" n!"sicommon01.ReferencePointType"]⟩

/-- `sidd_v1_0_0.py` L363-379 -/
def ColorDisplayRemapType : Class := ⟨n!"sidd100.ColorDisplayRemapType", [], sidd100, n!"ColorDisplayRemapType", [
  el n!"remap_lut" sidd100 n!"RemapLUT" n!"sidd100.Lookup3TableType"]⟩

/-- `sidd_v1_0_0.py` L382-452 -/
def ExploitationFeaturesCollectionGeometryType : Class := ⟨n!"sidd100.ExploitationFeaturesCollectionGeometryType", [], sidd100, n!"ExploitationFeaturesCollectionGeometryType", [
  val n!"azimuth" sidd100 n!"Azimuth" [n!"float"],
  val n!"slope" sidd100 n!"Slope" [n!"float"],
  val n!"squint" sidd100 n!"Squint" [n!"float"],
  val n!"graze" sidd100 n!"Graze" [n!"float"],
  val n!"tilt" sidd100 n!"Tilt" [n!"float"],
  els n!"extension" sidd100 n!"Extension" n!"sicommon01.ParameterType"]⟩

/-- `sidd_v1_0_0.py` L455-512 -/
def ExploitationFeaturesCollectionPhenomenologyType : Class := ⟨n!"sidd100.ExploitationFeaturesCollectionPhenomenologyType", [], sidd100, n!"ExploitationFeaturesCollectionPhenomenologyType", [
  el n!"shadow" sidd100 n!"Shadow" n!"sicommon01.AngleMagnitudeType",
  el n!"layover" sidd100 n!"Layover" n!"sicommon01.AngleMagnitudeType",
  val n!"multi_path" sidd100 n!"MultiPath" [n!"float"],
  val n!"ground_track" sidd100 n!"GroundTrack" [n!"float"],
  els n!"extension" sidd100 n!"Extension" n!"sicommon01.ParameterType"]⟩

/-- `sidd_v1_0_0.py` L515-551 -/
def ExploitationFeaturesProductType : Class := ⟨n!"sidd100.ExploitationFeaturesProductType", [], sidd100, n!"ExploitationFeaturesProductType", [
  el n!"resolution" sidd100 n!"Resolution" n!"sicommon01.RowColDoubleType",
  val n!"north" sidd100 n!"North" [n!"float"],
  els n!"extension" sidd100 n!"Extension" n!"sicommon01.ParameterType"]⟩

/-- `sidd_v1_0_0.py` L554-572 -/
def FootprintType : Class := ⟨n!"sidd100.FootprintType", [], sidd100, n!"FootprintType", [
  els n!"vertex" sidd100 n!"Vertex" n!"sicommon01.LatLonVertexType",
  att n!"size" 0 n!"size" [n!"int"]]⟩

/-- `sidd_v1_0_0.py` L575-607 -/
def GeographicInformationType : Class := ⟨n!"sidd100.GeographicInformationType", [], sidd100, n!"GeographicInformationType", [
  vals n!"country_code" sidd100 n!"CountryCode" [n!"str"],
  val n!"security_info" sidd100 n!"SecurityInfo" [n!"str"],
  els n!"geographic_info_extension" sidd100 n!"GeographicInfoExtension" n!"sicommon01.ParameterType"]⟩

/-- `sidd_v1_0_0.py` L610-664 -/
def GeometricChipType : Class := ⟨n!"sidd100.GeometricChipType", [], sidd100, n!"GeometricChipType", [
  el n!"chip_size" sidd100 n!"ChipSize" n!"sicommon01.RowColIntType",
  el n!"original_upper_left_coordinate" sidd100 n!"OriginalUpperLeftCoordinate" n!"sicommon01.RowColDoubleType",
  el n!"original_upper_right_coordinate" sidd100 n!"OriginalUpperRightCoordinate" n!"sicommon01.RowColDoubleType",
  el n!"original_lower_left_coordinate" sidd100 n!"OriginalLowerLeftCoordinate" n!"sicommon01.RowColDoubleType",
  el n!"original_lower_right_coordinate" sidd100 n!"OriginalLowerRightCoordinate" n!"sicommon01.RowColDoubleType"]⟩

/-- `sidd_v1_0_0.py` L667-693 -/
def InputROIType : Class := ⟨n!"sidd100.InputROIType", [], sidd100, n!"InputROIType", [
  el n!"size" sidd100 n!"Size" n!"sicommon01.RowColIntType",
  el n!"upper_left" sidd100 n!"UpperLeft" n!"sicommon01.RowColIntType"]⟩

/-- `sidd_v1_0_0.py` L696-745 -/
def MonochromeDisplayRemapType : Class := ⟨n!"sidd100.MonochromeDisplayRemapType", [], sidd100, n!"MonochromeDisplayRemapType", [
  val n!"remap_type" sidd100 n!"RemapType" [n!"str"],
  el n!"remap_lut" sidd100 n!"RemapLUT" n!"sidd100.LookupTableType",
  els n!"remap_parameter" sidd100 n!"RemapParameter" n!"sicommon01.ParameterType"]⟩

/-- `sidd_v1_0_0.py` L748-791 -/
def ProcessingEventType : Class := ⟨n!"sidd100.ProcessingEventType", [], sidd100, n!"ProcessingEventType", [
  val n!"application_name" sidd100 n!"ApplicationName" [n!"str"],
  val n!"applied_date_time" sidd100 n!"AppliedDateTime" [n!"XmlDateTime"],
  val n!"interpolation_method" sidd100 n!"InterpolationMethod" [n!"str"],
  els n!"descriptor" sidd100 n!"Descriptor" n!"sicommon01.ParameterType"]⟩

/-- `sidd_v1_0_0.py` L794-827 -/
def ProcessingModuleType : Class := ⟨n!"sidd100.ProcessingModuleType", [], sidd100, n!"ProcessingModuleType", [
  el n!"module_name" sidd100 n!"ModuleName" n!"sicommon01.ParameterType",
  els n!"module_parameter" sidd100 n!"ModuleParameter" n!"sicommon01.ParameterType",
  els n!"processing_module" sidd100 n!"ProcessingModule" n!"sidd100.ProcessingModuleType"]⟩

/-- `sidd_v1_0_0.py` L830-1088 -/
def ProductClassificationType : Class := ⟨n!"sidd100.ProductClassificationType", [], sidd100, n!"ProductClassificationType", [
  els n!"security_extension" sidd100 n!"SecurityExtension" n!"sicommon01.ParameterType",
  fixed n!"desversion" ism n!"DESVersion" [n!"int"] "4",
  fixed n!"resource_element" ism n!"resourceElement" [n!"bool"] "true",
  att n!"create_date" ism n!"createDate" [n!"XmlDate"],
  atts n!"complies_with" ism n!"compliesWith" [n!"CVEnumISMCompliesWithValues"],
  att n!"classification" ism n!"classification" [n!"CVEnumISMClassificationAll"],
  atts n!"owner_producer" ism n!"ownerProducer" [n!"CVEnumISMOwnerProducerValues"],
  atts n!"scicontrols" ism n!"SCIcontrols" [n!"str", n!"CVEnumISMSCIControlsValuesvalue"],
  atts n!"saridentifier" ism n!"SARIdentifier" [n!"str"],
  atts n!"dissemination_controls" ism n!"disseminationControls" [n!"str", n!"CVEnumISMDissemValuesvalue"],
  atts n!"fgisource_open" ism n!"FGIsourceOpen" [n!"CVEnumISMFGIOpenValues"],
  atts n!"fgisource_protected" ism n!"FGIsourceProtected" [n!"CVEnumISMFGIProtectedValues"],
  atts n!"releasable_to" ism n!"releasableTo" [n!"CVEnumISMRelToValues"],
  atts n!"non_icmarkings" ism n!"nonICmarkings" [n!"CVEnumISMNonICValues"],
  att n!"classified_by" ism n!"classifiedBy" [n!"str"],
  att n!"compilation_reason" ism n!"compilationReason" [n!"str"],
  att n!"derivatively_classified_by" ism n!"derivativelyClassifiedBy" [n!"str"],
  att n!"classification_reason" ism n!"classificationReason" [n!"str"],
  atts n!"non_uscontrols" ism n!"nonUSControls" [n!"CVEnumISMNonUSControlsValues"],
  att n!"derived_from" ism n!"derivedFrom" [n!"str"],
  att n!"declass_date" ism n!"declassDate" [n!"XmlDate"],
  att n!"declass_event" ism n!"declassEvent" [n!"str"],
  att n!"declass_exception" ism n!"declassException" [n!"CVEnumISM25X"],
  att n!"type_of_exempted_source" ism n!"typeOfExemptedSource" [n!"CVEnumISMSourceMarked"],
  att n!"date_of_exempted_source" ism n!"dateOfExemptedSource" [n!"XmlDate"]]⟩

/-- `sidd_v1_0_0.py` L1091-1119 -/
def ProductPlaneType : Class := ⟨n!"sidd100.ProductPlaneType", [], sidd100, n!"ProductPlaneType", [
  el n!"row_unit_vector" sidd100 n!"RowUnitVector" n!"sicommon01.XYZType",
  el n!"col_unit_vector" sidd100 n!"ColUnitVector" n!"sicommon01.XYZType"]⟩

/-- `sidd_v1_0_0.py` L1122-1167 -/
def TxRcvPolarizationType : Class := ⟨n!"sidd100.TxRcvPolarizationType", [], sidd100, n!"TxRcvPolarizationType", [
  val n!"tx_polarization" sidd100 n!"TxPolarization" [n!"PolarizationType"],
  val n!"rcv_polarization" sidd100 n!"RcvPolarization" [n!"PolarizationType"],
  val n!"rcv_polarization_offset" sidd100 n!"RcvPolarizationOffset" [n!"float"],
  val n!"processed" sidd100 n!"Processed" [n!"bool"]]⟩

/-- `sidd_v1_0_0.py` L1170-1208 -/
def AnnotationType : Class := ⟨n!"sidd100.AnnotationType", [], sidd100, n!"AnnotationType", [
  val n!"identifier" sidd100 n!"Identifier" [n!"str"],
  el n!"spatial_reference_system" sidd100 n!"SpatialReferenceSystem" n!"sfa.ReferenceSystemType",
  els n!"object_value" sidd100 n!"Object" n!"sidd100.AnnotationObjectType"]⟩

/-- `sidd_v1_0_0.py` L1211-1233 -/
def DownstreamReprocessingType : Class := ⟨n!"sidd100.DownstreamReprocessingType", [], sidd100, n!"DownstreamReprocessingType", [
  el n!"geometric_chip" sidd100 n!"GeometricChip" n!"sidd100.GeometricChipType",
  els n!"processing_event" sidd100 n!"ProcessingEvent" n!"sidd100.ProcessingEventType"]⟩

/-- `sidd_v1_0_0.py` L1236-1320 -/
def ExploitationFeaturesCollectionInformationType : Class := ⟨n!"sidd100.ExploitationFeaturesCollectionInformationType", [], sidd100, n!"ExploitationFeaturesCollectionInformationType", [
  val n!"sensor_name" sidd100 n!"SensorName" [n!"str"],
  el n!"radar_mode" sidd100 n!"RadarMode" n!"sicommon01.RadarModeType",
  val n!"collection_date_time" sidd100 n!"CollectionDateTime" [n!"XmlDateTime"],
  val n!"local_date_time" sidd100 n!"LocalDateTime" [n!"XmlDateTime"],
  val n!"collection_duration" sidd100 n!"CollectionDuration" [n!"float"],
  el n!"resolution" sidd100 n!"Resolution" n!"sicommon01.RangeAzimuthType",
  el n!"input_roi" sidd100 n!"InputROI" n!"sidd100.InputROIType",
  els n!"polarization" sidd100 n!"Polarization" n!"sidd100.TxRcvPolarizationType"]⟩

/-- `sidd_v1_0_0.py` L1323-1364 -/
def GeographicCoverageType : Class := ⟨n!"sidd100.GeographicCoverageType", [], sidd100, n!"GeographicCoverageType", [
  els n!"georegion_identifier" sidd100 n!"GeoregionIdentifier" n!"sicommon01.ParameterType",
  el n!"footprint" sidd100 n!"Footprint" n!"sidd100.FootprintType",
  els n!"sub_region" sidd100 n!"SubRegion" n!"sidd100.GeographicCoverageType",
  el n!"geographic_info" sidd100 n!"GeographicInfo" n!"sidd100.GeographicInformationType"]⟩

/-- `sidd_v1_0_0.py` L1367-1392 -/
def MeasurableProjectionType : Class := ⟨n!"sidd100.MeasurableProjectionType", [n!"sidd100.BaseProjectionType"], sidd100, n!"MeasurableProjectionType", [
  el n!"reference_point" sidd100 n!"ReferencePoint" n!"sicommon01.ReferencePointType",
  el n!"sample_spacing" sidd100 n!"SampleSpacing" n!"sicommon01.RowColDoubleType",
  el n!"time_coapoly" sidd100 n!"TimeCOAPoly" n!"sicommon01.Poly2DType"]⟩

/-- `sidd_v1_0_0.py` L1395-1453 -/
def PolynomialProjectionType : Class := ⟨n!"sidd100.PolynomialProjectionType", [n!"sidd100.BaseProjectionType"], sidd100, n!"PolynomialProjectionType", [
  el n!"reference_point" sidd100 n!"ReferencePoint" n!"sicommon01.ReferencePointType",
  el n!"row_col_to_lat" sidd100 n!"RowColToLat" n!"sicommon01.Poly2DType",
  el n!"row_col_to_lon" sidd100 n!"RowColToLon" n!"sicommon01.Poly2DType",
  el n!"row_col_to_alt" sidd100 n!"RowColToAlt" n!"sicommon01.Poly2DType",
  el n!"lat_lon_to_row" sidd100 n!"LatLonToRow" n!"sicommon01.Poly2DType",
  el n!"lat_lon_to_col" sidd100 n!"LatLonToCol" n!"sicommon01.Poly2DType"]⟩

/-- `sidd_v1_0_0.py` L1456-1523 -/
def ProductCreationType : Class := ⟨n!"sidd100.ProductCreationType", [], sidd100, n!"ProductCreationType", [
  el n!"processor_information" sidd100 n!"ProcessorInformation" n!"sidd100.ProcessorInformationType",
  el n!"classification" sidd100 n!"Classification" n!"sidd100.ProductClassificationType",
  val n!"product_name" sidd100 n!"ProductName" [n!"str"],
  val n!"product_class" sidd100 n!"ProductClass" [n!"str"],
  val n!"product_type" sidd100 n!"ProductType" [n!"str"],
  els n!"product_creation_extension" sidd100 n!"ProductCreationExtension" n!"sicommon01.ParameterType"]⟩

/-- `sidd_v1_0_0.py` L1526-1541 -/
def ProductProcessingType : Class := ⟨n!"sidd100.ProductProcessingType", [], sidd100, n!"ProductProcessingType", [
  els n!"processing_module" sidd100 n!"ProcessingModule" n!"sidd100.ProcessingModuleType"]⟩

/-- `sidd_v1_0_0.py` L1544-1566 -/
def RemapChoiceType : Class := ⟨n!"sidd100.RemapChoiceType", [], sidd100, n!"RemapChoiceType", [
  el n!"color_display_remap" sidd100 n!"ColorDisplayRemap" n!"sidd100.ColorDisplayRemapType",
  el n!"monochrome_display_remap" sidd100 n!"MonochromeDisplayRemap" n!"sidd100.MonochromeDisplayRemapType"]⟩

/-- `sidd_v1_0_0.py` L1569-1603 -/
def TargetInformationType : Class := ⟨n!"sidd100.TargetInformationType", [], sidd100, n!"TargetInformationType", [
  els n!"identifier" sidd100 n!"Identifier" n!"sicommon01.ParameterType",
  el n!"footprint" sidd100 n!"Footprint" n!"sidd100.FootprintType",
  els n!"target_information_extension" sidd100 n!"TargetInformationExtension" n!"sicommon01.ParameterType"]⟩

/-- `sidd_v1_0_0.py` L1606-1620 -/
def AnnotationsType : Class := ⟨n!"sidd100.AnnotationsType", [], sidd100, n!"AnnotationsType", [
  els n!"annotation" sidd100 n!"Annotation" n!"sidd100.AnnotationType"]⟩

/-- `sidd_v1_0_0.py` L1623-1649 -/
def CylindricalProjectionType : Class := ⟨n!"sidd100.CylindricalProjectionType", [n!"sidd100.MeasurableProjectionType", n!"sidd100.BaseProjectionType"], sidd100, n!"CylindricalProjectionType", [
  el n!"reference_point" sidd100 n!"ReferencePoint" n!"sicommon01.ReferencePointType",
  el n!"sample_spacing" sidd100 n!"SampleSpacing" n!"sicommon01.RowColDoubleType",
  el n!"time_coapoly" sidd100 n!"TimeCOAPoly" n!"sicommon01.Poly2DType",
  el n!"stripmap_direction" sidd100 n!"StripmapDirection" n!"sicommon01.XYZType",
  val n!"curvature_radius" sidd100 n!"CurvatureRadius" [n!"float"]]⟩

/-- `sidd_v1_0_0.py` L1652-1684 -/
def ExploitationFeaturesCollectionType : Class := ⟨n!"sidd100.ExploitationFeaturesCollectionType", [], sidd100, n!"ExploitationFeaturesCollectionType", [
  el n!"information" sidd100 n!"Information" n!"sidd100.ExploitationFeaturesCollectionInformationType",
  el n!"geometry" sidd100 n!"Geometry" n!"sidd100.ExploitationFeaturesCollectionGeometryType",
  el n!"phenomenology" sidd100 n!"Phenomenology" n!"sidd100.ExploitationFeaturesCollectionPhenomenologyType"]⟩

/-- `sidd_v1_0_0.py` L1687-1710 -/
def GeographicAndTargetType : Class := ⟨n!"sidd100.GeographicAndTargetType", [], sidd100, n!"GeographicAndTargetType", [
  el n!"geographic_coverage" sidd100 n!"GeographicCoverage" n!"sidd100.GeographicCoverageType",
  els n!"target_information" sidd100 n!"TargetInformation" n!"sidd100.TargetInformationType"]⟩

/-- `sidd_v1_0_0.py` L1713-1717 -/
def GeographicProjectionType : Class := ⟨n!"sidd100.GeographicProjectionType", [n!"sidd100.MeasurableProjectionType", n!"sidd100.BaseProjectionType"], sidd100, n!"GeographicProjectionType", [
  el n!"reference_point" sidd100 n!"ReferencePoint" n!"sicommon01.ReferencePointType",
  el n!"sample_spacing" sidd100 n!"SampleSpacing" n!"sicommon01.RowColDoubleType",
  el n!"time_coapoly" sidd100 n!"TimeCOAPoly" n!"sicommon01.Poly2DType"]⟩

/-- `sidd_v1_0_0.py` L1720-1736 -/
def PlaneProjectionType : Class := ⟨n!"sidd100.PlaneProjectionType", [n!"sidd100.MeasurableProjectionType", n!"sidd100.BaseProjectionType"], sidd100, n!"PlaneProjectionType", [
  el n!"reference_point" sidd100 n!"ReferencePoint" n!"sicommon01.ReferencePointType",
  el n!"sample_spacing" sidd100 n!"SampleSpacing" n!"sicommon01.RowColDoubleType",
  el n!"time_coapoly" sidd100 n!"TimeCOAPoly" n!"sicommon01.Poly2DType",
  el n!"product_plane" sidd100 n!"ProductPlane" n!"sidd100.ProductPlaneType"]⟩

/-- `sidd_v1_0_0.py` L1739-1813 -/
def ProductDisplayType : Class := ⟨n!"sidd100.ProductDisplayType", [], sidd100, n!"ProductDisplayType", [
  val n!"pixel_type" sidd100 n!"PixelType" [n!"PixelType"],
  el n!"remap_information" sidd100 n!"RemapInformation" n!"sidd100.RemapChoiceType",
  val n!"magnification_method" sidd100 n!"MagnificationMethod" [n!"MagnificationMethodType"],
  val n!"decimation_method" sidd100 n!"DecimationMethod" [n!"DecimationMethodType"],
  el n!"drahistogram_overrides" sidd100 n!"DRAHistogramOverrides" n!"sidd100.DRAHistogramOverridesType",
  el n!"monitor_compensation_applied" sidd100 n!"MonitorCompensationApplied" n!"sidd100.MonitorCompensationAppliedType",
  els n!"display_extension" sidd100 n!"DisplayExtension" n!"sicommon01.ParameterType"]⟩

/-- `sidd_v1_0_0.py` L1816-1852 -/
def ExploitationFeaturesType : Class := ⟨n!"sidd100.ExploitationFeaturesType", [], sidd100, n!"ExploitationFeaturesType", [
  els n!"collection" sidd100 n!"Collection" n!"sidd100.ExploitationFeaturesType.Collection",
  el n!"product" sidd100 n!"Product" n!"sidd100.ExploitationFeaturesProductType"]⟩

/-- `sidd_v1_0_0.py` L1844-1852 -/
def ExploitationFeaturesType_Collection : Class := ⟨n!"sidd100.ExploitationFeaturesType.Collection", [n!"sidd100.ExploitationFeaturesCollectionType"], sidd100, n!"Collection", [
  el n!"information" sidd100 n!"Information" n!"sidd100.ExploitationFeaturesCollectionInformationType",
  el n!"geometry" sidd100 n!"Geometry" n!"sidd100.ExploitationFeaturesCollectionGeometryType",
  el n!"phenomenology" sidd100 n!"Phenomenology" n!"sidd100.ExploitationFeaturesCollectionPhenomenologyType",
  att n!"identifier" 0 n!"identifier" [n!"str"]]⟩

/-- `sidd_v1_0_0.py` L1855-1921 -/
def MeasurementType : Class := ⟨n!"sidd100.MeasurementType", [], sidd100, n!"MeasurementType", [
  el n!"polynomial_projection" sidd100 n!"PolynomialProjection" n!"sidd100.PolynomialProjectionType",
  el n!"geographic_projection" sidd100 n!"GeographicProjection" n!"sidd100.GeographicProjectionType",
  el n!"plane_projection" sidd100 n!"PlaneProjection" n!"sidd100.PlaneProjectionType",
  el n!"cylindrical_projection" sidd100 n!"CylindricalProjection" n!"sidd100.CylindricalProjectionType",
  el n!"pixel_footprint" sidd100 n!"PixelFootprint" n!"sicommon01.RowColIntType",
  el n!"arppoly" sidd100 n!"ARPPoly" n!"sicommon01.XYZPolyType"]⟩

/-- `sidd_v1_0_0.py` L1924-2018 -/
def SIDD : Class := ⟨n!"sidd100.SIDD", [], sidd100, n!"SIDD", [
  el n!"product_creation" sidd100 n!"ProductCreation" n!"sidd100.ProductCreationType",
  el n!"display" sidd100 n!"Display" n!"sidd100.ProductDisplayType",
  el n!"geographic_and_target" sidd100 n!"GeographicAndTarget" n!"sidd100.GeographicAndTargetType",
  el n!"measurement" sidd100 n!"Measurement" n!"sidd100.MeasurementType",
  el n!"exploitation_features" sidd100 n!"ExploitationFeatures" n!"sidd100.ExploitationFeaturesType",
  el n!"product_processing" sidd100 n!"ProductProcessing" n!"sidd100.ProductProcessingType",
  el n!"downstream_reprocessing" sidd100 n!"DownstreamReprocessing" n!"sidd100.DownstreamReprocessingType",
  el n!"error_statistics" sidd100 n!"ErrorStatistics" n!"sicommon01.ErrorStatisticsType",
  el n!"radiometric" sidd100 n!"Radiometric" n!"sicommon01.RadiometricType",
  el n!"annotations" sidd100 n!"Annotations" n!"sidd100.AnnotationsType"]⟩

/-- The dataclasses of `sidd_v1_0_0.py` (its enumerations are types of text). -/
def classes : List Class := [
  AcheivedResolutionType, ClassificationGuidanceType, DRAHistogramOverridesType, Lookup3TableType, LookupTableType, MonitorCompensationAppliedType,
  ProcessorInformationType, AnnotationObjectType, BaseProjectionType, ColorDisplayRemapType, ExploitationFeaturesCollectionGeometryType,
  ExploitationFeaturesCollectionPhenomenologyType, ExploitationFeaturesProductType, FootprintType, GeographicInformationType, GeometricChipType,
  InputROIType, MonochromeDisplayRemapType, ProcessingEventType, ProcessingModuleType, ProductClassificationType, ProductPlaneType,
  TxRcvPolarizationType, AnnotationType, DownstreamReprocessingType, ExploitationFeaturesCollectionInformationType, GeographicCoverageType,
  MeasurableProjectionType, PolynomialProjectionType, ProductCreationType, ProductProcessingType, RemapChoiceType, TargetInformationType,
  AnnotationsType, CylindricalProjectionType, ExploitationFeaturesCollectionType, GeographicAndTargetType, GeographicProjectionType,
  PlaneProjectionType, ProductDisplayType, ExploitationFeaturesType, ExploitationFeaturesType_Collection, MeasurementType, SIDD]

end Verif.Schema.Sidd100
