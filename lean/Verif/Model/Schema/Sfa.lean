import Verif.Model.Xsdata

/-!
# The dataclasses of `formats/sidd/models/sfa.py`

Written by `tools/gen_schema.py` from the text of the module; the comment of a class gives the lines of its declaration, and fields of a base class come first, as in Python.
Ranges, lengths, patterns and occurrence counts are left out: xsdata does not check them when it reads or writes.
-/

namespace Verif.Schema.Sfa

open Verif.Xsdata Verif.Xsdata.Field Verif.Xsdata.Namespace

/-- `sfa.py` L14-16 -/
def GeometryType : Class := ⟨n!"sfa.GeometryType", [], sfa, n!"GeometryType", []⟩

/-- `sfa.py` L19-38 -/
def ParameterType : Class := ⟨n!"sfa.ParameterType", [], sfa, n!"ParameterType", [
  val n!"parameter_name" sfa n!"ParameterName" [n!"str"],
  val n!"value" sfa n!"Value" [n!"float"]]⟩

/-- `sfa.py` L41-60 -/
def PrimeMeridianType : Class := ⟨n!"sfa.PrimeMeridianType", [], sfa, n!"PrimeMeridianType", [
  val n!"name" sfa n!"Name" [n!"str"],
  val n!"longitude" sfa n!"Longitude" [n!"float"]]⟩

/-- `sfa.py` L63-73 -/
def ProjectionType : Class := ⟨n!"sfa.ProjectionType", [], sfa, n!"ProjectionType", [
  val n!"projection_name" sfa n!"ProjectionName" [n!"str"]]⟩

/-- `sfa.py` L76-104 -/
def SpheriodType : Class := ⟨n!"sfa.SpheriodType", [], sfa, n!"SpheriodType", [
  val n!"spheriod_name" sfa n!"SpheriodName" [n!"str"],
  val n!"semi_major_axis" sfa n!"SemiMajorAxis" [n!"float"],
  val n!"inverse_flattening" sfa n!"InverseFlattening" [n!"float"]]⟩

/-- `sfa.py` L107-126 -/
def UNITType : Class := ⟨n!"sfa.UNITType", [], sfa, n!"UNITType", [
  val n!"unit_name" sfa n!"UnitName" [n!"str"],
  val n!"conversion_factor" sfa n!"ConversionFactor" [n!"float"]]⟩

/-- `sfa.py` L129-131 -/
def CurveType : Class := ⟨n!"sfa.CurveType", [n!"sfa.GeometryType"], sfa, n!"CurveType", []⟩

/-- `sfa.py` L134-144 -/
def DatumType : Class := ⟨n!"sfa.DatumType", [], sfa, n!"DatumType", [
  el n!"spheroid" sfa n!"Spheroid" n!"sfa.SpheriodType"]⟩

/-- `sfa.py` L147-149 -/
def GeometryCollectionType : Class := ⟨n!"sfa.GeometryCollectionType", [n!"sfa.GeometryType"], sfa, n!"GeometryCollectionType", []⟩

/-- `sfa.py` L152-187 -/
def PointType : Class := ⟨n!"sfa.PointType", [n!"sfa.GeometryType"], sfa, n!"PointType", [
  val n!"x" sfa n!"X" [n!"float"],
  val n!"y" sfa n!"Y" [n!"float"],
  val n!"z" sfa n!"Z" [n!"float"],
  val n!"m" sfa n!"M" [n!"float"]]⟩

/-- `sfa.py` L190-192 -/
def SurfaceType : Class := ⟨n!"sfa.SurfaceType", [n!"sfa.GeometryType"], sfa, n!"SurfaceType", []⟩

/-- `sfa.py` L195-232 -/
def GeocentricCoordinateSystemType : Class := ⟨n!"sfa.GeocentricCoordinateSystemType", [], sfa, n!"GeocentricCoordinateSystemType", [
  val n!"csname" sfa n!"Csname" [n!"str"],
  el n!"datum" sfa n!"Datum" n!"sfa.DatumType",
  el n!"prime_meridian" sfa n!"PrimeMeridian" n!"sfa.PrimeMeridianType",
  val n!"linear_unit" sfa n!"LinearUnit" [n!"str"]]⟩

/-- `sfa.py` L235-280 -/
def GeographicCoordinateSystemType : Class := ⟨n!"sfa.GeographicCoordinateSystemType", [], sfa, n!"GeographicCoordinateSystemType", [
  val n!"csname" sfa n!"Csname" [n!"str"],
  el n!"datum" sfa n!"Datum" n!"sfa.DatumType",
  el n!"prime_meridian" sfa n!"PrimeMeridian" n!"sfa.PrimeMeridianType",
  val n!"angular_unit" sfa n!"AngularUnit" [n!"str"],
  val n!"linear_unit" sfa n!"LinearUnit" [n!"str"]]⟩

/-- `sfa.py` L283-293 -/
def LineStringType : Class := ⟨n!"sfa.LineStringType", [n!"sfa.CurveType", n!"sfa.GeometryType"], sfa, n!"LineStringType", [
  els n!"vertex" sfa n!"Vertex" n!"sfa.PointType"]⟩

/-- `sfa.py` L296-298 -/
def MultiCurveType : Class := ⟨n!"sfa.MultiCurveType", [n!"sfa.GeometryCollectionType", n!"sfa.GeometryType"], sfa, n!"MultiCurveType", []⟩

/-- `sfa.py` L301-311 -/
def MultiPointType : Class := ⟨n!"sfa.MultiPointType", [n!"sfa.GeometryCollectionType", n!"sfa.GeometryType"], sfa, n!"MultiPointType", [
  els n!"vertex" sfa n!"Vertex" n!"sfa.PointType"]⟩

/-- `sfa.py` L314-316 -/
def MultiSurfaceType : Class := ⟨n!"sfa.MultiSurfaceType", [n!"sfa.GeometryCollectionType", n!"sfa.GeometryType"], sfa, n!"MultiSurfaceType", []⟩

/-- `sfa.py` L319-321 -/
def LineType : Class := ⟨n!"sfa.LineType", [n!"sfa.LineStringType", n!"sfa.CurveType", n!"sfa.GeometryType"], sfa, n!"LineType", [
  els n!"vertex" sfa n!"Vertex" n!"sfa.PointType"]⟩

/-- `sfa.py` L324-326 -/
def LinearRingType : Class := ⟨n!"sfa.LinearRingType", [n!"sfa.LineStringType", n!"sfa.CurveType", n!"sfa.GeometryType"], sfa, n!"LinearRingType", [
  els n!"vertex" sfa n!"Vertex" n!"sfa.PointType"]⟩

/-- `sfa.py` L329-374 -/
def ProjectedCoordinateSystemType : Class := ⟨n!"sfa.ProjectedCoordinateSystemType", [], sfa, n!"ProjectedCoordinateSystemType", [
  val n!"csname" sfa n!"Csname" [n!"str"],
  el n!"geographic_coordinate_system" sfa n!"GeographicCoordinateSystem" n!"sfa.GeographicCoordinateSystemType",
  el n!"projection" sfa n!"Projection" n!"sfa.ProjectionType",
  el n!"parameter" sfa n!"Parameter" n!"sfa.ParameterType",
  val n!"linear_unit" sfa n!"LinearUnit" [n!"str"]]⟩

/-- `sfa.py` L377-402 -/
def AbstractReferenceSystemType : Class := ⟨n!"sfa.AbstractReferenceSystemType", [], sfa, n!"AbstractReferenceSystemType", [
  el n!"projected_coordinate_system" sfa n!"ProjectedCoordinateSystem" n!"sfa.ProjectedCoordinateSystemType",
  el n!"geographic_coordinate_system" sfa n!"GeographicCoordinateSystem" n!"sfa.GeographicCoordinateSystemType",
  el n!"geocentric_coordinate_system" sfa n!"GeocentricCoordinateSystem" n!"sfa.GeocentricCoordinateSystemType"]⟩

/-- `sfa.py` L405-414 -/
def MultiLineStringType : Class := ⟨n!"sfa.MultiLineStringType", [n!"sfa.MultiCurveType", n!"sfa.GeometryCollectionType", n!"sfa.GeometryType"], sfa, n!"MultiLineStringType", [
  els n!"element" sfa n!"Element" n!"sfa.LineType"]⟩

/-- `sfa.py` L417-427 -/
def PolygonType : Class := ⟨n!"sfa.PolygonType", [n!"sfa.SurfaceType", n!"sfa.GeometryType"], sfa, n!"PolygonType", [
  els n!"ring" sfa n!"Ring" n!"sfa.LinearRingType"]⟩

/-- `sfa.py` L430-439 -/
def MultiPolygonType : Class := ⟨n!"sfa.MultiPolygonType", [n!"sfa.MultiSurfaceType", n!"sfa.GeometryCollectionType", n!"sfa.GeometryType"], sfa, n!"MultiPolygonType", [
  els n!"element" sfa n!"Element" n!"sfa.PolygonType"]⟩

/-- `sfa.py` L442-452 -/
def PolyhedralSurfaceType : Class := ⟨n!"sfa.PolyhedralSurfaceType", [n!"sfa.SurfaceType", n!"sfa.GeometryType"], sfa, n!"PolyhedralSurfaceType", [
  els n!"patch" sfa n!"Patch" n!"sfa.PolygonType"]⟩

/-- `sfa.py` L455-465 -/
def ReferenceSystemType : Class := ⟨n!"sfa.ReferenceSystemType", [n!"sfa.AbstractReferenceSystemType"], sfa, n!"ReferenceSystemType", [
  el n!"projected_coordinate_system" sfa n!"ProjectedCoordinateSystem" n!"sfa.ProjectedCoordinateSystemType",
  el n!"geographic_coordinate_system" sfa n!"GeographicCoordinateSystem" n!"sfa.GeographicCoordinateSystemType",
  el n!"geocentric_coordinate_system" sfa n!"GeocentricCoordinateSystem" n!"sfa.GeocentricCoordinateSystemType",
  vals n!"axis_name" sfa n!"AxisName" [n!"str"]]⟩

/-- `sfa.py` L468-470 -/
def TriangleType : Class := ⟨n!"sfa.TriangleType", [n!"sfa.PolygonType", n!"sfa.SurfaceType", n!"sfa.GeometryType"], sfa, n!"TriangleType", [
  els n!"ring" sfa n!"Ring" n!"sfa.LinearRingType"]⟩

/-- `sfa.py` L473-483 -/
def TriangulatedIrregularNetworkType : Class := ⟨n!"sfa.TriangulatedIrregularNetworkType", [n!"sfa.PolyhedralSurfaceType", n!"sfa.SurfaceType", n!"sfa.GeometryType"], sfa, n!"TriangulatedIrregularNetworkType", [
  els n!"patch" sfa n!"Patch" n!"sfa.PolygonType",
  els n!"triangular_patch" sfa n!"TriangularPatch" n!"sfa.TriangleType"]⟩

/-- The dataclasses of `sfa.py` (its enumerations are types of text). -/
def classes : List Class := [
  GeometryType, ParameterType, PrimeMeridianType, ProjectionType, SpheriodType, UNITType, CurveType, DatumType, GeometryCollectionType, PointType,
  SurfaceType, GeocentricCoordinateSystemType, GeographicCoordinateSystemType, LineStringType, MultiCurveType, MultiPointType, MultiSurfaceType,
  LineType, LinearRingType, ProjectedCoordinateSystemType, AbstractReferenceSystemType, MultiLineStringType, PolygonType, MultiPolygonType,
  PolyhedralSurfaceType, ReferenceSystemType, TriangleType, TriangulatedIrregularNetworkType]

end Verif.Schema.Sfa
