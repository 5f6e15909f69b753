#!/usr/bin/env python3
"""Writes properties.jsonl.  Keep the property texts here; run from /verif."""
import json

P = []


def prop(pid, title, statement, quantifier, why, anchors):
    P.append(dict(id=pid, title=title, statement=statement, quantifier=quantifier,
                  why_tests_cant=why, anchors=anchors))


S = "src/aws/osml/"
# ------------------------------------------------------------------ dynamic range
prop("C01", "Suggested display range stays inside the range of the data",
     "For a histogram with at least one counted pixel, DRAParameters.from_counts returns an actual range whose ends are the values of the first and last non-empty buckets, and a suggested range with suggested_min >= actual_min and suggested_max <= actual_max.",
     "every list of bucket counts with a positive total, every pair of cut-off percentages, every pair of expansion factors, every bucket range with last > first",
     "The space of histograms is infinite and the result depends on two scans and a cumulative sum that interact at the edges.",
     [S + "gdal/dynamic_range_adjustment.py:DRAParameters.from_counts"])
prop("C02", "Suggested display range is ordered",
     "DRAParameters.from_counts returns suggested_min <= suggested_max, so that the scale it feeds to GDAL is not inverted.",
     "every histogram with a positive total and the default percentages and factors",
     "Only histograms in which one bucket jumps over the whole [min%, max%] window break it; sampled histograms are smooth.",
     [S + "gdal/dynamic_range_adjustment.py:DRAParameters.from_counts", S + "gdal/gdal_utils.py:get_type_and_scales"])
prop("C03", "The display range depends only on the shape of the histogram",
     "Multiplying every count by the same positive factor does not change the result of from_counts; changing the bucket range rescales the four returned values by the same affine map; an empty count list raises IndexError; a bucket bound that is passed is the one used.",
     "every histogram, every positive factor, every bucket range",
     "It is a relation between two runs over an unbounded family of inputs.",
     [S + "gdal/dynamic_range_adjustment.py:DRAParameters.from_counts"])
prop("C52", "Per-band scales cover every band and use the limits of the output type",
     "get_type_and_scales returns exactly one scale per raster band, with output limits equal to the limits of the desired type (or of the band's own type), input limits chosen by the range adjustment mode, and an output type that is able to represent every band's output limits.",
     "every number of bands, every mix of band types, every adjustment mode, every optional output type",
     "Mixed-type images and all mode combinations are an unbounded product.",
     [S + "gdal/gdal_utils.py:get_type_and_scales", S + "gdal/gdal_utils.py:get_minmax_for_type"])
prop("C53", "Data type limits are those of the machine type",
     "get_minmax_for_type returns the least and greatest value of the pixel type for each integer type, and falls back to the 8-bit range for a type it does not know.",
     "every GDAL type code",
     "The fallback ranges over all unlisted codes.",
     [S + "gdal/gdal_utils.py:get_minmax_for_type"])
prop("C54", "File extension normalisation is canonical",
     "normalize_extension gives the same answer for an extension in any letter case, is idempotent, maps every NITF/TIFF/JPEG spelling to NITF, TIFF, JPEG and otherwise returns the upper-case input; select_extension returns the file's own extension in upper case when the driver lists it, else the driver's first extension, and UNKNOWN for an empty list.",
     "every string and every list of driver extensions",
     "It is a statement over all strings and all case variants.",
     [S + "gdal/gdal_utils.py:normalize_extension", S + "gdal/gdal_utils.py:select_extension"])
# ------------------------------------------------------------------ GDAL config
prop("C04", "A configuration block restores every option it set",
     "After a `with GDALConfigEnv(options)` block, every option named in `options` has the value it had before the block, whatever the body did to the configuration and whether or not it raised; options not named are exactly as the body left them.",
     "every initial configuration, every option dictionary, every body effect",
     "Bodies are arbitrary programs acting on global state.",
     [S + "gdal/gdal_config.py:GDALConfigEnv.__enter__", S + "gdal/gdal_config.py:GDALConfigEnv.__exit__"])
prop("C05", "Nested configuration blocks compose",
     "Any properly nested program of `with` blocks leaves the configuration as it was at the start. This must hold also when an environment object is entered again inside its own block, and when blocks of two threads overlap.",
     "every tree of nested blocks, every interleaving of two blocks",
     "Nesting depth and schedules are unbounded.",
     [S + "gdal/gdal_config.py:GDALConfigEnv"])
prop("C06", "Changing credentials inside a block does not lose the restore",
     "Calling with_aws_credentials on an environment that is currently entered must not prevent the exit from restoring the options; the option dictionary passed by the caller is never modified.",
     "every sequence of enter, exit and with_aws_credentials calls on one environment",
     "The failure needs a particular order of calls on shared mutable state.",
     [S + "gdal/gdal_config.py:GDALConfigEnv.with_aws_credentials", S + "gdal/gdal_config.py:GDALConfigEnv.__exit__"])
prop("C07", "Default configuration is idempotent and local",
     "set_gdal_default_configuration gives each of its options its documented value whatever the configuration was, changes no other option, and calling it any number of times is the same as calling it once.",
     "every prior configuration, every repetition count",
     "Global state may be anything when it is called.",
     [S + "gdal/gdal_config.py:set_gdal_default_configuration"])
# ------------------------------------------------------------------ map tiles
prop("C08", "The tile found for a location contains the location",
     "For every location of the world extent (west and south edges excluded, see C11) and every zoom level get_tile_for_location returns a tile whose bounds contain the location, and it is the only tile of that level whose (min, max] bounds do.",
     "every location, every zoom level, both tile sizes",
     "Boundary behaviour of ceil on a continuum of locations at unbounded zoom.",
     [S + "image_processing/map_tileset_wmq.py:WebMercatorQuadMapTileSet.get_tile_for_location", S + "image_processing/map_tileset_wmq.py:WebMercatorQuadMapTileSet.get_tile"])
prop("C09", "Tiles of one level cover the map without gaps or overlap",
     "Horizontally and vertically adjacent tiles share exactly one edge, two different tiles of a level have disjoint (min, max] bounds, and the 2^z by 2^z tiles of level z exactly cover the world extent.",
     "every zoom level, every pair of tiles",
     "Unbounded number of tiles.",
     [S + "image_processing/map_tileset_wmq.py:WebMercatorQuadMapTileSet.get_tile"])
prop("C10", "Zoom levels nest and tile sizes agree",
     "The tile of a location at zoom z is the parent (row div 2, col div 2) of its tile at zoom z+1, the four children of a tile cover it exactly, and WebMercatorQuad and WebMercatorQuadx2 give the same bounds and the same tile for the same id or location.",
     "every location, every zoom level, every positive tile size",
     "Relation between infinitely many levels.",
     [S + "image_processing/map_tileset_wmq.py:WebMercatorQuadMapTileSet"])
prop("C11", "Tile indices of locations in the world extent are valid",
     "For every location whose longitude is in [-180, 180] and whose latitude is in the Web Mercator limits, get_tile_for_location returns 0 <= row < 2^z and 0 <= col < 2^z.",
     "every location in the closed world extent, every zoom level",
     "Only the exact western and southern edges break it.",
     [S + "image_processing/map_tileset_wmq.py:WebMercatorQuadMapTileSet.get_tile_for_location"])
prop("C12", "Tile limits of an area cover the area",
     "get_tile_matrix_limits_for_area returns limits (min_col, min_row, max_col, max_row) such that the tile of every boundary location, and of every location in the bounding box of the boundary, is within the limits; the limits are the smallest such; an empty boundary raises ValueError.",
     "every list of boundary locations, every location in their bounding box, every zoom level",
     "Unbounded lists and a continuum of interior locations.",
     [S + "image_processing/map_tileset.py:MapTileSet.get_tile_matrix_limits_for_area"])
prop("C13", "Tile set lookup is exact",
     "MapTileSetFactory returns a tile set exactly for the two well-known names, with tile sizes 256 and 512, and nothing for any other name.",
     "every name",
     "Quantifies over all other strings.",
     [S + "image_processing/map_tileset_factory.py:MapTileSetFactory"])
# ------------------------------------------------------------------ coordinate formatting
prop("C14", "DMS strings have a fixed width",
     "to_dms_string returns exactly 15 characters of the form ddmmssXdddmmssY for every latitude in [-90, 90] and longitude in [-180, 180], in any rounding of the arithmetic that is monotone and exact on small integers; four of them make a 60 character IGEOLO field.",
     "every latitude and longitude in range, every admissible rounding",
     "A continuum of coordinates; field overflow appears only within a few millionths of a degree of a carry.",
     [S + "photogrammetry/coordinates.py:GeodeticWorldCoordinate.__format__", S + "photogrammetry/coordinates.py:GeodeticWorldCoordinate.to_dms_string", S + "image_processing/gdal_tile_factory.py:GDALTileFactory._create_new_igeolo"])
prop("C15", "DMS minutes and seconds are below sixty",
     "The minutes and seconds printed by the format directives are between 0 and 59.",
     "every latitude and longitude",
     "The exceptions are tiny intervals just below a whole degree or minute.",
     [S + "photogrammetry/coordinates.py:GeodeticWorldCoordinate.__format__"])
prop("C16", "DMS strings denote the coordinate to within a second",
     "Reading the degrees, minutes, seconds and hemisphere printed for a coordinate gives back the coordinate with an error below one arc second plus rounding.",
     "every latitude and longitude",
     "Error bound over a continuum.",
     [S + "photogrammetry/coordinates.py:GeodeticWorldCoordinate.__format__"])
prop("C17", "The format language is literal outside directives",
     "Formatting a geodetic coordinate copies every character that is not part of a directive, prints % for %%, drops unknown directives, and formatting a concatenation of complete pieces is the concatenation of their formats.",
     "every format string, every coordinate",
     "Quantifies over all strings, including ones that end in the middle of a directive.",
     [S + "photogrammetry/coordinates.py:GeodeticWorldCoordinate.__format__"])
prop("C18", "Decimal degree directives are signed",
     "The %l and %o directives print the signed latitude and longitude in decimal degrees, as documented, so two coordinates with different latitudes never print the same %l text.",
     "every coordinate",
     "Quantifies over pairs of coordinates.",
     [S + "photogrammetry/coordinates.py:GeodeticWorldCoordinate.__format__"])
prop("C19", "SRTM tile names identify one-degree cells",
     "Two covered locations get the same SRTM tile name exactly when they lie in the same one-degree cell, and a location gets no tile exactly when its cell is outside N59..S56.",
     "every pair of locations, every prefix, version and extension",
     "Injectivity over pairs of a continuum of locations.",
     [S + "photogrammetry/srtm_dem_tile_set.py:SRTMTileSet.find_tile_id"])
prop("C20", "Generic DEM tile names identify one-degree cells",
     "With the default format GenericDEMTileSet gives every location the name of the one-degree cell that contains it, so locations in different cells never share a tile, also under IEEE double arithmetic.",
     "every location, all 360 x 181 cells, exact and binary64 arithmetic",
     "Needs all cells: the conversion degrees -> radians -> degrees is wrong for a handful of integers only.",
     [S + "photogrammetry/generic_dem_tile_set.py:GenericDEMTileSet.find_tile_id", S + "photogrammetry/coordinates.py:GeodeticWorldCoordinate.__format__"])
# ------------------------------------------------------------------ DEM
prop("C21", "The raster cache is transparent",
     "For every sequence of elevation and region queries, a DigitalElevationModel gives the answers it would give with no cache, and a query that raises leaves later answers unaffected.",
     "every sequence of queries, every cache size including 0, every tile factory",
     "Statement about all histories.",
     [S + "photogrammetry/digital_elevation_model.py:DigitalElevationModel.set_elevation", S + "photogrammetry/digital_elevation_model.py:DigitalElevationModel.get_interpolation_grid"])
prop("C22", "The raster cache is bounded and keeps recent tiles",
     "At most raster_cache_size tiles are ever held, a tile is not loaded again while fewer than raster_cache_size other tiles were used since its last use, and when no more than raster_cache_size different tiles are ever used each is loaded at most once.",
     "every sequence of tile requests, every cache size",
     "Statement about all histories.",
     [S + "photogrammetry/digital_elevation_model.py:DigitalElevationModel.get_interpolation_grid"])
prop("C23", "Concurrent elevation queries agree with sequential ones",
     "When several threads query one DigitalElevationModel, every query returns the answer of the uncached computation in every interleaving of the cache look-ups, tile loads and cache stores.",
     "every number of threads, every schedule",
     "Statement about all schedules.",
     [S + "photogrammetry/digital_elevation_model.py:DigitalElevationModel.get_interpolation_grid"])
prop("C24", "Setting an elevation changes only the elevation, to a value of the surface",
     "set_elevation never changes longitude or latitude, leaves the elevation alone when there is no tile, is exact at the posts of the grid, and between posts returns a value between the lowest and highest of the four surrounding posts.",
     "every grid of at least two by two elevations, every location in it",
     "Continuum of locations and all grids.",
     [S + "photogrammetry/digital_elevation_model.py:DigitalElevationModel.set_elevation"])
# ------------------------------------------------------------------ transforms and simple sensor models
prop("C25", "Projective transform and its inverse cancel",
     "For a ProjectiveTransform with invertible parameters, inverse(forward(p)) = p and forward(inverse(q)) = q wherever the denominators are not zero.",
     "every parameter set, every point",
     "Algebraic identity over a continuum.",
     [S + "photogrammetry/transforms.py:ProjectiveTransform.forward", S + "photogrammetry/transforms.py:ProjectiveTransform.inverse"])
prop("C26", "Estimating a projective transform from exact correspondences recovers it",
     "When the correspondences passed to ProjectiveTransform.estimate come from an invertible projective map (normalised so that its denominator has constant term 1) and contain four points with no three on a line, the estimated transform equals that map; whenever an exact fit exists the estimate maps every source that it does not send to infinity to its destination.",
     "every list of correspondences in general position, every invertible projective map",
     "Uniqueness of the least squares solution over all configurations.",
     [S + "photogrammetry/transforms.py:ProjectiveTransform.estimate"])
prop("C27", "A chip's sensor model is the full image model shifted",
     "For a ChippedImageSensorModel built from a rectangular crop, image_to_world at a chip pixel equals the full model at the pixel plus the crop offset, and world_to_image equals the full model's pixel minus the offset.",
     "every crop rectangle with positive size, every pixel, every full image sensor model",
     "All crops and all sensor models.",
     [S + "photogrammetry/chipped_image_sensor_model.py:ChippedImageSensorModel"])
prop("C28", "Affine geo-transform models invert",
     "GDALAffineSensorModel raises ValueError exactly when the transform is singular, and otherwise world_to_image(image_to_world(p)) = p and image_to_world(world_to_image(g)) has the longitude and latitude of g, also through an invertible CRS transform that keeps the height.",
     "every geo transform, every pixel, every CRS transform pair",
     "Algebraic identity over a continuum.",
     [S + "photogrammetry/gdal_sensor_model.py:GDALAffineSensorModel"])
prop("C29", "RPC projection is the published rational polynomial",
     "RPCSensorModel.world_to_image returns line and sample offsets plus scale times the ratio of the RPC00B cubic polynomials of the normalised longitude, latitude and height.",
     "every coefficient set of twenty values, every coordinate",
     "Twenty terms in a fixed order over a continuum; swapping two terms is invisible to most samples.",
     [S + "photogrammetry/rpc_sensor_model.py:RPCPolynomial.evaluate", S + "photogrammetry/rpc_sensor_model.py:RPCSensorModel.world_to_image"])
prop("C30", "Iterative models return a ground point on the elevation surface",
     "The point returned by image_to_world of an RPC or RSM model has the longitude and latitude found by the search, and the elevation that the elevation model assigns there, or the model's default elevation when there is no elevation model or it has no data; the search only ever evaluates points on that same surface.",
     "every minimiser result, every elevation model, every option set",
     "The optimiser is arbitrary.",
     [S + "photogrammetry/rpc_sensor_model.py:RPCSensorModel.image_to_world", S + "photogrammetry/replacement_sensor_model.py:RSMPolynomialSensorModel.image_to_world"])
prop("C31", "RSM polynomials are the sum over all monomials",
     "RSMPolynomial rejects a coefficient list of the wrong length and otherwise evaluates to the sum of a_ijk x^i y^j z^k with the coefficient order of the standard; the low order polynomial is the ten-term quadratic; both are linear in the coefficients.",
     "every maximum power triple, every coefficient list, every point",
     "Powers and coefficients are unbounded.",
     [S + "photogrammetry/replacement_sensor_model.py:RSMPolynomial", S + "photogrammetry/replacement_sensor_model.py:RSMLowOrderPolynomial"])
prop("C32", "RSM normalisation and ground domains invert",
     "Normalising then denormalising an image or ground coordinate gives it back for non-zero scales, geodetic to ground domain conversion inverts in each domain form, and a GEODETIC_2PI longitude is in [0, 2*pi) and equal to the input modulo 2*pi.",
     "every coordinate, every scale and offset, every domain form",
     "Continuum of coordinates.",
     [S + "photogrammetry/replacement_sensor_model.py:RSMGroundDomain", S + "photogrammetry/replacement_sensor_model.py:RSMPolynomialSensorModel"])
prop("C33", "Every image location is served by an existing RSM section",
     "RSMSectionedPolynomialSensorModel picks, for every pixel or ground point, a section that exists, and the section whose row and column interval contains the low order location when that is inside the image; world_to_image and image_to_world delegate to that section.",
     "every section grid of positive size, every location",
     "Clamping behaviour on a continuum, including points far outside.",
     [S + "photogrammetry/replacement_sensor_model.py:RSMSectionedPolynomialSensorModel.get_section_index"])
prop("C34", "A composite model answers with its precision model",
     "CompositeSensorModel.world_to_image equals the precision model's; image_to_world passes the caller's options with the approximate location as initial guess and changes neither the caller's options nor other keys.",
     "every pair of sensor models, every option dictionary",
     "All models and option sets.",
     [S + "photogrammetry/composite_sensor_model.py:CompositeSensorModel"])
# ------------------------------------------------------------------ factory and metadata
prop("C35", "Sensor model selection follows the documented precedence",
     "SensorModelFactory.build returns the composite of the chosen precision and approximate models, or whichever exists, or None; with the precedence GCP over affine, CSCRNA over both, RSM over RPC, SICD/SIDD over all TREs, and only selected types are used.",
     "every combination of available metadata and selected model types",
     "All combinations of optional metadata, each builder able to fail.",
     [S + "gdal/sensor_model_factory.py:SensorModelFactory.build"])
prop("C36", "Bad optional metadata does not lose a usable model",
     "When one metadata source is unusable, build still returns a model made from the remaining sources: a malformed ICHIPB leaves the unchipped model, and a SICD/SIDD that cannot be converted leaves the RSM or RPC model.",
     "every combination of available metadata and failures",
     "All failure combinations.",
     [S + "gdal/sensor_model_factory.py:SensorModelFactory.build", S + "gdal/sensor_model_factory.py:ChippedImageInfoFacade"])
prop("C37", "TRE coefficients are stored at their declared positions",
     "parse_rpc_coefficients returns a list of the declared length whose i-th entry is the last value given for index i, or 0; an index outside the list raises instead of writing elsewhere.",
     "every list of indexed coefficients, every declared length",
     "Unbounded lists with arbitrary indices.",
     [S + "gdal/xmltre_utils.py:parse_rpc_coefficients", S + "gdal/xmltre_utils.py:get_tre_field_value"])
prop("C38", "DES headers have the fixed NITF layout",
     "extract_des_header returns a string in which every field occupies exactly the columns the standard assigns to it, so that cutting the string at those columns gives the (padded) values back, and its length is 173 + DESSHL.",
     "every assignment of field values, including values longer than their column",
     "All field values; a single overlong one shifts all later fields.",
     [S + "gdal/nitf_des_accessor.py:NITFDESAccessor.extract_des_header"])
prop("C39", "DES segments are found in document order and the XML prolog is removed",
     "get_segments_by_name returns exactly the segments of that name in document order; text without an XML declaration is unchanged except for outer white space, and the text used for parsing contains no declaration.",
     "every document and every text",
     "All strings.",
     [S + "gdal/nitf_des_accessor.py:NITFDESAccessor"])
prop("C61", "Polynomial coefficients keep their exponents",
     "Converting SICD Poly1D / Poly2D metadata gives an array of (order+1) (by order+1) coefficients whose entry at the given exponents is the last value given for them and 0 elsewhere; an exponent above the order raises.",
     "every order, every coefficient list",
     "Unbounded lists.",
     [S + "gdal/sicd_sensor_model_builder.py:poly1d_to_native", S + "gdal/sicd_sensor_model_builder.py:poly2d_to_native"])
prop("C62", "RSM section grids are complete and correctly placed",
     "When a multi-section RSM is built, the model at row r, column c of the grid is the one whose metadata says row section r+1, column section c+1; when a section is missing no model is produced instead of an error.",
     "every list of section metadata, every grid size",
     "All orders, duplicates and omissions.",
     [S + "gdal/rsm_sensor_model_builder.py:RSMSensorModelBuilder"])
# ------------------------------------------------------------------ tiles
prop("C40", "A SICD tile's metadata depends only on that tile",
     "After any sequence of tile requests, the first row and column written for a tile are the image's own plus the tile offset; a rejected (scaled) request changes nothing; chipping a chip adds the offsets.",
     "every sequence of tile requests",
     "Statement about all histories of a mutable object.",
     [S + "image_processing/sicd_updater.py:SICDUpdater.update_image_data_for_chip"])
prop("C41", "A SIDD tile's metadata depends only on that tile",
     "The chip corners written for a tile do not depend on which tiles were created before from the same factory.",
     "every sequence of tile requests",
     "Statement about all histories of a mutable object.",
     [S + "image_processing/sidd_updater.py:SIDDUpdater.update_image_data_for_chip", S + "image_processing/gdal_tile_factory.py:GDALTileFactory.create_encoded_tile"])
prop("C42", "Reading back a SIDD tile gives the shifted sensor model",
     "The sensor model built from the metadata written for an unscaled SIDD tile maps tile pixel (c, r) to the full image pixel (c + x offset, r + y offset).",
     "every tile offset and size, every pixel",
     "Continuum of pixels; the disagreement is less than one pixel.",
     [S + "image_processing/sidd_updater.py:SIDDUpdater", S + "gdal/sidd_sensor_model_builder.py:SIDDSensorModelBuilder.from_dataclass"])
prop("C43", "Chip to full image interpolation hits the corners and stays inside",
     "SIDDUpdater.chipped_coordinate_to_full maps the four chip corners to the recorded full image corners, every chip pixel into their bounding box, and a pure crop to a pure shift; chips one pixel wide are handled.",
     "every corner quadruple, chip size and chip pixel",
     "Continuum of pixels and arbitrary quadrilaterals.",
     [S + "image_processing/sidd_updater.py:SIDDUpdater.chipped_coordinate_to_full"])
prop("C44", "Encoded tiles do not depend on earlier tiles",
     "The translate options used for a tile are a function of the request and the factory configuration only: whatever was requested before, no creation option accumulates and the defaults are unchanged; the temporary in-memory file is removed after every successful encoding.",
     "every sequence of tile requests, including failing ones",
     "Statement about all histories.",
     [S + "image_processing/gdal_tile_factory.py:GDALTileFactory.create_encoded_tile", S + "image_processing/gdal_tile_factory.py:GDALTileFactory._create_gdal_translate_kwargs"])
prop("C45", "Orthophoto source windows lie inside the image",
     "For every map tile, create_orthophoto_tile either reports no overlap or reads a non-empty window inside the source image (or overview), at a reduced resolution level that exists and never has fewer source pixels than the tile needs when full resolution has them.",
     "every projected tile outline, every image size, every number of overviews",
     "Continuum of outlines; edge contact cases.",
     [S + "image_processing/gdal_tile_factory.py:GDALTileFactory.create_orthophoto_tile", S + "image_processing/gdal_tile_factory.py:GDALTileFactory._read_from_rlevel_as_array"])
prop("C46", "Orthophoto tiles have the requested shape and orientation",
     "The orthophoto returned for a requested size (width, height) has that width and height and pixel (row i, column j) is sampled at the location of that row and column.",
     "every tile size, square or not",
     "The axis confusion is invisible for square tiles.",
     [S + "image_processing/gdal_tile_factory.py:GDALTileFactory.create_orthophoto_tile"])
prop("C47", "8-bit normalisation is monotone and in range",
     "The range-adjusted orthophoto pixels are in [0, 255], a brighter source pixel never becomes darker, and under MINMAX the minimum maps to 0 and the maximum to 255.",
     "every pixel array, every band statistics",
     "All arrays and statistics.",
     [S + "image_processing/gdal_tile_factory.py:GDALTileFactory._normalize_bands", S + "image_processing/gdal_tile_factory.py:GDALTileFactory._normalize_band_minmax", S + "image_processing/gdal_tile_factory.py:GDALTileFactory._normalize_band_dra"])
prop("C48", "SAR power is the squared magnitude",
     "complex_to_power_value(image_pixels_to_complex(pixels)) is re^2 + im^2 for the complex pixel types and amplitude^2 for the amplitude/phase type, for every pixel value the type can hold.",
     "every pixel value of every pixel type",
     "Fixed-width integer overflow appears for magnitudes above 181 only.",
     [S + "image_processing/sar_complex_imageop.py:image_pixels_to_complex", S + "image_processing/sar_complex_imageop.py:complex_to_power_value"])
prop("C49", "SAR display mappings are in range and monotone",
     "linear_mapping returns values in [0, 1] with minimum 0 and maximum 1 (0.5 for constant images); histogram stretch and quarter power images are in [0, 255] and never map a larger magnitude to a darker pixel.",
     "every array of magnitudes, every clip value and scale factor",
     "All arrays.",
     [S + "image_processing/sar_complex_imageop.py:linear_mapping", S + "image_processing/sar_complex_imageop.py:histogram_stretch_mag_values", S + "image_processing/sar_complex_imageop.py:quarter_power_mag_values"])
# ------------------------------------------------------------------ SICD geometry
prop("C50", "SICD pixel and image plane coordinates invert",
     "Row/column, image grid and image plane point conversions invert each other for every pair of independent row and column unit vectors, orthogonal or not; the plane normal is a unit vector perpendicular to both.",
     "every image grid, every pixel, every image plane point",
     "Continuum, non-orthogonal grids.",
     [S + "photogrammetry/sicd_sensor_model.py:SARImageCoordConverter"])
prop("C51", "R/Rdot ground plane projection satisfies its three equations",
     "The point returned by the ground plane projection lies on the plane, is at the given range from the platform and has the given range rate, on the look side of the track; impossible geometries raise.",
     "every platform position and velocity, plane, range and range rate",
     "Continuum of geometries.",
     [S + "photogrammetry/sicd_sensor_model.py:GroundPlaneRRDotSurfaceProjection.rrdot_to_ground"])
prop("C55", "The scene centre pixel projects to the scene centre point",
     "For polar format, range-azimuth compressed and plane grids, projecting the scene centre pixel onto a ground plane through the scene centre point returns that point, and a plane grid pixel on the scene's side of the track projects to its own image plane point.",
     "every collection geometry without adjustable offsets in which neither velocity nor line of sight is along the normal of the plane, every polynomial set",
     "Continuum of geometries.",
     [S + "photogrammetry/sicd_sensor_model.py:PFAProjectionSet", S + "photogrammetry/sicd_sensor_model.py:RGAZCOMPProjectionSet", S + "photogrammetry/sicd_sensor_model.py:PlaneProjectionSet", S + "photogrammetry/sicd_sensor_model.py:SICDSensorModel.image_to_world"])
prop("C56", "SICD world_to_image ends with a verified pixel",
     "world_to_image does at most ten iterations, and unless it used all of them the returned pixel projects to within one centimetre of the requested point's ground plane location; for a derived-product plane grid it inverts image_to_world exactly.",
     "every coordinate, every projection",
     "All inputs and iteration counts.",
     [S + "photogrammetry/sicd_sensor_model.py:SICDSensorModel.world_to_image"])
prop("C57", "Constant height projection ends on the requested height",
     "The height-above-ellipsoid projection performs at most the configured number of iterations and its result has exactly the requested height.",
     "every geometry, every iteration limit",
     "All inputs and iteration counts.",
     [S + "photogrammetry/sicd_sensor_model.py:HAERRDotSurfaceProjection.rrdot_to_ground"])
prop("C58", "Terrain projection returns points on the R/Rdot contour that meet the terrain",
     "Every point returned by the DEM projection is on the range/range-rate contour or between two sampled contour points on opposite sides of the terrain; the sampled points span from the lowest to the highest terrain height; a point exactly at the height tolerance above the terrain is not taken for one below it.",
     "every sequence of sampled height differences",
     "All terrain profiles.",
     [S + "photogrammetry/sicd_sensor_model.py:DEMRRDotSurfaceProjection.rrdot_to_ground"])
prop("C59", "Slant and ground plane normals are unit and outward",
     "The slant plane normal is a unit vector perpendicular to velocity and line of sight and the ground plane normal is a unit vector; the ground plane normal does not point into the Earth, and the slant plane normal points away from its centre when the scene is on the side of the track that the metadata names.",
     "every geometry with independent velocity and line of sight",
     "Continuum.",
     [S + "photogrammetry/sicd_sensor_model.py:SICDSensorModel.compute_u_spn", S + "photogrammetry/sicd_sensor_model.py:SICDSensorModel.compute_u_gpn"])
prop("C60", "A SICD chip's sensor model is the full model shifted",
     "The sensor model of a SICD chip written by the tile factory maps a chip pixel to the world point the full image model gives for the pixel plus the chip offset, and back.",
     "every chip offset, every pixel, every surface",
     "All offsets and models.",
     [S + "photogrammetry/sicd_sensor_model.py:SICDSensorModel", S + "image_processing/sicd_updater.py:SICDUpdater"])
# ------------------------------------------------------------------ features
prop("C63", "Image geometry lookup follows a fixed precedence",
     "find_image_geometry returns the imageGeometry if present, else the imageBBox as a polygon, else (only if allowed) the deprecated properties in order, else None.",
     "every feature",
     "All combinations of present and absent properties.",
     [S + "features/imaged_feature_property_accessor.py:ImagedFeaturePropertyAccessor.find_image_geometry"])
prop("C64", "Updating image geometries touches only existing image properties",
     "update_existing_image_geometries rewrites exactly the image properties the feature already has, leaves all others and the feature's own geometry unchanged, and a later lookup returns the new geometry or its bounds.",
     "every feature, every geometry",
     "All combinations of properties and geometry types.",
     [S + "features/imaged_feature_property_accessor.py:ImagedFeaturePropertyAccessor.update_existing_image_geometries"])
prop("C65", "Geolocation keeps the shape of every feature",
     "geolocate_features gives every feature with an image geometry a geometry of the same type and with the same number of vertices in the same order, and leaves features without one untouched, whatever else is in the list; an empty list is a no-op.",
     "every list of features, nested collections included",
     "Arbitrarily nested collections and all lists.",
     [S + "features/geolocation.py:Geolocator.geolocate_features"])
prop("C66", "The geolocation grid covers every feature",
     "The approximation grid spans the bounding box of all image geometries in the list with a margin, so no vertex is extrapolated.",
     "every list of features",
     "All lists.",
     [S + "features/geolocation.py:Geolocator"])
prop("C67", "Grid interpolation is exact for affine images",
     "Geolocating through the interpolation grid gives, for a sensor model that is affine in the pixel, exactly the sensor model's location for every pixel and every grid size of two or more; for any sensor model it is exact at the grid nodes and stays between neighbouring node values.",
     "every grid size, every pixel, every sensor model",
     "Continuum.",
     [S + "features/geolocation.py:LocationGridInterpolator"])
prop("C68", "Spatial index queries return exactly the intersecting features",
     "find_intersects returns exactly the indexed features whose geometry intersects the query, each once per occurrence, and find_nearest returns features no farther than any other and within the distance limit; both work for image and world geometries.",
     "every feature collection, every query",
     "All collections.",
     [S + "features/feature_index.py:STRFeature2DSpatialIndex"])
# ------------------------------------------------------------------ misc
prop("C69", "The search simplex is an equilateral triangle about the guess",
     "equilateral_triangle returns three points whose centroid is the given point and whose three sides all have the given length.",
     "every centre and every size",
     "Continuum.",
     [S + "photogrammetry/math_utils.py:equilateral_triangle"])
prop("C70", "Elevation tile paths are rewritten for S3 only",
     "GDALDigitalDEMTileFactory opens prefix/tile, with a leading s3:/ replaced by /vsis3 once, and returns no data at all when the tile cannot be opened or has no geo transform.",
     "every directory and tile path",
     "All strings.",
     [S + "gdal/gdal_dem_tile_factory.py:GDALDigitalElevationModelTileFactory.get_tile"])
prop("C71", "Map tile rows follow the published tile matrix",
     "The row that get_tile_for_location returns for WebMercatorQuad is the row of the OGC tile matrix set of that name, counted from the north.",
     "every location, every zoom level",
     "Holds or fails for every location, not for a sample.",
     [S + "image_processing/map_tileset_wmq.py:WebMercatorQuadMapTileSet.get_tile_for_location"])
prop("C72", "A tile that could not be read once is used when it becomes readable",
     "When loading an elevation tile fails and the tile can be read at a later query, that later query uses the tile's elevations.",
     "every tile source, every pair of queries",
     "The first failure must happen before the success; a test with a fixed tile source cannot show it.",
     [S + "photogrammetry/digital_elevation_model.py:DigitalElevationModel.get_interpolation_grid"])
prop("C73", "Elevation queries from several threads never fail because of the cache",
     "A query of a readable tile by one of several threads sharing a DigitalElevationModel never raises because of the raster cache, and no interleaving damages the cache for later queries.",
     "every number of threads, every schedule at the level of the cache's internal updates",
     "The failing schedule is a few byte codes wide and its effect shows up only later.",
     [S + "photogrammetry/digital_elevation_model.py:DigitalElevationModel.get_interpolation_grid"])

prop("C74", "A projective sensor model inverts itself and passes through exactly fitting control points",
     "ProjectiveSensorModel ignores the elevation in world_to_image, its image_to_world gives height zero or the elevation model's height, the two directions invert each other, and ground control points that fit some projective map exactly are reproduced.",
     "every list of control points whose estimated transform is invertible (for the last part: with four points of which no three are on a line), every pixel and world coordinate",
     "Continuum of control point configurations.",
     [S + "photogrammetry/projective_sensor_model.py:ProjectiveSensorModel"])

prop("C75", "The RSM search area and default height come from the ground domain",
     "An RSM ground domain's bounding box is the smallest longitude/latitude box holding its eight vertices, and its default height is the reference point's height, or the mean vertex height when there is none.",
     "every domain form, every vertex list and reference point",
     "The bounds are a property of all vertex lists.",
     [S + "photogrammetry/replacement_sensor_model.py:RSMGroundDomain"])
prop("C76", "RSM image_to_world returns a longitude in the standard range",
     "The longitude returned by image_to_world of an RSM model is in [-pi, pi], as for every other sensor model.",
     "every RSM model, every pixel",
     "Depends on the domain form and hemisphere of the image.",
     [S + "photogrammetry/replacement_sensor_model.py:RSMPolynomialSensorModel.image_to_world"])
prop("C77", "A hint from the approximate model does not keep an RSM search from its goal",
     "When CompositeSensorModel passes the approximate model's location (standard longitude range) as initial guess, the RSM search can reach every ground point of its domain.",
     "every RSM model, every hint in the standard longitude range",
     "Needs a GEODETIC_2PI image in the western hemisphere together with an approximate model.",
     [S + "photogrammetry/replacement_sensor_model.py:RSMPolynomialSensorModel.image_to_world",
      S + "photogrammetry/composite_sensor_model.py:CompositeSensorModel.image_to_world"])

prop("C78", "A TRE builds exactly the model with the fields it states",
     "The builders for RPC00B, RSM, CSCRNA and ICHIPB return a model whose every parameter is the value of the field with that name, and report failure when a field is missing or malformed.",
     "every TRE tree",
     "Dozens of fields, any of which may be missing, repeated or malformed.",
     [S + "gdal/rpc_sensor_model_builder.py:RPCSensorModelBuilder", S + "gdal/rsm_sensor_model_builder.py:RSMSensorModelBuilder",
      S + "gdal/projective_sensor_model_builder.py:ProjectiveSensorModelBuilder", S + "gdal/sensor_model_factory.py:ChippedImageInfoFacade",
      S + "gdal/xmltre_utils.py:get_tre_field_value"])
prop("C79", "DES header text fields are left justified",
     "The text fields of the header made by extract_des_header are left justified and space filled, as the NITF standard requires of BCS-A fields.",
     "every DES with fields that fit their columns",
     "A property of every field value shorter than its column.",
     [S + "gdal/nitf_des_accessor.py:NITFDESAccessor.extract_des_header"])

prop("C80", "Range adjustment works on constant images",
     "get_type_and_scales with MINMAX or DRA adjustment returns scales for an image whose bands are constant.",
     "every band type, every constant, both modes",
     "Needs an image without contrast for each integer pixel type.",
     [S + "gdal/gdal_utils.py:get_type_and_scales", S + "gdal/dynamic_range_adjustment.py:DRAParameters.from_counts"])
prop("C81", "MINMAX adjustment covers the whole range of the image",
     "With MINMAX adjustment the input limits of a band are its minimum and maximum, so that no value is cut off.",
     "every band, every histogram",
     "Depends on the histogram buckets of every image.",
     [S + "gdal/gdal_utils.py:get_type_and_scales", S + "gdal/dynamic_range_adjustment.py:DRAParameters.from_counts"])

prop("C82", "Orthophoto sampling is registered at every resolution level",
     "A source position of the full image is sampled at the place of the array that was read from there, at every reduced resolution level.",
     "every window corner, every level",
     "The error shows only for windows that do not start at a multiple of the level's factor.",
     [S + "image_processing/gdal_tile_factory.py:GDALTileFactory.create_orthophoto_tile"])
prop("C83", "Image pixels of an orthophoto are opaque",
     "The alpha channel of an orthophoto is 255 for every pixel that shows image data and 0 elsewhere.",
     "every image content",
     "Depends on pixel values: black pixels and pure colours.",
     [S + "image_processing/gdal_tile_factory.py:GDALTileFactory.create_orthophoto_tile"])
prop("C84", "Floating-point NITF tiles are never JPEG 2000",
     "A NITF tile has exactly one compression option, and for floating-point pixels it is never JPEG 2000.",
     "every compression, every pixel type",
     "A product of options of which tests sample a few.",
     [S + "image_processing/gdal_tile_factory.py:GDALTileFactory._create_gdal_translate_kwargs"])

prop("C85", "Geolocation works across the antimeridian",
     "A pixel of an image that crosses the antimeridian is given a longitude near that of its neighbours, up to whole turns.",
     "every image, every pixel",
     "Test images lie away from longitude 180.",
     [S + "features/geolocation.py:LocationGridInterpolator"])

prop("C86", "SICD world_to_image accounts for elevation",
     "world_to_image of a world point above or below the model's ground plane returns the pixel that sees this point: its range and range rate contour passes through the point.",
     "every model, every world point",
     "Tests use points of the scene's own plane.",
     [S + "photogrammetry/sicd_sensor_model.py:SICDSensorModel.world_to_image"])
prop("C87", "Terrain projection returns only points that meet the terrain",
     "A contour sample over a place where the elevation model has no data is not reported as an intersection with the terrain.",
     "every elevation model, every contour",
     "Needs an elevation model with a gap under the contour.",
     [S + "photogrammetry/sicd_sensor_model.py:DEMRRDotSurfaceProjection.rrdot_to_ground"])
prop("C88", "Range rate is the time derivative of range",
     "For polar format, plane and zero Doppler grids the range rate given for a pixel is the time derivative of the range of the same pixel, and the velocity polynomial is the derivative of the position polynomial.",
     "every metadata, every pixel, every time",
     "A derivative is a statement about all times; tests compare few numbers.",
     [S + "photogrammetry/sicd_sensor_model.py:PFAProjectionSet", S + "photogrammetry/sicd_sensor_model.py:INCAProjectionSet",
      S + "photogrammetry/sicd_sensor_model.py:PlaneProjectionSet", S + "photogrammetry/sicd_sensor_model.py:COAProjectionSet"])
prop("C89", "A built SICD model can project",
     "When the SICD sensor model builder returns a model, image_to_world and world_to_image of this model do not fail for want of a projection set or surface projection.",
     "every metadata document",
     "Tests build from a few products; image formation and grid types not covered are silently accepted.",
     [S + "gdal/sicd_sensor_model_builder.py:SICDSensorModelBuilder.build"])

prop("C90", "The suggested display range is the widened percentile range",
     "The suggested minimum and maximum of DRAParameters.from_counts are the values of the buckets at the two percentiles, moved outwards by the factors a and b times their distance and clipped to the range of the pixels; by default 2 %, 98 %, 0.2 and 0.4.",
     "every histogram, every percentile, every factor",
     "Tests compare the result for a few histograms.",
     [S + "gdal/dynamic_range_adjustment.py:DRAParameters.from_counts"])
prop("C91", "describe_region describes the tile of the location",
     "describe_region returns the summary that belongs to the tile of the location, nothing when no tile is available there, and passes on exceptions, whatever was asked before.",
     "every tile set and source, every sequence of queries",
     "Cached and uncached paths differ; tests query once.",
     [S + "photogrammetry/digital_elevation_model.py:DigitalElevationModel.describe_region"])
prop("C92", "Elevation is unchanged where the elevation model has no value",
     "set_elevation leaves the elevation of a location alone where the elevation model has no value, as its documentation says.",
     "every elevation model, every location",
     "Test tiles have no voids.",
     [S + "photogrammetry/digital_elevation_model.py:DigitalElevationModel.set_elevation"])
prop("C93", "The document in a data extension segment is found",
     "extract_desdata_xml returns the decoded DESDATA value, or else the first element of xml_content, or else nothing.",
     "every DES element",
     "The shapes of the metadata depend on the GDAL version; tests have one.",
     [S + "gdal/nitf_des_accessor.py:NITFDESAccessor.extract_desdata_xml"])
prop("C94", "A sectioned RSM image is projected section by section",
     "In the model built from the TREs of an image with several sections each pixel, and each ground point, is projected with the polynomials of the RSMPCA TRE whose section numbers belong to it according to RSMIDA and RSMPIA.",
     "every set of TREs that is accepted, every pixel and ground point",
     "Test images have a single section.",
     [S + "gdal/rsm_sensor_model_builder.py:RSMSensorModelBuilder", S + "photogrammetry/replacement_sensor_model.py:RSMSectionedPolynomialSensorModel"])

prop("C95", "IGEOLO gives the corners of the tile",
     "The IGEOLO field of a NITF tile has 60 characters; its four groups of fifteen denote, to a second, the ground locations of the corners of the source window clockwise from the upper left; a corner that cannot be located raises.",
     "every sensor model with results on the globe, every window",
     "Tests look at the file that GDAL writes for one image; hemispheres, signs and corner order are not compared with the sensor model.",
     [S + "image_processing/gdal_tile_factory.py:GDALTileFactory._create_new_igeolo", S + "photogrammetry/coordinates.py:GeodeticWorldCoordinate.to_dms_string"])
prop("C96", "The right bands are displayed",
     "Orthophoto tiles show all bands when no range adjustment is requested; otherwise the band of a grey image, the power of a two-band complex image and the first three bands of other images, every band adjusted with its own statistics.",
     "every number of bands, every range adjustment",
     "Tests use one or two images.",
     [S + "image_processing/gdal_tile_factory.py:GDALTileFactory._normalize_bands", S + "image_processing/gdal_tile_factory.py:GDALTileFactory._normalize_image_for_display"])
prop("C97", "The PNG tile has the colours of the image",
     "In an orthophoto tile the first three bands of the image appear as red, green and blue, and every image that can be read yields a PNG file.",
     "every number of bands, every range adjustment, every pixel",
     "Tests check that bytes are returned, not what they decode to.",
     [S + "image_processing/gdal_tile_factory.py:GDALTileFactory.create_orthophoto_tile"])
prop("C98", "Orthophoto tiles use the elevation at the image centre",
     "The default elevation of an orthophoto tile is the elevation that the sensor model has at the centre of the image.",
     "every image size, every sensor model",
     "A wrong centre shifts the tile by an amount that tests with flat ground do not see.",
     [S + "image_processing/gdal_tile_factory.py:GDALTileFactory.create_orthophoto_tile"])
prop("C99", "A tile that cannot be projected is reported as missing",
     "When the sensor model cannot convert the coordinates of a tile, create_orthophoto_tile returns None instead of raising.",
     "every sensor model, every tile",
     "Needs a sensor model that fails at chosen points.",
     [S + "image_processing/gdal_tile_factory.py:GDALTileFactory.create_orthophoto_tile"])
prop("C100", "An orthophoto tile shows the image at the projected places",
     "The pixel in row i and column j of an orthophoto tile shows the adjusted image value at the position where the sensor model projects the longitude and latitude of that tile pixel.",
     "every image, sensor model, tile bounds and tile size",
     "A test can compare one tile with a stored picture; whether places agree for all bounds, levels and sizes is not tested.",
     [S + "image_processing/gdal_tile_factory.py:GDALTileFactory.create_orthophoto_tile", S + "image_processing/gdal_tile_factory.py:GDALTileFactory._read_from_rlevel_as_array"])

prop("C101", "Tiles carry the SAR metadata of the segment that the sensor model comes from",
     "A tile factory for a NITF image takes the first XML data segment that mentions SIDD or SICD, with the header of the same segment, and no metadata when there is none; SensorModelFactory takes its model from the same segment and as the same product.",
     "every list of data extension segments, every content",
     "The two classes repeat the same loop; tests use files with one product.",
     [S + "image_processing/gdal_tile_factory.py:GDALTileFactory.__init__", S + "gdal/sensor_model_factory.py:SensorModelFactory.build"])
prop("C102", "SAR tiles are marked as what they are",
     "NITF tiles of complex SICD images are marked as complex data of the bands I and Q; tiles of detected SIDD images are not.",
     "every image with SAR metadata, every request",
     "Tests check the options of one SICD file.",
     [S + "image_processing/gdal_tile_factory.py:GDALTileFactory.create_encoded_tile"])
prop("C103", "A complex pixel is shown the same in every tile",
     "The displayed brightness of a complex pixel depends on the pixel and the image but not on the other pixels of its tile, so that neighbouring tiles fit together.",
     "every image, with and without statistics, every pair of tiles",
     "Tests make one tile.",
     [S + "image_processing/gdal_tile_factory.py:GDALTileFactory._normalize_complex_sar", S + "image_processing/sar_complex_imageop.py:quarter_power_mag_values"])
prop("C104", "The SAR display functions show the quantity they are named for",
     "quarter_power_image shows the fourth root of the pixel power, and histogram_stretch the pixel magnitude, each in proportion up to white.",
     "every array of complex pixels, scale factor and precomputed mean",
     "Tests check shapes and ranges of the results.",
     [S + "image_processing/sar_complex_imageop.py:quarter_power_image", S + "image_processing/sar_complex_imageop.py:histogram_stretch"])
prop("C105", "Decibels are the logarithmic measure of power",
     "power_value_in_decibels keeps the order, turns products into sums, gives ten decibels for a factor of ten and minus infinity for no power, and can be inverted.",
     "all powers",
     "Laws for all numbers.",
     [S + "image_processing/sar_complex_imageop.py:power_value_in_decibels"])
prop("C106", "Ground control points lie on their pixels",
     "GDALGCPSensorModelBuilder builds nothing from fewer than four points; otherwise, when the points fit an invertible projective map and four of them have no three on a line, the model places every control point on its pixel at any elevation.",
     "every list of control points",
     "Tests use four points of one image.",
     [S + "gdal/gdal_sensor_model_builder.py:GDALGCPSensorModelBuilder", S + "photogrammetry/projective_sensor_model.py:ProjectiveSensorModel"])
prop("C107", "Orthophoto tiles follow the pixel centre convention",
     "Image coordinates have the centre of the upper left pixel at (0.5, 0.5); at the ground location of the centre of a pixel an orthophoto tile shows the value of this pixel.",
     "every image, sensor model and tile",
     "A shift of half a pixel is within the tolerance of comparisons by eye.",
     [S + "image_processing/gdal_tile_factory.py:GDALTileFactory.create_orthophoto_tile", S + "photogrammetry/coordinates.py:ImageCoordinate"])

prop("C108", "The elevation surface passes through the posts of the file",
     "At the ground location of a pixel centre of an elevation file, which GDAL's geo transform defines, DigitalElevationModel returns the value of the pixel.",
     "every elevation file in longitude and latitude, every pixel, every history of queries",
     "Tests compare with a tolerance that hides half a post.",
     [S + "gdal/gdal_dem_tile_factory.py:GDALDigitalElevationModelTileFactory.get_tile", S + "photogrammetry/digital_elevation_model.py:DigitalElevationModel.set_elevation"])
prop("C109", "Elevation files may be in any reference system",
     "The elevation at a ground location is the value of the file at that location, also when the file is in a projected coordinate reference system.",
     "every elevation file and reference system",
     "Tests use DTED and SRTM files, which are in longitude and latitude.",
     [S + "gdal/gdal_dem_tile_factory.py:GDALDigitalElevationModelTileFactory.get_tile", S + "photogrammetry/gdal_sensor_model.py:GDALAffineSensorModel"])
prop("C110", "The summary of an elevation tile describes its file",
     "describe_region reports the minimum, maximum and no-data value of the file at the location, and as post spacing the distance between the upper left and lower right corners divided by the diagonal in pixels. A file that cannot be opened or has no geo transform has no summary and changes no coordinate, and nothing is raised.",
     "every elevation file that is unusable or has an invertible geo transform and at least two by two posts, every location, every history of queries",
     "The summary comes through cache, tile set and factory; tests check one tile.",
     [S + "gdal/gdal_dem_tile_factory.py:GDALDigitalElevationModelTileFactory.get_tile", S + "photogrammetry/digital_elevation_model.py:DigitalElevationModel.describe_region"])
prop("C111", "Loading an image reports failures as ValueError and considers all metadata",
     "load_gdal_dataset raises ValueError for an image that GDAL cannot open, in both error modes of GDAL; for an open image it returns the image with the sensor model that SensorModelFactory makes from all of its metadata without restriction of types.",
     "every outcome of opening, every metadata",
     "The list of selected types is repeated by hand; tests have no image for each type.",
     [S + "gdal/gdal_utils.py:load_gdal_dataset"])
prop("C112", "An image with RPC metadata is projected as the RPC00B format says",
     "After load_gdal_dataset of an image with an RPC00B TRE and neither RSM metadata nor a SAR document, world_to_image is offset plus scale times the ratio of the cubics with the coefficients in the file, moved into the chip when there is an ICHIPB TRE with a rectangle, whatever approximate models the file offers; image_to_world searches the ground point with that projection.",
     "every image file with RPC00B and optional ICHIPB metadata, every ground point",
     "Depends on the parser, builder, factory, chip adaptation and model together.",
     [S + "gdal/gdal_utils.py:load_gdal_dataset", S + "gdal/rpc_sensor_model_builder.py:RPCSensorModelBuilder", S + "gdal/sensor_model_factory.py:SensorModelFactory.build", S + "photogrammetry/rpc_sensor_model.py:RPCSensorModel", S + "photogrammetry/chipped_image_sensor_model.py:ChippedImageSensorModel"])
prop("C113", "An image with RSM metadata is projected as its TREs say",
     "After load_gdal_dataset of an image with RSMIDA and RSMPCA TREs and no SAR document, world_to_image is offset plus scale times the ratio of the polynomials with the coefficients in the file (of the section responsible for the point), moved into the chip when there is an ICHIPB TRE with a rectangle, also when there is RPC metadata.",
     "every image file with RSM and optional ICHIPB metadata, every ground point",
     "Depends on the parser, builders, factory, chip adaptation and model together.",
     [S + "gdal/gdal_utils.py:load_gdal_dataset", S + "gdal/rsm_sensor_model_builder.py:RSMSensorModelBuilder", S + "gdal/sensor_model_factory.py:SensorModelFactory.build", S + "photogrammetry/replacement_sensor_model.py:RSMPolynomialSensorModel"])
prop("C114", "An image with a geo transform is located as GDAL defines it",
     "After load_gdal_dataset of an image that has only a geo transform, pixel (c, r) is at the position of the geo transform in the reference system of the image, world_to_image is the inverse of image_to_world, and a singular geo transform is a ValueError.",
     "every geo transform and reference system",
     "Tests use one GeoTIFF.",
     [S + "gdal/gdal_utils.py:load_gdal_dataset", S + "photogrammetry/gdal_sensor_model.py:GDALAffineSensorModel"])
prop("C115", "Ground control points of a loaded image lie on their pixels",
     "After load_gdal_dataset of an image with ground control points that fit a projective map, world_to_image takes the ground location of every control point, in the reference system of the control points, to its pixel.",
     "every list of control points and reference system",
     "Tests use control points in degrees.",
     [S + "gdal/gdal_utils.py:load_gdal_dataset", S + "gdal/gdal_sensor_model_builder.py:GDALGCPSensorModelBuilder"])

prop("C116", "The order of control points does not matter",
     "Listing the same ground control points (or correspondences) in another order gives the same projective transform, the same ProjectiveSensorModel and the same result of load_gdal_dataset, also when no transform fits them all.",
     "every list of correspondences, every permutation",
     "All permutations of all inconsistent point sets; rests on the uniqueness of the shortest least squares solution.",
     [S + "photogrammetry/transforms.py:ProjectiveTransform.estimate", S + "photogrammetry/projective_sensor_model.py:ProjectiveSensorModel", S + "gdal/gdal_utils.py:load_gdal_dataset"])

prop("C117", "Map tiles survive double arithmetic",
     "With every operation rounded to a double, get_tile_for_location still returns a tile of the level exactly for locations inside the Web Mercator square, that tile contains the projected location up to 2^-25 m and is the only one that contains it by more, tiles of successive levels nest exactly, neighbours and children share their edges bit for bit, the edges lie within 2^-26 m of an equal division of the square, both tile sets agree, and the limits of an area hold every tile of its bounding box. Without the tolerance containment is false.",
     "every location whose projection is a double, every zoom level up to 900, both well known tile sets",
     "2^64 doubles per axis; the failures sit on single doubles next to tile edges, and whether one exists at all depends on ties of the rounding.",
     [S + "image_processing/map_tileset_wmq.py:WebMercatorQuadMapTileSet", S + "image_processing/map_tileset.py:MapTileSet.get_tile_matrix_limits_for_area", S + "image_processing/map_tileset_factory.py:MapTileSetFactory"])

prop("C118", "Geolocation is as accurate as its grid",
     "geolocate_features gives every feature the location that the sensor model itself gives: exactly when the sensor model is affine around the features (with the elevation model's elevation, if there is one), within 2 epsilon when it is within epsilon of affine, and within L * (width + 20) / (n - 1) per axis when it moves by at most L per pixel, n the approximation grid size; this holds for geometry, bounding box and centre. It succeeds whenever the sensor model locates every vertex.",
     "every list of features, every sensor and elevation model, every grid size of two or more",
     "The error depends on the sensor model, the grid and the extent of the whole list; tests compare single features with a fixed tolerance.",
     [S + "features/geolocation.py:Geolocator.geolocate_features", S + "features/geolocation.py:LocationGridInterpolator"])

prop("C119", "Tiles requested from several threads carry their own SAR metadata",
     "When several threads request tiles from one GDALTileFactory of a SICD image, the ImageData (FirstRow, FirstCol, NumRows, NumCols) in the metadata of every tile is that of the tile's own window, and only scaled requests are rejected.",
     "every number of threads, list of requests per thread and interleaving",
     "Interleavings of assignments and rendering are not under the control of a test.",
     [S + "image_processing/gdal_tile_factory.py:GDALTileFactory.create_encoded_tile", S + "image_processing/sicd_updater.py:SICDUpdater.update_image_data_for_chip", S + "image_processing/sicd_updater.py:SICDUpdater.encode_current_xml"])

prop("C120", "Orthophoto pixels show the neighbourhood of their true place",
     "In a square orthophoto tile (with minmax or DRA adjustment), a pixel whose ground position is projected by the sensor model, at the elevation used, to a position inside the image by at least 2 delta pixels has a value between the least and the greatest adjusted value of the image pixels near that position: less than 2 + 2 delta / 2^r pixels of the resolution level r that was read, if the projection differs from an affine function by at most delta pixels over the tile. Uniform neighbourhoods are shown exactly, and a pixel is transparent exactly where a channel is 0.",
     "every image of one band or at least three, sensor model, tile area, tile size, resolution level and window position",
     "The error is composed of the 3 x 3 grid interpolation, the truncation of the window to the level, the border and the interpolation of the pixels; tests look at single tiles.",
     [S + "image_processing/gdal_tile_factory.py:GDALTileFactory.create_orthophoto_tile"])

prop("C121", "SICD world to image gives the pixel back",
     "A pixel that image_to_world (without elevation model) sends to a world coordinate is given back by world_to_image: if around that pixel the projection to the ground plane moves as the ground point does up to a share kappa < 1 of the distance, the error in the image plane is at most max(0.01 m / (1 - kappa), kappa^9 times the distance between the slant and the ground projection) divided by the cosine of the angle between slant plane and image plane, and the search ends as soon as (1 + kappa) kappa^k times that distance is below one centimeter. For a level track imaged in the slant plane kappa is 16 sin^2(elevation) times the distance from the scene center relative to the ground range, for distances up to a sixteenth of the ground range.",
     "every sensor model with perpendicular unit image axes, every pixel in the flat region, every kappa < 1; for the level track every height, ground range, speed, spacing and pixel",
     "A fixed number of iterations with a fixed tolerance: whether the search gets near depends on geometry, and tests try single images.",
     [S + "photogrammetry/sicd_sensor_model.py:SICDSensorModel.world_to_image", S + "photogrammetry/sicd_sensor_model.py:SICDSensorModel.image_to_world"])

prop("C122", "SICD ground planes touch the ellipsoid and constant height projection is second order accurate",
     "Every ground plane has a unit normal; without given normal the default plane of a sensor model touches the surface of constant height through the scene center from above. The constant height projection returns a point of exactly the requested height; it differs in range and range rate from an exact point of the contour by terms of second order in the height of that point above the surface, which is at most the threshold unless all iterations are used.",
     "every ellipsoid of revolution flattened by less than half, scene center, contour, height above minus half the polar radius, threshold and iteration limit",
     "The error depends on the curvature of the ellipsoid and the geometry; tests compare single points with a tolerance.",
     [S + "photogrammetry/sicd_sensor_model.py:GroundPlaneRRDotSurfaceProjection.__init__", S + "photogrammetry/sicd_sensor_model.py:HAERRDotSurfaceProjection.rrdot_to_ground"])

prop("C123", "SICD contours are what the grid type says",
     "Polynomials take their coefficients in ascending order, rows for the first variable. For polar format, INCA and planar grids the range rate of a grid position is the derivative of its range over the center of aperture time, and the platform velocity that of its position. For range-azimuth compressed grids the projected point has the range of the scene center plus the row coordinate and the cosine of the Doppler cone angle of the scene center plus the scaled column coordinate. Adjustable offsets move the platform, change its velocity and lengthen the range; moving platform and plane together moves ground points along.",
     "every set of polynomials, grid position, time, offset and plane",
     "A wrong sign or exchanged variable shows only for geometries that a test image may not have.",
     [S + "photogrammetry/sicd_sensor_model.py:COAProjectionSet.precise_rrdot_computation", S + "photogrammetry/sicd_sensor_model.py:PFAProjectionSet._grid_specific_projection", S + "photogrammetry/sicd_sensor_model.py:RGAZCOMPProjectionSet._grid_specific_projection", S + "photogrammetry/sicd_sensor_model.py:INCAProjectionSet._grid_specific_projection", S + "photogrammetry/sicd_sensor_model.py:PlaneProjectionSet._grid_specific_projection"])

prop("C124", "SICD terrain projection samples the contour densely and finds the terrain",
     "The projection to an elevation model goes along the R/Rdot contour from the lowest elevation of the region upwards, in steps of at most max_adjacent_point_distance, and at most half a post along the horizontal direction across the track. The points it returns are ordered by distance from the center of the Earth, have the range and range rate of the pixel and lie between neighboring samples on opposite sides of the terrain (or on samples within the tolerance of it, or without data). When the terrain lies between the lowest and the highest elevation of the region, the first sample is not above the lowest and the last one above the highest, at least one point is returned.",
     "every contour of positive range whose angle starts below the horizontal plane of the platform and which has no sample exactly at the tolerance, every elevation model, spacing, tolerance and side of track",
     "The spacing is in equal steps of a cosine, so distances vary along the contour; tests look at single pixels.",
     [S + "photogrammetry/sicd_sensor_model.py:DEMRRDotSurfaceProjection.__init__", S + "photogrammetry/sicd_sensor_model.py:DEMRRDotSurfaceProjection.rrdot_to_ground"])

prop("C125", "SICD image to world with an elevation model gives the lowest intersection",
     "With an elevation model, image_to_world returns the place where the R/Rdot contour of the pixel meets the terrain; of several, the one nearest to the center of the Earth. Where the elevation model has no data for the scene, the location is still computed.",
     "every sensor model, pixel, elevation model and directory of elevation files",
     "Needs scenes at the edge of the elevation data, terrain outside the statistics of a tile and multiple intersections.",
     [S + "photogrammetry/sicd_sensor_model.py:SICDSensorModel.image_to_world", S + "photogrammetry/digital_elevation_model.py:DigitalElevationModel.describe_region", S + "gdal/gdal_dem_tile_factory.py:GDALDigitalElevationModelTileFactory.get_tile"])

prop("C126", "Terrain locations are on the side of the track that the radar looked to",
     "With an elevation model, a pixel of a SICD or SIDD image is located on the side of the track that the image shows, the side on which it is located without an elevation model.",
     "every SICD and SIDD image, pixel and elevation model",
     "The contour of a pixel meets the terrain on both sides of the track; both places have the right range, range rate and elevation, so only a comparison with the geometry of the image tells them apart.",
     [S + "photogrammetry/sicd_sensor_model.py:DEMRRDotSurfaceProjection.rrdot_to_ground", S + "photogrammetry/sicd_sensor_model.py:SICDSensorModel.__init__", S + "gdal/sidd_sensor_model_builder.py:SIDDSensorModelBuilder.from_dataclass", S + "gdal/sicd_sensor_model_builder.py:SICDSensorModelBuilder.from_dataclass"])

prop("C127", "A SICD tile written to a file loads with the image's model, shifted",
     "A tile of a SICD image that is written as NITF, after any other requests to the same tile factory, loads with load_gdal_dataset to a sensor model that is the one of the image, shifted by the corner of the tile: image_to_world of a tile pixel is image_to_world of the image at the pixel plus the corner, with or without elevation model, and world_to_image is the image's result minus the corner. An approximate model from corners or control points does not change the locations.",
     "every SICD image, history of tile requests, tile, pixel, elevation model and option dictionary",
     "Joins tile factory, metadata updater, segment selection, sensor model factory and builder over arbitrary histories; tests check each of them on one image.",
     [S + "image_processing/gdal_tile_factory.py:GDALTileFactory.create_encoded_tile", S + "image_processing/sicd_updater.py:SICDUpdater", S + "gdal/gdal_utils.py:load_gdal_dataset", S + "gdal/sensor_model_factory.py:SensorModelFactory.build", S + "gdal/sicd_sensor_model_builder.py:SICDSensorModelBuilder.build"])

prop("C128", "A SIDD tile written to a file loads with the image's model, shifted",
     "A tile of a SIDD image that is written as NITF, after any other requests to the same tile factory, loads with load_gdal_dataset to a sensor model that is the one of the image, shifted by the corner of the tile: image_to_world of a tile pixel is image_to_world of the image at the pixel plus the corner, and world_to_image is the image's result minus the corner.",
     "every SIDD image that is not a chip, history of unscaled tile requests, tile, pixel, elevation model and option dictionary",
     "Joins tile factory, metadata updater, segment selection, sensor model factory, builder and chip transform over arbitrary histories; the deviation depends on every earlier request of the factory.",
     [S + "image_processing/gdal_tile_factory.py:GDALTileFactory.create_encoded_tile", S + "image_processing/sidd_updater.py:SIDDUpdater", S + "gdal/gdal_utils.py:load_gdal_dataset", S + "gdal/sensor_model_factory.py:SensorModelFactory.build", S + "gdal/sidd_sensor_model_builder.py:SIDDSensorModelBuilder.build", S + "photogrammetry/chipped_image_sensor_model.py:ChippedImageSensorModel"])

prop("C129", "A loaded SAR image locates and finds pixels as its metadata says",
     "load_gdal_dataset of a SICD image gives a sensor model that locates (column, row) where the model of the first SAR metadata segment locates (row, column), with an elevation model on the side of the track that the metadata names, and finds pixels as that model does. For a SIDD image or a crop of one, world_to_image of the loaded model gives back exactly the pixel that image_to_world without elevation model located, for every pixel seen from the scene's side of the track; with an elevation model locations are to the left of the track. Approximate models of the same file do not change this.",
     "every SICD or SIDD image with such a segment, pixel, elevation model and option dictionary",
     "Joins segment selection, factory, builder, chip transform and projection; the exact inverse is over the reals, tests compare a few pixels with a tolerance.",
     [S + "gdal/gdal_utils.py:load_gdal_dataset", S + "gdal/sensor_model_factory.py:SensorModelFactory.build", S + "gdal/sicd_sensor_model_builder.py:SICDSensorModelBuilder.build", S + "gdal/sidd_sensor_model_builder.py:SIDDSensorModelBuilder.build", S + "photogrammetry/composite_sensor_model.py:CompositeSensorModel", S + "photogrammetry/sicd_sensor_model.py:SICDSensorModel"])

prop("C130", "The extension of an image is one of its GDAL driver's, chosen by the ending of the path",
     "get_image_extension of a file that GDAL opens gives the normal form of one of the extensions of the driver with the long name that GDAL reports, the one that the path ends with if there is one and the first otherwise; UNKNOWN if the driver has none. Only files that GDAL cannot open raise.",
     "every registry of drivers, path and answer of gdal.Info",
     "Quantifies over driver registries: duplicates of a name, drivers without extensions, lists with any spacing. Tests see the registry of one GDAL build.",
     [S + "gdal/gdal_utils.py:get_image_extension", S + "gdal/gdal_utils.py:get_extensions_from_driver", S + "gdal/gdal_utils.py:get_driver_extensions", S + "gdal/gdal_utils.py:select_extension"])

prop("C131", "Coordinates behave as values",
     "A program that makes coordinates and NumPy arrays, makes coordinates from them, reads and writes components, sets elevations and calls image_to_world and world_to_image of any sensor models, gets the answers it would get if every coordinate were a value of its own. Conversions write to no object of the caller, whether they return or raise, and return new objects; set_elevation writes to nothing but the elevation of its argument.",
     "every program of such calls in any order, continuing after exceptions, every library of affine, projective, RPC, RSM, sectioned, SICD, chipped and composite models and constant or tiled elevation models, every course of the numerical searches",
     "Aliasing shows only in later reads of other objects, after any sequence of calls; the internal steps work on shared objects (the target of a search, the ground point that SICD moves in place, coordinates that RSM passes through).",
     [S + "photogrammetry/coordinates.py:WorldCoordinate", S + "photogrammetry/coordinates.py:GeodeticWorldCoordinate", S + "photogrammetry/coordinates.py:ImageCoordinate", S + "photogrammetry/elevation_model.py:ConstantElevationModel.set_elevation", S + "photogrammetry/digital_elevation_model.py:DigitalElevationModel.set_elevation", S + "photogrammetry/sensor_model.py:SensorModel", S + "photogrammetry/rpc_sensor_model.py:RPCSensorModel", S + "photogrammetry/replacement_sensor_model.py:RSMPolynomialSensorModel", S + "photogrammetry/sicd_sensor_model.py:SICDSensorModel"])

prop("C132", "RPC projections in doubles are right to a millionth of a pixel",
     "RPCSensorModel.world_to_image, computed in double precision, gives the pixel of the exact RPC00B formulas for a ground position within a tenth of a micrometre of the given one, up to 64 times the squared condition number of the rational polynomials in roundings of the image scale: less than a millionth of a pixel for images of up to a quarter of a million rows and condition numbers up to 16.",
     "every rounding with relative error 2^-53, every RPC model and ground position in range of the model",
     "The bound is about the worst case over all coefficients and positions; tests compare one model with stored numbers.",
     [S + "photogrammetry/rpc_sensor_model.py:RPCPolynomial.evaluate", S + "photogrammetry/rpc_sensor_model.py:RPCSensorModel.world_to_image"])

prop("C133", "RSM projections in doubles are right to a hundred thousandth of a pixel",
     "RSMPolynomialSensorModel.ground_domain_to_image, computed in double precision, gives the pixel of the exact polynomials for a domain coordinate that differs from the given one by two roundings, up to 468 times the squared condition number in roundings of the image scale: less than a hundred thousandth of a pixel for images of up to a quarter of a million rows and condition numbers up to 16.",
     "every rounding with relative error 2^-53, every power function right to one unit in the last place, every RSM model with powers up to 5 and coordinate in range",
     "The bound is about the worst case over all powers, coefficients and positions, and about the order in which up to 216 terms are added.",
     [S + "photogrammetry/replacement_sensor_model.py:RSMPolynomial.evaluate", S + "photogrammetry/replacement_sensor_model.py:RSMPolynomialSensorModel.ground_domain_to_image"])

prop("C134", "Affine models return the pixel in doubles",
     "world_to_image after image_to_world of a GDALAffineSensorModel without projection, computed in double precision, returns the pixel up to the error of the inverse matrix and 13 roundings of the magnitudes involved; for images aligned with north up to 40 roundings of the pixel number plus the distance of the image from longitude or latitude 0 in pixels.",
     "every rounding with relative error 2^-53, every order of the operations of np.matmul, every transform and pixel of a size that occurs",
     "The exact round trip (C27) holds over the reals; how much of a pixel rounding costs depends on the distance of the image from the origin, which tests fix.",
     [S + "photogrammetry/gdal_sensor_model.py:GDALAffineSensorModel.image_to_world", S + "photogrammetry/gdal_sensor_model.py:GDALAffineSensorModel.world_to_image"])

prop("C135", "Pixels of RPC and RSM images have one place on the ground, and a small misfit means a small error",
     "For an RPC or RSM model that is close to an affine map, in a box of normalised coordinates and over terrain of bounded slope, every pixel seen from inside the box has exactly one place on the ground there, and places whose pixels are close are close. So the place that image_to_world returns is off by at most a known factor times the distance between its own pixel (world_to_image) and the given one, whatever the course of the search.",
     "every RPC or RSM model whose bends are smaller than its linear part (a condition on the coefficients), every elevation model of bounded slope, every pixel, every minimiser",
     "Existence and uniqueness of a solution over the reals, for all models of a class; a test can only see that one search came close to one stored place.",
     [S + "photogrammetry/rpc_sensor_model.py:RPCSensorModel.image_to_world", S + "photogrammetry/rpc_sensor_model.py:RPCSensorModel.world_to_image", S + "photogrammetry/replacement_sensor_model.py:RSMPolynomialSensorModel.image_to_world", S + "photogrammetry/replacement_sensor_model.py:RSMPolynomialSensorModel.world_to_image"])

prop("C136", "The display range survives double arithmetic",
     "In double precision DRAParameters.from_counts still returns a suggested range inside the actual range, whatever the counts. For histograms of pixels (integer counts) and the default percentages it selects exactly the buckets that exact arithmetic selects, so the four values are right to a few units in the last place, and multiplying all counts by an integer changes no bit of the result. Multiplying the counts by another factor must not change the range by more than roundings either.",
     "every histogram; for the exact buckets every list of up to 2^31 integer counts with total up to 2^47 and bucket values up to 2^50",
     "Whether a comparison of a cumulative count with 0.02 or 0.98 of the total can go wrong by rounding depends on all totals, in particular the multiples of 50, where both sides are equal.",
     [S + "gdal/dynamic_range_adjustment.py:DRAParameters.from_counts"])

prop("C137", "Elevations do not jump at the borders of elevation tiles",
     "With SRTM files, whose outermost posts lie on the borders of the cells and are the same in neighbouring files, the elevation that a DigitalElevationModel sets is a continuous function of the place: it is the surface interpolated through the posts of all files, whichever cells a place and its neighbours belong to and whatever was asked before. Where neighbouring posts differ by at most L, two places n posts apart differ by at most n L.",
     "all places, all files with common border posts, all numbers of posts per degree, all histories of queries",
     "A test of one tile never crosses a border, and steps of half a post are smaller than the tolerances of elevation tests.",
     [S + "gdal/gdal_dem_tile_factory.py:GDALDigitalElevationModelTileFactory.get_tile", S + "photogrammetry/srtm_dem_tile_set.py:SRTMTileSet.find_tile_id", S + "photogrammetry/digital_elevation_model.py:DigitalElevationModel.set_elevation"])

prop("C138", "Geolocating again or in another order changes nothing",
     "Calling Geolocator.geolocate_features on features that have been geolocated leaves them as they are, so a retried job does no harm. The order of the features and repeated features do not matter: every feature gets the same geometry, box and centre. Removing features that do not touch the box around all image geometries does not change the others.",
     "all lists of features for which the call succeeds, all orders and repetitions, all sensor and elevation models",
     "Idempotence and independence of order are relations between runs over all feature lists; tests run one list once.",
     [S + "features/geolocation.py:Geolocator.geolocate_features", S + "features/imaged_feature_property_accessor.py:ImagedFeaturePropertyAccessor.find_image_geometry"])

prop("C139", "The place of a feature does not depend on the features geolocated with it",
     "A feature gets the same geometry, box and centre from geolocate_features whether it is geolocated alone or in a list with others, so splitting a list into batches does not change the result.",
     "all features, all pairs of lists that contain them, all sensor models",
     "The dependence is through an interpolation grid laid over all features of the call; it shows only when two runs with different lists are compared.",
     [S + "features/geolocation.py:Geolocator.geolocate_features", S + "features/geolocation.py:LocationGridInterpolator"])
prop("C140", "Neighbouring orthophoto tiles fit together",
     "Two orthophoto tiles of the same size that share an edge show the same values along it, so that a map put together from tiles has no seams.",
     "all images, sensor models, tile sizes and pairs of neighbouring tiles",
     "Each tile is right by itself; the seam shows only when two tiles are compared, and depends on the rounding of both windows, their levels and the statistics used.",
     [S + "image_processing/gdal_tile_factory.py:GDALTileFactory.create_orthophoto_tile"])
prop("C141", "A good first guess gives a good location",
     "image_to_world of RPC and RSM models returns a place whose pixel misses the given one by no more than the pixel of any corner of the triangle around the first guess (inside the box around the ground domain), so with C135 a good first guess bounds the error of the result. A perfect first guess is kept, and a small initial_search_distance does not stop the search from reaching the pixel.",
     "every RPC or RSM model, pixel, elevation model and pair of hints; every course of the Nelder-Mead search",
     "The course of the search depends on every comparison of misfits on the way, up to 400 of them; a test follows one course and accepts its result.",
     [S + "photogrammetry/rpc_sensor_model.py:RPCSensorModel.image_to_world", S + "photogrammetry/replacement_sensor_model.py:RSMPolynomialSensorModel.image_to_world", S + "photogrammetry/math_utils.py:equilateral_triangle", S + "photogrammetry/sensor_model.py:SensorModelOptions"])

prop("C142", "Searching a location takes a bounded number of projections",
     "image_to_world of RPC and RSM models evaluates world_to_image (and asks the elevation model) at most 400 times, whatever the model, the pixel, the elevation model and the hints, even if no place projects to the pixel or values are not finite.",
     "every RPC or RSM model, pixel, elevation model and options",
     "Slow or endless searches happen for the inputs nobody tried: pixels outside the image, singular denominators, wrong hints.",
     [S + "photogrammetry/rpc_sensor_model.py:RPCSensorModel.image_to_world", S + "photogrammetry/replacement_sensor_model.py:RSMPolynomialSensorModel.image_to_world"])
prop("C143", "Orthophotos of Web Mercator tiles are drawn in Web Mercator",
     "create_orthophoto_tile(geo_bbox=tile.bounds, tile_size=tile.size) for a tile of WebMercatorQuad or WebMercatorQuadx2 shows in every pixel the place that Web Mercator has in the centre of this pixel.",
     "every tile of every level, every pixel, every image",
     "The deviation depends on latitude, level and row; a test looks at one tile of a deep level, where it is less than a pixel.",
     [S + "image_processing/gdal_tile_factory.py:GDALTileFactory.create_orthophoto_tile", S + "image_processing/map_tileset_wmq.py:WebMercatorQuadMapTileSet.get_tile"])
prop("C144", "A composite model is not much worse than its approximate model",
     "For an image with an approximate model and an RPC or RSM model, image_to_world of the composite model returns a place that has a pixel. It misses the given pixel by no more than the place above the approximate model's result does, plus the change of the projection within 0.003 degrees of it (for RSM: in the box around the ground domain). For an RSM model that is nearly affine over its domain the place itself is near one that is projected to the pixel exactly.",
     "every approximate model, every RPC or RSM model, every pixel, elevation model and options",
     "The quality of the result depends on the course of the search from a guess that is different for every pixel.",
     [S + "photogrammetry/composite_sensor_model.py:CompositeSensorModel.image_to_world", S + "photogrammetry/rpc_sensor_model.py:RPCSensorModel.image_to_world", S + "photogrammetry/replacement_sensor_model.py:RSMPolynomialSensorModel.image_to_world"])
prop("C145", "Elevations are as steep as the posts, and right in doubles",
     "If neighbouring posts of an elevation file differ by at most S, the elevations that set_elevation sets at two places dx posts across and dy posts down from each other differ by at most S(|dx|+|dy|), whatever was asked before. So every pixel that an RPC or RSM model sees from inside its box has exactly one place on the ground of a file that covers the box, if the posts are not steeper than the model allows. In double arithmetic the elevation of a north up file with n posts per degree is right up to S n / 2^39 and nine roundings of the largest height.",
     "all posts, all pairs of places, all sequences of queries, all roundings of the operations",
     "Tests look at single posts; a bound on the slope is about all pairs of places, and the error of the doubles depends on every operation between the radians and the height.",
     [S + "photogrammetry/digital_elevation_model.py:DigitalElevationModel.set_elevation", S + "photogrammetry/digital_elevation_model.py:DigitalElevationModel.get_interpolation_grid", S + "gdal/gdal_dem_tile_factory.py:GDALDigitalElevationModelTileFactory.get_tile", S + "photogrammetry/gdal_sensor_model.py:GDALAffineSensorModel.world_to_image"])
prop("C146", "The radar ground plane projection is right in doubles",
     "In double arithmetic GroundPlaneRRDotSurfaceProjection.rrdot_to_ground returns a point whose distance from the plane, whose range and whose range rate times range are right up to 102, 280 and 130 roundings of the size of the geometry, on the side of the track of the reference point: less than a micrometre for a satellite, however steep the line of sight. If there is a point on the plane with the range and range rate on the side of the reference point and at least r/64 away from the plane of track and normal, the call does not raise, does not return NaN, and returns that point up to 1500/beta roundings (beta the distance from that plane over the range).",
     "all planes, platforms, velocities, ranges and range rates of the stated sizes; all roundings of the operations, all orders of summation",
     "The square roots of differences of squares and the quotient by the cosine of the grazing angle cancel; which inputs lose digits cannot be seen from examples, and exact results are not available in a test.",
     [S + "photogrammetry/sicd_sensor_model.py:GroundPlaneRRDotSurfaceProjection.rrdot_to_ground"])
prop("C147", "Orthophoto tiles can be made of images of any size",
     "create_orthophoto_tile returns a tile for every map tile whose footprint overlaps the image by a pixel of the resolution level in use, however many rows and columns the image has and whether or not it has overviews.",
     "all image sizes, numbers of overviews, sensor models, footprints and tile sizes",
     "The limit is reached only by images with tens of thousands of rows or columns, which no test reads; it depends on the overviews, the zoom level and the shape of the footprint together.",
     [S + "image_processing/gdal_tile_factory.py:GDALTileFactory.create_orthophoto_tile"])
prop("C148", "Chips and control points keep their accuracy in doubles",
     "If the least squares fit of a ChippedImageSensorModel meets the equations of the four corners up to a residual rho, then, computed in double precision, image_to_world uses the position of the full image and world_to_image returns the position in the chip up to twice rho times 2 + s/k + k/s (s by k the size of the chip; 8 rho for a square) and some units in the last place of the coordinates: a ten millionth of a pixel for crops of images of up to a million pixels in each direction. Likewise a ProjectiveSensorModel sends its control points to their pixels up to rho over the denominator and 40 units in the last place of the magnitudes involved.",
     "every rounding with relative error 2^-53, every least squares solver, every pixel, every chip whose coordinates are at most kappa times its width and height, with 128 rho kappa^2 <= 1",
     "The exact statement (C27) assumes an exact solver; how an error at the corners spreads to the inside of the chip through the two perspective terms, which should be zero, cannot be seen from corners or samples.",
     [S + "photogrammetry/chipped_image_sensor_model.py:ChippedImageSensorModel", S + "photogrammetry/projective_sensor_model.py:ProjectiveSensorModel", S + "photogrammetry/transforms.py:ProjectiveTransform"])
prop("C149", "After a configuration block options follow the environment variables as before",
     "After a `with GDALConfigEnv(options)` block every option takes its value from where it did before the block: an option that was not set in GDAL's own table follows its environment variable again, so that renewed credentials in AWS_SESSION_TOKEN are used.",
     "every initial configuration and environment, every option dictionary, every body effect, every later change of the environment",
     "The value right after the block is the expected one; the difference shows only when the environment changes later, in a long running process.",
     [S + "gdal/gdal_config.py:GDALConfigEnv.__enter__", S + "gdal/gdal_config.py:GDALConfigEnv.__exit__"])
prop("C150", "Orthophoto values are bilinear interpolations to within a few grey levels",
     "cv2.remap as create_orthophoto_tile calls it (8-bit pixels, float32 positions, INTER_LINEAR on a grid of 1/32 pixels with integer weights) never leaves the range of the pixels within one pixel of the position, gives the pixel itself at whole positions, and differs from exact bilinear interpolation at the exact position by at most half a grey level and 17/512 of the contrast around it. So every pixel of a square tile of an adjusted one-band image is within 9 of 255 grey levels of the interpolated adjusted image.",
     "all arrays that cv2.remap takes, all pixel values, all positions in the array; all images, sensor models that are nearly affine over the tile, tile sizes and pixels",
     "Positions pass through two roundings that could move a sample into the next cell or over the edge of the array; which positions do cannot be found by examples.",
     [S + "image_processing/gdal_tile_factory.py:GDALTileFactory.create_orthophoto_tile"])
prop("C151", "Orthophoto tiles are transparent where there is no image",
     "A pixel of an orthophoto tile whose place on the ground is projected to a position outside the image is transparent.",
     "all images, numbers of bands, adjustments, sensor models, tile sizes and pixels",
     "Tests look at tiles inside the image; what is shown just outside depends on the border that is added for cv2.remap, on the level that is read and on the number of bands.",
     [S + "image_processing/gdal_tile_factory.py:GDALTileFactory.create_orthophoto_tile"])
prop("C152", "XML documents survive reading, writing and reading",
     "Any XML document that xsdata reads into dataclasses whose fields cannot be confused (different names in the XML, at most one text, known classes), written by XmlSerializer and read by XmlParser, gives the same object; and any object whose values fit its fields is read back with every value as its text is read. No element, attribute, order of a list or subclass (xsi:type) is lost.",
     "all sets of dataclasses, all documents of any depth, all objects that fit, all faithful text conversions",
     "A test reads one file; that nothing is lost depends on every field of every class and on the nesting, lists, defaults and subclasses together.",
     [S + "image_processing/sicd_updater.py:SICDUpdater.encode_current_xml", S + "image_processing/sidd_updater.py:SIDDUpdater.encode_current_xml", S + "formats/sicd/models/sicd_v1_2_1.py:SICD", S + "formats/sidd/models/sidd_v2_0_0.py:SIDD"])
prop("C153", "The SICD and SIDD dataclasses have what the code reads, in every version",
     "The generated dataclasses of SICD 1.2.1 and 1.3.0 and SIDD 1.0.0, 2.0.0 and 3.0.0 (with SICommon and SFA) meet the condition of C152. A document with the root element of one of these versions is read as the object of that version; SICD and SIDD documents of all other versions are rejected. Every attribute that the sensor model builders and the updaters read of a document that was read exists and has the type that they use, in each version, unless an element before it is missing; for SIDD projections if no xsi:type replaces the class.",
     "all classes of the eight generated modules, all documents of the five versions",
     "The modules have about a thousand dataclasses in five versions with differing field names; the tests have a file for some versions and read only what is in it.",
     [S + "formats/sicd/models/sicd_v1_2_1.py:SICD", S + "formats/sicd/models/sicd_v1_3_0.py:SICD", S + "formats/sidd/models/sidd_v1_0_0.py:SIDD", S + "formats/sidd/models/sidd_v2_0_0.py:SIDD", S + "formats/sidd/models/sidd_v3_0_0.py:SIDD", S + "gdal/sicd_sensor_model_builder.py:SICDSensorModelBuilder.build", S + "gdal/sidd_sensor_model_builder.py:SIDDSensorModelBuilder.build"])
prop("C154", "The document of a SICD tile differs only in ImageData",
     "If a SICD document of either version is read, updated for a chip, written and read again, everything that the sensor model builder reads of it is the same, except FirstRow, FirstCol, NumRows and NumCols, which are those of the chip. So SICD tiles load with the image's model, shifted (C127), without assuming anything of xsdata but the text of values and documents.",
     "all documents of SICD 1.2.1 and 1.3.0, all chips, all sequences of requests",
     "Tests compare four fields of one document; that no other field changes is a statement about all fields that a document can have.",
     [S + "image_processing/sicd_updater.py:SICDUpdater.update_image_data_for_chip", S + "image_processing/sicd_updater.py:SICDUpdater.encode_current_xml", S + "gdal/sicd_sensor_model_builder.py:SICDSensorModelBuilder.build"])

prop("C155", "The document of a SIDD tile differs only in its geometric chip",
     "If a SIDD document of any of the three versions is read, given the geometric chip of a window, written and read again, everything that the sensor model builder reads of it is the same, except the chip, which is that of the window. This holds whether or not the document had a chip, and whether or not it had a DownstreamReprocessing element.",
     "all documents of SIDD 1.0.0, 2.0.0 and 3.0.0, all windows with corners at whole numbers",
     "Tests look at one document of one version; the chip is built from classes of three generated modules, chosen by the class of the document.",
     [S + "image_processing/sidd_updater.py:SIDDUpdater.update_image_data_for_chip", S + "image_processing/sidd_updater.py:SIDDUpdater.encode_current_xml", S + "gdal/sidd_sensor_model_builder.py:SIDDSensorModelBuilder.build"])

prop("C156", "Tiles of tiles of a SICD image load with the image's model, shifted",
     "If a tile of a SICD image is written to a file, a tile of that file to another file, and so on to any depth, each by a tile factory that may have served other requests before, then the last file loads with the sensor model of the first image shifted by the sum of the corners of all tiles on the way, and its metadata has FirstRow and FirstCol of the first image plus that sum and NumRows and NumCols of the last tile.",
     "all images, all depths, all windows, all sequences of other requests on each factory, all elevation models",
     "Each level reads what the level before has written; tests stop after one level.",
     [S + "image_processing/gdal_tile_factory.py:GDALTileFactory.create_encoded_tile", S + "image_processing/sicd_updater.py:SICDUpdater.update_image_data_for_chip", S + "gdal/sicd_sensor_model_builder.py:SICDSensorModelBuilder.build", S + "gdal/gdal_utils.py:load_gdal_dataset"])
prop("C157", "Tiles of tiles of a SIDD image load with the image's model, shifted",
     "If a tile of a SIDD image is written to a file, a tile of that file to another file, and so on to any depth, then a pixel of the last file is located where the model of the first image locates the pixel plus the sum of the corners of all tiles on the way.",
     "all images, all depths, all windows, all sequences of other requests on each factory, all elevation models",
     "The chip of each level is computed from the chip of the level before, so errors could add up with the depth; tests stop after one level.",
     [S + "image_processing/gdal_tile_factory.py:GDALTileFactory.create_encoded_tile", S + "image_processing/sidd_updater.py:SIDDUpdater.update_image_data_for_chip", S + "image_processing/sidd_updater.py:SIDDUpdater.chipped_coordinate_to_full", S + "gdal/sidd_sensor_model_builder.py:SIDDSensorModelBuilder.build"])

prop("C158", "The last geolocation and the last update decide",
     "Whatever features were geolocated before, with any sensor and elevation model and whether or not that call raised, geolocate_features raises exactly what it would raise on the original features, and otherwise leaves its features as if the earlier call had never happened; features may occur twice in a list. Likewise, update_existing_image_geometries on a feature that was updated before, successfully or not, raises the same and otherwise leaves the same as on the original feature.",
     "all features, all lists (with repetitions), all sensor and elevation models, all exceptions raised in between, all geometries",
     "Features are changed in place, so what a call does could depend on what earlier calls, also failed ones, have left behind; tests start from fresh features.",
     [S + "features/geolocation.py:Geolocator.geolocate_features", S + "features/imaged_feature_property_accessor.py:ImagedFeaturePropertyAccessor.update_existing_image_geometries"])
prop("C159", "Calls that raise leave features as they were",
     "If geolocate_features or update_existing_image_geometries raises an exception, all features are as they were before the call.",
     "all features, all lists, all places where an exception can be raised",
     "Tests check that an exception is raised, not what was already changed when it was.",
     [S + "features/geolocation.py:Geolocator.geolocate_features", S + "features/imaged_feature_property_accessor.py:ImagedFeaturePropertyAccessor.update_existing_image_geometries"])

prop("C160", "Geodetic and geocentric coordinates are two names of one place",
     "Every geocentric coordinate has a geodetic one; converting a geodetic coordinate to geocentric and back gives the same latitude and elevation, and away from the poles the same longitude; the elevation is the distance to the ellipsoid, negative inside. Constant height projections of SICD and SIDD models therefore return places of exactly the requested height.",
     "all coordinates with longitudes and latitudes in the standard ranges, down to half the polar radius below the ellipsoid; all ellipsoids with an equatorial radius of up to 5/4 of the polar one",
     "Tests compare a few coordinates to tolerances; that no two coordinates share a place and that every place has one are statements about all of space.",
     [S + "photogrammetry/coordinates.py:geocentric_to_geodetic", S + "photogrammetry/coordinates.py:geodetic_to_geocentric", S + "photogrammetry/sicd_sensor_model.py:HAERRDotSurfaceProjection.rrdot_to_ground"])

prop("C161", "Segment data that GDAL shows in base64 are read exactly, and a cut value is never taken for the whole",
     "extract_desdata_xml returns the text whose UTF-8 bytes the DESDATA value is the base64 text of, whatever line breaks or other foreign characters are in between; of a value that ends early it raises or reads a text that is a proper prefix.",
     "all texts and bytes, all base64 texts of them with foreign characters anywhere, all lengths to which a value is cut",
     "The decoder works on groups of four characters with padding and skips others; tests decode one sample segment.",
     [S + "gdal/nitf_des_accessor.py:NITFDESAccessor.extract_desdata_xml", S + "gdal/nitf_des_accessor.py:NITFDESAccessor.parse_field_value"])
prop("C162", "The metadata text in the file of a tile is the text that the updater wrote",
     "What extract_desdata_xml reads from the file that GDAL writes for a tile is the text that create_encoded_tile put behind the segment header in the DES option.",
     "all headers whose values fit, all metadata texts",
     "The text passes through an option string in which backslashes are resolved, a header cut by a number in it, and base64; tests use documents without special characters.",
     [S + "image_processing/gdal_tile_factory.py:GDALTileFactory.create_encoded_tile", S + "gdal/nitf_des_accessor.py:NITFDESAccessor.extract_des_header", S + "gdal/nitf_des_accessor.py:NITFDESAccessor.extract_desdata_xml"])

prop("C163", "Scaled tiles of SIDD images and tiles of SIDD chips load with a model that fits their pixels",
     "A tile that create_encoded_tile has written from a SIDD image, in its own or another size, from an image that may itself be a chip, loads with a sensor model that locates a pixel of the tile where the image's model locates the pixel that it was made from.",
     "all windows and output sizes of more than one pixel each way, all earlier requests to the factory, all images with or without a GeometricChip along the axes",
     "The chip that is written depends on the earlier requests and their scaling; tests look at one tile of one image and compare the numbers in the XML.",
     [S + "image_processing/sidd_updater.py:SIDDUpdater.update_image_data_for_chip", S + "image_processing/gdal_tile_factory.py:GDALTileFactory.create_encoded_tile", S + "gdal/sidd_sensor_model_builder.py:SIDDSensorModelBuilder.from_dataclass"])

prop("C164", "Sensor models are built from the elements of the document that the standards name",
     "Each number, vector, polynomial and enumeration that the SICD and SIDD builders use is the text (or attribute) of the one element at the path that the standard gives it, e.g. Grid/Row/SS for the row spacing, and a value that is missing or no number raises instead of being replaced; a SIDD document is treated as having no chip only if it has no GeometricChip.",
     "all documents of all five versions, all trees of elements, with or without xsi:type, and all meanings of texts",
     "Row and column, X, Y and Z, or two polynomials can be mixed up between the dataclasses and the builder, in one version only or in a branch for one grid type; tests have one document per version and compare the coordinates of a few pixels.",
     [S + "gdal/sicd_sensor_model_builder.py:SICDSensorModelBuilder.from_dataclass", S + "gdal/sidd_sensor_model_builder.py:SIDDSensorModelBuilder.from_dataclass", S + "gdal/sicd_sensor_model_builder.py:xyzpoly_to_native", S + "gdal/sicd_sensor_model_builder.py:poly2d_to_native"])

prop("C165", "A document with all required elements is read",
     "The builder obtains the numbers of a SICD or SIDD document exactly when the document has the elements that state them: a document that has each required element once, with a number in it, is never rejected for another reason, what belongs to one kind of projection (PFA, RgAzComp, RMA/INCA) is taken when it is complete and not required for the other kinds, the image formation algorithm matters for RGAZIM grids only, and a SIDD image is treated as a chip exactly when it has a GeometricChip.",
     "all documents of all five versions that the XML library accepts, all trees of elements, all meanings of texts in which the empty text is no number",
     "Which of the many optional elements the builder insists on shows only for documents that lack them; tests read complete documents of a few sensors.",
     [S + "gdal/sicd_sensor_model_builder.py:SICDSensorModelBuilder.from_dataclass", S + "gdal/sidd_sensor_model_builder.py:SIDDSensorModelBuilder.from_dataclass", S + "gdal/sidd_sensor_model_builder.py:SIDDSensorModelBuilder.build"])

prop("C166", "A spatial index answers for the collection as it is now",
     "A query of a spatial index returns exactly the features of the collection whose present image geometry intersects the geometry of the query (or is nearest to it), whatever has been done since the index was made: geolocation of features, updates of image geometries, changes of the list of features.",
     "all collections, all sequences of geolocations (that may raise part way), updates by the accessor, assignments to features, changes of lists in place and replacements of the collection's list, all geometries of queries, all trees that meet the contract of shapely's STRtree",
     "The index shares the list and the features with the caller but keeps its own geometries; tests build an index and query it at once.",
     [S + "features/feature_index.py:STRFeature2DSpatialIndex.__init__", S + "features/feature_index.py:STRFeature2DSpatialIndex.find_intersects", S + "features/feature_index.py:STRFeature2DSpatialIndex.find_nearest"])

prop("C167", "The place of a pixel of a SICD image follows from the elements of its document",
     "For a file with a SICD document of any of the supported grids, image_to_world of the model that is loaded gives a pixel a point of the ground plane whose distance from the platform at the time of the pixel is the range of the pixel, whose distance changes at the rate of that range, and which is on the scene's side of the track; a point like this is the one that is given. Range, time and plane are what the numbers in the elements of the document say, as sums of coefficients times powers and derivatives in time.",
     "all documents whose elements state the numbers of a sensor model, all grids (PFA, RGAZCOMP, INCA, planar), all polynomials of any order, all real pixels, all conversions to geodetic coordinates",
     "Tests compare a few corners of a few images with published numbers; a wrong exponent, derivative or sign in a term that is small in these images is within their tolerance.",
     [S + "gdal/sicd_sensor_model_builder.py:SICDSensorModelBuilder.build", S + "gdal/sicd_sensor_model_builder.py:poly1d_to_native", S + "gdal/sicd_sensor_model_builder.py:poly2d_to_native", S + "photogrammetry/sicd_sensor_model.py:COAProjectionSet.precise_rrdot_computation", S + "photogrammetry/sicd_sensor_model.py:GroundPlaneRRDotSurfaceProjection.rrdot_to_ground", S + "photogrammetry/sicd_sensor_model.py:SICDSensorModel.image_to_world"])

prop("C168", "The place of a pixel of a SIDD image or chip follows from the elements of its document",
     "For a file with a SIDD document, image_to_world of the model that is loaded gives a pixel the point of the product plane at the distances from the reference point that the document says, and world_to_image leads back to the pixel. The pixel of a chip is first taken to the parallelogram of the chip's corners in the full image, whichever way it lies.",
     "all documents whose elements state the numbers of a sensor model, all parallelograms of corners (rotated, scaled, mirrored), all real pixels whose point is on the scene's side of the track, all least-squares solvers that meet numpy's contract, all conversions of coordinates that invert each other",
     "Tests use two files without a chip; chips that are rotated or mirrored and the chain from elements to places occur in none.",
     [S + "gdal/sidd_sensor_model_builder.py:SIDDSensorModelBuilder.build", S + "gdal/sidd_sensor_model_builder.py:SIDDSensorModelBuilder.from_dataclass", S + "photogrammetry/chipped_image_sensor_model.py:ChippedImageSensorModel.image_to_world", S + "photogrammetry/chipped_image_sensor_model.py:ChippedImageSensorModel.world_to_image", S + "photogrammetry/sicd_sensor_model.py:SICDSensorModel.image_to_world"])
prop("C169", "The search behind image_to_world of RPC and RSM models ends when three tries agree, or after 400 tries",
     "With SciPy's Nelder-Mead search, image_to_world tries the three corners of its triangle and then makes the passes of the method as in the literature (reflection, expansion, contraction outside or inside, shrinking, each under its condition). It stops at the first triangle whose corners are within a millionth of a degree and whose misfits are within half a pixel, and returns the best corner; if there is none, it makes exactly 400 tries. Where no projection is finite it always makes 400.",
     "all RPC and RSM models, pixels, elevation models, hints, first triangles and bounds, all values of the objective with infinities or NaN",
     "Tests look at a few results; when and why the search ends, and that the limit of iterations is never what ends it, is not visible in them.",
     [S + "photogrammetry/rpc_sensor_model.py:RPCSensorModel.image_to_world", S + "photogrammetry/replacement_sensor_model.py:RSMPolynomialSensorModel.image_to_world"])

prop("C170", "Detections in a tile are located like the same detections in the image",
     "Geolocating the detections of a tile with the tile's sensor model gives them the same geometry, bounding box and center as geolocating the same detections, moved to the tile's place, with the model of the image; or both raise the same exception. It holds for the chipped models of crops, and for tiles of SICD images whose model is the one that the written file loads with.",
     "all lists of detections with image geometries of any kind or image boxes, all sensor models, all grids and elevation models, all offsets, all tiles after any requests, all centroids that move with a geometry, all readers of geometries that read back what was written",
     "The grid of the approximation depends on all detections together and is another one in the tile; tests never compare a tile with its image.",
     [S + "features/geolocation.py:Geolocator.geolocate_features", S + "features/geolocation.py:Geolocator._geolocate_features_using_approximation_grid", S + "photogrammetry/chipped_image_sensor_model.py:ChippedImageSensorModel.image_to_world", S + "image_processing/gdal_tile_factory.py:GDALTileFactory.create_encoded_tile"])

prop("C171", "Grey levels of SAR images are right in single precision",
     "histogram_stretch and quarter_power_image, computed in single precision (or a mixture of single and double), give every pixel a grey level between 0 and 255 that differs from the level of exact arithmetic by less than 255 (g + 11) / 2^24, where the mean is right to g roundings; a pixel whose components are both at least as strong, or whose power is larger by more than the rounding, is never shown darker.",
     "all lists of finite pixels, all roundings that are monotone and right to single precision, all orders in which a mean is added up, all scales from 1 to 16, given means or means of the tile",
     "Errors of rounding depend on every pixel of the tile through its mean; tests compare two or three hand-made pixels with a tolerance.",
     [S + "image_processing/sar_complex_imageop.py:histogram_stretch", S + "image_processing/sar_complex_imageop.py:quarter_power_image", S + "image_processing/sar_complex_imageop.py:complex_to_power_value", S + "image_processing/sar_complex_imageop.py:histogram_stretch_mag_values", S + "image_processing/sar_complex_imageop.py:quarter_power_mag_values"])

prop("C172", "The place of a pixel of a SICD image on terrain follows from the elements of its document",
     "For a file with a SICD document, image_to_world with an elevation model gives a pixel a point on the side of the track that the document names, at the range of the pixel at its time, whose distance changes at the rate of that range, both as the elements of the document say; it is within a millimeter of the terrain, or between two such points at most ten meters apart, one above and one below the terrain.",
     "all documents whose elements state the numbers of a sensor model, all grids, all real pixels, all elevation models, all conversions to geodetic coordinates",
     "Tests use one elevation model and one pixel; that range, rate, side and terrain agree with the document for every pixel cannot be sampled.",
     [S + "photogrammetry/sicd_sensor_model.py:DEMRRDotSurfaceProjection.rrdot_to_ground", S + "photogrammetry/sicd_sensor_model.py:SICDSensorModel.image_to_world", S + "photogrammetry/sicd_sensor_model.py:COAProjectionSet.precise_rrdot_computation", S + "gdal/sicd_sensor_model_builder.py:SICDSensorModelBuilder.build"])

prop("C173", "Geolocations in doubles are as accurate as their grid",
     "In double arithmetic the approximation grid of geolocate_features covers the features with almost ten pixels to spare, its nodes are evenly spread to less than a thousandth of a pixel, and a feature position is given the mean of what the sensor model says at the four nodes around it, weighted by its position, up to 35 units of 2^-53 of the largest node value. So where the sensor model is affine up to eps the places are right up to 2 eps and that rounding, in radians and in degrees; where it moves by at most L and M per column and row, they are right up to what it moves over one interval. A position outside the grid gets the place of the nearest position on its edge.",
     "all sensor models, all bounds of features up to 2^32 pixels, all grid sizes from 2 to 4096, all positions between the features, all roundings with relative error 2^-53",
     "Tests compare a few places with tolerances; that no combination of bounds, grid size and position lets rounded nodes cross, leave a feature outside, or amplify the rounding of the weights cannot be sampled.",
     [S + "features/geolocation.py:LocationGridInterpolator.__init__", S + "features/geolocation.py:LocationGridInterpolator.__call__", S + "features/geolocation.py:Geolocator._geolocate_features_using_approximation_grid"])

prop("C174", "The place of a pixel of a SIDD image on terrain follows from the elements of its document",
     "For a file with a SIDD document, chipped or not, image_to_world with an elevation model gives a pixel a point that the radar cannot tell from the point of the product plane of that pixel (same distance, same rate of the distance, same side of the track), and that is within a millimeter of the terrain or between two such points at most ten meters apart, one above and one below the terrain.",
     "all documents whose elements state the numbers of a sensor model, all real pixels, all chips whose corners form a parallelogram, all elevation models, all conversions to geodetic coordinates",
     "Tests use one document and one elevation model; the agreement with the document for every pixel, chip and terrain cannot be sampled.",
     [S + "gdal/sidd_sensor_model_builder.py:SIDDSensorModelBuilder.build", S + "photogrammetry/sicd_sensor_model.py:SICDSensorModel.image_to_world", S + "photogrammetry/sicd_sensor_model.py:DEMRRDotSurfaceProjection.rrdot_to_ground", S + "photogrammetry/chipped_image_sensor_model.py:ChippedImageSensorModel.image_to_world"])

prop("C175", "Features of an image with a geotransform get the places of the geotransform in doubles",
     "geolocate_features with the sensor model of a geotransform in degrees writes for each coordinate of a feature the longitude and latitude that the geotransform states for that pixel: the whole chain in doubles (nodes of the grid, dot product, conversion to radians, interpolation, conversion to degrees) is off by at most 46 units of 2^-53 of the largest coordinate, and by half a millionth of a degree more once it is written with six digits.",
     "all geotransforms, all bounds of features, all grid sizes, all positions between the features, all roundings with relative error 2^-53, all summation orders of the dot product",
     "Tests compare a few places with tolerances; that no geotransform, bounds and position let the rounding of the five stages add up cannot be sampled.",
     [S + "features/geolocation.py:Geolocator._geolocate_features_using_approximation_grid", S + "features/geolocation.py:LocationGridInterpolator.__call__", S + "photogrammetry/gdal_sensor_model.py:GDALAffineSensorModel.image_to_world"])

prop("C176", "Features in tiles of an image with a geotransform get the places they have in the image, in doubles",
     "For a tile made with create_encoded_tile, of any window and any output size, the features of the tile get with the tile's own geotransform the longitude and latitude that the geotransform of the image states for their places in the image, up to 51 units of 2^-53 of the largest term, and so what geolocating them in the image gives, up to 97 units: the shift of the origin, the scaling of the pixels and the two grids do not let rounding grow.",
     "all geotransforms, all windows and output sizes, all bounds of features, all grid sizes of tile and image, all positions, all roundings with relative error 2^-53",
     "Tests cut a few tiles; that no window, scaling and geotransform moves features of the tile against those of the image cannot be sampled.",
     [S + "image_processing/gdal_tile_factory.py:GDALTileFactory.create_encoded_tile", S + "features/geolocation.py:Geolocator._geolocate_features_using_approximation_grid", S + "photogrammetry/gdal_sensor_model.py:GDALAffineSensorModel.image_to_world"])

prop("C177", "Written coordinates of features lead back to their pixels, as far as six digits can",
     "For an image with a geotransform in degrees, world_to_image of the longitude and latitude that geolocate_features writes for an image position returns that position, in doubles, up to half a millionth of a degree expressed in pixels, the error of the inverse matrix and a few roundings; so for pixels of a meter to a tenth of a pixel, whereas pixels of a centimeter are written with the same coordinates.",
     "all geotransforms and inverse matrices, all bounds of features, all grid sizes, all positions between the features, all roundings with relative error 2^-53",
     "Tests compare a few coordinates; how errors of the grid, of six digits and of the inverse matrix combine for every geotransform cannot be sampled.",
     [S + "features/geolocation.py:Geolocator._geolocate_features_using_approximation_grid", S + "photogrammetry/gdal_sensor_model.py:GDALAffineSensorModel.world_to_image", S + "photogrammetry/gdal_sensor_model.py:GDALAffineSensorModel.__init__"])

prop("C178", "The error of geolocation shrinks with the square of the grid spacing",
     "Where the place that the sensor model computes for a pixel is, up to delta, a function with second derivatives of at most M along rows and N along columns, geolocate_features gives a feature position that function's value up to M/8 and N/8 times the squares of the intervals of the grid, (width + 20) / (n - 1) and (height + 20) / (n - 1) and less than a thousandth of a pixel more, plus delta and 35 units of 2^-53 of the largest value, all in doubles. Without the rounding no smaller factor than an eighth is possible.",
     "all sensor models near a smooth function, all bounds of features up to 2^32 pixels, all grid sizes from 2 to 4096, all positions between the features, all roundings with relative error 2^-53",
     "Tests use one grid size and a tolerance; that the error follows the square of the spacing for every sensor model, extent and grid cannot be sampled.",
     [S + "features/geolocation.py:LocationGridInterpolator.__init__", S + "features/geolocation.py:LocationGridInterpolator.__call__", S + "features/geolocation.py:Geolocator._geolocate_features_using_approximation_grid"])

prop("C179", "Orthophoto pixels are misplaced by at most a thirty-second of the bend of the projection over the tile",
     "In a square orthophoto tile (with minmax or DRA adjustment) of a sensor model whose projection, at the elevation used, has second derivatives of at most M along parallels and N along meridians, every pixel whose true position is inside the image by e = (M * width^2 + N * height^2) / 32, the sides of the tile in radians, has a value between the least and the greatest adjusted value of the image pixels less than 2 + e / 2^r pixels of the resolution level r from the true position. So halving the sides of the tiles divides the misplacement by four.",
     "every image of one band or at least three, every sensor model with bounded second derivatives, every tile area, tile size, resolution level and window position",
     "Tests look at single tiles; that three by three projected points are enough for a pixel in every tile of a zoom level follows only from a bound for all sensor models.",
     [S + "image_processing/gdal_tile_factory.py:GDALTileFactory.create_orthophoto_tile"])

prop("C180", "The coefficients of an RPC model bound how far orthophoto pixels are misplaced",
     "Let the denominators of an RPC model be at least q in the cube of normalised coordinates, and let A, A1 and A2 (B1 and B2) be the sums of the absolute coefficients of a numerator (denominator): all, without the constant, without constant and linear terms. Then columns and rows have second derivatives of at most K = scale * (6 A2 / q + (6 A B2 + 18 A1 B1) / q^2 + 18 A B1^2 / q^3) in normalised longitude and latitude. In square orthophoto tiles inside the cube, sides w and h in normalised units, every pixel whose projected position is inside the image by e = K (w^2 + h^2) / 32 + 2 eta has a value between the least and the greatest adjusted value of the image pixels less than 2 + e / 2^r pixels of the resolution level r from that position, eta being the error of the computed projection.",
     "every RPC model with denominators away from zero, every image of one band or at least three, every tile in the cube, tile size, resolution level and window position",
     "RPC models differ in 80 coefficients; a test looks at one model and one tile and cannot tell for which zoom levels three by three projected points are enough.",
     [S + "photogrammetry/rpc_sensor_model.py:RPCSensorModel.world_to_image", S + "photogrammetry/rpc_sensor_model.py:RPCPolynomial.evaluate", S + "image_processing/gdal_tile_factory.py:GDALTileFactory.create_orthophoto_tile"])

prop("C181", "Values of orthophoto tiles are bilinear interpolations at places off by no more than the bend of the projection",
     "In a square orthophoto tile of a grey image (minmax or DRA adjustment), every pixel whose projected position is inside the image by e differs by at most 9 of 255 grey levels from the exact bilinear interpolation of the adjusted pixels that were read, at a position within e image pixels of the projected one, but for a shift of less than a pixel of the resolution level (none at full resolution). Here e is (M * width^2 + N * height^2) / 32 for a projection with second derivatives of at most M and N, and K (w^2 + h^2) / 32 + 2 eta for an RPC model, with K from its coefficients as in C180.",
     "every grey image, every smooth sensor model and every RPC model with denominators away from zero, every tile in the cube of normalised coordinates, tile size, resolution level and window position",
     "Tests compare single tiles with stored pictures; the bound on the grey levels relates every pixel of every tile to the image.",
     [S + "image_processing/gdal_tile_factory.py:GDALTileFactory.create_orthophoto_tile", S + "photogrammetry/rpc_sensor_model.py:RPCSensorModel.world_to_image"])

prop("C182", "The coefficients of an RSM model bound how far orthophoto pixels are misplaced",
     "Let the denominators of an RSM polynomial model with a geodetic ground domain be at least q in the cube of normalised coordinates. Along x, let A, A1 and A2 (B1 and B2) be the sums over the terms x^i y^j z^k of the numerator (denominator) of the absolute coefficients times 1, i and i (i - 1). Then columns and rows have second derivatives of at most K = scale * (A2 / q + (A B2 + 2 A1 B1) / q^2 + 2 A B1^2 / q^3) along parallels, and of at most L, with j for i, along meridians, in normalised units. Orthophoto tiles inside the cube, sides w and h in these units, are misplaced by at most e = (K w^2 + L h^2) / 32 + 2 eta image pixels, in the sense of C180 and C181, eta being the error of the computed projection.",
     "every RSM polynomial model with geodetic ground domain, any powers that the format allows and denominators away from zero, every tile in the cube, tile size, resolution level and window position",
     "RSM polynomials have up to 216 coefficients each; a test looks at one model and one tile.",
     [S + "photogrammetry/replacement_sensor_model.py:RSMPolynomialSensorModel.world_to_image", S + "photogrammetry/replacement_sensor_model.py:RSMPolynomial.evaluate", S + "image_processing/gdal_tile_factory.py:GDALTileFactory.create_orthophoto_tile"])

if __name__ == "__main__":
    P.sort(key=lambda p: int(p["id"][1:]))
    with open("/verif/properties.jsonl", "w") as f:
        for p in P:
            f.write(json.dumps(p) + "\n")
    print(len(P), "properties")
