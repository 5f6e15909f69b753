{"id": "C01", "title": "Suggested display range stays inside the range of the data", "statement": "For a histogram with at least one counted pixel, DRAParameters.from_counts returns an actual range whose ends are the values of the first and last non-empty buckets, and a suggested range with suggested_min >= actual_min and suggested_max <= actual_max.", "quantifier": "every list of bucket counts with a positive total, every pair of cut-off percentages, every pair of expansion factors, every bucket range with last > first", "why_tests_cant": "The space of histograms is infinite and the result depends on two scans and a cumulative sum that interact at the edges.", "anchors": ["src/aws/osml/gdal/dynamic_range_adjustment.py:DRAParameters.from_counts"]}
{"id": "C02", "title": "Suggested display range is ordered", "statement": "DRAParameters.from_counts returns suggested_min <= suggested_max, so that the scale it feeds to GDAL is not inverted.", "quantifier": "every histogram with a positive total and the default percentages and factors", "why_tests_cant": "Only histograms in which one bucket jumps over the whole [min%, max%] window break it; sampled histograms are smooth.", "anchors": ["src/aws/osml/gdal/dynamic_range_adjustment.py:DRAParameters.from_counts", "src/aws/osml/gdal/gdal_utils.py:get_type_and_scales"]}
{"id": "C03", "title": "The display range depends only on the shape of the histogram", "statement": "Multiplying every count by the same positive factor does not change the result of from_counts; changing the bucket range rescales the four returned values by the same affine map; an empty count list raises IndexError; a bucket bound that is passed is the one used.", "quantifier": "every histogram, every positive factor, every bucket range", "why_tests_cant": "It is a relation between two runs over an unbounded family of inputs.", "anchors": ["src/aws/osml/gdal/dynamic_range_adjustment.py:DRAParameters.from_counts"]}
{"id": "C04", "title": "A configuration block restores every option it set", "statement": "After a `with GDALConfigEnv(options)` block, every option named in `options` has the value it had before the block, whatever the body did to the configuration and whether or not it raised; options not named are exactly as the body left them.", "quantifier": "every initial configuration, every option dictionary, every body effect", "why_tests_cant": "Bodies are arbitrary programs acting on global state.", "anchors": ["src/aws/osml/gdal/gdal_config.py:GDALConfigEnv.__enter__", "src/aws/osml/gdal/gdal_config.py:GDALConfigEnv.__exit__"]}
{"id": "C05", "title": "Nested configuration blocks compose", "statement": "Any properly nested program of `with` blocks leaves the configuration as it was at the start. This must hold also when an environment object is entered again inside its own block, and when blocks of two threads overlap.", "quantifier": "every tree of nested blocks, every interleaving of two blocks", "why_tests_cant": "Nesting depth and schedules are unbounded.", "anchors": ["src/aws/osml/gdal/gdal_config.py:GDALConfigEnv"]}
{"id": "C06", "title": "Changing credentials inside a block does not lose the restore", "statement": "Calling with_aws_credentials on an environment that is currently entered must not prevent the exit from restoring the options; the option dictionary passed by the caller is never modified.", "quantifier": "every sequence of enter, exit and with_aws_credentials calls on one environment", "why_tests_cant": "The failure needs a particular order of calls on shared mutable state.", "anchors": ["src/aws/osml/gdal/gdal_config.py:GDALConfigEnv.with_aws_credentials", "src/aws/osml/gdal/gdal_config.py:GDALConfigEnv.__exit__"]}
{"id": "C07", "title": "Default configuration is idempotent and local", "statement": "set_gdal_default_configuration gives each of its options its documented value whatever the configuration was, changes no other option, and calling it any number of times is the same as calling it once.", "quantifier": "every prior configuration, every repetition count", "why_tests_cant": "Global state may be anything when it is called.", "anchors": ["src/aws/osml/gdal/gdal_config.py:set_gdal_default_configuration"]}
{"id": "C08", "title": "The tile found for a location contains the location", "statement": "For every location of the world extent (west and south edges excluded, see C11) and every zoom level get_tile_for_location returns a tile whose bounds contain the location, and it is the only tile of that level whose (min, max] bounds do.", "quantifier": "every location, every zoom level, both tile sizes", "why_tests_cant": "Boundary behaviour of ceil on a continuum of locations at unbounded zoom.", "anchors": ["src/aws/osml/image_processing/map_tileset_wmq.py:WebMercatorQuadMapTileSet.get_tile_for_location", "src/aws/osml/image_processing/map_tileset_wmq.py:WebMercatorQuadMapTileSet.get_tile"]}
{"id": "C09", "title": "Tiles of one level cover the map without gaps or overlap", "statement": "Horizontally and vertically adjacent tiles share exactly one edge, two different tiles of a level have disjoint (min, max] bounds, and the 2^z by 2^z tiles of level z exactly cover the world extent.", "quantifier": "every zoom level, every pair of tiles", "why_tests_cant": "Unbounded number of tiles.", "anchors": ["src/aws/osml/image_processing/map_tileset_wmq.py:WebMercatorQuadMapTileSet.get_tile"]}
{"id": "C10", "title": "Zoom levels nest and tile sizes agree", "statement": "The tile of a location at zoom z is the parent (row div 2, col div 2) of its tile at zoom z+1, the four children of a tile cover it exactly, and WebMercatorQuad and WebMercatorQuadx2 give the same bounds and the same tile for the same id or location.", "quantifier": "every location, every zoom level, every positive tile size", "why_tests_cant": "Relation between infinitely many levels.", "anchors": ["src/aws/osml/image_processing/map_tileset_wmq.py:WebMercatorQuadMapTileSet"]}
{"id": "C11", "title": "Tile indices of locations in the world extent are valid", "statement": "For every location whose longitude is in [-180, 180] and whose latitude is in the Web Mercator limits, get_tile_for_location returns 0 <= row < 2^z and 0 <= col < 2^z.", "quantifier": "every location in the closed world extent, every zoom level", "why_tests_cant": "Only the exact western and southern edges break it.", "anchors": ["src/aws/osml/image_processing/map_tileset_wmq.py:WebMercatorQuadMapTileSet.get_tile_for_location"]}
{"id": "C12", "title": "Tile limits of an area cover the area", "statement": "get_tile_matrix_limits_for_area returns limits (min_col, min_row, max_col, max_row) such that the tile of every boundary location, and of every location in the bounding box of the boundary, is within the limits; the limits are the smallest such; an empty boundary raises ValueError.", "quantifier": "every list of boundary locations, every location in their bounding box, every zoom level", "why_tests_cant": "Unbounded lists and a continuum of interior locations.", "anchors": ["src/aws/osml/image_processing/map_tileset.py:MapTileSet.get_tile_matrix_limits_for_area"]}
{"id": "C13", "title": "Tile set lookup is exact", "statement": "MapTileSetFactory returns a tile set exactly for the two well-known names, with tile sizes 256 and 512, and nothing for any other name.", "quantifier": "every name", "why_tests_cant": "Quantifies over all other strings.", "anchors": ["src/aws/osml/image_processing/map_tileset_factory.py:MapTileSetFactory"]}
{"id": "C14", "title": "DMS strings have a fixed width", "statement": "to_dms_string returns exactly 15 characters of the form ddmmssXdddmmssY for every latitude in [-90, 90] and longitude in [-180, 180], in any rounding of the arithmetic that is monotone and exact on small integers; four of them make a 60 character IGEOLO field.", "quantifier": "every latitude and longitude in range, every admissible rounding", "why_tests_cant": "A continuum of coordinates; field overflow appears only within a few millionths of a degree of a carry.", "anchors": ["src/aws/osml/photogrammetry/coordinates.py:GeodeticWorldCoordinate.__format__", "src/aws/osml/photogrammetry/coordinates.py:GeodeticWorldCoordinate.to_dms_string", "src/aws/osml/image_processing/gdal_tile_factory.py:GDALTileFactory._create_new_igeolo"]}
{"id": "C15", "title": "DMS minutes and seconds are below sixty", "statement": "The minutes and seconds printed by the format directives are between 0 and 59.", "quantifier": "every latitude and longitude", "why_tests_cant": "The exceptions are tiny intervals just below a whole degree or minute.", "anchors": ["src/aws/osml/photogrammetry/coordinates.py:GeodeticWorldCoordinate.__format__"]}
{"id": "C16", "title": "DMS strings denote the coordinate to within a second", "statement": "Reading the degrees, minutes, seconds and hemisphere printed for a coordinate gives back the coordinate with an error below one arc second plus rounding.", "quantifier": "every latitude and longitude", "why_tests_cant": "Error bound over a continuum.", "anchors": ["src/aws/osml/photogrammetry/coordinates.py:GeodeticWorldCoordinate.__format__"]}
{"id": "C17", "title": "The format language is literal outside directives", "statement": "Formatting a geodetic coordinate copies every character that is not part of a directive, prints % for %%, drops unknown directives, and formatting a concatenation of complete pieces is the concatenation of their formats.", "quantifier": "every format string, every coordinate", "why_tests_cant": "Quantifies over all strings, including ones that end in the middle of a directive.", "anchors": ["src/aws/osml/photogrammetry/coordinates.py:GeodeticWorldCoordinate.__format__"]}
{"id": "C18", "title": "Decimal degree directives are signed", "statement": "The %l and %o directives print the signed latitude and longitude in decimal degrees, as documented, so two coordinates with different latitudes never print the same %l text.", "quantifier": "every coordinate", "why_tests_cant": "Quantifies over pairs of coordinates.", "anchors": ["src/aws/osml/photogrammetry/coordinates.py:GeodeticWorldCoordinate.__format__"]}
{"id": "C19", "title": "SRTM tile names identify one-degree cells", "statement": "Two covered locations get the same SRTM tile name exactly when they lie in the same one-degree cell, and a location gets no tile exactly when its cell is outside N59..S56.", "quantifier": "every pair of locations, every prefix, version and extension", "why_tests_cant": "Injectivity over pairs of a continuum of locations.", "anchors": ["src/aws/osml/photogrammetry/srtm_dem_tile_set.py:SRTMTileSet.find_tile_id"]}
{"id": "C20", "title": "Generic DEM tile names identify one-degree cells", "statement": "With the default format GenericDEMTileSet gives every location the name of the one-degree cell that contains it, so locations in different cells never share a tile, also under IEEE double arithmetic.", "quantifier": "every location, all 360 x 181 cells, exact and binary64 arithmetic", "why_tests_cant": "Needs all cells: the conversion degrees -> radians -> degrees is wrong for a handful of integers only.", "anchors": ["src/aws/osml/photogrammetry/generic_dem_tile_set.py:GenericDEMTileSet.find_tile_id", "src/aws/osml/photogrammetry/coordinates.py:GeodeticWorldCoordinate.__format__"]}
{"id": "C21", "title": "The raster cache is transparent", "statement": "For every sequence of elevation and region queries, a DigitalElevationModel gives the answers it would give with no cache, and a query that raises leaves later answers unaffected.", "quantifier": "every sequence of queries, every cache size including 0, every tile factory", "why_tests_cant": "Statement about all histories.", "anchors": ["src/aws/osml/photogrammetry/digital_elevation_model.py:DigitalElevationModel.set_elevation", "src/aws/osml/photogrammetry/digital_elevation_model.py:DigitalElevationModel.get_interpolation_grid"]}
{"id": "C22", "title": "The raster cache is bounded and keeps recent tiles", "statement": "At most raster_cache_size tiles are ever held, a tile is not loaded again while fewer than raster_cache_size other tiles were used since its last use, and when no more than raster_cache_size different tiles are ever used each is loaded at most once.", "quantifier": "every sequence of tile requests, every cache size", "why_tests_cant": "Statement about all histories.", "anchors": ["src/aws/osml/photogrammetry/digital_elevation_model.py:DigitalElevationModel.get_interpolation_grid"]}
{"id": "C23", "title": "Concurrent elevation queries agree with sequential ones", "statement": "When several threads query one DigitalElevationModel, every query returns the answer of the uncached computation in every interleaving of the cache look-ups, tile loads and cache stores.", "quantifier": "every number of threads, every schedule", "why_tests_cant": "Statement about all schedules.", "anchors": ["src/aws/osml/photogrammetry/digital_elevation_model.py:DigitalElevationModel.get_interpolation_grid"]}
{"id": "C24", "title": "Setting an elevation changes only the elevation, to a value of the surface", "statement": "set_elevation never changes longitude or latitude, leaves the elevation alone when there is no tile, is exact at the posts of the grid, and between posts returns a value between the lowest and highest of the four surrounding posts.", "quantifier": "every grid of at least two by two elevations, every location in it", "why_tests_cant": "Continuum of locations and all grids.", "anchors": ["src/aws/osml/photogrammetry/digital_elevation_model.py:DigitalElevationModel.set_elevation"]}
{"id": "C25", "title": "Projective transform and its inverse cancel", "statement": "For a ProjectiveTransform with invertible parameters, inverse(forward(p)) = p and forward(inverse(q)) = q wherever the denominators are not zero.", "quantifier": "every parameter set, every point", "why_tests_cant": "Algebraic identity over a continuum.", "anchors": ["src/aws/osml/photogrammetry/transforms.py:ProjectiveTransform.forward", "src/aws/osml/photogrammetry/transforms.py:ProjectiveTransform.inverse"]}
{"id": "C26", "title": "Estimating a projective transform from exact correspondences recovers it", "statement": "When the correspondences passed to ProjectiveTransform.estimate come from an invertible projective map (normalised so that its denominator has constant term 1) and contain four points with no three on a line, the estimated transform equals that map; whenever an exact fit exists the estimate maps every source that it does not send to infinity to its destination.", "quantifier": "every list of correspondences in general position, every invertible projective map", "why_tests_cant": "Uniqueness of the least squares solution over all configurations.", "anchors": ["src/aws/osml/photogrammetry/transforms.py:ProjectiveTransform.estimate"]}
{"id": "C27", "title": "A chip's sensor model is the full image model shifted", "statement": "For a ChippedImageSensorModel built from a rectangular crop, image_to_world at a chip pixel equals the full model at the pixel plus the crop offset, and world_to_image equals the full model's pixel minus the offset.", "quantifier": "every crop rectangle with positive size, every pixel, every full image sensor model", "why_tests_cant": "All crops and all sensor models.", "anchors": ["src/aws/osml/photogrammetry/chipped_image_sensor_model.py:ChippedImageSensorModel"]}
{"id": "C28", "title": "Affine geo-transform models invert", "statement": "GDALAffineSensorModel raises ValueError exactly when the transform is singular, and otherwise world_to_image(image_to_world(p)) = p and image_to_world(world_to_image(g)) has the longitude and latitude of g, also through an invertible CRS transform that keeps the height.", "quantifier": "every geo transform, every pixel, every CRS transform pair", "why_tests_cant": "Algebraic identity over a continuum.", "anchors": ["src/aws/osml/photogrammetry/gdal_sensor_model.py:GDALAffineSensorModel"]}
{"id": "C29", "title": "RPC projection is the published rational polynomial", "statement": "RPCSensorModel.world_to_image returns line and sample offsets plus scale times the ratio of the RPC00B cubic polynomials of the normalised longitude, latitude and height.", "quantifier": "every coefficient set of twenty values, every coordinate", "why_tests_cant": "Twenty terms in a fixed order over a continuum; swapping two terms is invisible to most samples.", "anchors": ["src/aws/osml/photogrammetry/rpc_sensor_model.py:RPCPolynomial.evaluate", "src/aws/osml/photogrammetry/rpc_sensor_model.py:RPCSensorModel.world_to_image"]}
{"id": "C30", "title": "Iterative models return a ground point on the elevation surface", "statement": "The point returned by image_to_world of an RPC or RSM model has the longitude and latitude found by the search, and the elevation that the elevation model assigns there, or the model's default elevation when there is no elevation model or it has no data; the search only ever evaluates points on that same surface.", "quantifier": "every minimiser result, every elevation model, every option set", "why_tests_cant": "The optimiser is arbitrary.", "anchors": ["src/aws/osml/photogrammetry/rpc_sensor_model.py:RPCSensorModel.image_to_world", "src/aws/osml/photogrammetry/replacement_sensor_model.py:RSMPolynomialSensorModel.image_to_world"]}
{"id": "C31", "title": "RSM polynomials are the sum over all monomials", "statement": "RSMPolynomial rejects a coefficient list of the wrong length and otherwise evaluates to the sum of a_ijk x^i y^j z^k with the coefficient order of the standard; the low order polynomial is the ten-term quadratic; both are linear in the coefficients.", "quantifier": "every maximum power triple, every coefficient list, every point", "why_tests_cant": "Powers and coefficients are unbounded.", "anchors": ["src/aws/osml/photogrammetry/replacement_sensor_model.py:RSMPolynomial", "src/aws/osml/photogrammetry/replacement_sensor_model.py:RSMLowOrderPolynomial"]}
{"id": "C32", "title": "RSM normalisation and ground domains invert", "statement": "Normalising then denormalising an image or ground coordinate gives it back for non-zero scales, geodetic to ground domain conversion inverts in each domain form, and a GEODETIC_2PI longitude is in [0, 2*pi) and equal to the input modulo 2*pi.", "quantifier": "every coordinate, every scale and offset, every domain form", "why_tests_cant": "Continuum of coordinates.", "anchors": ["src/aws/osml/photogrammetry/replacement_sensor_model.py:RSMGroundDomain", "src/aws/osml/photogrammetry/replacement_sensor_model.py:RSMPolynomialSensorModel"]}
{"id": "C33", "title": "Every image location is served by an existing RSM section", "statement": "RSMSectionedPolynomialSensorModel picks, for every pixel or ground point, a section that exists, and the section whose row and column interval contains the low order location when that is inside the image; world_to_image and image_to_world delegate to that section.", "quantifier": "every section grid of positive size, every location", "why_tests_cant": "Clamping behaviour on a continuum, including points far outside.", "anchors": ["src/aws/osml/photogrammetry/replacement_sensor_model.py:RSMSectionedPolynomialSensorModel.get_section_index"]}
{"id": "C34", "title": "A composite model answers with its precision model", "statement": "CompositeSensorModel.world_to_image equals the precision model's; image_to_world passes the caller's options with the approximate location as initial guess and changes neither the caller's options nor other keys.", "quantifier": "every pair of sensor models, every option dictionary", "why_tests_cant": "All models and option sets.", "anchors": ["src/aws/osml/photogrammetry/composite_sensor_model.py:CompositeSensorModel"]}
{"id": "C35", "title": "Sensor model selection follows the documented precedence", "statement": "SensorModelFactory.build returns the composite of the chosen precision and approximate models, or whichever exists, or None; with the precedence GCP over affine, CSCRNA over both, RSM over RPC, SICD/SIDD over all TREs, and only selected types are used.", "quantifier": "every combination of available metadata and selected model types", "why_tests_cant": "All combinations of optional metadata, each builder able to fail.", "anchors": ["src/aws/osml/gdal/sensor_model_factory.py:SensorModelFactory.build"]}
{"id": "C36", "title": "Bad optional metadata does not lose a usable model", "statement": "When one metadata source is unusable, build still returns a model made from the remaining sources: a malformed ICHIPB leaves the unchipped model, and a SICD/SIDD that cannot be converted leaves the RSM or RPC model.", "quantifier": "every combination of available metadata and failures", "why_tests_cant": "All failure combinations.", "anchors": ["src/aws/osml/gdal/sensor_model_factory.py:SensorModelFactory.build", "src/aws/osml/gdal/sensor_model_factory.py:ChippedImageInfoFacade"]}
{"id": "C37", "title": "TRE coefficients are stored at their declared positions", "statement": "parse_rpc_coefficients returns a list of the declared length whose i-th entry is the last value given for index i, or 0; an index outside the list raises instead of writing elsewhere.", "quantifier": "every list of indexed coefficients, every declared length", "why_tests_cant": "Unbounded lists with arbitrary indices.", "anchors": ["src/aws/osml/gdal/xmltre_utils.py:parse_rpc_coefficients", "src/aws/osml/gdal/xmltre_utils.py:get_tre_field_value"]}
{"id": "C38", "title": "DES headers have the fixed NITF layout", "statement": "extract_des_header returns a string in which every field occupies exactly the columns the standard assigns to it, so that cutting the string at those columns gives the (padded) values back, and its length is 173 + DESSHL.", "quantifier": "every assignment of field values, including values longer than their column", "why_tests_cant": "All field values; a single overlong one shifts all later fields.", "anchors": ["src/aws/osml/gdal/nitf_des_accessor.py:NITFDESAccessor.extract_des_header"]}
{"id": "C39", "title": "DES segments are found in document order and the XML prolog is removed", "statement": "get_segments_by_name returns exactly the segments of that name in document order; text without an XML declaration is unchanged except for outer white space, and the text used for parsing contains no declaration.", "quantifier": "every document and every text", "why_tests_cant": "All strings.", "anchors": ["src/aws/osml/gdal/nitf_des_accessor.py:NITFDESAccessor"]}
{"id": "C40", "title": "A SICD tile's metadata depends only on that tile", "statement": "After any sequence of tile requests, the first row and column written for a tile are the image's own plus the tile offset; a rejected (scaled) request changes nothing; chipping a chip adds the offsets.", "quantifier": "every sequence of tile requests", "why_tests_cant": "Statement about all histories of a mutable object.", "anchors": ["src/aws/osml/image_processing/sicd_updater.py:SICDUpdater.update_image_data_for_chip"]}
{"id": "C41", "title": "A SIDD tile's metadata depends only on that tile", "statement": "The chip corners written for a tile do not depend on which tiles were created before from the same factory.", "quantifier": "every sequence of tile requests", "why_tests_cant": "Statement about all histories of a mutable object.", "anchors": ["src/aws/osml/image_processing/sidd_updater.py:SIDDUpdater.update_image_data_for_chip", "src/aws/osml/image_processing/gdal_tile_factory.py:GDALTileFactory.create_encoded_tile"]}
{"id": "C42", "title": "Reading back a SIDD tile gives the shifted sensor model", "statement": "The sensor model built from the metadata written for an unscaled SIDD tile maps tile pixel (c, r) to the full image pixel (c + x offset, r + y offset).", "quantifier": "every tile offset and size, every pixel", "why_tests_cant": "Continuum of pixels; the disagreement is less than one pixel.", "anchors": ["src/aws/osml/image_processing/sidd_updater.py:SIDDUpdater", "src/aws/osml/gdal/sidd_sensor_model_builder.py:SIDDSensorModelBuilder.from_dataclass"]}
{"id": "C43", "title": "Chip to full image interpolation hits the corners and stays inside", "statement": "SIDDUpdater.chipped_coordinate_to_full maps the four chip corners to the recorded full image corners, every chip pixel into their bounding box, and a pure crop to a pure shift; chips one pixel wide are handled.", "quantifier": "every corner quadruple, chip size and chip pixel", "why_tests_cant": "Continuum of pixels and arbitrary quadrilaterals.", "anchors": ["src/aws/osml/image_processing/sidd_updater.py:SIDDUpdater.chipped_coordinate_to_full"]}
{"id": "C44", "title": "Encoded tiles do not depend on earlier tiles", "statement": "The translate options used for a tile are a function of the request and the factory configuration only: whatever was requested before, no creation option accumulates and the defaults are unchanged; the temporary in-memory file is removed after every successful encoding.", "quantifier": "every sequence of tile requests, including failing ones", "why_tests_cant": "Statement about all histories.", "anchors": ["src/aws/osml/image_processing/gdal_tile_factory.py:GDALTileFactory.create_encoded_tile", "src/aws/osml/image_processing/gdal_tile_factory.py:GDALTileFactory._create_gdal_translate_kwargs"]}
{"id": "C45", "title": "Orthophoto source windows lie inside the image", "statement": "For every map tile, create_orthophoto_tile either reports no overlap or reads a non-empty window inside the source image (or overview), at a reduced resolution level that exists and never has fewer source pixels than the tile needs when full resolution has them.", "quantifier": "every projected tile outline, every image size, every number of overviews", "why_tests_cant": "Continuum of outlines; edge contact cases.", "anchors": ["src/aws/osml/image_processing/gdal_tile_factory.py:GDALTileFactory.create_orthophoto_tile", "src/aws/osml/image_processing/gdal_tile_factory.py:GDALTileFactory._read_from_rlevel_as_array"]}
{"id": "C46", "title": "Orthophoto tiles have the requested shape and orientation", "statement": "The orthophoto returned for a requested size (width, height) has that width and height and pixel (row i, column j) is sampled at the location of that row and column.", "quantifier": "every tile size, square or not", "why_tests_cant": "The axis confusion is invisible for square tiles.", "anchors": ["src/aws/osml/image_processing/gdal_tile_factory.py:GDALTileFactory.create_orthophoto_tile"]}
{"id": "C47", "title": "8-bit normalisation is monotone and in range", "statement": "The range-adjusted orthophoto pixels are in [0, 255], a brighter source pixel never becomes darker, and under MINMAX the minimum maps to 0 and the maximum to 255.", "quantifier": "every pixel array, every band statistics", "why_tests_cant": "All arrays and statistics.", "anchors": ["src/aws/osml/image_processing/gdal_tile_factory.py:GDALTileFactory._normalize_bands", "src/aws/osml/image_processing/gdal_tile_factory.py:GDALTileFactory._normalize_band_minmax", "src/aws/osml/image_processing/gdal_tile_factory.py:GDALTileFactory._normalize_band_dra"]}
{"id": "C48", "title": "SAR power is the squared magnitude", "statement": "complex_to_power_value(image_pixels_to_complex(pixels)) is re^2 + im^2 for the complex pixel types and amplitude^2 for the amplitude/phase type, for every pixel value the type can hold.", "quantifier": "every pixel value of every pixel type", "why_tests_cant": "Fixed-width integer overflow appears for magnitudes above 181 only.", "anchors": ["src/aws/osml/image_processing/sar_complex_imageop.py:image_pixels_to_complex", "src/aws/osml/image_processing/sar_complex_imageop.py:complex_to_power_value"]}
{"id": "C49", "title": "SAR display mappings are in range and monotone", "statement": "linear_mapping returns values in [0, 1] with minimum 0 and maximum 1 (0.5 for constant images); histogram stretch and quarter power images are in [0, 255] and never map a larger magnitude to a darker pixel.", "quantifier": "every array of magnitudes, every clip value and scale factor", "why_tests_cant": "All arrays.", "anchors": ["src/aws/osml/image_processing/sar_complex_imageop.py:linear_mapping", "src/aws/osml/image_processing/sar_complex_imageop.py:histogram_stretch_mag_values", "src/aws/osml/image_processing/sar_complex_imageop.py:quarter_power_mag_values"]}
{"id": "C50", "title": "SICD pixel and image plane coordinates invert", "statement": "Row/column, image grid and image plane point conversions invert each other for every pair of independent row and column unit vectors, orthogonal or not; the plane normal is a unit vector perpendicular to both.", "quantifier": "every image grid, every pixel, every image plane point", "why_tests_cant": "Continuum, non-orthogonal grids.", "anchors": ["src/aws/osml/photogrammetry/sicd_sensor_model.py:SARImageCoordConverter"]}
{"id": "C51", "title": "R/Rdot ground plane projection satisfies its three equations", "statement": "The point returned by the ground plane projection lies on the plane, is at the given range from the platform and has the given range rate, on the look side of the track; impossible geometries raise.", "quantifier": "every platform position and velocity, plane, range and range rate", "why_tests_cant": "Continuum of geometries.", "anchors": ["src/aws/osml/photogrammetry/sicd_sensor_model.py:GroundPlaneRRDotSurfaceProjection.rrdot_to_ground"]}
{"id": "C52", "title": "Per-band scales cover every band and use the limits of the output type", "statement": "get_type_and_scales returns exactly one scale per raster band, with output limits equal to the limits of the desired type (or of the band's own type), input limits chosen by the range adjustment mode, and an output type that is able to represent every band's output limits.", "quantifier": "every number of bands, every mix of band types, every adjustment mode, every optional output type", "why_tests_cant": "Mixed-type images and all mode combinations are an unbounded product.", "anchors": ["src/aws/osml/gdal/gdal_utils.py:get_type_and_scales", "src/aws/osml/gdal/gdal_utils.py:get_minmax_for_type"]}
{"id": "C53", "title": "Data type limits are those of the machine type", "statement": "get_minmax_for_type returns the least and greatest value of the pixel type for each integer type, and falls back to the 8-bit range for a type it does not know.", "quantifier": "every GDAL type code", "why_tests_cant": "The fallback ranges over all unlisted codes.", "anchors": ["src/aws/osml/gdal/gdal_utils.py:get_minmax_for_type"]}
{"id": "C54", "title": "File extension normalisation is canonical", "statement": "normalize_extension gives the same answer for an extension in any letter case, is idempotent, maps every NITF/TIFF/JPEG spelling to NITF, TIFF, JPEG and otherwise returns the upper-case input; select_extension returns the file's own extension in upper case when the driver lists it, else the driver's first extension, and UNKNOWN for an empty list.", "quantifier": "every string and every list of driver extensions", "why_tests_cant": "It is a statement over all strings and all case variants.", "anchors": ["src/aws/osml/gdal/gdal_utils.py:normalize_extension", "src/aws/osml/gdal/gdal_utils.py:select_extension"]}
{"id": "C55", "title": "The scene centre pixel projects to the scene centre point", "statement": "For polar format, range-azimuth compressed and plane grids, projecting the scene centre pixel onto a ground plane through the scene centre point returns that point, and a plane grid pixel on the scene's side of the track projects to its own image plane point.", "quantifier": "every collection geometry without adjustable offsets in which neither velocity nor line of sight is along the normal of the plane, every polynomial set", "why_tests_cant": "Continuum of geometries.", "anchors": ["src/aws/osml/photogrammetry/sicd_sensor_model.py:PFAProjectionSet", "src/aws/osml/photogrammetry/sicd_sensor_model.py:RGAZCOMPProjectionSet", "src/aws/osml/photogrammetry/sicd_sensor_model.py:PlaneProjectionSet", "src/aws/osml/photogrammetry/sicd_sensor_model.py:SICDSensorModel.image_to_world"]}
{"id": "C56", "title": "SICD world_to_image ends with a verified pixel", "statement": "world_to_image does at most ten iterations, and unless it used all of them the returned pixel projects to within one centimetre of the requested point's ground plane location; for a derived-product plane grid it inverts image_to_world exactly.", "quantifier": "every coordinate, every projection", "why_tests_cant": "All inputs and iteration counts.", "anchors": ["src/aws/osml/photogrammetry/sicd_sensor_model.py:SICDSensorModel.world_to_image"]}
{"id": "C57", "title": "Constant height projection ends on the requested height", "statement": "The height-above-ellipsoid projection performs at most the configured number of iterations and its result has exactly the requested height.", "quantifier": "every geometry, every iteration limit", "why_tests_cant": "All inputs and iteration counts.", "anchors": ["src/aws/osml/photogrammetry/sicd_sensor_model.py:HAERRDotSurfaceProjection.rrdot_to_ground"]}
{"id": "C58", "title": "Terrain projection returns points on the R/Rdot contour that meet the terrain", "statement": "Every point returned by the DEM projection is on the range/range-rate contour or between two sampled contour points on opposite sides of the terrain; the sampled points span from the lowest to the highest terrain height; a point exactly at the height tolerance above the terrain is not taken for one below it.", "quantifier": "every sequence of sampled height differences", "why_tests_cant": "All terrain profiles.", "anchors": ["src/aws/osml/photogrammetry/sicd_sensor_model.py:DEMRRDotSurfaceProjection.rrdot_to_ground"]}
{"id": "C59", "title": "Slant and ground plane normals are unit and outward", "statement": "The slant plane normal is a unit vector perpendicular to velocity and line of sight and the ground plane normal is a unit vector; the ground plane normal does not point into the Earth, and the slant plane normal points away from its centre when the scene is on the side of the track that the metadata names.", "quantifier": "every geometry with independent velocity and line of sight", "why_tests_cant": "Continuum.", "anchors": ["src/aws/osml/photogrammetry/sicd_sensor_model.py:SICDSensorModel.compute_u_spn", "src/aws/osml/photogrammetry/sicd_sensor_model.py:SICDSensorModel.compute_u_gpn"]}
{"id": "C60", "title": "A SICD chip's sensor model is the full model shifted", "statement": "The sensor model of a SICD chip written by the tile factory maps a chip pixel to the world point the full image model gives for the pixel plus the chip offset, and back.", "quantifier": "every chip offset, every pixel, every surface", "why_tests_cant": "All offsets and models.", "anchors": ["src/aws/osml/photogrammetry/sicd_sensor_model.py:SICDSensorModel", "src/aws/osml/image_processing/sicd_updater.py:SICDUpdater"]}
{"id": "C61", "title": "Polynomial coefficients keep their exponents", "statement": "Converting SICD Poly1D / Poly2D metadata gives an array of (order+1) (by order+1) coefficients whose entry at the given exponents is the last value given for them and 0 elsewhere; an exponent above the order raises.", "quantifier": "every order, every coefficient list", "why_tests_cant": "Unbounded lists.", "anchors": ["src/aws/osml/gdal/sicd_sensor_model_builder.py:poly1d_to_native", "src/aws/osml/gdal/sicd_sensor_model_builder.py:poly2d_to_native"]}
{"id": "C62", "title": "RSM section grids are complete and correctly placed", "statement": "When a multi-section RSM is built, the model at row r, column c of the grid is the one whose metadata says row section r+1, column section c+1; when a section is missing no model is produced instead of an error.", "quantifier": "every list of section metadata, every grid size", "why_tests_cant": "All orders, duplicates and omissions.", "anchors": ["src/aws/osml/gdal/rsm_sensor_model_builder.py:RSMSensorModelBuilder"]}
{"id": "C63", "title": "Image geometry lookup follows a fixed precedence", "statement": "find_image_geometry returns the imageGeometry if present, else the imageBBox as a polygon, else (only if allowed) the deprecated properties in order, else None.", "quantifier": "every feature", "why_tests_cant": "All combinations of present and absent properties.", "anchors": ["src/aws/osml/features/imaged_feature_property_accessor.py:ImagedFeaturePropertyAccessor.find_image_geometry"]}
{"id": "C64", "title": "Updating image geometries touches only existing image properties", "statement": "update_existing_image_geometries rewrites exactly the image properties the feature already has, leaves all others and the feature's own geometry unchanged, and a later lookup returns the new geometry or its bounds.", "quantifier": "every feature, every geometry", "why_tests_cant": "All combinations of properties and geometry types.", "anchors": ["src/aws/osml/features/imaged_feature_property_accessor.py:ImagedFeaturePropertyAccessor.update_existing_image_geometries"]}
{"id": "C65", "title": "Geolocation keeps the shape of every feature", "statement": "geolocate_features gives every feature with an image geometry a geometry of the same type and with the same number of vertices in the same order, and leaves features without one untouched, whatever else is in the list; an empty list is a no-op.", "quantifier": "every list of features, nested collections included", "why_tests_cant": "Arbitrarily nested collections and all lists.", "anchors": ["src/aws/osml/features/geolocation.py:Geolocator.geolocate_features"]}
{"id": "C66", "title": "The geolocation grid covers every feature", "statement": "The approximation grid spans the bounding box of all image geometries in the list with a margin, so no vertex is extrapolated.", "quantifier": "every list of features", "why_tests_cant": "All lists.", "anchors": ["src/aws/osml/features/geolocation.py:Geolocator"]}
{"id": "C67", "title": "Grid interpolation is exact for affine images", "statement": "Geolocating through the interpolation grid gives, for a sensor model that is affine in the pixel, exactly the sensor model's location for every pixel and every grid size of two or more; for any sensor model it is exact at the grid nodes and stays between neighbouring node values.", "quantifier": "every grid size, every pixel, every sensor model", "why_tests_cant": "Continuum.", "anchors": ["src/aws/osml/features/geolocation.py:LocationGridInterpolator"]}
{"id": "C68", "title": "Spatial index queries return exactly the intersecting features", "statement": "find_intersects returns exactly the indexed features whose geometry intersects the query, each once per occurrence, and find_nearest returns features no farther than any other and within the distance limit; both work for image and world geometries.", "quantifier": "every feature collection, every query", "why_tests_cant": "All collections.", "anchors": ["src/aws/osml/features/feature_index.py:STRFeature2DSpatialIndex"]}
{"id": "C69", "title": "The search simplex is an equilateral triangle about the guess", "statement": "equilateral_triangle returns three points whose centroid is the given point and whose three sides all have the given length.", "quantifier": "every centre and every size", "why_tests_cant": "Continuum.", "anchors": ["src/aws/osml/photogrammetry/math_utils.py:equilateral_triangle"]}
{"id": "C70", "title": "Elevation tile paths are rewritten for S3 only", "statement": "GDALDigitalDEMTileFactory opens prefix/tile, with a leading s3:/ replaced by /vsis3 once, and returns no data at all when the tile cannot be opened or has no geo transform.", "quantifier": "every directory and tile path", "why_tests_cant": "All strings.", "anchors": ["src/aws/osml/gdal/gdal_dem_tile_factory.py:GDALDigitalElevationModelTileFactory.get_tile"]}
{"id": "C71", "title": "Map tile rows follow the published tile matrix", "statement": "The row that get_tile_for_location returns for WebMercatorQuad is the row of the OGC tile matrix set of that name, counted from the north.", "quantifier": "every location, every zoom level", "why_tests_cant": "Holds or fails for every location, not for a sample.", "anchors": ["src/aws/osml/image_processing/map_tileset_wmq.py:WebMercatorQuadMapTileSet.get_tile_for_location"]}
{"id": "C72", "title": "A tile that could not be read once is used when it becomes readable", "statement": "When loading an elevation tile fails and the tile can be read at a later query, that later query uses the tile's elevations.", "quantifier": "every tile source, every pair of queries", "why_tests_cant": "The first failure must happen before the success; a test with a fixed tile source cannot show it.", "anchors": ["src/aws/osml/photogrammetry/digital_elevation_model.py:DigitalElevationModel.get_interpolation_grid"]}
{"id": "C73", "title": "Elevation queries from several threads never fail because of the cache", "statement": "A query of a readable tile by one of several threads sharing a DigitalElevationModel never raises because of the raster cache, and no interleaving damages the cache for later queries.", "quantifier": "every number of threads, every schedule at the level of the cache's internal updates", "why_tests_cant": "The failing schedule is a few byte codes wide and its effect shows up only later.", "anchors": ["src/aws/osml/photogrammetry/digital_elevation_model.py:DigitalElevationModel.get_interpolation_grid"]}
{"id": "C74", "title": "A projective sensor model inverts itself and passes through exactly fitting control points", "statement": "ProjectiveSensorModel ignores the elevation in world_to_image, its image_to_world gives height zero or the elevation model's height, the two directions invert each other, and ground control points that fit some projective map exactly are reproduced.", "quantifier": "every list of control points whose estimated transform is invertible (for the last part: with four points of which no three are on a line), every pixel and world coordinate", "why_tests_cant": "Continuum of control point configurations.", "anchors": ["src/aws/osml/photogrammetry/projective_sensor_model.py:ProjectiveSensorModel"]}
{"id": "C75", "title": "The RSM search area and default height come from the ground domain", "statement": "An RSM ground domain's bounding box is the smallest longitude/latitude box holding its eight vertices, and its default height is the reference point's height, or the mean vertex height when there is none.", "quantifier": "every domain form, every vertex list and reference point", "why_tests_cant": "The bounds are a property of all vertex lists.", "anchors": ["src/aws/osml/photogrammetry/replacement_sensor_model.py:RSMGroundDomain"]}
{"id": "C76", "title": "RSM image_to_world returns a longitude in the standard range", "statement": "The longitude returned by image_to_world of an RSM model is in [-pi, pi], as for every other sensor model.", "quantifier": "every RSM model, every pixel", "why_tests_cant": "Depends on the domain form and hemisphere of the image.", "anchors": ["src/aws/osml/photogrammetry/replacement_sensor_model.py:RSMPolynomialSensorModel.image_to_world"]}
{"id": "C77", "title": "A hint from the approximate model does not keep an RSM search from its goal", "statement": "When CompositeSensorModel passes the approximate model's location (standard longitude range) as initial guess, the RSM search can reach every ground point of its domain.", "quantifier": "every RSM model, every hint in the standard longitude range", "why_tests_cant": "Needs a GEODETIC_2PI image in the western hemisphere together with an approximate model.", "anchors": ["src/aws/osml/photogrammetry/replacement_sensor_model.py:RSMPolynomialSensorModel.image_to_world", "src/aws/osml/photogrammetry/composite_sensor_model.py:CompositeSensorModel.image_to_world"]}
{"id": "C78", "title": "A TRE builds exactly the model with the fields it states", "statement": "The builders for RPC00B, RSM, CSCRNA and ICHIPB return a model whose every parameter is the value of the field with that name, and report failure when a field is missing or malformed.", "quantifier": "every TRE tree", "why_tests_cant": "Dozens of fields, any of which may be missing, repeated or malformed.", "anchors": ["src/aws/osml/gdal/rpc_sensor_model_builder.py:RPCSensorModelBuilder", "src/aws/osml/gdal/rsm_sensor_model_builder.py:RSMSensorModelBuilder", "src/aws/osml/gdal/projective_sensor_model_builder.py:ProjectiveSensorModelBuilder", "src/aws/osml/gdal/sensor_model_factory.py:ChippedImageInfoFacade", "src/aws/osml/gdal/xmltre_utils.py:get_tre_field_value"]}
{"id": "C79", "title": "DES header text fields are left justified", "statement": "The text fields of the header made by extract_des_header are left justified and space filled, as the NITF standard requires of BCS-A fields.", "quantifier": "every DES with fields that fit their columns", "why_tests_cant": "A property of every field value shorter than its column.", "anchors": ["src/aws/osml/gdal/nitf_des_accessor.py:NITFDESAccessor.extract_des_header"]}
{"id": "C80", "title": "Range adjustment works on constant images", "statement": "get_type_and_scales with MINMAX or DRA adjustment returns scales for an image whose bands are constant.", "quantifier": "every band type, every constant, both modes", "why_tests_cant": "Needs an image without contrast for each integer pixel type.", "anchors": ["src/aws/osml/gdal/gdal_utils.py:get_type_and_scales", "src/aws/osml/gdal/dynamic_range_adjustment.py:DRAParameters.from_counts"]}
{"id": "C81", "title": "MINMAX adjustment covers the whole range of the image", "statement": "With MINMAX adjustment the input limits of a band are its minimum and maximum, so that no value is cut off.", "quantifier": "every band, every histogram", "why_tests_cant": "Depends on the histogram buckets of every image.", "anchors": ["src/aws/osml/gdal/gdal_utils.py:get_type_and_scales", "src/aws/osml/gdal/dynamic_range_adjustment.py:DRAParameters.from_counts"]}
{"id": "C82", "title": "Orthophoto sampling is registered at every resolution level", "statement": "A source position of the full image is sampled at the place of the array that was read from there, at every reduced resolution level.", "quantifier": "every window corner, every level", "why_tests_cant": "The error shows only for windows that do not start at a multiple of the level's factor.", "anchors": ["src/aws/osml/image_processing/gdal_tile_factory.py:GDALTileFactory.create_orthophoto_tile"]}
{"id": "C83", "title": "Image pixels of an orthophoto are opaque", "statement": "The alpha channel of an orthophoto is 255 for every pixel that shows image data and 0 elsewhere.", "quantifier": "every image content", "why_tests_cant": "Depends on pixel values: black pixels and pure colours.", "anchors": ["src/aws/osml/image_processing/gdal_tile_factory.py:GDALTileFactory.create_orthophoto_tile"]}
{"id": "C84", "title": "Floating-point NITF tiles are never JPEG 2000", "statement": "A NITF tile has exactly one compression option, and for floating-point pixels it is never JPEG 2000.", "quantifier": "every compression, every pixel type", "why_tests_cant": "A product of options of which tests sample a few.", "anchors": ["src/aws/osml/image_processing/gdal_tile_factory.py:GDALTileFactory._create_gdal_translate_kwargs"]}
{"id": "C85", "title": "Geolocation works across the antimeridian", "statement": "A pixel of an image that crosses the antimeridian is given a longitude near that of its neighbours, up to whole turns.", "quantifier": "every image, every pixel", "why_tests_cant": "Test images lie away from longitude 180.", "anchors": ["src/aws/osml/features/geolocation.py:LocationGridInterpolator"]}
{"id": "C86", "title": "SICD world_to_image accounts for elevation", "statement": "world_to_image of a world point above or below the model's ground plane returns the pixel that sees this point: its range and range rate contour passes through the point.", "quantifier": "every model, every world point", "why_tests_cant": "Tests use points of the scene's own plane.", "anchors": ["src/aws/osml/photogrammetry/sicd_sensor_model.py:SICDSensorModel.world_to_image"]}
{"id": "C87", "title": "Terrain projection returns only points that meet the terrain", "statement": "A contour sample over a place where the elevation model has no data is not reported as an intersection with the terrain.", "quantifier": "every elevation model, every contour", "why_tests_cant": "Needs an elevation model with a gap under the contour.", "anchors": ["src/aws/osml/photogrammetry/sicd_sensor_model.py:DEMRRDotSurfaceProjection.rrdot_to_ground"]}
{"id": "C88", "title": "Range rate is the time derivative of range", "statement": "For polar format, plane and zero Doppler grids the range rate given for a pixel is the time derivative of the range of the same pixel, and the velocity polynomial is the derivative of the position polynomial.", "quantifier": "every metadata, every pixel, every time", "why_tests_cant": "A derivative is a statement about all times; tests compare few numbers.", "anchors": ["src/aws/osml/photogrammetry/sicd_sensor_model.py:PFAProjectionSet", "src/aws/osml/photogrammetry/sicd_sensor_model.py:INCAProjectionSet", "src/aws/osml/photogrammetry/sicd_sensor_model.py:PlaneProjectionSet", "src/aws/osml/photogrammetry/sicd_sensor_model.py:COAProjectionSet"]}
{"id": "C89", "title": "A built SICD model can project", "statement": "When the SICD sensor model builder returns a model, image_to_world and world_to_image of this model do not fail for want of a projection set or surface projection.", "quantifier": "every metadata document", "why_tests_cant": "Tests build from a few products; image formation and grid types not covered are silently accepted.", "anchors": ["src/aws/osml/gdal/sicd_sensor_model_builder.py:SICDSensorModelBuilder.build"]}
{"id": "C90", "title": "The suggested display range is the widened percentile range", "statement": "The suggested minimum and maximum of DRAParameters.from_counts are the values of the buckets at the two percentiles, moved outwards by the factors a and b times their distance and clipped to the range of the pixels; by default 2 %, 98 %, 0.2 and 0.4.", "quantifier": "every histogram, every percentile, every factor", "why_tests_cant": "Tests compare the result for a few histograms.", "anchors": ["src/aws/osml/gdal/dynamic_range_adjustment.py:DRAParameters.from_counts"]}
{"id": "C91", "title": "describe_region describes the tile of the location", "statement": "describe_region returns the summary that belongs to the tile of the location, nothing when no tile is available there, and passes on exceptions, whatever was asked before.", "quantifier": "every tile set and source, every sequence of queries", "why_tests_cant": "Cached and uncached paths differ; tests query once.", "anchors": ["src/aws/osml/photogrammetry/digital_elevation_model.py:DigitalElevationModel.describe_region"]}
{"id": "C92", "title": "Elevation is unchanged where the elevation model has no value", "statement": "set_elevation leaves the elevation of a location alone where the elevation model has no value, as its documentation says.", "quantifier": "every elevation model, every location", "why_tests_cant": "Test tiles have no voids.", "anchors": ["src/aws/osml/photogrammetry/digital_elevation_model.py:DigitalElevationModel.set_elevation"]}
{"id": "C93", "title": "The document in a data extension segment is found", "statement": "extract_desdata_xml returns the decoded DESDATA value, or else the first element of xml_content, or else nothing.", "quantifier": "every DES element", "why_tests_cant": "The shapes of the metadata depend on the GDAL version; tests have one.", "anchors": ["src/aws/osml/gdal/nitf_des_accessor.py:NITFDESAccessor.extract_desdata_xml"]}
{"id": "C94", "title": "A sectioned RSM image is projected section by section", "statement": "In the model built from the TREs of an image with several sections each pixel, and each ground point, is projected with the polynomials of the RSMPCA TRE whose section numbers belong to it according to RSMIDA and RSMPIA.", "quantifier": "every set of TREs that is accepted, every pixel and ground point", "why_tests_cant": "Test images have a single section.", "anchors": ["src/aws/osml/gdal/rsm_sensor_model_builder.py:RSMSensorModelBuilder", "src/aws/osml/photogrammetry/replacement_sensor_model.py:RSMSectionedPolynomialSensorModel"]}
{"id": "C95", "title": "IGEOLO gives the corners of the tile", "statement": "The IGEOLO field of a NITF tile has 60 characters; its four groups of fifteen denote, to a second, the ground locations of the corners of the source window clockwise from the upper left; a corner that cannot be located raises.", "quantifier": "every sensor model with results on the globe, every window", "why_tests_cant": "Tests look at the file that GDAL writes for one image; hemispheres, signs and corner order are not compared with the sensor model.", "anchors": ["src/aws/osml/image_processing/gdal_tile_factory.py:GDALTileFactory._create_new_igeolo", "src/aws/osml/photogrammetry/coordinates.py:GeodeticWorldCoordinate.to_dms_string"]}
{"id": "C96", "title": "The right bands are displayed", "statement": "Orthophoto tiles show all bands when no range adjustment is requested; otherwise the band of a grey image, the power of a two-band complex image and the first three bands of other images, every band adjusted with its own statistics.", "quantifier": "every number of bands, every range adjustment", "why_tests_cant": "Tests use one or two images.", "anchors": ["src/aws/osml/image_processing/gdal_tile_factory.py:GDALTileFactory._normalize_bands", "src/aws/osml/image_processing/gdal_tile_factory.py:GDALTileFactory._normalize_image_for_display"]}
{"id": "C97", "title": "The PNG tile has the colours of the image", "statement": "In an orthophoto tile the first three bands of the image appear as red, green and blue, and every image that can be read yields a PNG file.", "quantifier": "every number of bands, every range adjustment, every pixel", "why_tests_cant": "Tests check that bytes are returned, not what they decode to.", "anchors": ["src/aws/osml/image_processing/gdal_tile_factory.py:GDALTileFactory.create_orthophoto_tile"]}
{"id": "C98", "title": "Orthophoto tiles use the elevation at the image centre", "statement": "The default elevation of an orthophoto tile is the elevation that the sensor model has at the centre of the image.", "quantifier": "every image size, every sensor model", "why_tests_cant": "A wrong centre shifts the tile by an amount that tests with flat ground do not see.", "anchors": ["src/aws/osml/image_processing/gdal_tile_factory.py:GDALTileFactory.create_orthophoto_tile"]}
{"id": "C99", "title": "A tile that cannot be projected is reported as missing", "statement": "When the sensor model cannot convert the coordinates of a tile, create_orthophoto_tile returns None instead of raising.", "quantifier": "every sensor model, every tile", "why_tests_cant": "Needs a sensor model that fails at chosen points.", "anchors": ["src/aws/osml/image_processing/gdal_tile_factory.py:GDALTileFactory.create_orthophoto_tile"]}
{"id": "C100", "title": "An orthophoto tile shows the image at the projected places", "statement": "The pixel in row i and column j of an orthophoto tile shows the adjusted image value at the position where the sensor model projects the longitude and latitude of that tile pixel.", "quantifier": "every image, sensor model, tile bounds and tile size", "why_tests_cant": "A test can compare one tile with a stored picture; whether places agree for all bounds, levels and sizes is not tested.", "anchors": ["src/aws/osml/image_processing/gdal_tile_factory.py:GDALTileFactory.create_orthophoto_tile", "src/aws/osml/image_processing/gdal_tile_factory.py:GDALTileFactory._read_from_rlevel_as_array"]}
{"id": "C101", "title": "Tiles carry the SAR metadata of the segment that the sensor model comes from", "statement": "A tile factory for a NITF image takes the first XML data segment that mentions SIDD or SICD, with the header of the same segment, and no metadata when there is none; SensorModelFactory takes its model from the same segment and as the same product.", "quantifier": "every list of data extension segments, every content", "why_tests_cant": "The two classes repeat the same loop; tests use files with one product.", "anchors": ["src/aws/osml/image_processing/gdal_tile_factory.py:GDALTileFactory.__init__", "src/aws/osml/gdal/sensor_model_factory.py:SensorModelFactory.build"]}
{"id": "C102", "title": "SAR tiles are marked as what they are", "statement": "NITF tiles of complex SICD images are marked as complex data of the bands I and Q; tiles of detected SIDD images are not.", "quantifier": "every image with SAR metadata, every request", "why_tests_cant": "Tests check the options of one SICD file.", "anchors": ["src/aws/osml/image_processing/gdal_tile_factory.py:GDALTileFactory.create_encoded_tile"]}
{"id": "C103", "title": "A complex pixel is shown the same in every tile", "statement": "The displayed brightness of a complex pixel depends on the pixel and the image but not on the other pixels of its tile, so that neighbouring tiles fit together.", "quantifier": "every image, with and without statistics, every pair of tiles", "why_tests_cant": "Tests make one tile.", "anchors": ["src/aws/osml/image_processing/gdal_tile_factory.py:GDALTileFactory._normalize_complex_sar", "src/aws/osml/image_processing/sar_complex_imageop.py:quarter_power_mag_values"]}
{"id": "C104", "title": "The SAR display functions show the quantity they are named for", "statement": "quarter_power_image shows the fourth root of the pixel power, and histogram_stretch the pixel magnitude, each in proportion up to white.", "quantifier": "every array of complex pixels, scale factor and precomputed mean", "why_tests_cant": "Tests check shapes and ranges of the results.", "anchors": ["src/aws/osml/image_processing/sar_complex_imageop.py:quarter_power_image", "src/aws/osml/image_processing/sar_complex_imageop.py:histogram_stretch"]}
{"id": "C105", "title": "Decibels are the logarithmic measure of power", "statement": "power_value_in_decibels keeps the order, turns products into sums, gives ten decibels for a factor of ten and minus infinity for no power, and can be inverted.", "quantifier": "all powers", "why_tests_cant": "Laws for all numbers.", "anchors": ["src/aws/osml/image_processing/sar_complex_imageop.py:power_value_in_decibels"]}
{"id": "C106", "title": "Ground control points lie on their pixels", "statement": "GDALGCPSensorModelBuilder builds nothing from fewer than four points; otherwise, when the points fit an invertible projective map and four of them have no three on a line, the model places every control point on its pixel at any elevation.", "quantifier": "every list of control points", "why_tests_cant": "Tests use four points of one image.", "anchors": ["src/aws/osml/gdal/gdal_sensor_model_builder.py:GDALGCPSensorModelBuilder", "src/aws/osml/photogrammetry/projective_sensor_model.py:ProjectiveSensorModel"]}
{"id": "C107", "title": "Orthophoto tiles follow the pixel centre convention", "statement": "Image coordinates have the centre of the upper left pixel at (0.5, 0.5); at the ground location of the centre of a pixel an orthophoto tile shows the value of this pixel.", "quantifier": "every image, sensor model and tile", "why_tests_cant": "A shift of half a pixel is within the tolerance of comparisons by eye.", "anchors": ["src/aws/osml/image_processing/gdal_tile_factory.py:GDALTileFactory.create_orthophoto_tile", "src/aws/osml/photogrammetry/coordinates.py:ImageCoordinate"]}
{"id": "C108", "title": "The elevation surface passes through the posts of the file", "statement": "At the ground location of a pixel centre of an elevation file, which GDAL's geo transform defines, DigitalElevationModel returns the value of the pixel.", "quantifier": "every elevation file in longitude and latitude, every pixel, every history of queries", "why_tests_cant": "Tests compare with a tolerance that hides half a post.", "anchors": ["src/aws/osml/gdal/gdal_dem_tile_factory.py:GDALDigitalElevationModelTileFactory.get_tile", "src/aws/osml/photogrammetry/digital_elevation_model.py:DigitalElevationModel.set_elevation"]}
{"id": "C109", "title": "Elevation files may be in any reference system", "statement": "The elevation at a ground location is the value of the file at that location, also when the file is in a projected coordinate reference system.", "quantifier": "every elevation file and reference system", "why_tests_cant": "Tests use DTED and SRTM files, which are in longitude and latitude.", "anchors": ["src/aws/osml/gdal/gdal_dem_tile_factory.py:GDALDigitalElevationModelTileFactory.get_tile", "src/aws/osml/photogrammetry/gdal_sensor_model.py:GDALAffineSensorModel"]}
{"id": "C110", "title": "The summary of an elevation tile describes its file", "statement": "describe_region reports the minimum, maximum and no-data value of the file at the location, and as post spacing the distance between the upper left and lower right corners divided by the diagonal in pixels. A file that cannot be opened or has no geo transform has no summary and changes no coordinate, and nothing is raised.", "quantifier": "every elevation file that is unusable or has an invertible geo transform and at least two by two posts, every location, every history of queries", "why_tests_cant": "The summary comes through cache, tile set and factory; tests check one tile.", "anchors": ["src/aws/osml/gdal/gdal_dem_tile_factory.py:GDALDigitalElevationModelTileFactory.get_tile", "src/aws/osml/photogrammetry/digital_elevation_model.py:DigitalElevationModel.describe_region"]}
{"id": "C111", "title": "Loading an image reports failures as ValueError and considers all metadata", "statement": "load_gdal_dataset raises ValueError for an image that GDAL cannot open, in both error modes of GDAL; for an open image it returns the image with the sensor model that SensorModelFactory makes from all of its metadata without restriction of types.", "quantifier": "every outcome of opening, every metadata", "why_tests_cant": "The list of selected types is repeated by hand; tests have no image for each type.", "anchors": ["src/aws/osml/gdal/gdal_utils.py:load_gdal_dataset"]}
{"id": "C112", "title": "An image with RPC metadata is projected as the RPC00B format says", "statement": "After load_gdal_dataset of an image with an RPC00B TRE and neither RSM metadata nor a SAR document, world_to_image is offset plus scale times the ratio of the cubics with the coefficients in the file, moved into the chip when there is an ICHIPB TRE with a rectangle, whatever approximate models the file offers; image_to_world searches the ground point with that projection.", "quantifier": "every image file with RPC00B and optional ICHIPB metadata, every ground point", "why_tests_cant": "Depends on the parser, builder, factory, chip adaptation and model together.", "anchors": ["src/aws/osml/gdal/gdal_utils.py:load_gdal_dataset", "src/aws/osml/gdal/rpc_sensor_model_builder.py:RPCSensorModelBuilder", "src/aws/osml/gdal/sensor_model_factory.py:SensorModelFactory.build", "src/aws/osml/photogrammetry/rpc_sensor_model.py:RPCSensorModel", "src/aws/osml/photogrammetry/chipped_image_sensor_model.py:ChippedImageSensorModel"]}
{"id": "C113", "title": "An image with RSM metadata is projected as its TREs say", "statement": "After load_gdal_dataset of an image with RSMIDA and RSMPCA TREs and no SAR document, world_to_image is offset plus scale times the ratio of the polynomials with the coefficients in the file (of the section responsible for the point), moved into the chip when there is an ICHIPB TRE with a rectangle, also when there is RPC metadata.", "quantifier": "every image file with RSM and optional ICHIPB metadata, every ground point", "why_tests_cant": "Depends on the parser, builders, factory, chip adaptation and model together.", "anchors": ["src/aws/osml/gdal/gdal_utils.py:load_gdal_dataset", "src/aws/osml/gdal/rsm_sensor_model_builder.py:RSMSensorModelBuilder", "src/aws/osml/gdal/sensor_model_factory.py:SensorModelFactory.build", "src/aws/osml/photogrammetry/replacement_sensor_model.py:RSMPolynomialSensorModel"]}
{"id": "C114", "title": "An image with a geo transform is located as GDAL defines it", "statement": "After load_gdal_dataset of an image that has only a geo transform, pixel (c, r) is at the position of the geo transform in the reference system of the image, world_to_image is the inverse of image_to_world, and a singular geo transform is a ValueError.", "quantifier": "every geo transform and reference system", "why_tests_cant": "Tests use one GeoTIFF.", "anchors": ["src/aws/osml/gdal/gdal_utils.py:load_gdal_dataset", "src/aws/osml/photogrammetry/gdal_sensor_model.py:GDALAffineSensorModel"]}
{"id": "C115", "title": "Ground control points of a loaded image lie on their pixels", "statement": "After load_gdal_dataset of an image with ground control points that fit a projective map, world_to_image takes the ground location of every control point, in the reference system of the control points, to its pixel.", "quantifier": "every list of control points and reference system", "why_tests_cant": "Tests use control points in degrees.", "anchors": ["src/aws/osml/gdal/gdal_utils.py:load_gdal_dataset", "src/aws/osml/gdal/gdal_sensor_model_builder.py:GDALGCPSensorModelBuilder"]}
{"id": "C116", "title": "The order of control points does not matter", "statement": "Listing the same ground control points (or correspondences) in another order gives the same projective transform, the same ProjectiveSensorModel and the same result of load_gdal_dataset, also when no transform fits them all.", "quantifier": "every list of correspondences, every permutation", "why_tests_cant": "All permutations of all inconsistent point sets; rests on the uniqueness of the shortest least squares solution.", "anchors": ["src/aws/osml/photogrammetry/transforms.py:ProjectiveTransform.estimate", "src/aws/osml/photogrammetry/projective_sensor_model.py:ProjectiveSensorModel", "src/aws/osml/gdal/gdal_utils.py:load_gdal_dataset"]}
{"id": "C117", "title": "Map tiles survive double arithmetic", "statement": "With every operation rounded to a double, get_tile_for_location still returns a tile of the level exactly for locations inside the Web Mercator square, that tile contains the projected location up to 2^-25 m and is the only one that contains it by more, tiles of successive levels nest exactly, neighbours and children share their edges bit for bit, the edges lie within 2^-26 m of an equal division of the square, both tile sets agree, and the limits of an area hold every tile of its bounding box. Without the tolerance containment is false.", "quantifier": "every location whose projection is a double, every zoom level up to 900, both well known tile sets", "why_tests_cant": "2^64 doubles per axis; the failures sit on single doubles next to tile edges, and whether one exists at all depends on ties of the rounding.", "anchors": ["src/aws/osml/image_processing/map_tileset_wmq.py:WebMercatorQuadMapTileSet", "src/aws/osml/image_processing/map_tileset.py:MapTileSet.get_tile_matrix_limits_for_area", "src/aws/osml/image_processing/map_tileset_factory.py:MapTileSetFactory"]}
{"id": "C118", "title": "Geolocation is as accurate as its grid", "statement": "geolocate_features gives every feature the location that the sensor model itself gives: exactly when the sensor model is affine around the features (with the elevation model's elevation, if there is one), within 2 epsilon when it is within epsilon of affine, and within L * (width + 20) / (n - 1) per axis when it moves by at most L per pixel, n the approximation grid size; this holds for geometry, bounding box and centre. It succeeds whenever the sensor model locates every vertex.", "quantifier": "every list of features, every sensor and elevation model, every grid size of two or more", "why_tests_cant": "The error depends on the sensor model, the grid and the extent of the whole list; tests compare single features with a fixed tolerance.", "anchors": ["src/aws/osml/features/geolocation.py:Geolocator.geolocate_features", "src/aws/osml/features/geolocation.py:LocationGridInterpolator"]}
{"id": "C119", "title": "Tiles requested from several threads carry their own SAR metadata", "statement": "When several threads request tiles from one GDALTileFactory of a SICD image, the ImageData (FirstRow, FirstCol, NumRows, NumCols) in the metadata of every tile is that of the tile's own window, and only scaled requests are rejected.", "quantifier": "every number of threads, list of requests per thread and interleaving", "why_tests_cant": "Interleavings of assignments and rendering are not under the control of a test.", "anchors": ["src/aws/osml/image_processing/gdal_tile_factory.py:GDALTileFactory.create_encoded_tile", "src/aws/osml/image_processing/sicd_updater.py:SICDUpdater.update_image_data_for_chip", "src/aws/osml/image_processing/sicd_updater.py:SICDUpdater.encode_current_xml"]}
{"id": "C120", "title": "Orthophoto pixels show the neighbourhood of their true place", "statement": "In a square orthophoto tile (with minmax or DRA adjustment), a pixel whose ground position is projected by the sensor model, at the elevation used, to a position inside the image by at least 2 delta pixels has a value between the least and the greatest adjusted value of the image pixels near that position: less than 2 + 2 delta / 2^r pixels of the resolution level r that was read, if the projection differs from an affine function by at most delta pixels over the tile. Uniform neighbourhoods are shown exactly, and a pixel is transparent exactly where a channel is 0.", "quantifier": "every image of one band or at least three, sensor model, tile area, tile size, resolution level and window position", "why_tests_cant": "The error is composed of the 3 x 3 grid interpolation, the truncation of the window to the level, the border and the interpolation of the pixels; tests look at single tiles.", "anchors": ["src/aws/osml/image_processing/gdal_tile_factory.py:GDALTileFactory.create_orthophoto_tile"]}
{"id": "C121", "title": "SICD world to image gives the pixel back", "statement": "A pixel that image_to_world (without elevation model) sends to a world coordinate is given back by world_to_image: if around that pixel the projection to the ground plane moves as the ground point does up to a share kappa < 1 of the distance, the error in the image plane is at most max(0.01 m / (1 - kappa), kappa^9 times the distance between the slant and the ground projection) divided by the cosine of the angle between slant plane and image plane, and the search ends as soon as (1 + kappa) kappa^k times that distance is below one centimeter. For a level track imaged in the slant plane kappa is 16 sin^2(elevation) times the distance from the scene center relative to the ground range, for distances up to a sixteenth of the ground range.", "quantifier": "every sensor model with perpendicular unit image axes, every pixel in the flat region, every kappa < 1; for the level track every height, ground range, speed, spacing and pixel", "why_tests_cant": "A fixed number of iterations with a fixed tolerance: whether the search gets near depends on geometry, and tests try single images.", "anchors": ["src/aws/osml/photogrammetry/sicd_sensor_model.py:SICDSensorModel.world_to_image", "src/aws/osml/photogrammetry/sicd_sensor_model.py:SICDSensorModel.image_to_world"]}
{"id": "C122", "title": "SICD ground planes touch the ellipsoid and constant height projection is second order accurate", "statement": "Every ground plane has a unit normal; without given normal the default plane of a sensor model touches the surface of constant height through the scene center from above. The constant height projection returns a point of exactly the requested height; it differs in range and range rate from an exact point of the contour by terms of second order in the height of that point above the surface, which is at most the threshold unless all iterations are used.", "quantifier": "every ellipsoid of revolution flattened by less than half, scene center, contour, height above minus half the polar radius, threshold and iteration limit", "why_tests_cant": "The error depends on the curvature of the ellipsoid and the geometry; tests compare single points with a tolerance.", "anchors": ["src/aws/osml/photogrammetry/sicd_sensor_model.py:GroundPlaneRRDotSurfaceProjection.__init__", "src/aws/osml/photogrammetry/sicd_sensor_model.py:HAERRDotSurfaceProjection.rrdot_to_ground"]}
{"id": "C123", "title": "SICD contours are what the grid type says", "statement": "Polynomials take their coefficients in ascending order, rows for the first variable. For polar format, INCA and planar grids the range rate of a grid position is the derivative of its range over the center of aperture time, and the platform velocity that of its position. For range-azimuth compressed grids the projected point has the range of the scene center plus the row coordinate and the cosine of the Doppler cone angle of the scene center plus the scaled column coordinate. Adjustable offsets move the platform, change its velocity and lengthen the range; moving platform and plane together moves ground points along.", "quantifier": "every set of polynomials, grid position, time, offset and plane", "why_tests_cant": "A wrong sign or exchanged variable shows only for geometries that a test image may not have.", "anchors": ["src/aws/osml/photogrammetry/sicd_sensor_model.py:COAProjectionSet.precise_rrdot_computation", "src/aws/osml/photogrammetry/sicd_sensor_model.py:PFAProjectionSet._grid_specific_projection", "src/aws/osml/photogrammetry/sicd_sensor_model.py:RGAZCOMPProjectionSet._grid_specific_projection", "src/aws/osml/photogrammetry/sicd_sensor_model.py:INCAProjectionSet._grid_specific_projection", "src/aws/osml/photogrammetry/sicd_sensor_model.py:PlaneProjectionSet._grid_specific_projection"]}
{"id": "C124", "title": "SICD terrain projection samples the contour densely and finds the terrain", "statement": "The projection to an elevation model goes along the R/Rdot contour from the lowest elevation of the region upwards, in steps of at most max_adjacent_point_distance, and at most half a post along the horizontal direction across the track. The points it returns are ordered by distance from the center of the Earth, have the range and range rate of the pixel and lie between neighboring samples on opposite sides of the terrain (or on samples within the tolerance of it, or without data). When the terrain lies between the lowest and the highest elevation of the region, the first sample is not above the lowest and the last one above the highest, at least one point is returned.", "quantifier": "every contour of positive range whose angle starts below the horizontal plane of the platform and which has no sample exactly at the tolerance, every elevation model, spacing, tolerance and side of track", "why_tests_cant": "The spacing is in equal steps of a cosine, so distances vary along the contour; tests look at single pixels.", "anchors": ["src/aws/osml/photogrammetry/sicd_sensor_model.py:DEMRRDotSurfaceProjection.__init__", "src/aws/osml/photogrammetry/sicd_sensor_model.py:DEMRRDotSurfaceProjection.rrdot_to_ground"]}
{"id": "C125", "title": "SICD image to world with an elevation model gives the lowest intersection", "statement": "With an elevation model, image_to_world returns the place where the R/Rdot contour of the pixel meets the terrain; of several, the one nearest to the center of the Earth. Where the elevation model has no data for the scene, the location is still computed.", "quantifier": "every sensor model, pixel, elevation model and directory of elevation files", "why_tests_cant": "Needs scenes at the edge of the elevation data, terrain outside the statistics of a tile and multiple intersections.", "anchors": ["src/aws/osml/photogrammetry/sicd_sensor_model.py:SICDSensorModel.image_to_world", "src/aws/osml/photogrammetry/digital_elevation_model.py:DigitalElevationModel.describe_region", "src/aws/osml/gdal/gdal_dem_tile_factory.py:GDALDigitalElevationModelTileFactory.get_tile"]}
{"id": "C126", "title": "Terrain locations are on the side of the track that the radar looked to", "statement": "With an elevation model, a pixel of a SICD or SIDD image is located on the side of the track that the image shows, the side on which it is located without an elevation model.", "quantifier": "every SICD and SIDD image, pixel and elevation model", "why_tests_cant": "The contour of a pixel meets the terrain on both sides of the track; both places have the right range, range rate and elevation, so only a comparison with the geometry of the image tells them apart.", "anchors": ["src/aws/osml/photogrammetry/sicd_sensor_model.py:DEMRRDotSurfaceProjection.rrdot_to_ground", "src/aws/osml/photogrammetry/sicd_sensor_model.py:SICDSensorModel.__init__", "src/aws/osml/gdal/sidd_sensor_model_builder.py:SIDDSensorModelBuilder.from_dataclass", "src/aws/osml/gdal/sicd_sensor_model_builder.py:SICDSensorModelBuilder.from_dataclass"]}
{"id": "C127", "title": "A SICD tile written to a file loads with the image's model, shifted", "statement": "A tile of a SICD image that is written as NITF, after any other requests to the same tile factory, loads with load_gdal_dataset to a sensor model that is the one of the image, shifted by the corner of the tile: image_to_world of a tile pixel is image_to_world of the image at the pixel plus the corner, with or without elevation model, and world_to_image is the image's result minus the corner. An approximate model from corners or control points does not change the locations.", "quantifier": "every SICD image, history of tile requests, tile, pixel, elevation model and option dictionary", "why_tests_cant": "Joins tile factory, metadata updater, segment selection, sensor model factory and builder over arbitrary histories; tests check each of them on one image.", "anchors": ["src/aws/osml/image_processing/gdal_tile_factory.py:GDALTileFactory.create_encoded_tile", "src/aws/osml/image_processing/sicd_updater.py:SICDUpdater", "src/aws/osml/gdal/gdal_utils.py:load_gdal_dataset", "src/aws/osml/gdal/sensor_model_factory.py:SensorModelFactory.build", "src/aws/osml/gdal/sicd_sensor_model_builder.py:SICDSensorModelBuilder.build"]}
{"id": "C128", "title": "A SIDD tile written to a file loads with the image's model, shifted", "statement": "A tile of a SIDD image that is written as NITF, after any other requests to the same tile factory, loads with load_gdal_dataset to a sensor model that is the one of the image, shifted by the corner of the tile: image_to_world of a tile pixel is image_to_world of the image at the pixel plus the corner, and world_to_image is the image's result minus the corner.", "quantifier": "every SIDD image that is not a chip, history of unscaled tile requests, tile, pixel, elevation model and option dictionary", "why_tests_cant": "Joins tile factory, metadata updater, segment selection, sensor model factory, builder and chip transform over arbitrary histories; the deviation depends on every earlier request of the factory.", "anchors": ["src/aws/osml/image_processing/gdal_tile_factory.py:GDALTileFactory.create_encoded_tile", "src/aws/osml/image_processing/sidd_updater.py:SIDDUpdater", "src/aws/osml/gdal/gdal_utils.py:load_gdal_dataset", "src/aws/osml/gdal/sensor_model_factory.py:SensorModelFactory.build", "src/aws/osml/gdal/sidd_sensor_model_builder.py:SIDDSensorModelBuilder.build", "src/aws/osml/photogrammetry/chipped_image_sensor_model.py:ChippedImageSensorModel"]}
{"id": "C129", "title": "A loaded SAR image locates and finds pixels as its metadata says", "statement": "load_gdal_dataset of a SICD image gives a sensor model that locates (column, row) where the model of the first SAR metadata segment locates (row, column), with an elevation model on the side of the track that the metadata names, and finds pixels as that model does. For a SIDD image or a crop of one, world_to_image of the loaded model gives back exactly the pixel that image_to_world without elevation model located, for every pixel seen from the scene's side of the track; with an elevation model locations are to the left of the track. Approximate models of the same file do not change this.", "quantifier": "every SICD or SIDD image with such a segment, pixel, elevation model and option dictionary", "why_tests_cant": "Joins segment selection, factory, builder, chip transform and projection; the exact inverse is over the reals, tests compare a few pixels with a tolerance.", "anchors": ["src/aws/osml/gdal/gdal_utils.py:load_gdal_dataset", "src/aws/osml/gdal/sensor_model_factory.py:SensorModelFactory.build", "src/aws/osml/gdal/sicd_sensor_model_builder.py:SICDSensorModelBuilder.build", "src/aws/osml/gdal/sidd_sensor_model_builder.py:SIDDSensorModelBuilder.build", "src/aws/osml/photogrammetry/composite_sensor_model.py:CompositeSensorModel", "src/aws/osml/photogrammetry/sicd_sensor_model.py:SICDSensorModel"]}
{"id": "C130", "title": "The extension of an image is one of its GDAL driver's, chosen by the ending of the path", "statement": "get_image_extension of a file that GDAL opens gives the normal form of one of the extensions of the driver with the long name that GDAL reports, the one that the path ends with if there is one and the first otherwise; UNKNOWN if the driver has none. Only files that GDAL cannot open raise.", "quantifier": "every registry of drivers, path and answer of gdal.Info", "why_tests_cant": "Quantifies over driver registries: duplicates of a name, drivers without extensions, lists with any spacing. Tests see the registry of one GDAL build.", "anchors": ["src/aws/osml/gdal/gdal_utils.py:get_image_extension", "src/aws/osml/gdal/gdal_utils.py:get_extensions_from_driver", "src/aws/osml/gdal/gdal_utils.py:get_driver_extensions", "src/aws/osml/gdal/gdal_utils.py:select_extension"]}
{"id": "C131", "title": "Coordinates behave as values", "statement": "A program that makes coordinates and NumPy arrays, makes coordinates from them, reads and writes components, sets elevations and calls image_to_world and world_to_image of any sensor models, gets the answers it would get if every coordinate were a value of its own. Conversions write to no object of the caller, whether they return or raise, and return new objects; set_elevation writes to nothing but the elevation of its argument.", "quantifier": "every program of such calls in any order, continuing after exceptions, every library of affine, projective, RPC, RSM, sectioned, SICD, chipped and composite models and constant or tiled elevation models, every course of the numerical searches", "why_tests_cant": "Aliasing shows only in later reads of other objects, after any sequence of calls; the internal steps work on shared objects (the target of a search, the ground point that SICD moves in place, coordinates that RSM passes through).", "anchors": ["src/aws/osml/photogrammetry/coordinates.py:WorldCoordinate", "src/aws/osml/photogrammetry/coordinates.py:GeodeticWorldCoordinate", "src/aws/osml/photogrammetry/coordinates.py:ImageCoordinate", "src/aws/osml/photogrammetry/elevation_model.py:ConstantElevationModel.set_elevation", "src/aws/osml/photogrammetry/digital_elevation_model.py:DigitalElevationModel.set_elevation", "src/aws/osml/photogrammetry/sensor_model.py:SensorModel", "src/aws/osml/photogrammetry/rpc_sensor_model.py:RPCSensorModel", "src/aws/osml/photogrammetry/replacement_sensor_model.py:RSMPolynomialSensorModel", "src/aws/osml/photogrammetry/sicd_sensor_model.py:SICDSensorModel"]}
{"id": "C132", "title": "RPC projections in doubles are right to a millionth of a pixel", "statement": "RPCSensorModel.world_to_image, computed in double precision, gives the pixel of the exact RPC00B formulas for a ground position within a tenth of a micrometre of the given one, up to 64 times the squared condition number of the rational polynomials in roundings of the image scale: less than a millionth of a pixel for images of up to a quarter of a million rows and condition numbers up to 16.", "quantifier": "every rounding with relative error 2^-53, every RPC model and ground position in range of the model", "why_tests_cant": "The bound is about the worst case over all coefficients and positions; tests compare one model with stored numbers.", "anchors": ["src/aws/osml/photogrammetry/rpc_sensor_model.py:RPCPolynomial.evaluate", "src/aws/osml/photogrammetry/rpc_sensor_model.py:RPCSensorModel.world_to_image"]}
{"id": "C133", "title": "RSM projections in doubles are right to a hundred thousandth of a pixel", "statement": "RSMPolynomialSensorModel.ground_domain_to_image, computed in double precision, gives the pixel of the exact polynomials for a domain coordinate that differs from the given one by two roundings, up to 468 times the squared condition number in roundings of the image scale: less than a hundred thousandth of a pixel for images of up to a quarter of a million rows and condition numbers up to 16.", "quantifier": "every rounding with relative error 2^-53, every power function right to one unit in the last place, every RSM model with powers up to 5 and coordinate in range", "why_tests_cant": "The bound is about the worst case over all powers, coefficients and positions, and about the order in which up to 216 terms are added.", "anchors": ["src/aws/osml/photogrammetry/replacement_sensor_model.py:RSMPolynomial.evaluate", "src/aws/osml/photogrammetry/replacement_sensor_model.py:RSMPolynomialSensorModel.ground_domain_to_image"]}
{"id": "C134", "title": "Affine models return the pixel in doubles", "statement": "world_to_image after image_to_world of a GDALAffineSensorModel without projection, computed in double precision, returns the pixel up to the error of the inverse matrix and 13 roundings of the magnitudes involved; for images aligned with north up to 40 roundings of the pixel number plus the distance of the image from longitude or latitude 0 in pixels.", "quantifier": "every rounding with relative error 2^-53, every order of the operations of np.matmul, every transform and pixel of a size that occurs", "why_tests_cant": "The exact round trip (C27) holds over the reals; how much of a pixel rounding costs depends on the distance of the image from the origin, which tests fix.", "anchors": ["src/aws/osml/photogrammetry/gdal_sensor_model.py:GDALAffineSensorModel.image_to_world", "src/aws/osml/photogrammetry/gdal_sensor_model.py:GDALAffineSensorModel.world_to_image"]}
{"id": "C135", "title": "Pixels of RPC and RSM images have one place on the ground, and a small misfit means a small error", "statement": "For an RPC or RSM model that is close to an affine map, in a box of normalised coordinates and over terrain of bounded slope, every pixel seen from inside the box has exactly one place on the ground there, and places whose pixels are close are close. So the place that image_to_world returns is off by at most a known factor times the distance between its own pixel (world_to_image) and the given one, whatever the course of the search.", "quantifier": "every RPC or RSM model whose bends are smaller than its linear part (a condition on the coefficients), every elevation model of bounded slope, every pixel, every minimiser", "why_tests_cant": "Existence and uniqueness of a solution over the reals, for all models of a class; a test can only see that one search came close to one stored place.", "anchors": ["src/aws/osml/photogrammetry/rpc_sensor_model.py:RPCSensorModel.image_to_world", "src/aws/osml/photogrammetry/rpc_sensor_model.py:RPCSensorModel.world_to_image", "src/aws/osml/photogrammetry/replacement_sensor_model.py:RSMPolynomialSensorModel.image_to_world", "src/aws/osml/photogrammetry/replacement_sensor_model.py:RSMPolynomialSensorModel.world_to_image"]}
{"id": "C136", "title": "The display range survives double arithmetic", "statement": "In double precision DRAParameters.from_counts still returns a suggested range inside the actual range, whatever the counts. For histograms of pixels (integer counts) and the default percentages it selects exactly the buckets that exact arithmetic selects, so the four values are right to a few units in the last place, and multiplying all counts by an integer changes no bit of the result. Multiplying the counts by another factor must not change the range by more than roundings either.", "quantifier": "every histogram; for the exact buckets every list of up to 2^31 integer counts with total up to 2^47 and bucket values up to 2^50", "why_tests_cant": "Whether a comparison of a cumulative count with 0.02 or 0.98 of the total can go wrong by rounding depends on all totals, in particular the multiples of 50, where both sides are equal.", "anchors": ["src/aws/osml/gdal/dynamic_range_adjustment.py:DRAParameters.from_counts"]}
{"id": "C137", "title": "Elevations do not jump at the borders of elevation tiles", "statement": "With SRTM files, whose outermost posts lie on the borders of the cells and are the same in neighbouring files, the elevation that a DigitalElevationModel sets is a continuous function of the place: it is the surface interpolated through the posts of all files, whichever cells a place and its neighbours belong to and whatever was asked before. Where neighbouring posts differ by at most L, two places n posts apart differ by at most n L.", "quantifier": "all places, all files with common border posts, all numbers of posts per degree, all histories of queries", "why_tests_cant": "A test of one tile never crosses a border, and steps of half a post are smaller than the tolerances of elevation tests.", "anchors": ["src/aws/osml/gdal/gdal_dem_tile_factory.py:GDALDigitalElevationModelTileFactory.get_tile", "src/aws/osml/photogrammetry/srtm_dem_tile_set.py:SRTMTileSet.find_tile_id", "src/aws/osml/photogrammetry/digital_elevation_model.py:DigitalElevationModel.set_elevation"]}
{"id": "C138", "title": "Geolocating again or in another order changes nothing", "statement": "Calling Geolocator.geolocate_features on features that have been geolocated leaves them as they are, so a retried job does no harm. The order of the features and repeated features do not matter: every feature gets the same geometry, box and centre. Removing features that do not touch the box around all image geometries does not change the others.", "quantifier": "all lists of features for which the call succeeds, all orders and repetitions, all sensor and elevation models", "why_tests_cant": "Idempotence and independence of order are relations between runs over all feature lists; tests run one list once.", "anchors": ["src/aws/osml/features/geolocation.py:Geolocator.geolocate_features", "src/aws/osml/features/imaged_feature_property_accessor.py:ImagedFeaturePropertyAccessor.find_image_geometry"]}
{"id": "C139", "title": "The place of a feature does not depend on the features geolocated with it", "statement": "A feature gets the same geometry, box and centre from geolocate_features whether it is geolocated alone or in a list with others, so splitting a list into batches does not change the result.", "quantifier": "all features, all pairs of lists that contain them, all sensor models", "why_tests_cant": "The dependence is through an interpolation grid laid over all features of the call; it shows only when two runs with different lists are compared.", "anchors": ["src/aws/osml/features/geolocation.py:Geolocator.geolocate_features", "src/aws/osml/features/geolocation.py:LocationGridInterpolator"]}
{"id": "C140", "title": "Neighbouring orthophoto tiles fit together", "statement": "Two orthophoto tiles of the same size that share an edge show the same values along it, so that a map put together from tiles has no seams.", "quantifier": "all images, sensor models, tile sizes and pairs of neighbouring tiles", "why_tests_cant": "Each tile is right by itself; the seam shows only when two tiles are compared, and depends on the rounding of both windows, their levels and the statistics used.", "anchors": ["src/aws/osml/image_processing/gdal_tile_factory.py:GDALTileFactory.create_orthophoto_tile"]}
{"id": "C141", "title": "A good first guess gives a good location", "statement": "image_to_world of RPC and RSM models returns a place whose pixel misses the given one by no more than the pixel of any corner of the triangle around the first guess (inside the box around the ground domain), so with C135 a good first guess bounds the error of the result. A perfect first guess is kept, and a small initial_search_distance does not stop the search from reaching the pixel.", "quantifier": "every RPC or RSM model, pixel, elevation model and pair of hints; every course of the Nelder-Mead search", "why_tests_cant": "The course of the search depends on every comparison of misfits on the way, up to 400 of them; a test follows one course and accepts its result.", "anchors": ["src/aws/osml/photogrammetry/rpc_sensor_model.py:RPCSensorModel.image_to_world", "src/aws/osml/photogrammetry/replacement_sensor_model.py:RSMPolynomialSensorModel.image_to_world", "src/aws/osml/photogrammetry/math_utils.py:equilateral_triangle", "src/aws/osml/photogrammetry/sensor_model.py:SensorModelOptions"]}
{"id": "C142", "title": "Searching a location takes a bounded number of projections", "statement": "image_to_world of RPC and RSM models evaluates world_to_image (and asks the elevation model) at most 400 times, whatever the model, the pixel, the elevation model and the hints, even if no place projects to the pixel or values are not finite.", "quantifier": "every RPC or RSM model, pixel, elevation model and options", "why_tests_cant": "Slow or endless searches happen for the inputs nobody tried: pixels outside the image, singular denominators, wrong hints.", "anchors": ["src/aws/osml/photogrammetry/rpc_sensor_model.py:RPCSensorModel.image_to_world", "src/aws/osml/photogrammetry/replacement_sensor_model.py:RSMPolynomialSensorModel.image_to_world"]}
{"id": "C143", "title": "Orthophotos of Web Mercator tiles are drawn in Web Mercator", "statement": "create_orthophoto_tile(geo_bbox=tile.bounds, tile_size=tile.size) for a tile of WebMercatorQuad or WebMercatorQuadx2 shows in every pixel the place that Web Mercator has in the centre of this pixel.", "quantifier": "every tile of every level, every pixel, every image", "why_tests_cant": "The deviation depends on latitude, level and row; a test looks at one tile of a deep level, where it is less than a pixel.", "anchors": ["src/aws/osml/image_processing/gdal_tile_factory.py:GDALTileFactory.create_orthophoto_tile", "src/aws/osml/image_processing/map_tileset_wmq.py:WebMercatorQuadMapTileSet.get_tile"]}
{"id": "C144", "title": "A composite model is not much worse than its approximate model", "statement": "For an image with an approximate model and an RPC or RSM model, image_to_world of the composite model returns a place that has a pixel. It misses the given pixel by no more than the place above the approximate model's result does, plus the change of the projection within 0.003 degrees of it (for RSM: in the box around the ground domain). For an RSM model that is nearly affine over its domain the place itself is near one that is projected to the pixel exactly.", "quantifier": "every approximate model, every RPC or RSM model, every pixel, elevation model and options", "why_tests_cant": "The quality of the result depends on the course of the search from a guess that is different for every pixel.", "anchors": ["src/aws/osml/photogrammetry/composite_sensor_model.py:CompositeSensorModel.image_to_world", "src/aws/osml/photogrammetry/rpc_sensor_model.py:RPCSensorModel.image_to_world", "src/aws/osml/photogrammetry/replacement_sensor_model.py:RSMPolynomialSensorModel.image_to_world"]}
{"id": "C145", "title": "Elevations are as steep as the posts, and right in doubles", "statement": "If neighbouring posts of an elevation file differ by at most S, the elevations that set_elevation sets at two places dx posts across and dy posts down from each other differ by at most S(|dx|+|dy|), whatever was asked before. So every pixel that an RPC or RSM model sees from inside its box has exactly one place on the ground of a file that covers the box, if the posts are not steeper than the model allows. In double arithmetic the elevation of a north up file with n posts per degree is right up to S n / 2^39 and nine roundings of the largest height.", "quantifier": "all posts, all pairs of places, all sequences of queries, all roundings of the operations", "why_tests_cant": "Tests look at single posts; a bound on the slope is about all pairs of places, and the error of the doubles depends on every operation between the radians and the height.", "anchors": ["src/aws/osml/photogrammetry/digital_elevation_model.py:DigitalElevationModel.set_elevation", "src/aws/osml/photogrammetry/digital_elevation_model.py:DigitalElevationModel.get_interpolation_grid", "src/aws/osml/gdal/gdal_dem_tile_factory.py:GDALDigitalElevationModelTileFactory.get_tile", "src/aws/osml/photogrammetry/gdal_sensor_model.py:GDALAffineSensorModel.world_to_image"]}
{"id": "C146", "title": "The radar ground plane projection is right in doubles", "statement": "In double arithmetic GroundPlaneRRDotSurfaceProjection.rrdot_to_ground returns a point whose distance from the plane, whose range and whose range rate times range are right up to 102, 280 and 130 roundings of the size of the geometry, on the side of the track of the reference point: less than a micrometre for a satellite, however steep the line of sight. If there is a point on the plane with the range and range rate on the side of the reference point and at least r/64 away from the plane of track and normal, the call does not raise, does not return NaN, and returns that point up to 1500/beta roundings (beta the distance from that plane over the range).", "quantifier": "all planes, platforms, velocities, ranges and range rates of the stated sizes; all roundings of the operations, all orders of summation", "why_tests_cant": "The square roots of differences of squares and the quotient by the cosine of the grazing angle cancel; which inputs lose digits cannot be seen from examples, and exact results are not available in a test.", "anchors": ["src/aws/osml/photogrammetry/sicd_sensor_model.py:GroundPlaneRRDotSurfaceProjection.rrdot_to_ground"]}
{"id": "C147", "title": "Orthophoto tiles can be made of images of any size", "statement": "create_orthophoto_tile returns a tile for every map tile whose footprint overlaps the image by a pixel of the resolution level in use, however many rows and columns the image has and whether or not it has overviews.", "quantifier": "all image sizes, numbers of overviews, sensor models, footprints and tile sizes", "why_tests_cant": "The limit is reached only by images with tens of thousands of rows or columns, which no test reads; it depends on the overviews, the zoom level and the shape of the footprint together.", "anchors": ["src/aws/osml/image_processing/gdal_tile_factory.py:GDALTileFactory.create_orthophoto_tile"]}
{"id": "C148", "title": "Chips and control points keep their accuracy in doubles", "statement": "If the least squares fit of a ChippedImageSensorModel meets the equations of the four corners up to a residual rho, then, computed in double precision, image_to_world uses the position of the full image and world_to_image returns the position in the chip up to twice rho times 2 + s/k + k/s (s by k the size of the chip; 8 rho for a square) and some units in the last place of the coordinates: a ten millionth of a pixel for crops of images of up to a million pixels in each direction. Likewise a ProjectiveSensorModel sends its control points to their pixels up to rho over the denominator and 40 units in the last place of the magnitudes involved.", "quantifier": "every rounding with relative error 2^-53, every least squares solver, every pixel, every chip whose coordinates are at most kappa times its width and height, with 128 rho kappa^2 <= 1", "why_tests_cant": "The exact statement (C27) assumes an exact solver; how an error at the corners spreads to the inside of the chip through the two perspective terms, which should be zero, cannot be seen from corners or samples.", "anchors": ["src/aws/osml/photogrammetry/chipped_image_sensor_model.py:ChippedImageSensorModel", "src/aws/osml/photogrammetry/projective_sensor_model.py:ProjectiveSensorModel", "src/aws/osml/photogrammetry/transforms.py:ProjectiveTransform"]}
{"id": "C149", "title": "After a configuration block options follow the environment variables as before", "statement": "After a `with GDALConfigEnv(options)` block every option takes its value from where it did before the block: an option that was not set in GDAL's own table follows its environment variable again, so that renewed credentials in AWS_SESSION_TOKEN are used.", "quantifier": "every initial configuration and environment, every option dictionary, every body effect, every later change of the environment", "why_tests_cant": "The value right after the block is the expected one; the difference shows only when the environment changes later, in a long running process.", "anchors": ["src/aws/osml/gdal/gdal_config.py:GDALConfigEnv.__enter__", "src/aws/osml/gdal/gdal_config.py:GDALConfigEnv.__exit__"]}
{"id": "C150", "title": "Orthophoto values are bilinear interpolations to within a few grey levels", "statement": "cv2.remap as create_orthophoto_tile calls it (8-bit pixels, float32 positions, INTER_LINEAR on a grid of 1/32 pixels with integer weights) never leaves the range of the pixels within one pixel of the position, gives the pixel itself at whole positions, and differs from exact bilinear interpolation at the exact position by at most half a grey level and 17/512 of the contrast around it. So every pixel of a square tile of an adjusted one-band image is within 9 of 255 grey levels of the interpolated adjusted image.", "quantifier": "all arrays that cv2.remap takes, all pixel values, all positions in the array; all images, sensor models that are nearly affine over the tile, tile sizes and pixels", "why_tests_cant": "Positions pass through two roundings that could move a sample into the next cell or over the edge of the array; which positions do cannot be found by examples.", "anchors": ["src/aws/osml/image_processing/gdal_tile_factory.py:GDALTileFactory.create_orthophoto_tile"]}
{"id": "C151", "title": "Orthophoto tiles are transparent where there is no image", "statement": "A pixel of an orthophoto tile whose place on the ground is projected to a position outside the image is transparent.", "quantifier": "all images, numbers of bands, adjustments, sensor models, tile sizes and pixels", "why_tests_cant": "Tests look at tiles inside the image; what is shown just outside depends on the border that is added for cv2.remap, on the level that is read and on the number of bands.", "anchors": ["src/aws/osml/image_processing/gdal_tile_factory.py:GDALTileFactory.create_orthophoto_tile"]}
{"id": "C152", "title": "XML documents survive reading, writing and reading", "statement": "Any XML document that xsdata reads into dataclasses whose fields cannot be confused (different names in the XML, at most one text, known classes), written by XmlSerializer and read by XmlParser, gives the same object; and any object whose values fit its fields is read back with every value as its text is read. No element, attribute, order of a list or subclass (xsi:type) is lost.", "quantifier": "all sets of dataclasses, all documents of any depth, all objects that fit, all faithful text conversions", "why_tests_cant": "A test reads one file; that nothing is lost depends on every field of every class and on the nesting, lists, defaults and subclasses together.", "anchors": ["src/aws/osml/image_processing/sicd_updater.py:SICDUpdater.encode_current_xml", "src/aws/osml/image_processing/sidd_updater.py:SIDDUpdater.encode_current_xml", "src/aws/osml/formats/sicd/models/sicd_v1_2_1.py:SICD", "src/aws/osml/formats/sidd/models/sidd_v2_0_0.py:SIDD"]}
{"id": "C153", "title": "The SICD and SIDD dataclasses have what the code reads, in every version", "statement": "The generated dataclasses of SICD 1.2.1 and 1.3.0 and SIDD 1.0.0, 2.0.0 and 3.0.0 (with SICommon and SFA) meet the condition of C152. A document with the root element of one of these versions is read as the object of that version; SICD and SIDD documents of all other versions are rejected. Every attribute that the sensor model builders and the updaters read of a document that was read exists and has the type that they use, in each version, unless an element before it is missing; for SIDD projections if no xsi:type replaces the class.", "quantifier": "all classes of the eight generated modules, all documents of the five versions", "why_tests_cant": "The modules have about a thousand dataclasses in five versions with differing field names; the tests have a file for some versions and read only what is in it.", "anchors": ["src/aws/osml/formats/sicd/models/sicd_v1_2_1.py:SICD", "src/aws/osml/formats/sicd/models/sicd_v1_3_0.py:SICD", "src/aws/osml/formats/sidd/models/sidd_v1_0_0.py:SIDD", "src/aws/osml/formats/sidd/models/sidd_v2_0_0.py:SIDD", "src/aws/osml/formats/sidd/models/sidd_v3_0_0.py:SIDD", "src/aws/osml/gdal/sicd_sensor_model_builder.py:SICDSensorModelBuilder.build", "src/aws/osml/gdal/sidd_sensor_model_builder.py:SIDDSensorModelBuilder.build"]}
{"id": "C154", "title": "The document of a SICD tile differs only in ImageData", "statement": "If a SICD document of either version is read, updated for a chip, written and read again, everything that the sensor model builder reads of it is the same, except FirstRow, FirstCol, NumRows and NumCols, which are those of the chip. So SICD tiles load with the image's model, shifted (C127), without assuming anything of xsdata but the text of values and documents.", "quantifier": "all documents of SICD 1.2.1 and 1.3.0, all chips, all sequences of requests", "why_tests_cant": "Tests compare four fields of one document; that no other field changes is a statement about all fields that a document can have.", "anchors": ["src/aws/osml/image_processing/sicd_updater.py:SICDUpdater.update_image_data_for_chip", "src/aws/osml/image_processing/sicd_updater.py:SICDUpdater.encode_current_xml", "src/aws/osml/gdal/sicd_sensor_model_builder.py:SICDSensorModelBuilder.build"]}
{"id": "C155", "title": "The document of a SIDD tile differs only in its geometric chip", "statement": "If a SIDD document of any of the three versions is read, given the geometric chip of a window, written and read again, everything that the sensor model builder reads of it is the same, except the chip, which is that of the window. This holds whether or not the document had a chip, and whether or not it had a DownstreamReprocessing element.", "quantifier": "all documents of SIDD 1.0.0, 2.0.0 and 3.0.0, all windows with corners at whole numbers", "why_tests_cant": "Tests look at one document of one version; the chip is built from classes of three generated modules, chosen by the class of the document.", "anchors": ["src/aws/osml/image_processing/sidd_updater.py:SIDDUpdater.update_image_data_for_chip", "src/aws/osml/image_processing/sidd_updater.py:SIDDUpdater.encode_current_xml", "src/aws/osml/gdal/sidd_sensor_model_builder.py:SIDDSensorModelBuilder.build"]}
{"id": "C156", "title": "Tiles of tiles of a SICD image load with the image's model, shifted", "statement": "If a tile of a SICD image is written to a file, a tile of that file to another file, and so on to any depth, each by a tile factory that may have served other requests before, then the last file loads with the sensor model of the first image shifted by the sum of the corners of all tiles on the way, and its metadata has FirstRow and FirstCol of the first image plus that sum and NumRows and NumCols of the last tile.", "quantifier": "all images, all depths, all windows, all sequences of other requests on each factory, all elevation models", "why_tests_cant": "Each level reads what the level before has written; tests stop after one level.", "anchors": ["src/aws/osml/image_processing/gdal_tile_factory.py:GDALTileFactory.create_encoded_tile", "src/aws/osml/image_processing/sicd_updater.py:SICDUpdater.update_image_data_for_chip", "src/aws/osml/gdal/sicd_sensor_model_builder.py:SICDSensorModelBuilder.build", "src/aws/osml/gdal/gdal_utils.py:load_gdal_dataset"]}
{"id": "C157", "title": "Tiles of tiles of a SIDD image load with the image's model, shifted", "statement": "If a tile of a SIDD image is written to a file, a tile of that file to another file, and so on to any depth, then a pixel of the last file is located where the model of the first image locates the pixel plus the sum of the corners of all tiles on the way.", "quantifier": "all images, all depths, all windows, all sequences of other requests on each factory, all elevation models", "why_tests_cant": "The chip of each level is computed from the chip of the level before, so errors could add up with the depth; tests stop after one level.", "anchors": ["src/aws/osml/image_processing/gdal_tile_factory.py:GDALTileFactory.create_encoded_tile", "src/aws/osml/image_processing/sidd_updater.py:SIDDUpdater.update_image_data_for_chip", "src/aws/osml/image_processing/sidd_updater.py:SIDDUpdater.chipped_coordinate_to_full", "src/aws/osml/gdal/sidd_sensor_model_builder.py:SIDDSensorModelBuilder.build"]}
{"id": "C158", "title": "The last geolocation and the last update decide", "statement": "Whatever features were geolocated before, with any sensor and elevation model and whether or not that call raised, geolocate_features raises exactly what it would raise on the original features, and otherwise leaves its features as if the earlier call had never happened; features may occur twice in a list. Likewise, update_existing_image_geometries on a feature that was updated before, successfully or not, raises the same and otherwise leaves the same as on the original feature.", "quantifier": "all features, all lists (with repetitions), all sensor and elevation models, all exceptions raised in between, all geometries", "why_tests_cant": "Features are changed in place, so what a call does could depend on what earlier calls, also failed ones, have left behind; tests start from fresh features.", "anchors": ["src/aws/osml/features/geolocation.py:Geolocator.geolocate_features", "src/aws/osml/features/imaged_feature_property_accessor.py:ImagedFeaturePropertyAccessor.update_existing_image_geometries"]}
{"id": "C159", "title": "Calls that raise leave features as they were", "statement": "If geolocate_features or update_existing_image_geometries raises an exception, all features are as they were before the call.", "quantifier": "all features, all lists, all places where an exception can be raised", "why_tests_cant": "Tests check that an exception is raised, not what was already changed when it was.", "anchors": ["src/aws/osml/features/geolocation.py:Geolocator.geolocate_features", "src/aws/osml/features/imaged_feature_property_accessor.py:ImagedFeaturePropertyAccessor.update_existing_image_geometries"]}
{"id": "C160", "title": "Geodetic and geocentric coordinates are two names of one place", "statement": "Every geocentric coordinate has a geodetic one; converting a geodetic coordinate to geocentric and back gives the same latitude and elevation, and away from the poles the same longitude; the elevation is the distance to the ellipsoid, negative inside. Constant height projections of SICD and SIDD models therefore return places of exactly the requested height.", "quantifier": "all coordinates with longitudes and latitudes in the standard ranges, down to half the polar radius below the ellipsoid; all ellipsoids with an equatorial radius of up to 5/4 of the polar one", "why_tests_cant": "Tests compare a few coordinates to tolerances; that no two coordinates share a place and that every place has one are statements about all of space.", "anchors": ["src/aws/osml/photogrammetry/coordinates.py:geocentric_to_geodetic", "src/aws/osml/photogrammetry/coordinates.py:geodetic_to_geocentric", "src/aws/osml/photogrammetry/sicd_sensor_model.py:HAERRDotSurfaceProjection.rrdot_to_ground"]}
{"id": "C161", "title": "Segment data that GDAL shows in base64 are read exactly, and a cut value is never taken for the whole", "statement": "extract_desdata_xml returns the text whose UTF-8 bytes the DESDATA value is the base64 text of, whatever line breaks or other foreign characters are in between; of a value that ends early it raises or reads a text that is a proper prefix.", "quantifier": "all texts and bytes, all base64 texts of them with foreign characters anywhere, all lengths to which a value is cut", "why_tests_cant": "The decoder works on groups of four characters with padding and skips others; tests decode one sample segment.", "anchors": ["src/aws/osml/gdal/nitf_des_accessor.py:NITFDESAccessor.extract_desdata_xml", "src/aws/osml/gdal/nitf_des_accessor.py:NITFDESAccessor.parse_field_value"]}
{"id": "C162", "title": "The metadata text in the file of a tile is the text that the updater wrote", "statement": "What extract_desdata_xml reads from the file that GDAL writes for a tile is the text that create_encoded_tile put behind the segment header in the DES option.", "quantifier": "all headers whose values fit, all metadata texts", "why_tests_cant": "The text passes through an option string in which backslashes are resolved, a header cut by a number in it, and base64; tests use documents without special characters.", "anchors": ["src/aws/osml/image_processing/gdal_tile_factory.py:GDALTileFactory.create_encoded_tile", "src/aws/osml/gdal/nitf_des_accessor.py:NITFDESAccessor.extract_des_header", "src/aws/osml/gdal/nitf_des_accessor.py:NITFDESAccessor.extract_desdata_xml"]}
{"id": "C163", "title": "Scaled tiles of SIDD images and tiles of SIDD chips load with a model that fits their pixels", "statement": "A tile that create_encoded_tile has written from a SIDD image, in its own or another size, from an image that may itself be a chip, loads with a sensor model that locates a pixel of the tile where the image's model locates the pixel that it was made from.", "quantifier": "all windows and output sizes of more than one pixel each way, all earlier requests to the factory, all images with or without a GeometricChip along the axes", "why_tests_cant": "The chip that is written depends on the earlier requests and their scaling; tests look at one tile of one image and compare the numbers in the XML.", "anchors": ["src/aws/osml/image_processing/sidd_updater.py:SIDDUpdater.update_image_data_for_chip", "src/aws/osml/image_processing/gdal_tile_factory.py:GDALTileFactory.create_encoded_tile", "src/aws/osml/gdal/sidd_sensor_model_builder.py:SIDDSensorModelBuilder.from_dataclass"]}
{"id": "C164", "title": "Sensor models are built from the elements of the document that the standards name", "statement": "Each number, vector, polynomial and enumeration that the SICD and SIDD builders use is the text (or attribute) of the one element at the path that the standard gives it, e.g. Grid/Row/SS for the row spacing, and a value that is missing or no number raises instead of being replaced; a SIDD document is treated as having no chip only if it has no GeometricChip.", "quantifier": "all documents of all five versions, all trees of elements, with or without xsi:type, and all meanings of texts", "why_tests_cant": "Row and column, X, Y and Z, or two polynomials can be mixed up between the dataclasses and the builder, in one version only or in a branch for one grid type; tests have one document per version and compare the coordinates of a few pixels.", "anchors": ["src/aws/osml/gdal/sicd_sensor_model_builder.py:SICDSensorModelBuilder.from_dataclass", "src/aws/osml/gdal/sidd_sensor_model_builder.py:SIDDSensorModelBuilder.from_dataclass", "src/aws/osml/gdal/sicd_sensor_model_builder.py:xyzpoly_to_native", "src/aws/osml/gdal/sicd_sensor_model_builder.py:poly2d_to_native"]}
{"id": "C165", "title": "A document with all required elements is read", "statement": "The builder obtains the numbers of a SICD or SIDD document exactly when the document has the elements that state them: a document that has each required element once, with a number in it, is never rejected for another reason, what belongs to one kind of projection (PFA, RgAzComp, RMA/INCA) is taken when it is complete and not required for the other kinds, the image formation algorithm matters for RGAZIM grids only, and a SIDD image is treated as a chip exactly when it has a GeometricChip.", "quantifier": "all documents of all five versions that the XML library accepts, all trees of elements, all meanings of texts in which the empty text is no number", "why_tests_cant": "Which of the many optional elements the builder insists on shows only for documents that lack them; tests read complete documents of a few sensors.", "anchors": ["src/aws/osml/gdal/sicd_sensor_model_builder.py:SICDSensorModelBuilder.from_dataclass", "src/aws/osml/gdal/sidd_sensor_model_builder.py:SIDDSensorModelBuilder.from_dataclass", "src/aws/osml/gdal/sidd_sensor_model_builder.py:SIDDSensorModelBuilder.build"]}
{"id": "C166", "title": "A spatial index answers for the collection as it is now", "statement": "A query of a spatial index returns exactly the features of the collection whose present image geometry intersects the geometry of the query (or is nearest to it), whatever has been done since the index was made: geolocation of features, updates of image geometries, changes of the list of features.", "quantifier": "all collections, all sequences of geolocations (that may raise part way), updates by the accessor, assignments to features, changes of lists in place and replacements of the collection's list, all geometries of queries, all trees that meet the contract of shapely's STRtree", "why_tests_cant": "The index shares the list and the features with the caller but keeps its own geometries; tests build an index and query it at once.", "anchors": ["src/aws/osml/features/feature_index.py:STRFeature2DSpatialIndex.__init__", "src/aws/osml/features/feature_index.py:STRFeature2DSpatialIndex.find_intersects", "src/aws/osml/features/feature_index.py:STRFeature2DSpatialIndex.find_nearest"]}
{"id": "C167", "title": "The place of a pixel of a SICD image follows from the elements of its document", "statement": "For a file with a SICD document of any of the supported grids, image_to_world of the model that is loaded gives a pixel a point of the ground plane whose distance from the platform at the time of the pixel is the range of the pixel, whose distance changes at the rate of that range, and which is on the scene's side of the track; a point like this is the one that is given. Range, time and plane are what the numbers in the elements of the document say, as sums of coefficients times powers and derivatives in time.", "quantifier": "all documents whose elements state the numbers of a sensor model, all grids (PFA, RGAZCOMP, INCA, planar), all polynomials of any order, all real pixels, all conversions to geodetic coordinates", "why_tests_cant": "Tests compare a few corners of a few images with published numbers; a wrong exponent, derivative or sign in a term that is small in these images is within their tolerance.", "anchors": ["src/aws/osml/gdal/sicd_sensor_model_builder.py:SICDSensorModelBuilder.build", "src/aws/osml/gdal/sicd_sensor_model_builder.py:poly1d_to_native", "src/aws/osml/gdal/sicd_sensor_model_builder.py:poly2d_to_native", "src/aws/osml/photogrammetry/sicd_sensor_model.py:COAProjectionSet.precise_rrdot_computation", "src/aws/osml/photogrammetry/sicd_sensor_model.py:GroundPlaneRRDotSurfaceProjection.rrdot_to_ground", "src/aws/osml/photogrammetry/sicd_sensor_model.py:SICDSensorModel.image_to_world"]}
{"id": "C168", "title": "The place of a pixel of a SIDD image or chip follows from the elements of its document", "statement": "For a file with a SIDD document, image_to_world of the model that is loaded gives a pixel the point of the product plane at the distances from the reference point that the document says, and world_to_image leads back to the pixel. The pixel of a chip is first taken to the parallelogram of the chip's corners in the full image, whichever way it lies.", "quantifier": "all documents whose elements state the numbers of a sensor model, all parallelograms of corners (rotated, scaled, mirrored), all real pixels whose point is on the scene's side of the track, all least-squares solvers that meet numpy's contract, all conversions of coordinates that invert each other", "why_tests_cant": "Tests use two files without a chip; chips that are rotated or mirrored and the chain from elements to places occur in none.", "anchors": ["src/aws/osml/gdal/sidd_sensor_model_builder.py:SIDDSensorModelBuilder.build", "src/aws/osml/gdal/sidd_sensor_model_builder.py:SIDDSensorModelBuilder.from_dataclass", "src/aws/osml/photogrammetry/chipped_image_sensor_model.py:ChippedImageSensorModel.image_to_world", "src/aws/osml/photogrammetry/chipped_image_sensor_model.py:ChippedImageSensorModel.world_to_image", "src/aws/osml/photogrammetry/sicd_sensor_model.py:SICDSensorModel.image_to_world"]}
{"id": "C169", "title": "The search behind image_to_world of RPC and RSM models ends when three tries agree, or after 400 tries", "statement": "With SciPy's Nelder-Mead search, image_to_world tries the three corners of its triangle and then makes the passes of the method as in the literature (reflection, expansion, contraction outside or inside, shrinking, each under its condition). It stops at the first triangle whose corners are within a millionth of a degree and whose misfits are within half a pixel, and returns the best corner; if there is none, it makes exactly 400 tries. Where no projection is finite it always makes 400.", "quantifier": "all RPC and RSM models, pixels, elevation models, hints, first triangles and bounds, all values of the objective with infinities or NaN", "why_tests_cant": "Tests look at a few results; when and why the search ends, and that the limit of iterations is never what ends it, is not visible in them.", "anchors": ["src/aws/osml/photogrammetry/rpc_sensor_model.py:RPCSensorModel.image_to_world", "src/aws/osml/photogrammetry/replacement_sensor_model.py:RSMPolynomialSensorModel.image_to_world"]}
{"id": "C170", "title": "Detections in a tile are located like the same detections in the image", "statement": "Geolocating the detections of a tile with the tile's sensor model gives them the same geometry, bounding box and center as geolocating the same detections, moved to the tile's place, with the model of the image; or both raise the same exception. It holds for the chipped models of crops, and for tiles of SICD images whose model is the one that the written file loads with.", "quantifier": "all lists of detections with image geometries of any kind or image boxes, all sensor models, all grids and elevation models, all offsets, all tiles after any requests, all centroids that move with a geometry, all readers of geometries that read back what was written", "why_tests_cant": "The grid of the approximation depends on all detections together and is another one in the tile; tests never compare a tile with its image.", "anchors": ["src/aws/osml/features/geolocation.py:Geolocator.geolocate_features", "src/aws/osml/features/geolocation.py:Geolocator._geolocate_features_using_approximation_grid", "src/aws/osml/photogrammetry/chipped_image_sensor_model.py:ChippedImageSensorModel.image_to_world", "src/aws/osml/image_processing/gdal_tile_factory.py:GDALTileFactory.create_encoded_tile"]}
{"id": "C171", "title": "Grey levels of SAR images are right in single precision", "statement": "histogram_stretch and quarter_power_image, computed in single precision (or a mixture of single and double), give every pixel a grey level between 0 and 255 that differs from the level of exact arithmetic by less than 255 (g + 11) / 2^24, where the mean is right to g roundings; a pixel whose components are both at least as strong, or whose power is larger by more than the rounding, is never shown darker.", "quantifier": "all lists of finite pixels, all roundings that are monotone and right to single precision, all orders in which a mean is added up, all scales from 1 to 16, given means or means of the tile", "why_tests_cant": "Errors of rounding depend on every pixel of the tile through its mean; tests compare two or three hand-made pixels with a tolerance.", "anchors": ["src/aws/osml/image_processing/sar_complex_imageop.py:histogram_stretch", "src/aws/osml/image_processing/sar_complex_imageop.py:quarter_power_image", "src/aws/osml/image_processing/sar_complex_imageop.py:complex_to_power_value", "src/aws/osml/image_processing/sar_complex_imageop.py:histogram_stretch_mag_values", "src/aws/osml/image_processing/sar_complex_imageop.py:quarter_power_mag_values"]}
{"id": "C172", "title": "The place of a pixel of a SICD image on terrain follows from the elements of its document", "statement": "For a file with a SICD document, image_to_world with an elevation model gives a pixel a point on the side of the track that the document names, at the range of the pixel at its time, whose distance changes at the rate of that range, both as the elements of the document say; it is within a millimeter of the terrain, or between two such points at most ten meters apart, one above and one below the terrain.", "quantifier": "all documents whose elements state the numbers of a sensor model, all grids, all real pixels, all elevation models, all conversions to geodetic coordinates", "why_tests_cant": "Tests use one elevation model and one pixel; that range, rate, side and terrain agree with the document for every pixel cannot be sampled.", "anchors": ["src/aws/osml/photogrammetry/sicd_sensor_model.py:DEMRRDotSurfaceProjection.rrdot_to_ground", "src/aws/osml/photogrammetry/sicd_sensor_model.py:SICDSensorModel.image_to_world", "src/aws/osml/photogrammetry/sicd_sensor_model.py:COAProjectionSet.precise_rrdot_computation", "src/aws/osml/gdal/sicd_sensor_model_builder.py:SICDSensorModelBuilder.build"]}
{"id": "C173", "title": "Geolocations in doubles are as accurate as their grid", "statement": "In double arithmetic the approximation grid of geolocate_features covers the features with almost ten pixels to spare, its nodes are evenly spread to less than a thousandth of a pixel, and a feature position is given the mean of what the sensor model says at the four nodes around it, weighted by its position, up to 35 units of 2^-53 of the largest node value. So where the sensor model is affine up to eps the places are right up to 2 eps and that rounding, in radians and in degrees; where it moves by at most L and M per column and row, they are right up to what it moves over one interval. A position outside the grid gets the place of the nearest position on its edge.", "quantifier": "all sensor models, all bounds of features up to 2^32 pixels, all grid sizes from 2 to 4096, all positions between the features, all roundings with relative error 2^-53", "why_tests_cant": "Tests compare a few places with tolerances; that no combination of bounds, grid size and position lets rounded nodes cross, leave a feature outside, or amplify the rounding of the weights cannot be sampled.", "anchors": ["src/aws/osml/features/geolocation.py:LocationGridInterpolator.__init__", "src/aws/osml/features/geolocation.py:LocationGridInterpolator.__call__", "src/aws/osml/features/geolocation.py:Geolocator._geolocate_features_using_approximation_grid"]}
{"id": "C174", "title": "The place of a pixel of a SIDD image on terrain follows from the elements of its document", "statement": "For a file with a SIDD document, chipped or not, image_to_world with an elevation model gives a pixel a point that the radar cannot tell from the point of the product plane of that pixel (same distance, same rate of the distance, same side of the track), and that is within a millimeter of the terrain or between two such points at most ten meters apart, one above and one below the terrain.", "quantifier": "all documents whose elements state the numbers of a sensor model, all real pixels, all chips whose corners form a parallelogram, all elevation models, all conversions to geodetic coordinates", "why_tests_cant": "Tests use one document and one elevation model; the agreement with the document for every pixel, chip and terrain cannot be sampled.", "anchors": ["src/aws/osml/gdal/sidd_sensor_model_builder.py:SIDDSensorModelBuilder.build", "src/aws/osml/photogrammetry/sicd_sensor_model.py:SICDSensorModel.image_to_world", "src/aws/osml/photogrammetry/sicd_sensor_model.py:DEMRRDotSurfaceProjection.rrdot_to_ground", "src/aws/osml/photogrammetry/chipped_image_sensor_model.py:ChippedImageSensorModel.image_to_world"]}
{"id": "C175", "title": "Features of an image with a geotransform get the places of the geotransform in doubles", "statement": "geolocate_features with the sensor model of a geotransform in degrees writes for each coordinate of a feature the longitude and latitude that the geotransform states for that pixel: the whole chain in doubles (nodes of the grid, dot product, conversion to radians, interpolation, conversion to degrees) is off by at most 46 units of 2^-53 of the largest coordinate, and by half a millionth of a degree more once it is written with six digits.", "quantifier": "all geotransforms, all bounds of features, all grid sizes, all positions between the features, all roundings with relative error 2^-53, all summation orders of the dot product", "why_tests_cant": "Tests compare a few places with tolerances; that no geotransform, bounds and position let the rounding of the five stages add up cannot be sampled.", "anchors": ["src/aws/osml/features/geolocation.py:Geolocator._geolocate_features_using_approximation_grid", "src/aws/osml/features/geolocation.py:LocationGridInterpolator.__call__", "src/aws/osml/photogrammetry/gdal_sensor_model.py:GDALAffineSensorModel.image_to_world"]}
{"id": "C176", "title": "Features in tiles of an image with a geotransform get the places they have in the image, in doubles", "statement": "For a tile made with create_encoded_tile, of any window and any output size, the features of the tile get with the tile's own geotransform the longitude and latitude that the geotransform of the image states for their places in the image, up to 51 units of 2^-53 of the largest term, and so what geolocating them in the image gives, up to 97 units: the shift of the origin, the scaling of the pixels and the two grids do not let rounding grow.", "quantifier": "all geotransforms, all windows and output sizes, all bounds of features, all grid sizes of tile and image, all positions, all roundings with relative error 2^-53", "why_tests_cant": "Tests cut a few tiles; that no window, scaling and geotransform moves features of the tile against those of the image cannot be sampled.", "anchors": ["src/aws/osml/image_processing/gdal_tile_factory.py:GDALTileFactory.create_encoded_tile", "src/aws/osml/features/geolocation.py:Geolocator._geolocate_features_using_approximation_grid", "src/aws/osml/photogrammetry/gdal_sensor_model.py:GDALAffineSensorModel.image_to_world"]}
{"id": "C177", "title": "Written coordinates of features lead back to their pixels, as far as six digits can", "statement": "For an image with a geotransform in degrees, world_to_image of the longitude and latitude that geolocate_features writes for an image position returns that position, in doubles, up to half a millionth of a degree expressed in pixels, the error of the inverse matrix and a few roundings; so for pixels of a meter to a tenth of a pixel, whereas pixels of a centimeter are written with the same coordinates.", "quantifier": "all geotransforms and inverse matrices, all bounds of features, all grid sizes, all positions between the features, all roundings with relative error 2^-53", "why_tests_cant": "Tests compare a few coordinates; how errors of the grid, of six digits and of the inverse matrix combine for every geotransform cannot be sampled.", "anchors": ["src/aws/osml/features/geolocation.py:Geolocator._geolocate_features_using_approximation_grid", "src/aws/osml/photogrammetry/gdal_sensor_model.py:GDALAffineSensorModel.world_to_image", "src/aws/osml/photogrammetry/gdal_sensor_model.py:GDALAffineSensorModel.__init__"]}
{"id": "C178", "title": "The error of geolocation shrinks with the square of the grid spacing", "statement": "Where the place that the sensor model computes for a pixel is, up to delta, a function with second derivatives of at most M along rows and N along columns, geolocate_features gives a feature position that function's value up to M/8 and N/8 times the squares of the intervals of the grid, (width + 20) / (n - 1) and (height + 20) / (n - 1) and less than a thousandth of a pixel more, plus delta and 35 units of 2^-53 of the largest value, all in doubles. Without the rounding no smaller factor than an eighth is possible.", "quantifier": "all sensor models near a smooth function, all bounds of features up to 2^32 pixels, all grid sizes from 2 to 4096, all positions between the features, all roundings with relative error 2^-53", "why_tests_cant": "Tests use one grid size and a tolerance; that the error follows the square of the spacing for every sensor model, extent and grid cannot be sampled.", "anchors": ["src/aws/osml/features/geolocation.py:LocationGridInterpolator.__init__", "src/aws/osml/features/geolocation.py:LocationGridInterpolator.__call__", "src/aws/osml/features/geolocation.py:Geolocator._geolocate_features_using_approximation_grid"]}
{"id": "C179", "title": "Orthophoto pixels are misplaced by at most a thirty-second of the bend of the projection over the tile", "statement": "In a square orthophoto tile (with minmax or DRA adjustment) of a sensor model whose projection, at the elevation used, has second derivatives of at most M along parallels and N along meridians, every pixel whose true position is inside the image by e = (M * width^2 + N * height^2) / 32, the sides of the tile in radians, has a value between the least and the greatest adjusted value of the image pixels less than 2 + e / 2^r pixels of the resolution level r from the true position. So halving the sides of the tiles divides the misplacement by four.", "quantifier": "every image of one band or at least three, every sensor model with bounded second derivatives, every tile area, tile size, resolution level and window position", "why_tests_cant": "Tests look at single tiles; that three by three projected points are enough for a pixel in every tile of a zoom level follows only from a bound for all sensor models.", "anchors": ["src/aws/osml/image_processing/gdal_tile_factory.py:GDALTileFactory.create_orthophoto_tile"]}
{"id": "C180", "title": "The coefficients of an RPC model bound how far orthophoto pixels are misplaced", "statement": "Let the denominators of an RPC model be at least q in the cube of normalised coordinates, and let A, A1 and A2 (B1 and B2) be the sums of the absolute coefficients of a numerator (denominator): all, without the constant, without constant and linear terms. Then columns and rows have second derivatives of at most K = scale * (6 A2 / q + (6 A B2 + 18 A1 B1) / q^2 + 18 A B1^2 / q^3) in normalised longitude and latitude. In square orthophoto tiles inside the cube, sides w and h in normalised units, every pixel whose projected position is inside the image by e = K (w^2 + h^2) / 32 + 2 eta has a value between the least and the greatest adjusted value of the image pixels less than 2 + e / 2^r pixels of the resolution level r from that position, eta being the error of the computed projection.", "quantifier": "every RPC model with denominators away from zero, every image of one band or at least three, every tile in the cube, tile size, resolution level and window position", "why_tests_cant": "RPC models differ in 80 coefficients; a test looks at one model and one tile and cannot tell for which zoom levels three by three projected points are enough.", "anchors": ["src/aws/osml/photogrammetry/rpc_sensor_model.py:RPCSensorModel.world_to_image", "src/aws/osml/photogrammetry/rpc_sensor_model.py:RPCPolynomial.evaluate", "src/aws/osml/image_processing/gdal_tile_factory.py:GDALTileFactory.create_orthophoto_tile"]}
{"id": "C181", "title": "Values of orthophoto tiles are bilinear interpolations at places off by no more than the bend of the projection", "statement": "In a square orthophoto tile of a grey image (minmax or DRA adjustment), every pixel whose projected position is inside the image by e differs by at most 9 of 255 grey levels from the exact bilinear interpolation of the adjusted pixels that were read, at a position within e image pixels of the projected one, but for a shift of less than a pixel of the resolution level (none at full resolution). Here e is (M * width^2 + N * height^2) / 32 for a projection with second derivatives of at most M and N, and K (w^2 + h^2) / 32 + 2 eta for an RPC model, with K from its coefficients as in C180.", "quantifier": "every grey image, every smooth sensor model and every RPC model with denominators away from zero, every tile in the cube of normalised coordinates, tile size, resolution level and window position", "why_tests_cant": "Tests compare single tiles with stored pictures; the bound on the grey levels relates every pixel of every tile to the image.", "anchors": ["src/aws/osml/image_processing/gdal_tile_factory.py:GDALTileFactory.create_orthophoto_tile", "src/aws/osml/photogrammetry/rpc_sensor_model.py:RPCSensorModel.world_to_image"]}
{"id": "C182", "title": "The coefficients of an RSM model bound how far orthophoto pixels are misplaced", "statement": "Let the denominators of an RSM polynomial model with a geodetic ground domain be at least q in the cube of normalised coordinates. Along x, let A, A1 and A2 (B1 and B2) be the sums over the terms x^i y^j z^k of the numerator (denominator) of the absolute coefficients times 1, i and i (i - 1). Then columns and rows have second derivatives of at most K = scale * (A2 / q + (A B2 + 2 A1 B1) / q^2 + 2 A B1^2 / q^3) along parallels, and of at most L, with j for i, along meridians, in normalised units. Orthophoto tiles inside the cube, sides w and h in these units, are misplaced by at most e = (K w^2 + L h^2) / 32 + 2 eta image pixels, in the sense of C180 and C181, eta being the error of the computed projection.", "quantifier": "every RSM polynomial model with geodetic ground domain, any powers that the format allows and denominators away from zero, every tile in the cube, tile size, resolution level and window position", "why_tests_cant": "RSM polynomials have up to 216 coefficients each; a test looks at one model and one tile.", "anchors": ["src/aws/osml/photogrammetry/replacement_sensor_model.py:RSMPolynomialSensorModel.world_to_image", "src/aws/osml/photogrammetry/replacement_sensor_model.py:RSMPolynomial.evaluate", "src/aws/osml/image_processing/gdal_tile_factory.py:GDALTileFactory.create_orthophoto_tile"]}
