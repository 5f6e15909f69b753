"""Writes /verif/MANIFEST.json from the table below."""
import json

C = []


def claim(prop, status, ns, theorems, note=""):
    C.append({"property": prop, "status": status,
              "theorems": ["Verif.Props." + (t if "." in t else ns + "." + t) for t in theorems.split()],
              "note": note})


claim("C01", "proved", "DRA", "dra_suggested_within_actual dra_zero_last_is_default")
claim("C02", "partial", "DRA", "dra_suggested_range_ordered_iff_partial dra_suggested_range_can_be_inverted",
      "The code can return an inverted range; the exact condition is proved and a witness given.")
claim("C03", "partial", "DRA", "dra_empty_raises dra_scale_invariant dra_bucket_range_affine dra_zero_last_bucket_ignored",
      "All parts hold except that a last_bucket_max of 0 is ignored (witness theorem).")
claim("C04", "partial", "GdalConfig", "config_block_restores_partial config_block_aliased_names_not_restored",
      "Proved for dictionaries whose names are different options to GDAL. False for a dictionary with two spellings of one option, because GDAL ignores case (second theorem). Options that come from environment variables are the subject of C149.")
claim("C05", "partial", "GdalConfig",
      "nested_blocks_restore nested_blocks_outcome disjoint_blocks_any_schedule_restores_partial reentered_block_not_restored overlapping_blocks_not_restored",
      "False for re-entered objects and for overlapping blocks on the same option (witnesses).")
claim("C06", "partial", "GdalConfig",
      "credentials_inside_block_partial credentials_set_options credentials_refresh_inside_block caller_dictionaries_unchanged environment_has_own_copy credentials_inside_block_can_raise",
      "False when the credentials are first set inside the block: the exit raises KeyError (witness).")
claim("C07", "proved", "GdalConfig", "default_configuration_effect")
claim("C08", "proved", "MapTiles", "tile_for_location_contains mercator_good")
claim("C09", "proved", "MapTiles", "adjacent_tiles_share_edge tiles_partition_extent tiles_cover_extent")
claim("C10", "proved", "MapTiles", "parent_tile children_cover_tile tile_size_irrelevant")
claim("C11", "partial", "MapTiles",
      "tile_index_valid_iff_partial west_edge_column_negative longitude_minus_180_has_no_valid_tile",
      "False on the west and south edges of the extent (column or row -1).")
claim("C12", "proved", "MapTiles", "limits_empty_raises limits_cover_area")
claim("C13", "proved", "MapTiles", "tile_set_lookup tile_description")
claim("C71", "partial", "MapTiles", "rows_are_mirrored_partial rows_are_not_ogc_rows",
      "The code counts rows from the south; the exact relation to the standard row is proved.")
claim("C14", "proved", "Coordinates", "dms_string_shape igeolo_length ieee_onGlobe",
      "For every rounding that satisfies Spec.Float64.GoodRounding; instantiated with exact binary64.")
claim("C15", "partial", "Coordinates", "dms_minutes_and_seconds_le_sixty_partial dms_minutes_and_seconds_can_be_sixty",
      "Minutes and seconds can be 60 (witness); they are never more.")
claim("C16", "proved", "Coordinates", "dms_string_denotes_coordinate")
claim("C17", "proved", "Coordinates", "format_pieces format_spec_has_pieces format_literal hemisphere_and_degree_letters")
claim("C18", "partial", "Coordinates", "decimal_degrees_absolute_partial decimal_degrees_lose_sign",
      "Decimal degrees lose the sign (witness); the absolute value is right.")
claim("C19", "proved", "DemTileSet", "srtm_coverage srtm_name_layout srtm_name_iff_same_cell")
claim("C20", "partial", "DemTileSet",
      "generic_name_is_cell generic_coverage cellName_unique generic_name_is_cell_ieee_partial generic_name_collision_ieee",
      "Proved for exact arithmetic; in binary64 cells at 15, 30, 60 and 120 degrees get the neighbour's name (witness).")
claim("C21", "proved", "Dem", "cache_is_transparent")
claim("C22", "proved", "Dem", "cache_is_bounded recent_tile_not_reloaded few_tiles_loaded_once")
claim("C23", "proved", "Dem", "concurrent_queries_agree",
      "With look-up, load and store as atomic steps; finer steps are the subject of C73.")
claim("C24", "proved", "Dem",
      "set_elevation_keeps_position set_elevation_without_tile set_elevation_on_surface set_elevation_tiny_tile_raises")
claim("C72", "partial", "Dem", "failed_load_is_retried_partial unreadable_tile_is_remembered",
      "True for loads that raise; false for loads that report None (the GDAL factory), which stay in the cache.")
claim("C73", "partial", "DemRace", "no_cache_failure_partial poisoned_miss_fails poisoned_forever race_poisons_cache",
      "True when all tiles fit in the cache; false otherwise: a schedule leaves the cache raising KeyError for good.")

claim("C25", "proved", "Transforms", "inverse_forward forward_inverse forward_defined_iff")
claim("C26", "proved", "Transforms", "estimate_recovers estimate_passes_through",
      "For exact arithmetic and every solver that returns a least squares solution.")
claim("C27", "proved", "Sensors", "chipped_model_is_full_model crop_model_is_shifted_model crop_of_crop")
claim("C28", "proved", "Sensors", "affine_position affine_singular_iff affine_round_trip affine_height_offset",
      "affine_height_offset shows what goes wrong for a CRS that changes the height.")
claim("C34", "proved", "Sensors", "composite_world_to_image composite_image_to_world composite_approximate_raises Loading.composite_by_value")
claim("C74", "proved", "Sensors", "projective_model projective_model_through_gcps")

claim("C29", "proved", "Rpc", "rpc_world_to_image rpc_short_polynomial rpc_zero_scale")
claim("C30", "proved", "Rpc", "rpc_image_to_world ground_default search_round_trip RsmModel.rsm_image_to_world RsmModel.rsm_world_to_image",
      "The minimiser (SciPy Nelder-Mead) is any adaptive search; nothing is claimed about its convergence.")
claim("C31", "proved", "Rsm", "rsm_polynomial rsm_polynomial_linear low_order_polynomial")
claim("C32", "proved", "Rsm", "normalise_inverts rectangular_domain_inverts geodetic_domain_inverts geodetic_2pi_domain")
claim("C33", "proved", "RsmModel", "sectioned_model_delegates responsible_unique")
claim("C69", "proved", "Rpc", "triangle_is_equilateral")
claim("C75", "proved", "RsmModel", "ground_domain_summary")
claim("C76", "partial", "RsmModel", "rsm_result_in_domain_partial rsm_2pi_longitude_above_pi rsm_2pi_projection_periodic NelderMead.nelder_mead_stays_inside",
      "False for GEODETIC_2PI domains in the western hemisphere (witness); the result stays in the domain's box.")
claim("C77", "partial", "RsmModel", "hint_overlapping_domain_reaches_partial hint_west_of_domain_sticks_to_edge NelderMead.nelder_mead_simplex_search",
      "True when the simplex around the hint overlaps the inside of the domain.  Otherwise false: the bounded search clips the hint to the domain's edge and cannot leave it.")

claim("C35", "partial", "Factory", "factory_precedence_partial unselected_unused_partial sidd_ignores_selection",
      "Precedence and selection hold except for SIDD, which is used although its type is not selected (witness).")
claim("C36", "partial", "Factory",
      "usable_source_kept_partial failed_des_discards_tre_model malformed_ichipb_raises bad_geo_transform_raises bad_rsm_raises bad_corners_raises",
      "False: a malformed ICHIPB raises AttributeError, a failed SICD/SIDD discards RSM/RPC, exceptions of three builders escape.")
claim("C37", "partial", "Tre", "coefficients_stored_partial negative_index_writes_elsewhere",
      "False for negative indices, which write at the end of the array.")
claim("C38", "partial", "Des", "header_layout_partial overlong_value_shifts_header",
      "True for values that fit; a longer value shifts all later columns.")
claim("C39", "partial", "Des", "segments_in_order no_declaration_unchanged prolog_removed_partial declaration_can_remain",
      "False for declarations that the regular expression does not match.")
claim("C62", "partial", "Tre", "section_grid_partial missing_section_raises",
      "True for complete grids; a missing section raises KeyError.")
claim("C78", "proved", "Tre", "rpc_builder rpc_builder_raises rsm_builder_single rsm_builder_sectioned cscrna_builder Factory.ichipb_reader")
claim("C79", "partial", "Des", "text_fields_left_justified_iff_partial text_fields_not_left_justified",
      "False: the code right-justifies text fields; left justified are exactly the values of full width and the blank ones.")

claim("C40", "proved", "Updaters", "sicd_tile_metadata sicd_scaled_request_rejected sicd_tile_of_tile")
claim("C41", "partial", "Updaters", "sidd_first_tile_partial sidd_tile_of_tile_partial sidd_tiles_accumulate sidd_one_pixel_tile_ends_factory",
      "False from the second tile of a factory on: the offsets of all earlier tiles add up; a one-pixel tile makes every later request raise.")
claim("C42", "partial", "Updaters", "sidd_tile_model_partial sidd_tile_model_is_off",
      "False: writer and reader use different corner pixels; the model is off by less than a pixel.")
claim("C43", "partial", "Updaters", "chip_corners_hit_partial chip_pixels_inside_partial crop_is_shift_partial one_pixel_chip_raises",
      "True for chips with at least two rows and columns; a one-pixel chip divides by zero.")
claim("C52", "partial", "GdalUtils", "scales_match_bands output_type_fits_partial mixed_types_get_last_type",
      "Scales and limits proved; the output type is the last band's, which is wrong for mixed types (witness).")
claim("C53", "partial", "GdalUtils", "integer_limits_partial float_limits unknown_type_limits int8_limits_wrong float32_limit_not_representable",
      "True for the listed integer types; GDT_Int8 falls back to the unsigned range.")
claim("C54", "partial", "GdalUtils",
      "normalize_decision normalize_ignores_case normalize_idempotent select_empty select_first select_last_mentioned select_not_by_ending",
      "normalize_extension proved for ASCII letter case; select_extension looks for the extension anywhere in the path (witnesses).")
claim("C70", "partial", "GdalUtils", "s3_location local_location_partial s3_inside_is_rewritten tile_decision",
      "An s3:/ inside a local path is rewritten too.")
claim("C80", "partial", "GdalUtils", "varied_bands_have_scales_partial constant_band_raises", "True for floating point bands and bands with values at least one apart.  False: IndexError for constant integer bands.")
claim("C81", "partial", "GdalUtils", "minmax_within_one_bucket_partial minmax_cuts_maximum", "False: the upper limit is the lower edge of the last bucket, one bucket width below the maximum.")

claim("C44", "partial", "TileFactory",
      "tile_options tile_independent_of_history_partial sicd_history_free sidd_tile_depends_on_history tile_file_removed failed_translate_leaves_file",
      "Options proved for every history; false for SIDD images, whose metadata depends on earlier tiles (witness).")
claim("C45", "partial", "TileFactory",
      "window_inside_partial source_box_tight no_tile_iff level_fits_width touching_tile_reads_nothing thin_overlap_reads_nothing tall_tile_undersampled degenerate_box_raises",
      "Window inside the image and level proved; empty windows and undersampled tall tiles occur (witnesses).")
claim("C46", "partial", "TileFactory", "square_tile_partial tile_is_transposed one_pixel_tile_raises",
      "True for square tiles (exact positions for affine models); other tiles come out transposed.")
claim("C47", "partial", "TileFactory",
      "adjusted_pixels adjusted_band dra_stretch dra_narrow adjusted_band_limits minmax_ends_partial minmax_maximum_dark unadjusted_wraps signed_minmax_partial signed_bright_pixel_black",
      "Range and order proved for bands with statistics and for unsigned or floating-point pixels; the maximum maps to 255 only for minima that are not positive; without adjustment 16-bit values wrap. In a band of signed integers without statistics (the constructor computes them, so GDAL must have failed to keep them) the difference with the minimum wraps: exact characterisation and witness.")
claim("C48", "partial", "Sar", "complex_power amplitude_power amplitude_phase_value unknown_pixel_type int16_power_partial int16_power_overflows",
      "False for 16-bit pixels above 181 in absolute value (overflow), exactly characterised.")
claim("C49", "partial", "Sar",
      "stretch_in_range histogram_stretch_values quarter_power_values histogram_stretch_monotone_partial quarter_power_monotone_partial black_image_is_nan linear_mapping_partial linear_mapping_nan",
      "False for all-zero images and for linear mapping of values beyond 24 bits (NaN).")
claim("C82", "partial", "TileFactory", "sampling_position_partial sampling_off_grid",
      "Exact at full resolution and for aligned windows; otherwise off by the fraction of a level pixel.")
claim("C83", "partial", "TileFactory", "transparent_iff_zero_channel image_pixels_transparent", "False: pixels with a zero channel are transparent.")
claim("C84", "partial", "TileFactory", "nitf_compression_partial compression_options nitf_lzw_float_uses_j2k", "False when LZW is asked for.")

claim("C63", "proved", "Features", "lookup_precedence only_image_properties plain_detection_raises", "Shapely's readers are parameters.")
claim("C64", "partial", "Features",
      "touches_only_existing existing_are_rewritten later_lookup_partial written_geojson_reads_back holes_are_lost collection_raises",
      "Later lookup false for features with only geom_imcoords (holes lost) and for collections with deprecated properties (KeyError).")
claim("C65", "partial", "Geolocation",
      "shape_is_kept list_of_features_partial boxes_and_centers empty_list ring_becomes_line no_geometry_raises bbox_alone_gets_no_geometry",
      "False for lists without any geometry (raises) and for features with only an imageBBox (no geometry set).")
claim("C66", "partial", "Geolocation", "grid_covers_geometries_partial bbox_can_be_outside",
      "False for an imageBBox beyond the imageGeometry: its corners can lie outside the grid.")
claim("C67", "partial", "Geolocation", "affine_is_exact exact_at_nodes between_neighbouring_nodes not_exact_outside",
      "Exact arithmetic, pixels inside the grid area; outside the value is held constant (witness).")
claim("C68", "partial", "Geolocation", "intersects_exactly_partial nearest_exactly_partial search_raises_iff world_geometries_raise",
      "Image geometries, with the tree's contract as hypothesis; false for world geometries (TypeError).")
claim("C85", "partial", "Geolocation", "between_neighbouring_nodes antimeridian",
      "Longitudes are between those of the neighbouring nodes as numbers, which is false across the antimeridian (witness).")

claim("C50", "proved", "Sicd", "pixel_grid_inverse grid_plane_inverse image_plane_normal")
claim("C51", "partial", "Sicd",
      "ground_point_solves_partial ground_point_found ground_raise_justified ground_below_plane_not_raised ground_under_track_wrong_range",
      "The three equations hold and raised geometries are impossible ones; platforms below the plane or over the point directly under the track are not raised (witnesses).")
claim("C55", "proved", "Sicd", "scene_center_projects plane_grid_projects")
claim("C56", "partial", "Sicd", "search_verified_partial sidd_round_trip search_stops_unverified",
      "True unless the search is ended by its iteration limit (witness) or the returned pixel has no ground point (NaN), which ends the search as well.")
claim("C57", "proved", "SicdSurface", "hae_height_exact hae_on_surface_kept", "pyproj's geodetic conversion is a parameter; assumed is that it gives the elevation back that a coordinate was made with, which Geodesy.hae_height_on_ellipsoid (C160) derives from the formula of the ellipsoid.")
claim("C58", "partial", "SicdSurface",
      "contour_point_seen scan_reports_partial scan_sorted samples_span dem_points_seen tolerance_taken_for_below",
      "Exact description of the reported points; false for a sample exactly at the tolerance (witness).")
claim("C59", "proved", "Sicd", "slant_normal_outward ground_normal_outward")
claim("C60", "proved", "SicdBuilder", "chip_model_shifted")
claim("C61", "partial", "SicdBuilder", "poly1_native_partial poly2_native_partial negative_exponent_wraps",
      "True for exponents that are not negative; a negative exponent counts from the end.")
claim("C86", "partial", "Sicd", "sidd_round_trip sidd_ignores_height elevated_point_off_contour off_plane_never_found",
      "True for points on the plane (sidd_round_trip).  False: elevation is projected away first.")
claim("C87", "partial", "SicdSurface", "covered_points_meet_terrain_partial uncovered_sample_returned", "True for contours with terrain data all along.  False: every sample without data is returned.")
claim("C88", "proved", "SicdSurface", "range_rate_is_derivative")
claim("C89", "partial", "SicdBuilder", "built_model_partial model_without_projection SicdFiles.unsupported_algorithm_raises SicdFiles.sensor_point SicdFiles.sensor_failure", "False for other image formation and grid types (witness).")

claim("C90", "proved", "DRA", "dra_suggested_range_values dra_percentile_buckets_unique dra_default_arguments")
claim("C91", "proved", "Dem", "describe_region_result")
claim("C92", "partial", "Dem", "set_elevation_missing_tile_partial void_posts_become_elevations",
      "False: posts that carry the no-data value become elevations; unchanged only when the whole tile is missing.")
claim("C93", "proved", "Des", "embedded_document", "Base 64 decoding and XML writing are parameters.")
claim("C94", "proved", "TreModel", "sectioned_image", "pyproj's geocentric conversion and SciPy's minimiser are parameters.")

claim("C95", "proved", "Orthophoto", "igeolo_denotes_corners igeolo_error_iff")
claim("C96", "proved", "Orthophoto", "displayed_channels", "The SAR combination is a parameter here (C49 has its values).")
claim("C97", "partial", "Orthophoto", "written_pixel_partial red_and_blue_exchanged two_bands_opacity_becomes_red many_bands_unadjusted_no_tile",
      "False: OpenCV takes channels as blue, green, red; unadjusted images of two bands get a wrong red, of four or more no tile.  True for grey images.")
claim("C98", "partial", "Orthophoto", "centre_elevation_partial elevation_not_of_centre", "True for square images; x and y of the centre are exchanged.")
claim("C99", "partial", "Orthophoto", "projection_failure_no_tile_partial centre_error_raised", "True for the projection of the tile; an error at the image centre is raised.")
claim("C100", "partial", "Orthophoto", "grey_tile_shows_image_partial colour_tile_shows_image_partial minmax_tile_produced",
      "Square tiles, affine sensor model, windows on the grid of the level, tile pixels on whole image pixels.  cv2.remap is a parameter that returns the pixel at whole positions.")

claim("C101", "proved", "SarTiles", "segment_selected no_segment_selected same_segment_as_sensor_model", "When SICD models are not excluded by the caller of the sensor model factory.")
claim("C102", "partial", "SarTiles", "sar_tile_marked_complex_partial sidd_tile_marked_complex", "False for SIDD: its tiles get the same marks.")
claim("C103", "partial", "SarTiles", "sar_brightness_partial sar_tiles_differ_without_statistics sar_zero_statistics", "True with statistics that are not 0; otherwise the mean of the tile is used, or pixels are NaN (witnesses).")
claim("C104", "partial", "SarTiles", "sar_images_show_partial quarter_power_is_half_power histogram_stretch_is_of_power",
      "False: power values are passed where magnitudes are expected, so that the first shows the magnitude and the second the power.")
claim("C105", "proved", "SarTiles", "decibels_law decibels_values")
claim("C106", "proved", "SarTiles", "gcp_model_through_points", "numpy's lstsq is a parameter that minimises the residual.")
claim("C107", "partial", "Orthophoto", "pixel_centre_shows_neighbours grey_tile_shows_image_partial", "False: whole image coordinates are taken as pixel centres.")

claim("C108", "partial", "DemFiles", "corner_elevation_partial post_elevation_is_mean", "False: the values are taken to be at the upper left corners of the pixels, half a pixel off.")
claim("C109", "partial", "DemFiles", "geographic_dem_partial projected_dem_is_misread dem_crs_ignored", "False: the reference system is ignored.  True for files in longitude and latitude.")
claim("C110", "proved", "DemFiles", "dem_summary unusable_file_ignored", "pyproj's geocentric conversion is a parameter; files with an invertible geo transform and at least 2 by 2 posts.")
claim("C111", "proved", "Loading", "load_unreadable load_asks_for_everything")
claim("C112", "proved", "Loading", "rpc_image", "For images whose data extension segments have no SAR documents and chips that are rectangles; lstsq and the minimiser are parameters.")
claim("C113", "proved", "Loading", "rsm_image sectioned_rsm_image", "For images whose data extension segments have no SAR documents and chips that are rectangles; lstsq, the minimiser and pyproj's conversion are parameters.")
claim("C114", "proved", "Loading", "geo_transform_image", "pyproj's transformation is a parameter with its inverse law as hypothesis.")
claim("C115", "partial", "Loading", "gcp_image_partial projected_gcps_misplaced gcp_crs_ignored", "False: the reference system of the control points is ignored.  True for points in degrees.")
claim("C116", "proved", "Transforms", "estimate_order_irrelevant Sensors.projective_order_irrelevant Loading.gcp_order_irrelevant",
      "numpy's lstsq is a parameter that returns a shortest least squares solution; lstsq_function shows that there is exactly one.")

claim("C117", "proved", "MapTilesFloat", "index_valid_iff tile_near_location parent_tile edges_shared edges_on_grid tile_size_irrelevant limits_cover_area agrees_with_exact exact_containment_fails deep_tiles_collapse",
      "All operations of map_tileset_wmq.py rounded with exact binary64 rounding. Assumed of pyproj: the forward direction returns doubles, and is increasing for the limits. agrees_with_exact connects the tiles with those of C08-C12; exact_containment_fails shows that the tolerance is needed, deep_tiles_collapse that the zoom bound for non-empty tiles is. Overflow to infinity is not modelled (not reachable for levels up to 900 inside the square).")

claim("C118", "partial", "GeolocationGrid", "affine_located_exactly near_affine_error lipschitz_error raises_near_the_edge",
      "Proved when the sensor model locates a margin of ten pixels around the features; the last sentence is false without it: raises_near_the_edge proves that a sensor model which locates the pixels of the image only makes the call raise for a feature near the left edge. Assumed: shapely's centroid lies in the bounding box of the vertices; exact arithmetic (math.degrees and the rounding of geojson are arbitrary functions).")

claim("C119", "partial", "TileThreads", "exclusive_tiles_right_partial uninterrupted_is_sequential requests_in_order values_were_asked_for threads_mix_metadata",
      "The factory has no lock. Right for every schedule in which no two threads are between the size check and the end of the rendering (what a lock would give); threads_mix_metadata is a schedule of two threads in which a tile gets metadata that belongs to no requested tile. values_were_asked_for and requests_in_order hold for all schedules. GDAL's own behaviour under threads is not modelled.")

claim("C120", "proved", "OrthophotoNear", "grey_tile_near colour_tile_near uniform_shown",
      "One-band images and images of three bands or more (channels in the order blue, green, red, see C97). Assumed of cv2.remap: the value at a position inside the array lies between the least and the greatest of the pixels within one pixel of it. Positions that lie in the image by less than 2 delta are left out: there the interpolated position may be outside the window. Exact arithmetic for the positions.")

claim("C121", "proved", "SicdRoundTrip", "round_trip search_converges foot_exists slant_flat slant_round_trip",
      "Flatness is a hypothesis of round_trip and search_converges; for the level track it is proved. Exact arithmetic; pyproj's conversions inverse to each other.")

claim("C122", "proved", "SicdEllipsoid", "plane_normal_unit default_plane_tangent hae_accuracy Sicd.slant_normal_outward",
      "Assumed of pyproj: geodetic_to_geocentric is the textbook formula of the ellipsoid, geocentric_to_geodetic its inverse, and heights of points farther than half the polar radius from the center are not below the center of curvature. Exact arithmetic. The iteration limit is in the statement.")

claim("C123", "proved", "SicdContour", "polyval_sum polyval2d_sum contour_withTime range_rate_is_derivative rgazcomp_ground offsets_apply offset_translates",
      "Exact arithmetic. For range-azimuth compressed grids the range rate is not the derivative of the range over time; rgazcomp_ground says what it means instead.")

claim("C124", "proved", "SicdDem", "dem_projection SicdSide.samples_from_lowest",
      "Premises inside the statement: range above 0, positive post spacing, contour angle that starts below the horizontal plane of the platform and ends at most as far above it; no sample exactly at the tolerance (C58) for order and position of the points. Elevation models that raise are not modelled. Exact arithmetic.")

claim("C125", "partial", "SicdDem", "dem_location_partial no_tile_no_location terrain_above_summary_not_found",
      "The answer is the first point, nearest to the center of the Earth. False: without a usable file for the scene center every pixel raises AttributeError (no_tile_no_location); terrain higher than the summary of the tile of the scene center (a neighboring tile, or GDAL's approximate statistics) is not found and raises IndexError although the contour meets it.")

claim("C126", "partial", "SicdSide", "terrain_side_partial right_looking_sidd_misplaced",
      "SICD images: the side of the metadata, in full. SIDD images: always the left side, because the builder passes no side of track and the default is L; so every pixel of a right-looking SIDD image is located on the wrong side of the track (right_looking_sidd_misplaced). SIDD images without a chip; a chip only changes the pixel (C42).")

claim("C127", "proved", "SicdFiles", "sicd_tile_reloads",
      "Assumptions, as hypotheses: xsdata reads back the document that it wrote (Renders), and GDAL gives back the requested segment first, with the same document (ReadBack). Both are met by the example; the first is shown in C154. The approximate models of image and tile are pinned down by IsApproximate; where one of them fails, so does image_to_world.")

claim("C128", "partial", "SiddFiles", "sidd_tile_reloads_partial first_sidd_tile_partial second_sidd_tile_misplaced",
      "The property is false. Proved: which pixel of the image each tile pixel is taken for, after any unscaled requests of more than one pixel each way; for the first tile of a factory less than a pixel off, for later tiles off by the corners of all earlier ones (witness with a concrete SIDD model). Assumptions as for C127; C155 shows the one about xsdata. Scaled requests and images that are chips themselves are in C163.")

claim("C129", "proved", "SarFiles", "sicd_file_model sidd_file_round_trip",
      "xsdata and pyproj are parameters; the round trip assumes that geodetic_to_geocentric inverts geocentric_to_geodetic. Where the approximate model of the file fails, so does image_to_world (Answers). Crops are chips with the corners of a window of more than one pixel each way, as C41 writes them.")

claim("C130", "partial", "Extensions", "image_extension_partial empty_extension GdalUtils.select_not_by_ending",
      "The ending of the path does not decide: an extension later in the list wins when the path has it anywhere after a dot (select_not_by_ending), and two spaces in a driver's list give the empty extension (empty_extension). image_extension_partial states what decides, for all registries and paths. Letters change case as in ASCII.")

claim("C131", "proved", "Memory", "coordinates_are_values conversions_write_nothing set_elevation_writes_elevation",
      "A coordinate is identified with its array; attributes of sensor models are values. With SICD models in the program, its elevation models are ones that do not raise (TerrainPair), as in Model/SicdDem. Programs whose arguments have the wrong class stop with an error in model and specification alike.")

claim("C132", "proved", "Rounded", "rpc_rounding rpc_rounding_pixels rpc_polynomial_rounding",
      "The rounding is any function with relative error 2^-53 plus 2^-200 up to 2^250 (Rounds); binary64 round to nearest is one (Lemmas.Rounded.double_rounds). Overflow is outside the range. The model divides where Python does; no use of fused operations.")

claim("C133", "proved", "RoundedRsm", "rsm_rounding rsm_rounding_pixels rsm_polynomial_rounding",
      "Rounds as in C132. x ** i is an external function right to one unit in the last place (PowRounds). The conversion of geodetic to rectangular ground domains is not included.")

claim("C134", "proved", "RoundedAffine", "affine_round_trip north_up_round_trip left_dot_rounds",
      "Rounds as in C132. Components of np.matmul are an external inner product with four roundings (DotRounds); the plain loop is one (left_dot_rounds). The inverse matrix is that of np.linalg.inv; its error enters the bound.")

claim("C135", "proved", "Nearby", "rpc_pixels_separate_places rpc_one_place_per_pixel rpc_search_accuracy NearbyRsm.rsm_pixels_separate_places NearbyRsm.rsm_one_place_per_pixel NearbyRsm.rsm_search_accuracy",
      "That the search stops with a small misfit is not claimed: scipy's Nelder-Mead is any minimiser. RSM with a geodetic ground domain (both longitude ranges, away from the cut). The conditions are sufficient ones on the coefficients, met by the examples with perspective and sloping terrain.")

claim("C136", "partial", "DRARounded", "rounded_suggested_within_actual rounded_from_counts rounded_scale_invariant rounded_scale_not_invariant",
      "Proved for histograms of pixels. False for factors that are not integers: weighting [1, 48, 1] by 0.7 moves the suggested minimum by a bucket (rounded_scale_not_invariant). binary64 round to nearest even (rne64); the defaults are the doubles nearest to 0.02, 0.98, 0.2 and 0.4. Other percentages can hit a threshold exactly and are left out.")

claim("C137", "partial", "Seams", "srtm_elevation_partial srtm_steepness_partial srtm_seam slope_has_a_step",
      "The code takes the corner of a pixel for its centre (C108), so the surface is shifted by half a post inside a cell and cut off at its border: at the border the elevation jumps by half the difference of two posts (srtm_seam, slope_has_a_step). Proved: the exact value everywhere (srtm_elevation_partial), no jump inside a cell, jumps of at most L at borders (srtm_steepness_partial). The spline is the one of degree one of C22.")

claim("C138", "proved", "GeolocationRepeat", "geolocate_again only_the_box_matters order_does_not_matter",
      "The sensor and elevation models are functions: a model whose answers change between calls is left out. Exact arithmetic; for doubles the theorems hold as well, as the same operations are done on the same numbers.")
claim("C139", "partial", "GeolocationRepeat", "company_partial company_of_affine_partial company_matters",
      "False: with a sensor model that is not affine the grid of another list interpolates differently (company_matters, with the default grid size). Proved: the places differ by at most 4 epsilon when the sensor model is within epsilon of an affine one around the features, and not at all when it is affine.")
claim("C140", "partial", "OrthophotoSeams", "shared_meridian_partial shared_parallel_partial uniform_agrees seam_at_full_resolution seam_of_statistics seam_of_levels",
      "Both tiles sample the shared edge at the same positions, for every sensor model, and show values of the pixels around them.  False (witnesses): the window of one tile ends at the edge, tiles are read from different levels, and without statistics each tile is adjusted on its own.  Grey images, square tiles.")
claim("C141", "partial", "NelderMead", "nelder_mead_no_worse rpc_no_worse_than_corners rsm_no_worse_than_corners rpc_good_guess_good_place_partial rsm_good_guess_good_place_partial rsm_good_guess_good_place small_search_distance_ignores_pixel perfect_guess_is_lost",
      "SciPy's Nelder-Mead is modelled (exact arithmetic, stable sorting).  The bound by the corners of the triangle holds.  False: the first guess itself is never looked at, and a search distance of up to a millionth of a degree ends the search at once (theorems for every such model).  The bound on the place assumes that the result is in the box; for RSM this is proved.")
claim("C142", "proved", "NelderMead", "nelder_mead_at_most_400 rpc_bounded_work rsm_bounded_work",
      "For the model of SciPy's Nelder-Mead with its default limits.")
claim("C143", "partial", "Mercator", "tile_places_partial deep_tile_within_a_pixel_partial grey_tile_mercator_partial RpcTiles.grey_mercator_rpc_partial RsmTiles.grey_mercator_rsm_partial northern_rows_too_far_south level_one_row_misplaced",
      "False: rows take equal steps of latitude, not of northing, and pixels are spread from edge to edge.  Proved: the deviation is at most half a pixel in the columns and 1/2 + size pi / 2^(z+1) pixels in the rows, less than one pixel from level 10 (256) or 11 (512) on; north of the equator every inner row is too far south; at level 1 a place is over 50 pixels off.")
claim("C144", "proved", "Composite", "composite_rpc_miss composite_rsm_miss composite_rsm_place",
      "For every minimiser that is no worse than its start (and stays in bounds), which C141 and C76 prove of the model of SciPy's Nelder-Mead.")
claim("C145", "proved", "Slopes", "surface_steepness file_steepness file_is_ground one_place_per_pixel_over_file file_is_rsm_ground rsm_one_place_per_pixel_over_file elevation_in_doubles north_up_elevation",
      "For files in longitude and latitude; places in different files differ by more, see C137. The evaluation of the spline in doubles follows FITPACK's fpbspl and fpbisp; overflow is not modelled. The error of np.linalg.inv is a parameter, four roundings per element for north up files.")
claim("C146", "proved", "RoundedSicd", "ground_point_in_doubles ground_point_found",
      "For one position (the code also takes arrays of positions). Velocity within 45 degrees of the plane, grazing angle below about 87 degrees, reference point not under the track. Inner products in any order of summation; square roots correctly rounded; overflow is not modelled.")
claim("C147", "partial", "OrthophotoLarge", "wide_image_no_tile whole_image_raises tile_iff_window_fits window_fits_partial",
      "False: without overviews a tile that shows all columns of an image with 32763 columns or more raises, because cv2.remap asserts fewer than 32767 rows and columns (trusted, OpenCV is not in /repo). Proved: with MINMAX a tile is made exactly when the window that is read is below the limit; it is for smaller images, and for larger ones if the level that suits the tile exists and the footprint is not elongated.")
claim("C148", "proved", "RoundedTransforms", "chip_forward_in_doubles chip_inverse_in_doubles chipped_model_in_doubles crop_in_doubles control_points_in_doubles unequal_lists_raise",
      "For every rounding with relative error 2^-53 (IEEE doubles are one). The residual of numpy.linalg.lstsq is the hypothesis rho; nothing else is assumed about the solver. The products of the corner coordinates that enter the matrix are assumed exact, which is proved for whole and half pixels. Control points: forward direction.")
claim("C149", "partial", "GdalEnvironment", "block_restores_value_partial follows_environment_iff environment_not_followed same_as_table",
      "False: __enter__ reads the effective value and __exit__ writes it into GDAL's table, which hides the environment variable from then on (environment_not_followed). Proved: the value right after the block is the one before it, and the options that keep following the environment are exactly those that were in the table or had no variable. Trusted: GetConfigOption looks into the table and then for an environment variable.")
claim("C150", "proved", "Remap", "remap_interpolates remap_samples remap_accuracy grey_tile_values",
      "For a model of OpenCV's general 8-bit code (trusted, OpenCV is not in /repo). remap_interpolates and remap_samples are what C100, C107, C120, C140 and C143 assume of cv2.remap.")
claim("C151", "partial", "Remap", "outside_transparent_partial RpcTiles.outside_rpc_partial RsmTiles.outside_rsm_partial opaque_outside two_bands_opaque",
      "False: the edge of the image is repeated for two pixels of the level, and the tile is opaque there; tiles of two-band images without adjustment are opaque everywhere, because the alpha mask becomes the red channel. Proved: transparent from 3 pixels of the level outside the image on (and twice the deviation of the sensor model from an affine one), for adjusted images and those of one or three bands.")
claim("C152", "proved", "Xsdata", "parse_render parse_render_parse",
      "For a model of xsdata's data binding (elements, attributes, texts, token lists, xsi:type, fixed values) on element trees; written from its documented behaviour (xsdata is not in /repo). Faithful: the text of a value that was read is read as the same value. Wildcards, mixed content and nillable elements do not occur in the dataclasses and are left out.")
claim("C153", "proved", "Schemas", "all_sound roots other_versions sicd_attributes sidd_attributes plane_other Objects.path_fits",
      "The Lean classes are generated from the text of /repo/src/aws/osml/formats by tools/gen_schema.py, one definition per dataclass with its lines; decided by the kernel. Restrictions on values (ranges, patterns) are not checked by xsdata and not modelled.")
claim("C154", "proved", "SarXml", "sicd_document sicd_renders sicd_tile_reloads_xml",
      "Assumed: whole numbers are written so that they are read as the same (Wholes), texts of values are faithful, and the text of the document is read as the document and mentions SICD and not SIDD (Written).")

claim("C155", "proved", "SiddXml", "sidd_document sidd_renders sidd_tile_reloads_xml_partial",
      "As C154, and whole numbers as floats are read as the same (Reals). sidd_tile_reloads_xml_partial is C128's partial statement without its assumption about xsdata; C128 itself is false.")

claim("C156", "proved", "Nested", "sicd_tiles_of_tiles",
      "By induction over the chain of files.  As for C127, it is assumed that GDAL gives the segment back that was written and that xsdata reads what it wrote (C154 proves that), and an approximate model can only make locating fail.")
claim("C157", "partial", "Nested", "sidd_tiles_of_tiles_partial sidd_tiles_of_fresh_tiles_partial sidd_tile_of_tile_misplaced",
      "False: pixels are off by up to one pixel inside the tile (C42), and by the corners of all tiles that the factories on the way had made before (C41).  Proved: the exact place for every chain, and that the error stays below one pixel at any depth if every factory on the way was new.  Unscaled tiles of more than one pixel each way.")

claim("C158", "proved", "FeaturesInPlace", "last_call_decides in_place_refines last_update_decides",
      "Features are objects on a heap, changed step by step; exceptions may come from the accessor, the grid or any single position (elevation files). The two geolocators share the accessor settings. in_place_refines links the model to the one of C65-C67.")
claim("C159", "partial", "FeaturesInPlace", "failed_call_partial failed_update_partial update_refines failed_call_keeps_changes failed_update_keeps_changes",
      "False as stated: failed_call_keeps_changes and failed_update_keeps_changes. Proved instead: exactly which features a raising call has changed and what of them; image properties are never changed by geolocation; a raising update changes image properties only, and only with deprecated properties, for collections or a detection that is not an object.")

claim("C160", "proved", "Geodesy", "geodetic_unique geodetic_exists elevation_is_distance geodetic_round_trip conversions_exist hae_height_on_ellipsoid",
      "pyproj is assumed to return some coordinate of the place in the standard ranges that is not below the centers of curvature (Geodetic, Standard); that such conversions exist is proved, also for the numbers of WGS-84. Exact arithmetic; how near pyproj's iteration gets is outside.")

claim("C161", "proved", "DesText", "bytes_read text_read truncated truncated_text",
      "binascii.a2b_base64 (not strict) and bytes.decode are modelled character by character; base64 text is defined independently (Spec/Base64). Values with characters outside ASCII raise in b64decode, which is in the model.")
claim("C162", "partial", "DesText", "unescape_eq_iff header_good data_written text_of_tile_partial read_back_partial backslash_lost",
      "False as stated: backslash_lost. Proved: what is read is the text with each backslash resolved, so it is the text exactly when there is no backslash; this gives the assumption ReadBack of C127. That GDAL unescapes the option, cuts the header by DESSHL and (before 3.9) shows the data in base64 is modelled from knowledge of GDAL, which is not part of the repository.")

claim("C163", "partial", "ScaledTiles", "scaled_tile_partial first_scaled_tile_partial scaling_spoils_next_tile",
      "False: scaling_spoils_next_tile. Proved: the exact place of every tile pixel after any requests, scaled or not, for images that may be chips themselves (rectangles along the axes); for the first tile of a factory the error stays below one pixel of the image each way. Tiles of more than one pixel each way; xsdata is assumed to keep the chip of the tile at hand; exact arithmetic.")

claim("C164", "proved", "XmlPaths", "path_at sicd_reads sicd_image_reads sidd_reads sidd_chip_reads",
      "Of xsdata as modelled in Model/Xsdata, which is part of the trusted base; the meaning of texts (float(), int(), members of enumerations) is a parameter. Elements are found by their local names; namespaces are checked too by the model, but the statement does not mention them.")

claim("C165", "proved", "XmlComplete", "path_of_at sicd_complete sicd_image_complete sicd_exactly sidd_complete sidd_exactly sidd_chip_complete sidd_chip_exactly",
      "For documents that xsdata accepts (C153 says which versions), of xsdata as modelled in Model/Xsdata. Assumed of the meaning of texts: the empty text is no number (only coefficients of polynomials need it, because xsdata does not look at an empty text of an element with attributes). The polynomials of a SIDD document must also convert (C61).")

claim("C166", "partial", "IndexInPlace", "intersects_later_partial nearest_later_partial index_is_a_snapshot_partial made_again_partial moved_feature_is_found_where_it_was removed_feature_shifts appended_feature_is_not_found",
      "False of the code: the tree keeps the geometries of the time when the index was made and the positions of that time (witnesses). Proved: no geolocation, whether it raises or not, and nothing done to other features or lists makes an answer wrong; whatever happens to features the answers are those of that time when the list has only grown; making the index again cures all of it. Missing: anything about an index after updates of its own features. The contract of shapely's tree is assumed as in C68.")
claim("C167", "proved", "DocumentLocated", "document_located read_located Located.located Located.found",
      "Over exact numbers and without an elevation model. The polynomials are as the standard asks for (each exponent once, at most the order); the scene center point is not below the track.")
claim("C168", "proved", "SiddLocated", "sidd_document_located chip_model",
      "Over exact numbers and without an elevation model. The polynomials and the plane are as the standard asks for; the corners of a chip are those of a parallelogram.")
claim("C169", "proved", "SimplexSearch", "search_makes_passes three_tries_agree no_value_400 rpc_settles_or_400 rsm_settles_or_400",
      "For SciPy's Nelder-Mead search as written out in Model/NelderMead, in exact arithmetic (trusted: SciPy is not in /repo).")

claim("C170", "proved", "Detections", "tile_detections_located chip_detections_located sicd_tile_detections_located",
      "Exact arithmetic. Image properties under the current names. For SICD tiles the approximate models of the image and of the file of the tile (if any) have to locate every pixel, as in C127.")

claim("C171", "proved", "SarRounded", "histogram_levels quarter_power_levels stronger_not_darker float_mean",
      "Finite pixels, no overflow: components 0 or between 2^-50 and 2^50 (2^-25 and 2^25 for histogram_stretch), scale 1 to 16, means 2^-60 to 2^60. np.mean is a parameter that is right to g roundings; float_mean shows g for every order of additions. What the types of NumPy round is a parameter too (Arith), so that it holds for NumPy 1 and 2.")

claim("C172", "proved", "TerrainLocated", "document_terrain_located terrain_located file_terrain",
      "Exact arithmetic. About pixels for which a place is given (C125 says when there is none). The points of the contour start below the horizontal plane of the platform, end at most as far above it, and none is exactly at the tolerance above the terrain (C58).")

claim("C173", "proved", "GridRounded", "located_between_nodes near_affine_located lipschitz_located degrees_located node_err located_outside",
      "Bounds of features up to 2^32 pixels, 2 to 4096 nodes, node values up to 2^40. NumPy's linspace and FITPACK's evaluation are written out from their sources as known (trusted: they are not in /repo); the coefficients that FITPACK fits are assumed to be the node values to 16 units in the last place. The sensor model and the rounding to six digits are exact, as in C118.")

claim("C174", "partial", "SiddTerrain", "sidd_document_terrain_partial right_of_track_elsewhere",
      "False of the code for a radar that looks to the right (C126): the builder gives no side, so the place is always to the left, and right_of_track_elsewhere says how far off it is at least. Proved: everything else, so all of it for a radar that looks to the left. Exact arithmetic; about pixels for which a place is given and whose contour is sampled in the ordinary way, as in C172.")

claim("C175", "proved", "AffineFeatures", "affine_features_located coordinate_located radians_near degrees_near",
      "Coordinates up to 2^20 (degrees are), bounds of features up to 2^32 pixels, 2 to 4096 nodes. NumPy's dot product is any sum of rounded products in any order (DotRounds, as in C132), linspace and FITPACK's evaluation as in C173; geojson's rounding to six digits is any that is right to half a unit of the sixth digit and a relative 2^-53. Sensor models without a transformation to WGS 84 (image_to_wgs84 is None), so the geotransform is in degrees and PROJ is not asked.")

claim("C176", "proved", "TileAffine", "tile_features_located tile_coordinate_located row_near",
      "Terms of the geotransform up to 2^19 (degrees are), windows up to 2^32 pixels; otherwise as in C175, for sensor models without a transformation to WGS 84. The geotransform that gdal.Translate writes for a window and an output size is written out from GDAL's source as known (trusted: it is not in /repo); the file format has to keep the six doubles, as GeoTIFF does.")

claim("C177", "proved", "AffineFeatures", "affine_features_return written_returns millionths_six six_digits_merge_pixels",
      "As in C175. The error of the matrix from np.linalg.inv at the pixel is the parameter rho (sigma). The caller converts degrees to radians with math.radians. six_digits_merge_pixels shows that the half millionth of a degree is not an artefact: geojson's six digits give pixels of a centimeter the same coordinates.")

claim("C178", "proved", "GridSmooth", "smooth_located bends_of_second parabola_bends",
      "Sizes and trusted libraries as in C173. Smoothness is stated by chords (Bends), which a bound of the second derivatives implies (bends_of_second). The sensor model in doubles need not be smooth: it has to be within delta of a smooth function.")

claim("C179", "proved", "OrthophotoSmooth", "grey_tile_smooth colour_tile_smooth smooth_follows line_close",
      "As in C120: square tiles, one band or at least three, exact arithmetic for the positions, cv2.remap assumed to stay between the pixels within one pixel of the position. Smoothness is stated by chords, which a bound of the second derivatives implies (C178, bends_of_second).")

claim("C180", "proved", "RpcSmooth", "grey_tile_rpc colour_tile_rpc rpc_follows parallel_bends meridian_bends ratio_bends projects computes_exists",
      "As in C120 and C179, but the computed positions only have to be within eta pixels of those of the RPC model over the reals; C132 gives an eta of a millionth of a pixel for doubles. The denominators have to be at least q in the cube of normalised coordinates, and the tile has to be in that cube. Cross terms such as L * P are counted as if they bent the projection, so the bound is not the least one.")

claim("C181", "proved", "RpcTiles", "grey_values_smooth grey_values_rpc bowed_computes",
      "cv2.remap is the model of C150 (positions rounded to a thirty-second of a pixel, weights of 15 bits). Grey images, square tiles, minmax or DRA. For an RPC model as in C180: the computed positions have to be within eta pixels of those over the reals.")

claim("C182", "proved", "RsmSmooth", "grey_tile_rsm colour_tile_rsm grey_values_rsm rsm_follows parallel_bends meridian_bends ratio_bends projects oblique_regular oblique_computes",
      "As in C180, for one section of an RSM model with a geodetic ground domain. Rectangular domains are not included, nor tiles across sections. C133 bounds the error eta of the computed positions in doubles.")

if __name__ == "__main__":
    C.sort(key=lambda c: int(c["property"][1:]))
    with open("/verif/MANIFEST.json", "w") as f:
        f.write('{"claims": [\n' + ",\n".join(json.dumps(c) for c in C) + "\n]}\n")
    print(len(C), "claims", sum(c["status"] == "proved" for c in C), "proved")
