{"claims": [
{"property": "C01", "status": "proved", "theorems": ["Verif.Props.DRA.dra_suggested_within_actual", "Verif.Props.DRA.dra_zero_last_is_default"], "note": ""},
{"property": "C02", "status": "partial", "theorems": ["Verif.Props.DRA.dra_suggested_range_ordered_iff_partial", "Verif.Props.DRA.dra_suggested_range_can_be_inverted"], "note": "The code can return an inverted range; the exact condition is proved and a witness given."},
{"property": "C03", "status": "partial", "theorems": ["Verif.Props.DRA.dra_empty_raises", "Verif.Props.DRA.dra_scale_invariant", "Verif.Props.DRA.dra_bucket_range_affine", "Verif.Props.DRA.dra_zero_last_bucket_ignored"], "note": "All parts hold except that a last_bucket_max of 0 is ignored (witness theorem)."},
{"property": "C04", "status": "partial", "theorems": ["Verif.Props.GdalConfig.config_block_restores_partial", "Verif.Props.GdalConfig.config_block_aliased_names_not_restored"], "note": "Proved for dictionaries whose names are different options to GDAL. False for a dictionary with two spellings of one option, because GDAL ignores case (second theorem). Options that come from environment variables are the subject of C149."},
{"property": "C05", "status": "partial", "theorems": ["Verif.Props.GdalConfig.nested_blocks_restore", "Verif.Props.GdalConfig.nested_blocks_outcome", "Verif.Props.GdalConfig.disjoint_blocks_any_schedule_restores_partial", "Verif.Props.GdalConfig.reentered_block_not_restored", "Verif.Props.GdalConfig.overlapping_blocks_not_restored"], "note": "False for re-entered objects and for overlapping blocks on the same option (witnesses)."},
{"property": "C06", "status": "partial", "theorems": ["Verif.Props.GdalConfig.credentials_inside_block_partial", "Verif.Props.GdalConfig.credentials_set_options", "Verif.Props.GdalConfig.credentials_refresh_inside_block", "Verif.Props.GdalConfig.caller_dictionaries_unchanged", "Verif.Props.GdalConfig.environment_has_own_copy", "Verif.Props.GdalConfig.credentials_inside_block_can_raise"], "note": "False when the credentials are first set inside the block: the exit raises KeyError (witness)."},
{"property": "C07", "status": "proved", "theorems": ["Verif.Props.GdalConfig.default_configuration_effect"], "note": ""},
{"property": "C08", "status": "proved", "theorems": ["Verif.Props.MapTiles.tile_for_location_contains", "Verif.Props.MapTiles.mercator_good"], "note": ""},
{"property": "C09", "status": "proved", "theorems": ["Verif.Props.MapTiles.adjacent_tiles_share_edge", "Verif.Props.MapTiles.tiles_partition_extent", "Verif.Props.MapTiles.tiles_cover_extent"], "note": ""},
{"property": "C10", "status": "proved", "theorems": ["Verif.Props.MapTiles.parent_tile", "Verif.Props.MapTiles.children_cover_tile", "Verif.Props.MapTiles.tile_size_irrelevant"], "note": ""},
{"property": "C11", "status": "partial", "theorems": ["Verif.Props.MapTiles.tile_index_valid_iff_partial", "Verif.Props.MapTiles.west_edge_column_negative", "Verif.Props.MapTiles.longitude_minus_180_has_no_valid_tile"], "note": "False on the west and south edges of the extent (column or row -1)."},
{"property": "C12", "status": "proved", "theorems": ["Verif.Props.MapTiles.limits_empty_raises", "Verif.Props.MapTiles.limits_cover_area"], "note": ""},
{"property": "C13", "status": "proved", "theorems": ["Verif.Props.MapTiles.tile_set_lookup", "Verif.Props.MapTiles.tile_description"], "note": ""},
{"property": "C14", "status": "proved", "theorems": ["Verif.Props.Coordinates.dms_string_shape", "Verif.Props.Coordinates.igeolo_length", "Verif.Props.Coordinates.ieee_onGlobe"], "note": "For every rounding that satisfies Spec.Float64.GoodRounding; instantiated with exact binary64."},
{"property": "C15", "status": "partial", "theorems": ["Verif.Props.Coordinates.dms_minutes_and_seconds_le_sixty_partial", "Verif.Props.Coordinates.dms_minutes_and_seconds_can_be_sixty"], "note": "Minutes and seconds can be 60 (witness); they are never more."},
{"property": "C16", "status": "proved", "theorems": ["Verif.Props.Coordinates.dms_string_denotes_coordinate"], "note": ""},
{"property": "C17", "status": "proved", "theorems": ["Verif.Props.Coordinates.format_pieces", "Verif.Props.Coordinates.format_spec_has_pieces", "Verif.Props.Coordinates.format_literal", "Verif.Props.Coordinates.hemisphere_and_degree_letters"], "note": ""},
{"property": "C18", "status": "partial", "theorems": ["Verif.Props.Coordinates.decimal_degrees_absolute_partial", "Verif.Props.Coordinates.decimal_degrees_lose_sign"], "note": "Decimal degrees lose the sign (witness); the absolute value is right."},
{"property": "C19", "status": "proved", "theorems": ["Verif.Props.DemTileSet.srtm_coverage", "Verif.Props.DemTileSet.srtm_name_layout", "Verif.Props.DemTileSet.srtm_name_iff_same_cell"], "note": ""},
{"property": "C20", "status": "partial", "theorems": ["Verif.Props.DemTileSet.generic_name_is_cell", "Verif.Props.DemTileSet.generic_coverage", "Verif.Props.DemTileSet.cellName_unique", "Verif.Props.DemTileSet.generic_name_is_cell_ieee_partial", "Verif.Props.DemTileSet.generic_name_collision_ieee"], "note": "Proved for exact arithmetic; in binary64 cells at 15, 30, 60 and 120 degrees get the neighbour's name (witness)."},
{"property": "C21", "status": "proved", "theorems": ["Verif.Props.Dem.cache_is_transparent"], "note": ""},
{"property": "C22", "status": "proved", "theorems": ["Verif.Props.Dem.cache_is_bounded", "Verif.Props.Dem.recent_tile_not_reloaded", "Verif.Props.Dem.few_tiles_loaded_once"], "note": ""},
{"property": "C23", "status": "proved", "theorems": ["Verif.Props.Dem.concurrent_queries_agree"], "note": "With look-up, load and store as atomic steps; finer steps are the subject of C73."},
{"property": "C24", "status": "proved", "theorems": ["Verif.Props.Dem.set_elevation_keeps_position", "Verif.Props.Dem.set_elevation_without_tile", "Verif.Props.Dem.set_elevation_on_surface", "Verif.Props.Dem.set_elevation_tiny_tile_raises"], "note": ""},
{"property": "C25", "status": "proved", "theorems": ["Verif.Props.Transforms.inverse_forward", "Verif.Props.Transforms.forward_inverse", "Verif.Props.Transforms.forward_defined_iff"], "note": ""},
{"property": "C26", "status": "proved", "theorems": ["Verif.Props.Transforms.estimate_recovers", "Verif.Props.Transforms.estimate_passes_through"], "note": "For exact arithmetic and every solver that returns a least squares solution."},
{"property": "C27", "status": "proved", "theorems": ["Verif.Props.Sensors.chipped_model_is_full_model", "Verif.Props.Sensors.crop_model_is_shifted_model", "Verif.Props.Sensors.crop_of_crop"], "note": ""},
{"property": "C28", "status": "proved", "theorems": ["Verif.Props.Sensors.affine_position", "Verif.Props.Sensors.affine_singular_iff", "Verif.Props.Sensors.affine_round_trip", "Verif.Props.Sensors.affine_height_offset"], "note": "affine_height_offset shows what goes wrong for a CRS that changes the height."},
{"property": "C29", "status": "proved", "theorems": ["Verif.Props.Rpc.rpc_world_to_image", "Verif.Props.Rpc.rpc_short_polynomial", "Verif.Props.Rpc.rpc_zero_scale"], "note": ""},
{"property": "C30", "status": "proved", "theorems": ["Verif.Props.Rpc.rpc_image_to_world", "Verif.Props.Rpc.ground_default", "Verif.Props.Rpc.search_round_trip", "Verif.Props.RsmModel.rsm_image_to_world", "Verif.Props.RsmModel.rsm_world_to_image"], "note": "The minimiser (SciPy Nelder-Mead) is any adaptive search; nothing is claimed about its convergence."},
{"property": "C31", "status": "proved", "theorems": ["Verif.Props.Rsm.rsm_polynomial", "Verif.Props.Rsm.rsm_polynomial_linear", "Verif.Props.Rsm.low_order_polynomial"], "note": ""},
{"property": "C32", "status": "proved", "theorems": ["Verif.Props.Rsm.normalise_inverts", "Verif.Props.Rsm.rectangular_domain_inverts", "Verif.Props.Rsm.geodetic_domain_inverts", "Verif.Props.Rsm.geodetic_2pi_domain"], "note": ""},
{"property": "C33", "status": "proved", "theorems": ["Verif.Props.RsmModel.sectioned_model_delegates", "Verif.Props.RsmModel.responsible_unique"], "note": ""},
{"property": "C34", "status": "proved", "theorems": ["Verif.Props.Sensors.composite_world_to_image", "Verif.Props.Sensors.composite_image_to_world", "Verif.Props.Sensors.composite_approximate_raises", "Verif.Props.Loading.composite_by_value"], "note": ""},
{"property": "C35", "status": "partial", "theorems": ["Verif.Props.Factory.factory_precedence_partial", "Verif.Props.Factory.unselected_unused_partial", "Verif.Props.Factory.sidd_ignores_selection"], "note": "Precedence and selection hold except for SIDD, which is used although its type is not selected (witness)."},
{"property": "C36", "status": "partial", "theorems": ["Verif.Props.Factory.usable_source_kept_partial", "Verif.Props.Factory.failed_des_discards_tre_model", "Verif.Props.Factory.malformed_ichipb_raises", "Verif.Props.Factory.bad_geo_transform_raises", "Verif.Props.Factory.bad_rsm_raises", "Verif.Props.Factory.bad_corners_raises"], "note": "False: a malformed ICHIPB raises AttributeError, a failed SICD/SIDD discards RSM/RPC, exceptions of three builders escape."},
{"property": "C37", "status": "partial", "theorems": ["Verif.Props.Tre.coefficients_stored_partial", "Verif.Props.Tre.negative_index_writes_elsewhere"], "note": "False for negative indices, which write at the end of the array."},
{"property": "C38", "status": "partial", "theorems": ["Verif.Props.Des.header_layout_partial", "Verif.Props.Des.overlong_value_shifts_header"], "note": "True for values that fit; a longer value shifts all later columns."},
{"property": "C39", "status": "partial", "theorems": ["Verif.Props.Des.segments_in_order", "Verif.Props.Des.no_declaration_unchanged", "Verif.Props.Des.prolog_removed_partial", "Verif.Props.Des.declaration_can_remain"], "note": "False for declarations that the regular expression does not match."},
{"property": "C40", "status": "proved", "theorems": ["Verif.Props.Updaters.sicd_tile_metadata", "Verif.Props.Updaters.sicd_scaled_request_rejected", "Verif.Props.Updaters.sicd_tile_of_tile"], "note": ""},
{"property": "C41", "status": "partial", "theorems": ["Verif.Props.Updaters.sidd_first_tile_partial", "Verif.Props.Updaters.sidd_tile_of_tile_partial", "Verif.Props.Updaters.sidd_tiles_accumulate", "Verif.Props.Updaters.sidd_one_pixel_tile_ends_factory"], "note": "False from the second tile of a factory on: the offsets of all earlier tiles add up; a one-pixel tile makes every later request raise."},
{"property": "C42", "status": "partial", "theorems": ["Verif.Props.Updaters.sidd_tile_model_partial", "Verif.Props.Updaters.sidd_tile_model_is_off"], "note": "False: writer and reader use different corner pixels; the model is off by less than a pixel."},
{"property": "C43", "status": "partial", "theorems": ["Verif.Props.Updaters.chip_corners_hit_partial", "Verif.Props.Updaters.chip_pixels_inside_partial", "Verif.Props.Updaters.crop_is_shift_partial", "Verif.Props.Updaters.one_pixel_chip_raises"], "note": "True for chips with at least two rows and columns; a one-pixel chip divides by zero."},
{"property": "C44", "status": "partial", "theorems": ["Verif.Props.TileFactory.tile_options", "Verif.Props.TileFactory.tile_independent_of_history_partial", "Verif.Props.TileFactory.sicd_history_free", "Verif.Props.TileFactory.sidd_tile_depends_on_history", "Verif.Props.TileFactory.tile_file_removed", "Verif.Props.TileFactory.failed_translate_leaves_file"], "note": "Options proved for every history; false for SIDD images, whose metadata depends on earlier tiles (witness)."},
{"property": "C45", "status": "partial", "theorems": ["Verif.Props.TileFactory.window_inside_partial", "Verif.Props.TileFactory.source_box_tight", "Verif.Props.TileFactory.no_tile_iff", "Verif.Props.TileFactory.level_fits_width", "Verif.Props.TileFactory.touching_tile_reads_nothing", "Verif.Props.TileFactory.thin_overlap_reads_nothing", "Verif.Props.TileFactory.tall_tile_undersampled", "Verif.Props.TileFactory.degenerate_box_raises"], "note": "Window inside the image and level proved; empty windows and undersampled tall tiles occur (witnesses)."},
{"property": "C46", "status": "partial", "theorems": ["Verif.Props.TileFactory.square_tile_partial", "Verif.Props.TileFactory.tile_is_transposed", "Verif.Props.TileFactory.one_pixel_tile_raises"], "note": "True for square tiles (exact positions for affine models); other tiles come out transposed."},
{"property": "C47", "status": "partial", "theorems": ["Verif.Props.TileFactory.adjusted_pixels", "Verif.Props.TileFactory.adjusted_band", "Verif.Props.TileFactory.dra_stretch", "Verif.Props.TileFactory.dra_narrow", "Verif.Props.TileFactory.adjusted_band_limits", "Verif.Props.TileFactory.minmax_ends_partial", "Verif.Props.TileFactory.minmax_maximum_dark", "Verif.Props.TileFactory.unadjusted_wraps", "Verif.Props.TileFactory.signed_minmax_partial", "Verif.Props.TileFactory.signed_bright_pixel_black"], "note": "Range and order proved for bands with statistics and for unsigned or floating-point pixels; the maximum maps to 255 only for minima that are not positive; without adjustment 16-bit values wrap. In a band of signed integers without statistics (the constructor computes them, so GDAL must have failed to keep them) the difference with the minimum wraps: exact characterisation and witness."},
{"property": "C48", "status": "partial", "theorems": ["Verif.Props.Sar.complex_power", "Verif.Props.Sar.amplitude_power", "Verif.Props.Sar.amplitude_phase_value", "Verif.Props.Sar.unknown_pixel_type", "Verif.Props.Sar.int16_power_partial", "Verif.Props.Sar.int16_power_overflows"], "note": "False for 16-bit pixels above 181 in absolute value (overflow), exactly characterised."},
{"property": "C49", "status": "partial", "theorems": ["Verif.Props.Sar.stretch_in_range", "Verif.Props.Sar.histogram_stretch_values", "Verif.Props.Sar.quarter_power_values", "Verif.Props.Sar.histogram_stretch_monotone_partial", "Verif.Props.Sar.quarter_power_monotone_partial", "Verif.Props.Sar.black_image_is_nan", "Verif.Props.Sar.linear_mapping_partial", "Verif.Props.Sar.linear_mapping_nan"], "note": "False for all-zero images and for linear mapping of values beyond 24 bits (NaN)."},
{"property": "C50", "status": "proved", "theorems": ["Verif.Props.Sicd.pixel_grid_inverse", "Verif.Props.Sicd.grid_plane_inverse", "Verif.Props.Sicd.image_plane_normal"], "note": ""},
{"property": "C51", "status": "partial", "theorems": ["Verif.Props.Sicd.ground_point_solves_partial", "Verif.Props.Sicd.ground_point_found", "Verif.Props.Sicd.ground_raise_justified", "Verif.Props.Sicd.ground_below_plane_not_raised", "Verif.Props.Sicd.ground_under_track_wrong_range"], "note": "The three equations hold and raised geometries are impossible ones; platforms below the plane or over the point directly under the track are not raised (witnesses)."},
{"property": "C52", "status": "partial", "theorems": ["Verif.Props.GdalUtils.scales_match_bands", "Verif.Props.GdalUtils.output_type_fits_partial", "Verif.Props.GdalUtils.mixed_types_get_last_type"], "note": "Scales and limits proved; the output type is the last band's, which is wrong for mixed types (witness)."},
{"property": "C53", "status": "partial", "theorems": ["Verif.Props.GdalUtils.integer_limits_partial", "Verif.Props.GdalUtils.float_limits", "Verif.Props.GdalUtils.unknown_type_limits", "Verif.Props.GdalUtils.int8_limits_wrong", "Verif.Props.GdalUtils.float32_limit_not_representable"], "note": "True for the listed integer types; GDT_Int8 falls back to the unsigned range."},
{"property": "C54", "status": "partial", "theorems": ["Verif.Props.GdalUtils.normalize_decision", "Verif.Props.GdalUtils.normalize_ignores_case", "Verif.Props.GdalUtils.normalize_idempotent", "Verif.Props.GdalUtils.select_empty", "Verif.Props.GdalUtils.select_first", "Verif.Props.GdalUtils.select_last_mentioned", "Verif.Props.GdalUtils.select_not_by_ending"], "note": "normalize_extension proved for ASCII letter case; select_extension looks for the extension anywhere in the path (witnesses)."},
{"property": "C55", "status": "proved", "theorems": ["Verif.Props.Sicd.scene_center_projects", "Verif.Props.Sicd.plane_grid_projects"], "note": ""},
{"property": "C56", "status": "partial", "theorems": ["Verif.Props.Sicd.search_verified_partial", "Verif.Props.Sicd.sidd_round_trip", "Verif.Props.Sicd.search_stops_unverified"], "note": "True unless the search is ended by its iteration limit (witness) or the returned pixel has no ground point (NaN), which ends the search as well."},
{"property": "C57", "status": "proved", "theorems": ["Verif.Props.SicdSurface.hae_height_exact", "Verif.Props.SicdSurface.hae_on_surface_kept"], "note": "pyproj's geodetic conversion is a parameter; assumed is that it gives the elevation back that a coordinate was made with, which Geodesy.hae_height_on_ellipsoid (C160) derives from the formula of the ellipsoid."},
{"property": "C58", "status": "partial", "theorems": ["Verif.Props.SicdSurface.contour_point_seen", "Verif.Props.SicdSurface.scan_reports_partial", "Verif.Props.SicdSurface.scan_sorted", "Verif.Props.SicdSurface.samples_span", "Verif.Props.SicdSurface.dem_points_seen", "Verif.Props.SicdSurface.tolerance_taken_for_below"], "note": "Exact description of the reported points; false for a sample exactly at the tolerance (witness)."},
{"property": "C59", "status": "proved", "theorems": ["Verif.Props.Sicd.slant_normal_outward", "Verif.Props.Sicd.ground_normal_outward"], "note": ""},
{"property": "C60", "status": "proved", "theorems": ["Verif.Props.SicdBuilder.chip_model_shifted"], "note": ""},
{"property": "C61", "status": "partial", "theorems": ["Verif.Props.SicdBuilder.poly1_native_partial", "Verif.Props.SicdBuilder.poly2_native_partial", "Verif.Props.SicdBuilder.negative_exponent_wraps"], "note": "True for exponents that are not negative; a negative exponent counts from the end."},
{"property": "C62", "status": "partial", "theorems": ["Verif.Props.Tre.section_grid_partial", "Verif.Props.Tre.missing_section_raises"], "note": "True for complete grids; a missing section raises KeyError."},
{"property": "C63", "status": "proved", "theorems": ["Verif.Props.Features.lookup_precedence", "Verif.Props.Features.only_image_properties", "Verif.Props.Features.plain_detection_raises"], "note": "Shapely's readers are parameters."},
{"property": "C64", "status": "partial", "theorems": ["Verif.Props.Features.touches_only_existing", "Verif.Props.Features.existing_are_rewritten", "Verif.Props.Features.later_lookup_partial", "Verif.Props.Features.written_geojson_reads_back", "Verif.Props.Features.holes_are_lost", "Verif.Props.Features.collection_raises"], "note": "Later lookup false for features with only geom_imcoords (holes lost) and for collections with deprecated properties (KeyError)."},
{"property": "C65", "status": "partial", "theorems": ["Verif.Props.Geolocation.shape_is_kept", "Verif.Props.Geolocation.list_of_features_partial", "Verif.Props.Geolocation.boxes_and_centers", "Verif.Props.Geolocation.empty_list", "Verif.Props.Geolocation.ring_becomes_line", "Verif.Props.Geolocation.no_geometry_raises", "Verif.Props.Geolocation.bbox_alone_gets_no_geometry"], "note": "False for lists without any geometry (raises) and for features with only an imageBBox (no geometry set)."},
{"property": "C66", "status": "partial", "theorems": ["Verif.Props.Geolocation.grid_covers_geometries_partial", "Verif.Props.Geolocation.bbox_can_be_outside"], "note": "False for an imageBBox beyond the imageGeometry: its corners can lie outside the grid."},
{"property": "C67", "status": "partial", "theorems": ["Verif.Props.Geolocation.affine_is_exact", "Verif.Props.Geolocation.exact_at_nodes", "Verif.Props.Geolocation.between_neighbouring_nodes", "Verif.Props.Geolocation.not_exact_outside"], "note": "Exact arithmetic, pixels inside the grid area; outside the value is held constant (witness)."},
{"property": "C68", "status": "partial", "theorems": ["Verif.Props.Geolocation.intersects_exactly_partial", "Verif.Props.Geolocation.nearest_exactly_partial", "Verif.Props.Geolocation.search_raises_iff", "Verif.Props.Geolocation.world_geometries_raise"], "note": "Image geometries, with the tree's contract as hypothesis; false for world geometries (TypeError)."},
{"property": "C69", "status": "proved", "theorems": ["Verif.Props.Rpc.triangle_is_equilateral"], "note": ""},
{"property": "C70", "status": "partial", "theorems": ["Verif.Props.GdalUtils.s3_location", "Verif.Props.GdalUtils.local_location_partial", "Verif.Props.GdalUtils.s3_inside_is_rewritten", "Verif.Props.GdalUtils.tile_decision"], "note": "An s3:/ inside a local path is rewritten too."},
{"property": "C71", "status": "partial", "theorems": ["Verif.Props.MapTiles.rows_are_mirrored_partial", "Verif.Props.MapTiles.rows_are_not_ogc_rows"], "note": "The code counts rows from the south; the exact relation to the standard row is proved."},
{"property": "C72", "status": "partial", "theorems": ["Verif.Props.Dem.failed_load_is_retried_partial", "Verif.Props.Dem.unreadable_tile_is_remembered"], "note": "True for loads that raise; false for loads that report None (the GDAL factory), which stay in the cache."},
{"property": "C73", "status": "partial", "theorems": ["Verif.Props.DemRace.no_cache_failure_partial", "Verif.Props.DemRace.poisoned_miss_fails", "Verif.Props.DemRace.poisoned_forever", "Verif.Props.DemRace.race_poisons_cache"], "note": "True when all tiles fit in the cache; false otherwise: a schedule leaves the cache raising KeyError for good."},
{"property": "C74", "status": "proved", "theorems": ["Verif.Props.Sensors.projective_model", "Verif.Props.Sensors.projective_model_through_gcps"], "note": ""},
{"property": "C75", "status": "proved", "theorems": ["Verif.Props.RsmModel.ground_domain_summary"], "note": ""},
{"property": "C76", "status": "partial", "theorems": ["Verif.Props.RsmModel.rsm_result_in_domain_partial", "Verif.Props.RsmModel.rsm_2pi_longitude_above_pi", "Verif.Props.RsmModel.rsm_2pi_projection_periodic", "Verif.Props.NelderMead.nelder_mead_stays_inside"], "note": "False for GEODETIC_2PI domains in the western hemisphere (witness); the result stays in the domain's box."},
{"property": "C77", "status": "partial", "theorems": ["Verif.Props.RsmModel.hint_overlapping_domain_reaches_partial", "Verif.Props.RsmModel.hint_west_of_domain_sticks_to_edge", "Verif.Props.NelderMead.nelder_mead_simplex_search"], "note": "True when the simplex around the hint overlaps the inside of the domain.  Otherwise false: the bounded search clips the hint to the domain's edge and cannot leave it."},
{"property": "C78", "status": "proved", "theorems": ["Verif.Props.Tre.rpc_builder", "Verif.Props.Tre.rpc_builder_raises", "Verif.Props.Tre.rsm_builder_single", "Verif.Props.Tre.rsm_builder_sectioned", "Verif.Props.Tre.cscrna_builder", "Verif.Props.Factory.ichipb_reader"], "note": ""},
{"property": "C79", "status": "partial", "theorems": ["Verif.Props.Des.text_fields_left_justified_iff_partial", "Verif.Props.Des.text_fields_not_left_justified"], "note": "False: the code right-justifies text fields; left justified are exactly the values of full width and the blank ones."},
{"property": "C80", "status": "partial", "theorems": ["Verif.Props.GdalUtils.varied_bands_have_scales_partial", "Verif.Props.GdalUtils.constant_band_raises"], "note": "True for floating point bands and bands with values at least one apart.  False: IndexError for constant integer bands."},
{"property": "C81", "status": "partial", "theorems": ["Verif.Props.GdalUtils.minmax_within_one_bucket_partial", "Verif.Props.GdalUtils.minmax_cuts_maximum"], "note": "False: the upper limit is the lower edge of the last bucket, one bucket width below the maximum."},
{"property": "C82", "status": "partial", "theorems": ["Verif.Props.TileFactory.sampling_position_partial", "Verif.Props.TileFactory.sampling_off_grid"], "note": "Exact at full resolution and for aligned windows; otherwise off by the fraction of a level pixel."},
{"property": "C83", "status": "partial", "theorems": ["Verif.Props.TileFactory.transparent_iff_zero_channel", "Verif.Props.TileFactory.image_pixels_transparent"], "note": "False: pixels with a zero channel are transparent."},
{"property": "C84", "status": "partial", "theorems": ["Verif.Props.TileFactory.nitf_compression_partial", "Verif.Props.TileFactory.compression_options", "Verif.Props.TileFactory.nitf_lzw_float_uses_j2k"], "note": "False when LZW is asked for."},
{"property": "C85", "status": "partial", "theorems": ["Verif.Props.Geolocation.between_neighbouring_nodes", "Verif.Props.Geolocation.antimeridian"], "note": "Longitudes are between those of the neighbouring nodes as numbers, which is false across the antimeridian (witness)."},
{"property": "C86", "status": "partial", "theorems": ["Verif.Props.Sicd.sidd_round_trip", "Verif.Props.Sicd.sidd_ignores_height", "Verif.Props.Sicd.elevated_point_off_contour", "Verif.Props.Sicd.off_plane_never_found"], "note": "True for points on the plane (sidd_round_trip).  False: elevation is projected away first."},
{"property": "C87", "status": "partial", "theorems": ["Verif.Props.SicdSurface.covered_points_meet_terrain_partial", "Verif.Props.SicdSurface.uncovered_sample_returned"], "note": "True for contours with terrain data all along.  False: every sample without data is returned."},
{"property": "C88", "status": "proved", "theorems": ["Verif.Props.SicdSurface.range_rate_is_derivative"], "note": ""},
{"property": "C89", "status": "partial", "theorems": ["Verif.Props.SicdBuilder.built_model_partial", "Verif.Props.SicdBuilder.model_without_projection", "Verif.Props.SicdFiles.unsupported_algorithm_raises", "Verif.Props.SicdFiles.sensor_point", "Verif.Props.SicdFiles.sensor_failure"], "note": "False for other image formation and grid types (witness)."},
{"property": "C90", "status": "proved", "theorems": ["Verif.Props.DRA.dra_suggested_range_values", "Verif.Props.DRA.dra_percentile_buckets_unique", "Verif.Props.DRA.dra_default_arguments"], "note": ""},
{"property": "C91", "status": "proved", "theorems": ["Verif.Props.Dem.describe_region_result"], "note": ""},
{"property": "C92", "status": "partial", "theorems": ["Verif.Props.Dem.set_elevation_missing_tile_partial", "Verif.Props.Dem.void_posts_become_elevations"], "note": "False: posts that carry the no-data value become elevations; unchanged only when the whole tile is missing."},
{"property": "C93", "status": "proved", "theorems": ["Verif.Props.Des.embedded_document"], "note": "Base 64 decoding and XML writing are parameters."},
{"property": "C94", "status": "proved", "theorems": ["Verif.Props.TreModel.sectioned_image"], "note": "pyproj's geocentric conversion and SciPy's minimiser are parameters."},
{"property": "C95", "status": "proved", "theorems": ["Verif.Props.Orthophoto.igeolo_denotes_corners", "Verif.Props.Orthophoto.igeolo_error_iff"], "note": ""},
{"property": "C96", "status": "proved", "theorems": ["Verif.Props.Orthophoto.displayed_channels"], "note": "The SAR combination is a parameter here (C49 has its values)."},
{"property": "C97", "status": "partial", "theorems": ["Verif.Props.Orthophoto.written_pixel_partial", "Verif.Props.Orthophoto.red_and_blue_exchanged", "Verif.Props.Orthophoto.two_bands_opacity_becomes_red", "Verif.Props.Orthophoto.many_bands_unadjusted_no_tile"], "note": "False: OpenCV takes channels as blue, green, red; unadjusted images of two bands get a wrong red, of four or more no tile.  True for grey images."},
{"property": "C98", "status": "partial", "theorems": ["Verif.Props.Orthophoto.centre_elevation_partial", "Verif.Props.Orthophoto.elevation_not_of_centre"], "note": "True for square images; x and y of the centre are exchanged."},
{"property": "C99", "status": "partial", "theorems": ["Verif.Props.Orthophoto.projection_failure_no_tile_partial", "Verif.Props.Orthophoto.centre_error_raised"], "note": "True for the projection of the tile; an error at the image centre is raised."},
{"property": "C100", "status": "partial", "theorems": ["Verif.Props.Orthophoto.grey_tile_shows_image_partial", "Verif.Props.Orthophoto.colour_tile_shows_image_partial", "Verif.Props.Orthophoto.minmax_tile_produced"], "note": "Square tiles, affine sensor model, windows on the grid of the level, tile pixels on whole image pixels.  cv2.remap is a parameter that returns the pixel at whole positions."},
{"property": "C101", "status": "proved", "theorems": ["Verif.Props.SarTiles.segment_selected", "Verif.Props.SarTiles.no_segment_selected", "Verif.Props.SarTiles.same_segment_as_sensor_model"], "note": "When SICD models are not excluded by the caller of the sensor model factory."},
{"property": "C102", "status": "partial", "theorems": ["Verif.Props.SarTiles.sar_tile_marked_complex_partial", "Verif.Props.SarTiles.sidd_tile_marked_complex"], "note": "False for SIDD: its tiles get the same marks."},
{"property": "C103", "status": "partial", "theorems": ["Verif.Props.SarTiles.sar_brightness_partial", "Verif.Props.SarTiles.sar_tiles_differ_without_statistics", "Verif.Props.SarTiles.sar_zero_statistics"], "note": "True with statistics that are not 0; otherwise the mean of the tile is used, or pixels are NaN (witnesses)."},
{"property": "C104", "status": "partial", "theorems": ["Verif.Props.SarTiles.sar_images_show_partial", "Verif.Props.SarTiles.quarter_power_is_half_power", "Verif.Props.SarTiles.histogram_stretch_is_of_power"], "note": "False: power values are passed where magnitudes are expected, so that the first shows the magnitude and the second the power."},
{"property": "C105", "status": "proved", "theorems": ["Verif.Props.SarTiles.decibels_law", "Verif.Props.SarTiles.decibels_values"], "note": ""},
{"property": "C106", "status": "proved", "theorems": ["Verif.Props.SarTiles.gcp_model_through_points"], "note": "numpy's lstsq is a parameter that minimises the residual."},
{"property": "C107", "status": "partial", "theorems": ["Verif.Props.Orthophoto.pixel_centre_shows_neighbours", "Verif.Props.Orthophoto.grey_tile_shows_image_partial"], "note": "False: whole image coordinates are taken as pixel centres."},
{"property": "C108", "status": "partial", "theorems": ["Verif.Props.DemFiles.corner_elevation_partial", "Verif.Props.DemFiles.post_elevation_is_mean"], "note": "False: the values are taken to be at the upper left corners of the pixels, half a pixel off."},
{"property": "C109", "status": "partial", "theorems": ["Verif.Props.DemFiles.geographic_dem_partial", "Verif.Props.DemFiles.projected_dem_is_misread", "Verif.Props.DemFiles.dem_crs_ignored"], "note": "False: the reference system is ignored.  True for files in longitude and latitude."},
{"property": "C110", "status": "proved", "theorems": ["Verif.Props.DemFiles.dem_summary", "Verif.Props.DemFiles.unusable_file_ignored"], "note": "pyproj's geocentric conversion is a parameter; files with an invertible geo transform and at least 2 by 2 posts."},
{"property": "C111", "status": "proved", "theorems": ["Verif.Props.Loading.load_unreadable", "Verif.Props.Loading.load_asks_for_everything"], "note": ""},
{"property": "C112", "status": "proved", "theorems": ["Verif.Props.Loading.rpc_image"], "note": "For images whose data extension segments have no SAR documents and chips that are rectangles; lstsq and the minimiser are parameters."},
{"property": "C113", "status": "proved", "theorems": ["Verif.Props.Loading.rsm_image", "Verif.Props.Loading.sectioned_rsm_image"], "note": "For images whose data extension segments have no SAR documents and chips that are rectangles; lstsq, the minimiser and pyproj's conversion are parameters."},
{"property": "C114", "status": "proved", "theorems": ["Verif.Props.Loading.geo_transform_image"], "note": "pyproj's transformation is a parameter with its inverse law as hypothesis."},
{"property": "C115", "status": "partial", "theorems": ["Verif.Props.Loading.gcp_image_partial", "Verif.Props.Loading.projected_gcps_misplaced", "Verif.Props.Loading.gcp_crs_ignored"], "note": "False: the reference system of the control points is ignored.  True for points in degrees."},
{"property": "C116", "status": "proved", "theorems": ["Verif.Props.Transforms.estimate_order_irrelevant", "Verif.Props.Sensors.projective_order_irrelevant", "Verif.Props.Loading.gcp_order_irrelevant"], "note": "numpy's lstsq is a parameter that returns a shortest least squares solution; lstsq_function shows that there is exactly one."},
{"property": "C117", "status": "proved", "theorems": ["Verif.Props.MapTilesFloat.index_valid_iff", "Verif.Props.MapTilesFloat.tile_near_location", "Verif.Props.MapTilesFloat.parent_tile", "Verif.Props.MapTilesFloat.edges_shared", "Verif.Props.MapTilesFloat.edges_on_grid", "Verif.Props.MapTilesFloat.tile_size_irrelevant", "Verif.Props.MapTilesFloat.limits_cover_area", "Verif.Props.MapTilesFloat.agrees_with_exact", "Verif.Props.MapTilesFloat.exact_containment_fails", "Verif.Props.MapTilesFloat.deep_tiles_collapse"], "note": "All operations of map_tileset_wmq.py rounded with exact binary64 rounding. Assumed of pyproj: the forward direction returns doubles, and is increasing for the limits. agrees_with_exact connects the tiles with those of C08-C12; exact_containment_fails shows that the tolerance is needed, deep_tiles_collapse that the zoom bound for non-empty tiles is. Overflow to infinity is not modelled (not reachable for levels up to 900 inside the square)."},
{"property": "C118", "status": "partial", "theorems": ["Verif.Props.GeolocationGrid.affine_located_exactly", "Verif.Props.GeolocationGrid.near_affine_error", "Verif.Props.GeolocationGrid.lipschitz_error", "Verif.Props.GeolocationGrid.raises_near_the_edge"], "note": "Proved when the sensor model locates a margin of ten pixels around the features; the last sentence is false without it: raises_near_the_edge proves that a sensor model which locates the pixels of the image only makes the call raise for a feature near the left edge. Assumed: shapely's centroid lies in the bounding box of the vertices; exact arithmetic (math.degrees and the rounding of geojson are arbitrary functions)."},
{"property": "C119", "status": "partial", "theorems": ["Verif.Props.TileThreads.exclusive_tiles_right_partial", "Verif.Props.TileThreads.uninterrupted_is_sequential", "Verif.Props.TileThreads.requests_in_order", "Verif.Props.TileThreads.values_were_asked_for", "Verif.Props.TileThreads.threads_mix_metadata"], "note": "The factory has no lock. Right for every schedule in which no two threads are between the size check and the end of the rendering (what a lock would give); threads_mix_metadata is a schedule of two threads in which a tile gets metadata that belongs to no requested tile. values_were_asked_for and requests_in_order hold for all schedules. GDAL's own behaviour under threads is not modelled."},
{"property": "C120", "status": "proved", "theorems": ["Verif.Props.OrthophotoNear.grey_tile_near", "Verif.Props.OrthophotoNear.colour_tile_near", "Verif.Props.OrthophotoNear.uniform_shown"], "note": "One-band images and images of three bands or more (channels in the order blue, green, red, see C97). Assumed of cv2.remap: the value at a position inside the array lies between the least and the greatest of the pixels within one pixel of it. Positions that lie in the image by less than 2 delta are left out: there the interpolated position may be outside the window. Exact arithmetic for the positions."},
{"property": "C121", "status": "proved", "theorems": ["Verif.Props.SicdRoundTrip.round_trip", "Verif.Props.SicdRoundTrip.search_converges", "Verif.Props.SicdRoundTrip.foot_exists", "Verif.Props.SicdRoundTrip.slant_flat", "Verif.Props.SicdRoundTrip.slant_round_trip"], "note": "Flatness is a hypothesis of round_trip and search_converges; for the level track it is proved. Exact arithmetic; pyproj's conversions inverse to each other."},
{"property": "C122", "status": "proved", "theorems": ["Verif.Props.SicdEllipsoid.plane_normal_unit", "Verif.Props.SicdEllipsoid.default_plane_tangent", "Verif.Props.SicdEllipsoid.hae_accuracy", "Verif.Props.Sicd.slant_normal_outward"], "note": "Assumed of pyproj: geodetic_to_geocentric is the textbook formula of the ellipsoid, geocentric_to_geodetic its inverse, and heights of points farther than half the polar radius from the center are not below the center of curvature. Exact arithmetic. The iteration limit is in the statement."},
{"property": "C123", "status": "proved", "theorems": ["Verif.Props.SicdContour.polyval_sum", "Verif.Props.SicdContour.polyval2d_sum", "Verif.Props.SicdContour.contour_withTime", "Verif.Props.SicdContour.range_rate_is_derivative", "Verif.Props.SicdContour.rgazcomp_ground", "Verif.Props.SicdContour.offsets_apply", "Verif.Props.SicdContour.offset_translates"], "note": "Exact arithmetic. For range-azimuth compressed grids the range rate is not the derivative of the range over time; rgazcomp_ground says what it means instead."},
{"property": "C124", "status": "proved", "theorems": ["Verif.Props.SicdDem.dem_projection", "Verif.Props.SicdSide.samples_from_lowest"], "note": "Premises inside the statement: range above 0, positive post spacing, contour angle that starts below the horizontal plane of the platform and ends at most as far above it; no sample exactly at the tolerance (C58) for order and position of the points. Elevation models that raise are not modelled. Exact arithmetic."},
{"property": "C125", "status": "partial", "theorems": ["Verif.Props.SicdDem.dem_location_partial", "Verif.Props.SicdDem.no_tile_no_location", "Verif.Props.SicdDem.terrain_above_summary_not_found"], "note": "The answer is the first point, nearest to the center of the Earth. False: without a usable file for the scene center every pixel raises AttributeError (no_tile_no_location); terrain higher than the summary of the tile of the scene center (a neighboring tile, or GDAL's approximate statistics) is not found and raises IndexError although the contour meets it."},
{"property": "C126", "status": "partial", "theorems": ["Verif.Props.SicdSide.terrain_side_partial", "Verif.Props.SicdSide.right_looking_sidd_misplaced"], "note": "SICD images: the side of the metadata, in full. SIDD images: always the left side, because the builder passes no side of track and the default is L; so every pixel of a right-looking SIDD image is located on the wrong side of the track (right_looking_sidd_misplaced). SIDD images without a chip; a chip only changes the pixel (C42)."},
{"property": "C127", "status": "proved", "theorems": ["Verif.Props.SicdFiles.sicd_tile_reloads"], "note": "Assumptions, as hypotheses: xsdata reads back the document that it wrote (Renders), and GDAL gives back the requested segment first, with the same document (ReadBack). Both are met by the example; the first is shown in C154. The approximate models of image and tile are pinned down by IsApproximate; where one of them fails, so does image_to_world."},
{"property": "C128", "status": "partial", "theorems": ["Verif.Props.SiddFiles.sidd_tile_reloads_partial", "Verif.Props.SiddFiles.first_sidd_tile_partial", "Verif.Props.SiddFiles.second_sidd_tile_misplaced"], "note": "The property is false. Proved: which pixel of the image each tile pixel is taken for, after any unscaled requests of more than one pixel each way; for the first tile of a factory less than a pixel off, for later tiles off by the corners of all earlier ones (witness with a concrete SIDD model). Assumptions as for C127; C155 shows the one about xsdata. Scaled requests and images that are chips themselves are in C163."},
{"property": "C129", "status": "proved", "theorems": ["Verif.Props.SarFiles.sicd_file_model", "Verif.Props.SarFiles.sidd_file_round_trip"], "note": "xsdata and pyproj are parameters; the round trip assumes that geodetic_to_geocentric inverts geocentric_to_geodetic. Where the approximate model of the file fails, so does image_to_world (Answers). Crops are chips with the corners of a window of more than one pixel each way, as C41 writes them."},
{"property": "C130", "status": "partial", "theorems": ["Verif.Props.Extensions.image_extension_partial", "Verif.Props.Extensions.empty_extension", "Verif.Props.GdalUtils.select_not_by_ending"], "note": "The ending of the path does not decide: an extension later in the list wins when the path has it anywhere after a dot (select_not_by_ending), and two spaces in a driver's list give the empty extension (empty_extension). image_extension_partial states what decides, for all registries and paths. Letters change case as in ASCII."},
{"property": "C131", "status": "proved", "theorems": ["Verif.Props.Memory.coordinates_are_values", "Verif.Props.Memory.conversions_write_nothing", "Verif.Props.Memory.set_elevation_writes_elevation"], "note": "A coordinate is identified with its array; attributes of sensor models are values. With SICD models in the program, its elevation models are ones that do not raise (TerrainPair), as in Model/SicdDem. Programs whose arguments have the wrong class stop with an error in model and specification alike."},
{"property": "C132", "status": "proved", "theorems": ["Verif.Props.Rounded.rpc_rounding", "Verif.Props.Rounded.rpc_rounding_pixels", "Verif.Props.Rounded.rpc_polynomial_rounding"], "note": "The rounding is any function with relative error 2^-53 plus 2^-200 up to 2^250 (Rounds); binary64 round to nearest is one (Lemmas.Rounded.double_rounds). Overflow is outside the range. The model divides where Python does; no use of fused operations."},
{"property": "C133", "status": "proved", "theorems": ["Verif.Props.RoundedRsm.rsm_rounding", "Verif.Props.RoundedRsm.rsm_rounding_pixels", "Verif.Props.RoundedRsm.rsm_polynomial_rounding"], "note": "Rounds as in C132. x ** i is an external function right to one unit in the last place (PowRounds). The conversion of geodetic to rectangular ground domains is not included."},
{"property": "C134", "status": "proved", "theorems": ["Verif.Props.RoundedAffine.affine_round_trip", "Verif.Props.RoundedAffine.north_up_round_trip", "Verif.Props.RoundedAffine.left_dot_rounds"], "note": "Rounds as in C132. Components of np.matmul are an external inner product with four roundings (DotRounds); the plain loop is one (left_dot_rounds). The inverse matrix is that of np.linalg.inv; its error enters the bound."},
{"property": "C135", "status": "proved", "theorems": ["Verif.Props.Nearby.rpc_pixels_separate_places", "Verif.Props.Nearby.rpc_one_place_per_pixel", "Verif.Props.Nearby.rpc_search_accuracy", "Verif.Props.NearbyRsm.rsm_pixels_separate_places", "Verif.Props.NearbyRsm.rsm_one_place_per_pixel", "Verif.Props.NearbyRsm.rsm_search_accuracy"], "note": "That the search stops with a small misfit is not claimed: scipy's Nelder-Mead is any minimiser. RSM with a geodetic ground domain (both longitude ranges, away from the cut). The conditions are sufficient ones on the coefficients, met by the examples with perspective and sloping terrain."},
{"property": "C136", "status": "partial", "theorems": ["Verif.Props.DRARounded.rounded_suggested_within_actual", "Verif.Props.DRARounded.rounded_from_counts", "Verif.Props.DRARounded.rounded_scale_invariant", "Verif.Props.DRARounded.rounded_scale_not_invariant"], "note": "Proved for histograms of pixels. False for factors that are not integers: weighting [1, 48, 1] by 0.7 moves the suggested minimum by a bucket (rounded_scale_not_invariant). binary64 round to nearest even (rne64); the defaults are the doubles nearest to 0.02, 0.98, 0.2 and 0.4. Other percentages can hit a threshold exactly and are left out."},
{"property": "C137", "status": "partial", "theorems": ["Verif.Props.Seams.srtm_elevation_partial", "Verif.Props.Seams.srtm_steepness_partial", "Verif.Props.Seams.srtm_seam", "Verif.Props.Seams.slope_has_a_step"], "note": "The code takes the corner of a pixel for its centre (C108), so the surface is shifted by half a post inside a cell and cut off at its border: at the border the elevation jumps by half the difference of two posts (srtm_seam, slope_has_a_step). Proved: the exact value everywhere (srtm_elevation_partial), no jump inside a cell, jumps of at most L at borders (srtm_steepness_partial). The spline is the one of degree one of C22."},
{"property": "C138", "status": "proved", "theorems": ["Verif.Props.GeolocationRepeat.geolocate_again", "Verif.Props.GeolocationRepeat.only_the_box_matters", "Verif.Props.GeolocationRepeat.order_does_not_matter"], "note": "The sensor and elevation models are functions: a model whose answers change between calls is left out. Exact arithmetic; for doubles the theorems hold as well, as the same operations are done on the same numbers."},
{"property": "C139", "status": "partial", "theorems": ["Verif.Props.GeolocationRepeat.company_partial", "Verif.Props.GeolocationRepeat.company_of_affine_partial", "Verif.Props.GeolocationRepeat.company_matters"], "note": "False: with a sensor model that is not affine the grid of another list interpolates differently (company_matters, with the default grid size). Proved: the places differ by at most 4 epsilon when the sensor model is within epsilon of an affine one around the features, and not at all when it is affine."},
{"property": "C140", "status": "partial", "theorems": ["Verif.Props.OrthophotoSeams.shared_meridian_partial", "Verif.Props.OrthophotoSeams.shared_parallel_partial", "Verif.Props.OrthophotoSeams.uniform_agrees", "Verif.Props.OrthophotoSeams.seam_at_full_resolution", "Verif.Props.OrthophotoSeams.seam_of_statistics", "Verif.Props.OrthophotoSeams.seam_of_levels"], "note": "Both tiles sample the shared edge at the same positions, for every sensor model, and show values of the pixels around them.  False (witnesses): the window of one tile ends at the edge, tiles are read from different levels, and without statistics each tile is adjusted on its own.  Grey images, square tiles."},
{"property": "C141", "status": "partial", "theorems": ["Verif.Props.NelderMead.nelder_mead_no_worse", "Verif.Props.NelderMead.rpc_no_worse_than_corners", "Verif.Props.NelderMead.rsm_no_worse_than_corners", "Verif.Props.NelderMead.rpc_good_guess_good_place_partial", "Verif.Props.NelderMead.rsm_good_guess_good_place_partial", "Verif.Props.NelderMead.rsm_good_guess_good_place", "Verif.Props.NelderMead.small_search_distance_ignores_pixel", "Verif.Props.NelderMead.perfect_guess_is_lost"], "note": "SciPy's Nelder-Mead is modelled (exact arithmetic, stable sorting).  The bound by the corners of the triangle holds.  False: the first guess itself is never looked at, and a search distance of up to a millionth of a degree ends the search at once (theorems for every such model).  The bound on the place assumes that the result is in the box; for RSM this is proved."},
{"property": "C142", "status": "proved", "theorems": ["Verif.Props.NelderMead.nelder_mead_at_most_400", "Verif.Props.NelderMead.rpc_bounded_work", "Verif.Props.NelderMead.rsm_bounded_work"], "note": "For the model of SciPy's Nelder-Mead with its default limits."},
{"property": "C143", "status": "partial", "theorems": ["Verif.Props.Mercator.tile_places_partial", "Verif.Props.Mercator.deep_tile_within_a_pixel_partial", "Verif.Props.Mercator.grey_tile_mercator_partial", "Verif.Props.RpcTiles.grey_mercator_rpc_partial", "Verif.Props.RsmTiles.grey_mercator_rsm_partial", "Verif.Props.Mercator.northern_rows_too_far_south", "Verif.Props.Mercator.level_one_row_misplaced"], "note": "False: rows take equal steps of latitude, not of northing, and pixels are spread from edge to edge.  Proved: the deviation is at most half a pixel in the columns and 1/2 + size pi / 2^(z+1) pixels in the rows, less than one pixel from level 10 (256) or 11 (512) on; north of the equator every inner row is too far south; at level 1 a place is over 50 pixels off."},
{"property": "C144", "status": "proved", "theorems": ["Verif.Props.Composite.composite_rpc_miss", "Verif.Props.Composite.composite_rsm_miss", "Verif.Props.Composite.composite_rsm_place"], "note": "For every minimiser that is no worse than its start (and stays in bounds), which C141 and C76 prove of the model of SciPy's Nelder-Mead."},
{"property": "C145", "status": "proved", "theorems": ["Verif.Props.Slopes.surface_steepness", "Verif.Props.Slopes.file_steepness", "Verif.Props.Slopes.file_is_ground", "Verif.Props.Slopes.one_place_per_pixel_over_file", "Verif.Props.Slopes.file_is_rsm_ground", "Verif.Props.Slopes.rsm_one_place_per_pixel_over_file", "Verif.Props.Slopes.elevation_in_doubles", "Verif.Props.Slopes.north_up_elevation"], "note": "For files in longitude and latitude; places in different files differ by more, see C137. The evaluation of the spline in doubles follows FITPACK's fpbspl and fpbisp; overflow is not modelled. The error of np.linalg.inv is a parameter, four roundings per element for north up files."},
{"property": "C146", "status": "proved", "theorems": ["Verif.Props.RoundedSicd.ground_point_in_doubles", "Verif.Props.RoundedSicd.ground_point_found"], "note": "For one position (the code also takes arrays of positions). Velocity within 45 degrees of the plane, grazing angle below about 87 degrees, reference point not under the track. Inner products in any order of summation; square roots correctly rounded; overflow is not modelled."},
{"property": "C147", "status": "partial", "theorems": ["Verif.Props.OrthophotoLarge.wide_image_no_tile", "Verif.Props.OrthophotoLarge.whole_image_raises", "Verif.Props.OrthophotoLarge.tile_iff_window_fits", "Verif.Props.OrthophotoLarge.window_fits_partial"], "note": "False: without overviews a tile that shows all columns of an image with 32763 columns or more raises, because cv2.remap asserts fewer than 32767 rows and columns (trusted, OpenCV is not in /repo). Proved: with MINMAX a tile is made exactly when the window that is read is below the limit; it is for smaller images, and for larger ones if the level that suits the tile exists and the footprint is not elongated."},
{"property": "C148", "status": "proved", "theorems": ["Verif.Props.RoundedTransforms.chip_forward_in_doubles", "Verif.Props.RoundedTransforms.chip_inverse_in_doubles", "Verif.Props.RoundedTransforms.chipped_model_in_doubles", "Verif.Props.RoundedTransforms.crop_in_doubles", "Verif.Props.RoundedTransforms.control_points_in_doubles", "Verif.Props.RoundedTransforms.unequal_lists_raise"], "note": "For every rounding with relative error 2^-53 (IEEE doubles are one). The residual of numpy.linalg.lstsq is the hypothesis rho; nothing else is assumed about the solver. The products of the corner coordinates that enter the matrix are assumed exact, which is proved for whole and half pixels. Control points: forward direction."},
{"property": "C149", "status": "partial", "theorems": ["Verif.Props.GdalEnvironment.block_restores_value_partial", "Verif.Props.GdalEnvironment.follows_environment_iff", "Verif.Props.GdalEnvironment.environment_not_followed", "Verif.Props.GdalEnvironment.same_as_table"], "note": "False: __enter__ reads the effective value and __exit__ writes it into GDAL's table, which hides the environment variable from then on (environment_not_followed). Proved: the value right after the block is the one before it, and the options that keep following the environment are exactly those that were in the table or had no variable. Trusted: GetConfigOption looks into the table and then for an environment variable."},
{"property": "C150", "status": "proved", "theorems": ["Verif.Props.Remap.remap_interpolates", "Verif.Props.Remap.remap_samples", "Verif.Props.Remap.remap_accuracy", "Verif.Props.Remap.grey_tile_values"], "note": "For a model of OpenCV's general 8-bit code (trusted, OpenCV is not in /repo). remap_interpolates and remap_samples are what C100, C107, C120, C140 and C143 assume of cv2.remap."},
{"property": "C151", "status": "partial", "theorems": ["Verif.Props.Remap.outside_transparent_partial", "Verif.Props.RpcTiles.outside_rpc_partial", "Verif.Props.RsmTiles.outside_rsm_partial", "Verif.Props.Remap.opaque_outside", "Verif.Props.Remap.two_bands_opaque"], "note": "False: the edge of the image is repeated for two pixels of the level, and the tile is opaque there; tiles of two-band images without adjustment are opaque everywhere, because the alpha mask becomes the red channel. Proved: transparent from 3 pixels of the level outside the image on (and twice the deviation of the sensor model from an affine one), for adjusted images and those of one or three bands."},
{"property": "C152", "status": "proved", "theorems": ["Verif.Props.Xsdata.parse_render", "Verif.Props.Xsdata.parse_render_parse"], "note": "For a model of xsdata's data binding (elements, attributes, texts, token lists, xsi:type, fixed values) on element trees; written from its documented behaviour (xsdata is not in /repo). Faithful: the text of a value that was read is read as the same value. Wildcards, mixed content and nillable elements do not occur in the dataclasses and are left out."},
{"property": "C153", "status": "proved", "theorems": ["Verif.Props.Schemas.all_sound", "Verif.Props.Schemas.roots", "Verif.Props.Schemas.other_versions", "Verif.Props.Schemas.sicd_attributes", "Verif.Props.Schemas.sidd_attributes", "Verif.Props.Schemas.plane_other", "Verif.Props.Objects.path_fits"], "note": "The Lean classes are generated from the text of /repo/src/aws/osml/formats by tools/gen_schema.py, one definition per dataclass with its lines; decided by the kernel. Restrictions on values (ranges, patterns) are not checked by xsdata and not modelled."},
{"property": "C154", "status": "proved", "theorems": ["Verif.Props.SarXml.sicd_document", "Verif.Props.SarXml.sicd_renders", "Verif.Props.SarXml.sicd_tile_reloads_xml"], "note": "Assumed: whole numbers are written so that they are read as the same (Wholes), texts of values are faithful, and the text of the document is read as the document and mentions SICD and not SIDD (Written)."},
{"property": "C155", "status": "proved", "theorems": ["Verif.Props.SiddXml.sidd_document", "Verif.Props.SiddXml.sidd_renders", "Verif.Props.SiddXml.sidd_tile_reloads_xml_partial"], "note": "As C154, and whole numbers as floats are read as the same (Reals). sidd_tile_reloads_xml_partial is C128's partial statement without its assumption about xsdata; C128 itself is false."},
{"property": "C156", "status": "proved", "theorems": ["Verif.Props.Nested.sicd_tiles_of_tiles"], "note": "By induction over the chain of files.  As for C127, it is assumed that GDAL gives the segment back that was written and that xsdata reads what it wrote (C154 proves that), and an approximate model can only make locating fail."},
{"property": "C157", "status": "partial", "theorems": ["Verif.Props.Nested.sidd_tiles_of_tiles_partial", "Verif.Props.Nested.sidd_tiles_of_fresh_tiles_partial", "Verif.Props.Nested.sidd_tile_of_tile_misplaced"], "note": "False: pixels are off by up to one pixel inside the tile (C42), and by the corners of all tiles that the factories on the way had made before (C41).  Proved: the exact place for every chain, and that the error stays below one pixel at any depth if every factory on the way was new.  Unscaled tiles of more than one pixel each way."},
{"property": "C158", "status": "proved", "theorems": ["Verif.Props.FeaturesInPlace.last_call_decides", "Verif.Props.FeaturesInPlace.in_place_refines", "Verif.Props.FeaturesInPlace.last_update_decides"], "note": "Features are objects on a heap, changed step by step; exceptions may come from the accessor, the grid or any single position (elevation files). The two geolocators share the accessor settings. in_place_refines links the model to the one of C65-C67."},
{"property": "C159", "status": "partial", "theorems": ["Verif.Props.FeaturesInPlace.failed_call_partial", "Verif.Props.FeaturesInPlace.failed_update_partial", "Verif.Props.FeaturesInPlace.update_refines", "Verif.Props.FeaturesInPlace.failed_call_keeps_changes", "Verif.Props.FeaturesInPlace.failed_update_keeps_changes"], "note": "False as stated: failed_call_keeps_changes and failed_update_keeps_changes. Proved instead: exactly which features a raising call has changed and what of them; image properties are never changed by geolocation; a raising update changes image properties only, and only with deprecated properties, for collections or a detection that is not an object."},
{"property": "C160", "status": "proved", "theorems": ["Verif.Props.Geodesy.geodetic_unique", "Verif.Props.Geodesy.geodetic_exists", "Verif.Props.Geodesy.elevation_is_distance", "Verif.Props.Geodesy.geodetic_round_trip", "Verif.Props.Geodesy.conversions_exist", "Verif.Props.Geodesy.hae_height_on_ellipsoid"], "note": "pyproj is assumed to return some coordinate of the place in the standard ranges that is not below the centers of curvature (Geodetic, Standard); that such conversions exist is proved, also for the numbers of WGS-84. Exact arithmetic; how near pyproj's iteration gets is outside."},
{"property": "C161", "status": "proved", "theorems": ["Verif.Props.DesText.bytes_read", "Verif.Props.DesText.text_read", "Verif.Props.DesText.truncated", "Verif.Props.DesText.truncated_text"], "note": "binascii.a2b_base64 (not strict) and bytes.decode are modelled character by character; base64 text is defined independently (Spec/Base64). Values with characters outside ASCII raise in b64decode, which is in the model."},
{"property": "C162", "status": "partial", "theorems": ["Verif.Props.DesText.unescape_eq_iff", "Verif.Props.DesText.header_good", "Verif.Props.DesText.data_written", "Verif.Props.DesText.text_of_tile_partial", "Verif.Props.DesText.read_back_partial", "Verif.Props.DesText.backslash_lost"], "note": "False as stated: backslash_lost. Proved: what is read is the text with each backslash resolved, so it is the text exactly when there is no backslash; this gives the assumption ReadBack of C127. That GDAL unescapes the option, cuts the header by DESSHL and (before 3.9) shows the data in base64 is modelled from knowledge of GDAL, which is not part of the repository."},
{"property": "C163", "status": "partial", "theorems": ["Verif.Props.ScaledTiles.scaled_tile_partial", "Verif.Props.ScaledTiles.first_scaled_tile_partial", "Verif.Props.ScaledTiles.scaling_spoils_next_tile"], "note": "False: scaling_spoils_next_tile. Proved: the exact place of every tile pixel after any requests, scaled or not, for images that may be chips themselves (rectangles along the axes); for the first tile of a factory the error stays below one pixel of the image each way. Tiles of more than one pixel each way; xsdata is assumed to keep the chip of the tile at hand; exact arithmetic."},
{"property": "C164", "status": "proved", "theorems": ["Verif.Props.XmlPaths.path_at", "Verif.Props.XmlPaths.sicd_reads", "Verif.Props.XmlPaths.sicd_image_reads", "Verif.Props.XmlPaths.sidd_reads", "Verif.Props.XmlPaths.sidd_chip_reads"], "note": "Of xsdata as modelled in Model/Xsdata, which is part of the trusted base; the meaning of texts (float(), int(), members of enumerations) is a parameter. Elements are found by their local names; namespaces are checked too by the model, but the statement does not mention them."},
{"property": "C165", "status": "proved", "theorems": ["Verif.Props.XmlComplete.path_of_at", "Verif.Props.XmlComplete.sicd_complete", "Verif.Props.XmlComplete.sicd_image_complete", "Verif.Props.XmlComplete.sicd_exactly", "Verif.Props.XmlComplete.sidd_complete", "Verif.Props.XmlComplete.sidd_exactly", "Verif.Props.XmlComplete.sidd_chip_complete", "Verif.Props.XmlComplete.sidd_chip_exactly"], "note": "For documents that xsdata accepts (C153 says which versions), of xsdata as modelled in Model/Xsdata. Assumed of the meaning of texts: the empty text is no number (only coefficients of polynomials need it, because xsdata does not look at an empty text of an element with attributes). The polynomials of a SIDD document must also convert (C61)."},
{"property": "C166", "status": "partial", "theorems": ["Verif.Props.IndexInPlace.intersects_later_partial", "Verif.Props.IndexInPlace.nearest_later_partial", "Verif.Props.IndexInPlace.index_is_a_snapshot_partial", "Verif.Props.IndexInPlace.made_again_partial", "Verif.Props.IndexInPlace.moved_feature_is_found_where_it_was", "Verif.Props.IndexInPlace.removed_feature_shifts", "Verif.Props.IndexInPlace.appended_feature_is_not_found"], "note": "False of the code: the tree keeps the geometries of the time when the index was made and the positions of that time (witnesses). Proved: no geolocation, whether it raises or not, and nothing done to other features or lists makes an answer wrong; whatever happens to features the answers are those of that time when the list has only grown; making the index again cures all of it. Missing: anything about an index after updates of its own features. The contract of shapely's tree is assumed as in C68."},
{"property": "C167", "status": "proved", "theorems": ["Verif.Props.DocumentLocated.document_located", "Verif.Props.DocumentLocated.read_located", "Verif.Props.Located.located", "Verif.Props.Located.found"], "note": "Over exact numbers and without an elevation model. The polynomials are as the standard asks for (each exponent once, at most the order); the scene center point is not below the track."},
{"property": "C168", "status": "proved", "theorems": ["Verif.Props.SiddLocated.sidd_document_located", "Verif.Props.SiddLocated.chip_model"], "note": "Over exact numbers and without an elevation model. The polynomials and the plane are as the standard asks for; the corners of a chip are those of a parallelogram."},
{"property": "C169", "status": "proved", "theorems": ["Verif.Props.SimplexSearch.search_makes_passes", "Verif.Props.SimplexSearch.three_tries_agree", "Verif.Props.SimplexSearch.no_value_400", "Verif.Props.SimplexSearch.rpc_settles_or_400", "Verif.Props.SimplexSearch.rsm_settles_or_400"], "note": "For SciPy's Nelder-Mead search as written out in Model/NelderMead, in exact arithmetic (trusted: SciPy is not in /repo)."},
{"property": "C170", "status": "proved", "theorems": ["Verif.Props.Detections.tile_detections_located", "Verif.Props.Detections.chip_detections_located", "Verif.Props.Detections.sicd_tile_detections_located"], "note": "Exact arithmetic. Image properties under the current names. For SICD tiles the approximate models of the image and of the file of the tile (if any) have to locate every pixel, as in C127."},
{"property": "C171", "status": "proved", "theorems": ["Verif.Props.SarRounded.histogram_levels", "Verif.Props.SarRounded.quarter_power_levels", "Verif.Props.SarRounded.stronger_not_darker", "Verif.Props.SarRounded.float_mean"], "note": "Finite pixels, no overflow: components 0 or between 2^-50 and 2^50 (2^-25 and 2^25 for histogram_stretch), scale 1 to 16, means 2^-60 to 2^60. np.mean is a parameter that is right to g roundings; float_mean shows g for every order of additions. What the types of NumPy round is a parameter too (Arith), so that it holds for NumPy 1 and 2."},
{"property": "C172", "status": "proved", "theorems": ["Verif.Props.TerrainLocated.document_terrain_located", "Verif.Props.TerrainLocated.terrain_located", "Verif.Props.TerrainLocated.file_terrain"], "note": "Exact arithmetic. About pixels for which a place is given (C125 says when there is none). The points of the contour start below the horizontal plane of the platform, end at most as far above it, and none is exactly at the tolerance above the terrain (C58)."},
{"property": "C173", "status": "proved", "theorems": ["Verif.Props.GridRounded.located_between_nodes", "Verif.Props.GridRounded.near_affine_located", "Verif.Props.GridRounded.lipschitz_located", "Verif.Props.GridRounded.degrees_located", "Verif.Props.GridRounded.node_err", "Verif.Props.GridRounded.located_outside"], "note": "Bounds of features up to 2^32 pixels, 2 to 4096 nodes, node values up to 2^40. NumPy's linspace and FITPACK's evaluation are written out from their sources as known (trusted: they are not in /repo); the coefficients that FITPACK fits are assumed to be the node values to 16 units in the last place. The sensor model and the rounding to six digits are exact, as in C118."},
{"property": "C174", "status": "partial", "theorems": ["Verif.Props.SiddTerrain.sidd_document_terrain_partial", "Verif.Props.SiddTerrain.right_of_track_elsewhere"], "note": "False of the code for a radar that looks to the right (C126): the builder gives no side, so the place is always to the left, and right_of_track_elsewhere says how far off it is at least. Proved: everything else, so all of it for a radar that looks to the left. Exact arithmetic; about pixels for which a place is given and whose contour is sampled in the ordinary way, as in C172."},
{"property": "C175", "status": "proved", "theorems": ["Verif.Props.AffineFeatures.affine_features_located", "Verif.Props.AffineFeatures.coordinate_located", "Verif.Props.AffineFeatures.radians_near", "Verif.Props.AffineFeatures.degrees_near"], "note": "Coordinates up to 2^20 (degrees are), bounds of features up to 2^32 pixels, 2 to 4096 nodes. NumPy's dot product is any sum of rounded products in any order (DotRounds, as in C132), linspace and FITPACK's evaluation as in C173; geojson's rounding to six digits is any that is right to half a unit of the sixth digit and a relative 2^-53. Sensor models without a transformation to WGS 84 (image_to_wgs84 is None), so the geotransform is in degrees and PROJ is not asked."},
{"property": "C176", "status": "proved", "theorems": ["Verif.Props.TileAffine.tile_features_located", "Verif.Props.TileAffine.tile_coordinate_located", "Verif.Props.TileAffine.row_near"], "note": "Terms of the geotransform up to 2^19 (degrees are), windows up to 2^32 pixels; otherwise as in C175, for sensor models without a transformation to WGS 84. The geotransform that gdal.Translate writes for a window and an output size is written out from GDAL's source as known (trusted: it is not in /repo); the file format has to keep the six doubles, as GeoTIFF does."},
{"property": "C177", "status": "proved", "theorems": ["Verif.Props.AffineFeatures.affine_features_return", "Verif.Props.AffineFeatures.written_returns", "Verif.Props.AffineFeatures.millionths_six", "Verif.Props.AffineFeatures.six_digits_merge_pixels"], "note": "As in C175. The error of the matrix from np.linalg.inv at the pixel is the parameter rho (sigma). The caller converts degrees to radians with math.radians. six_digits_merge_pixels shows that the half millionth of a degree is not an artefact: geojson's six digits give pixels of a centimeter the same coordinates."},
{"property": "C178", "status": "proved", "theorems": ["Verif.Props.GridSmooth.smooth_located", "Verif.Props.GridSmooth.bends_of_second", "Verif.Props.GridSmooth.parabola_bends"], "note": "Sizes and trusted libraries as in C173. Smoothness is stated by chords (Bends), which a bound of the second derivatives implies (bends_of_second). The sensor model in doubles need not be smooth: it has to be within delta of a smooth function."},
{"property": "C179", "status": "proved", "theorems": ["Verif.Props.OrthophotoSmooth.grey_tile_smooth", "Verif.Props.OrthophotoSmooth.colour_tile_smooth", "Verif.Props.OrthophotoSmooth.smooth_follows", "Verif.Props.OrthophotoSmooth.line_close"], "note": "As in C120: square tiles, one band or at least three, exact arithmetic for the positions, cv2.remap assumed to stay between the pixels within one pixel of the position. Smoothness is stated by chords, which a bound of the second derivatives implies (C178, bends_of_second)."},
{"property": "C180", "status": "proved", "theorems": ["Verif.Props.RpcSmooth.grey_tile_rpc", "Verif.Props.RpcSmooth.colour_tile_rpc", "Verif.Props.RpcSmooth.rpc_follows", "Verif.Props.RpcSmooth.parallel_bends", "Verif.Props.RpcSmooth.meridian_bends", "Verif.Props.RpcSmooth.ratio_bends", "Verif.Props.RpcSmooth.projects", "Verif.Props.RpcSmooth.computes_exists"], "note": "As in C120 and C179, but the computed positions only have to be within eta pixels of those of the RPC model over the reals; C132 gives an eta of a millionth of a pixel for doubles. The denominators have to be at least q in the cube of normalised coordinates, and the tile has to be in that cube. Cross terms such as L * P are counted as if they bent the projection, so the bound is not the least one."},
{"property": "C181", "status": "proved", "theorems": ["Verif.Props.RpcTiles.grey_values_smooth", "Verif.Props.RpcTiles.grey_values_rpc", "Verif.Props.RpcTiles.bowed_computes"], "note": "cv2.remap is the model of C150 (positions rounded to a thirty-second of a pixel, weights of 15 bits). Grey images, square tiles, minmax or DRA. For an RPC model as in C180: the computed positions have to be within eta pixels of those over the reals."},
{"property": "C182", "status": "proved", "theorems": ["Verif.Props.RsmSmooth.grey_tile_rsm", "Verif.Props.RsmSmooth.colour_tile_rsm", "Verif.Props.RsmSmooth.grey_values_rsm", "Verif.Props.RsmSmooth.rsm_follows", "Verif.Props.RsmSmooth.parallel_bends", "Verif.Props.RsmSmooth.meridian_bends", "Verif.Props.RsmSmooth.ratio_bends", "Verif.Props.RsmSmooth.projects", "Verif.Props.RsmSmooth.oblique_regular", "Verif.Props.RsmSmooth.oblique_computes"], "note": "As in C180, for one section of an RSM model with a geodetic ground domain. Rectangular domains are not included, nor tiles across sections. C133 bounds the error eta of the computed positions in doubles."}
]}
