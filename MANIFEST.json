{
 "claims": [
  {
   "property": "C01",
   "status": "proved",
   "theorems": [
    "C01_tiles_partition",
    "C01_tiles_defined",
    "C01_first_tile_largest",
    "C01_blocks"
   ],
   "note": "block_windows gives a partition of the image for every image and block shape."
  },
  {
   "property": "C02",
   "status": "proved",
   "theorems": [
    "C02_ortho_pixels",
    "C02_tile_values",
    "C02_schedule_independent",
    "C02_completes",
    "C02_mutual_exclusion",
    "C02_no_deadlock",
    "C02_size_fails"
   ],
   "note": "Thread pool as an interleaving of worker steps; the final ortho does not depend on the schedule. Completion needs a source and tiles within OpenCV's limit of 32766 pixels: with a side of 32767, which the code accepts, every outcome is an error (C02_size_fails); the statement is of orthos that are written."
  },
  {
   "property": "C03",
   "status": "proved",
   "theorems": [
    "C03_tile_grid_centres",
    "C03_tile_grid_shape"
   ],
   "note": "Exact arithmetic; float rounding not modelled."
  },
  {
   "property": "C04",
   "status": "partial",
   "theorems": [
    "C04_per_band_data",
    "C04_all_bands_mask",
    "C04_per_band_mask",
    "C04_mask_partial",
    "C04_mask_fails",
    "C04_dilated_data_fails"
   ],
   "note": "Data equal without dilation. The mask (per band: that of band 1) and dilated data differ; counterexamples proved."
  },
  {
   "property": "C05",
   "status": "partial",
   "theorems": [
    "C05_block_independent",
    "C05_dilated_fails"
   ],
   "note": "Holds without dilation; counterexample with dilation proved."
  },
  {
   "property": "C06",
   "status": "partial",
   "theorems": [
    "C06_remap_values",
    "C06_remap_mask",
    "C06_nan_masked",
    "C06_remap_partial",
    "C06_fails"
   ],
   "note": "Mask is exactly \"all bands equal nodata\"; valid values equal to nodata are masked too (counterexample)."
  },
  {
   "property": "C07",
   "status": "proved",
   "theorems": [
    "C07_dilation",
    "C07_no_dilation",
    "C07_when",
    "C07_never"
   ],
   "note": ""
  },
  {
   "property": "C08",
   "status": "partial",
   "theorems": [
    "C08_default_nodata_fails",
    "C08_default_nodata_undistorted_fails",
    "C08_default_nodata_partial",
    "C08_validation"
   ],
   "note": "The documented default never works: dictionary lookup with a dtype object raises KeyError."
  },
  {
   "property": "C09",
   "status": "proved",
   "theorems": [
    "C09_expand_least",
    "C09_expand_grid",
    "C09_expand_size"
   ],
   "note": "Exact arithmetic."
  },
  {
   "property": "C10",
   "status": "proved",
   "theorems": [
    "C10_utm_zone",
    "C10_utm_periodic",
    "C10_utm_hemisphere"
   ],
   "note": ""
  },
  {
   "property": "C11",
   "status": "proved",
   "theorems": [
    "C11_float_to_int",
    "C11_inf_to_int",
    "C11_int_to_int",
    "C11_nan_float",
    "C11_fits",
    "C11_int_to_float"
   ],
   "note": "For the five supported types; the integer that NaN becomes is left arbitrary."
  },
  {
   "property": "C12",
   "status": "partial",
   "theorems": [
    "C12_nodata_or_mask",
    "C12_mask_default",
    "C12_compress",
    "C12_size",
    "C12_creation_options",
    "C12_errors",
    "C12_jpeg_refused",
    "C12_mask_options_fails",
    "C12_layout"
   ],
   "note": "Everything holds without creation options; with them the default mask request does not follow the compression in use (counterexample)."
  },
  {
   "property": "C13",
   "status": "proved",
   "theorems": [
    "C13_overviews",
    "C13_min_level_pixels_fails"
   ],
   "note": "Proved for the defaults used by the library; the bound fails for a min_level_pixels that is not a power of two."
  },
  {
   "property": "C14",
   "status": "partial",
   "theorems": [
    "C14_no_overwrite_partial",
    "C14_existing_raises",
    "C14_handle_fails",
    "C14_unusable",
    "C14_written"
   ],
   "note": "For every sequence of output operations on named targets; a file object opened by the user is written whatever overwrite is (counterexample)."
  },
  {
   "property": "C15",
   "status": "partial",
   "theorems": [
    "C15_atomic_fails",
    "C15_write_param_partial",
    "C15_success"
   ],
   "note": "Not atomic: interior parameters are written before the CRS check (counterexample). Proved: what each outcome leaves behind."
  },
  {
   "property": "C16",
   "status": "partial",
   "theorems": [
    "C16_validate_iff",
    "C16_sound",
    "C16_empty_list_fails",
    "C16_complete_partial",
    "C16_errors",
    "C16_empty_schema_fails"
   ],
   "note": "Exact characterisation proved. An empty list is refused by one-item list schemas, and an empty dictionary schema raises IndexError (witnesses)."
  },
  {
   "property": "C17",
   "status": "proved",
   "theorems": [
    "C17_gcps_total",
    "C17_ext_total",
    "C17_rpc_total"
   ],
   "note": "For every decoded value. Text decoding is not modelled (its failures are caught and repackaged)."
  },
  {
   "property": "C18",
   "status": "partial",
   "theorems": [
    "C18_int_total_partial",
    "C18_int_total_fails"
   ],
   "note": "Holds when root, sizes, types and name have the expected python types; witnesses of other exceptions otherwise."
  },
  {
   "property": "C19",
   "status": "proved",
   "theorems": [
    "C19_gcps_round_trip",
    "C19_gcps_round_trip_all",
    "C19_no_gcps_fails"
   ],
   "note": "Images without GCPs are not kept; a dictionary without GCPs cannot be read back (witness)."
  },
  {
   "property": "C20",
   "status": "partial",
   "theorems": [
    "C20_int_round_trip_partial",
    "C20_fails"
   ],
   "note": "Holds unless there is no camera, a camera has the ID \"camera\", or a parameter value is one that the reader cannot make; witnesses."
  },
  {
   "property": "C21",
   "status": "proved",
   "theorems": [
    "C21_ext_round_trip",
    "C21_empty_fails",
    "C21_geographic_refused"
   ],
   "note": "Given that the CRS string form parses to the same CRS. An empty dictionary cannot be read back (witness)."
  },
  {
   "property": "C22",
   "status": "proved",
   "theorems": [
    "C22_rpc_round_trip",
    "C22_integer_offset_fails"
   ],
   "note": "For parameters with the types of the reader schema; integer offsets are refused on reading (witness)."
  },
  {
   "property": "C23",
   "status": "partial",
   "theorems": [
    "C23_all_read",
    "C23_first_error",
    "C23_progress",
    "C23_terminates",
    "C23_same_name_fails",
    "C23_error_types"
   ],
   "note": "Proved for all interleavings and distinct file names; files with the same name in different directories overwrite each other (counterexample)."
  },
  {
   "property": "C24",
   "status": "partial",
   "theorems": [
    "C24_linked_partial",
    "C24_collision_fails",
    "C24_types",
    "C24_interior",
    "C24_same_interior",
    "C24_reconstructions_fails"
   ],
   "note": "Holds unless two camera IDs become equal when the \"v2 \" prefix is stripped (counterexample), and for files with one reconstruction: read_osfm_int_param refuses or ignores the others (counterexample)."
  },
  {
   "property": "C25",
   "status": "proved",
   "theorems": [
    "C25_format",
    "C25_set_only",
    "C25_needs",
    "C25_row_fields",
    "C25_rows",
    "C25_crs",
    "C25_read",
    "C25_same_name_fails",
    "C25_bad_rows_fails",
    "C25_fields",
    "C25_crs_source"
   ],
   "note": "Text parsing and dialect detection are not modelled. Bad values in rows give ValueError or TypeError rather than ParamError, and rows for files of the same name overwrite each other (witnesses)."
  },
  {
   "property": "C26",
   "status": "proved",
   "theorems": [
    "C26_get",
    "C26_get_ok",
    "C26_get_missing",
    "C26_get_incomplete"
   ],
   "note": "For every history of get calls, with cameras as heap references."
  },
  {
   "property": "C27",
   "status": "partial",
   "theorems": [
    "C27_partial",
    "C27_fails"
   ],
   "note": "Fails when a later get is for another image of the same camera ID: the returned camera is shared and updated in place (counterexample). Proved: the camera stays valid as long as later calls are for images of other cameras."
  },
  {
   "property": "C28",
   "status": "partial",
   "theorems": [
    "C28_current_partial",
    "C28_refine_params",
    "C28_refined_partial",
    "C28_stem_fails",
    "C28_atomic_fails",
    "C28_unknown"
   ],
   "note": "Holds when keys are plain file names; with keys that are file stems a camera from before refine stays cached (counterexample)."
  },
  {
   "property": "C29",
   "status": "proved",
   "theorems": [
    "C29_poly",
    "C29_eval",
    "C29_nan",
    "C29_pointwise",
    "C29_nan_warped"
   ],
   "note": "GDAL evaluation is modelled by the RPC00B polynomial (trusted); proved what world_to_pixel does around it and that the coefficient order gives the standard polynomial."
  },
  {
   "property": "C30",
   "status": "proved",
   "theorems": [
    "C30_count",
    "C30_fields",
    "C30_transforms",
    "C30_shift"
   ],
   "note": "Over a field, for points with non-zero denominators."
  },
  {
   "property": "C31",
   "status": "partial",
   "theorems": [
    "C31_shift_zero_mean",
    "C31_shift_optimal",
    "C31_shift_idempotent",
    "C31_drift_zero_mean",
    "C31_drift_uncorrelated",
    "C31_drift_optimal",
    "C31_drift_idempotent_partial",
    "C31_drift_same_column_fails"
   ],
   "note": "Everything proved for shift; for shift-drift idempotence needs GCPs that are not all in one row or column: with GCPs in one column the minimum norm solution breaks a perfect model (counterexample)."
  },
  {
   "property": "C32",
   "status": "proved",
   "theorems": [
    "C32_pixel",
    "C32_world",
    "C32_pixel_point",
    "C32_world_point"
   ],
   "note": "Over the reals, for cameras made by the constructor and arrays of points through the validation of the API."
  },
  {
   "property": "C33",
   "status": "proved",
   "theorems": [
    "C33_opk_rotation",
    "C33_rpy_rotation",
    "C33_camera_rotation",
    "C33_opk_entries"
   ],
   "note": "Over the reals."
  },
  {
   "property": "C34",
   "status": "partial",
   "theorems": [
    "C34_opk_recover_partial",
    "C34_angles",
    "C34_gimbal_fails",
    "C34_exact",
    "C34_exact_angles"
   ],
   "note": "Exact: the rotation is recovered unless phi is 90 or -90 degrees and it has another angle too (C34_exact); kappa is then lost (C34_gimbal_fails)."
  },
  {
   "property": "C35",
   "status": "partial",
   "theorems": [
    "C35_projection_partial",
    "C35_rodrigues_partial",
    "C35_aa",
    "C35_gimbal_fails",
    "C35_exact"
   ],
   "note": "Exact: holds unless phi is 90 or -90 degrees and there is another angle too (C35_exact, C35_gimbal_fails). cv2.Rodrigues is modelled by its documented formula, proved to be a rotation."
  },
  {
   "property": "C36",
   "status": "partial",
   "theorems": [
    "C36_nav",
    "C36_rotation",
    "C36_opk_partial",
    "C36_level",
    "C36_yaw",
    "C36_tilted_fails",
    "C36_pitch",
    "C36_roll"
   ],
   "note": "The composed matrix is a rotation for every horizontal north vector; the angles recover it unless phi is 90 or -90 degrees. A north vector that is not horizontal gives no rotation (counterexample). The pyproj transforms that give the north vector are not modelled."
  },
  {
   "property": "C37",
   "status": "partial",
   "theorems": [
    "C37_scale",
    "C37_sensor",
    "C37_landscape_partial",
    "C37_portrait_fails",
    "C37_centre",
    "C37_rejects",
    "C37_two_focal",
    "C37_offsets",
    "C37_singular"
   ],
   "note": "For portrait images the code uses the image width, not the larger dimension that the documentation names (refuted for all portrait images)."
  },
  {
   "property": "C38",
   "status": "partial",
   "theorems": [
    "C38_rebuild",
    "C38_projection_partial",
    "C38_skew_fails"
   ],
   "note": "The intrinsic matrix is rebuilt exactly (for matrices without skew, as the calibration flags give); the whole projection agrees with OpenCV unless phi is 90 or -90 degrees. OpenCV calibration itself is not modelled."
  },
  {
   "property": "C39",
   "status": "proved",
   "theorems": [
    "C39_rays",
    "C39_front",
    "C39_exact"
   ],
   "note": "For pinhole cameras, for all real pixel coordinates between the centres of the first and last pixels."
  },
  {
   "property": "C40",
   "status": "partial",
   "theorems": [
    "C40_below_partial",
    "C40_mirror",
    "C40_fails"
   ],
   "note": "False in general: every point behind the camera is projected as its mirror image (counterexample). Proved for points below a camera that passes the horizon check."
  },
  {
   "property": "C41",
   "status": "partial",
   "theorems": [
    "C41_first",
    "C41_fallback_partial",
    "C41_vertical_fails",
    "C41_spacing",
    "C41_linear",
    "C41_cap",
    "C41_accuracy",
    "C41_uncapped",
    "C41_integer_partial",
    "C41_integer_fails"
   ],
   "note": "For vertical rays that miss the surface the point at the maximum elevation is returned (counterexample). Surface interpolation by cv2.remap is a parameter."
  },
  {
   "property": "C42",
   "status": "partial",
   "theorems": [
    "C42_on_border",
    "C42_default",
    "C42_count_partial",
    "C42_square",
    "C42_odd_fails",
    "C42_even_fails"
   ],
   "note": "The number of points is within two of num_pts, but never odd (refuted for all odd numbers) and possibly zero."
  },
  {
   "property": "C43",
   "status": "proved",
   "theorems": [
    "C43_maps",
    "C43_alpha",
    "C43_distort",
    "C43_used"
   ],
   "note": "For every history of alpha and distort changes and reads."
  },
  {
   "property": "C44",
   "status": "proved",
   "theorems": [
    "C44_clip",
    "C44_alpha_one",
    "C44_alpha_zero",
    "C44_no_distortion",
    "C44_between",
    "C44_corners"
   ],
   "note": "For every undistortion function; cv2.undistortPoints is a parameter."
  },
  {
   "property": "C45",
   "status": "proved",
   "theorems": [
    "C45_brown",
    "C45_brown_zero",
    "C45_trunc",
    "C45_trunc_length",
    "C45_opencv_brown",
    "C45_opencv_zero",
    "C45_fisheye",
    "C45_opencv_terms",
    "C45_opencv_tilt"
   ],
   "note": "OpenCV functions are modelled by their documented formulas."
  },
  {
   "property": "C46",
   "status": "partial",
   "theorems": [
    "C46_off_axis_partial",
    "C46_near_axis",
    "C46_axis_fails"
   ],
   "note": "On the axis the result is NaN (refuted for all parameters). Off the axis the model is the documented one."
  },
  {
   "property": "C47",
   "status": "proved",
   "theorems": [
    "C47_streaming",
    "C47_order_independent",
    "C47_few_pixels",
    "C47_values"
   ],
   "note": "Exact arithmetic. For all tile sizes and completion orders."
  },
  {
   "property": "C48",
   "status": "proved",
   "theorems": [
    "C48_inverse",
    "C48_sharpened",
    "C48_identity"
   ],
   "note": "Exact arithmetic, over every field."
  },
  {
   "property": "C49",
   "status": "partial",
   "theorems": [
    "C49_uncorrelated",
    "C49_duplicate_fails"
   ],
   "note": "Holds when the covariance of the simulated pan and bands is definite; refuted when a band is given twice (NaN output)."
  },
  {
   "property": "C50",
   "status": "proved",
   "theorems": [
    "C50_pan_stats",
    "C50_band_means",
    "C50_formula"
   ],
   "note": "Real arithmetic."
  },
  {
   "property": "C51",
   "status": "partial",
   "theorems": [
    "C51_user_partial",
    "C51_estimated_partial",
    "C51_estimated_positive",
    "C51_zero_fails",
    "C51_single_fails",
    "C51_negative_fails",
    "C51_reestimate_fails",
    "C51_accepts",
    "C51_user_exact",
    "C51_single_exact"
   ],
   "note": "Exact for user weights (convex if and only if one is positive) and for one estimated band; estimated weights of several bands are convex or all NaN (C51_estimated_partial), with counterexamples."
  },
  {
   "property": "C52",
   "status": "proved",
   "theorems": [
    "C52_pixels",
    "C52_schedule_independent",
    "C52_errors",
    "C52_completes",
    "C52_dark_pixels_fails",
    "C52_nodata"
   ],
   "note": "The last theorem records that dark valid pixels equal nodata for unsigned types."
  },
  {
   "property": "C53",
   "status": "proved",
   "theorems": [
    "C53_cover",
    "C53_whole_pixels",
    "C53_least",
    "C53_ms_unreferenced",
    "C53_pan_unreferenced",
    "C53_window_error_fails"
   ],
   "note": "transform_bounds is a parameter; the last theorem records that images that do not overlap can end in WindowError rather than OrthorityError when their CRSs differ."
  },
  {
   "property": "C54",
   "status": "proved",
   "theorems": [
    "C54_crop",
    "C54_extremes",
    "C54_cover",
    "C54_frame_cover",
    "C54_frame_rays",
    "C54_outside",
    "C54_mask",
    "C54_mask_error",
    "C54_mask_warning",
    "C54_vertices",
    "C54_flipped"
   ],
   "note": "transform_bounds and cv2.fillPoly are parameters."
  },
  {
   "property": "C55",
   "status": "proved",
   "theorems": [
    "C55_start",
    "C55_direction",
    "C55_affine",
    "C55_translation",
    "C55_units",
    "C55_pixel_size",
    "C55_triangle"
   ],
   "note": "Real arithmetic."
  },
  {
   "property": "C56",
   "status": "proved",
   "theorems": [
    "C56_tag",
    "C56_xmp",
    "C56_exif",
    "C56_default_altitude",
    "C56_no_position",
    "C56_xmp_found",
    "C56_other_refs_fails",
    "C56_domain",
    "C56_domain_fails",
    "C56_tags"
   ],
   "note": "Python's float and int parsers are parameters. The last theorem records how references other than one capital letter are read."
  },
  {
   "property": "C57",
   "status": "partial",
   "theorems": [
    "C57_sensor_size",
    "C57_direct",
    "C57_equivalent_sensor",
    "C57_equivalent_partial",
    "C57_dewarp",
    "C57_error",
    "C57_portrait_fails",
    "C57_resized_fails",
    "C57_tagged_size",
    "C57_no_tagged_size",
    "C57_dewarp_text"
   ],
   "note": "Holds with dewarp data, with a sensor size, and for landscape images; refuted for portrait images without sensor size and for resized images that keep their resolution tags."
  },
  {
   "property": "C58",
   "status": "partial",
   "theorems": [
    "C58_paths",
    "C58_batch_partial",
    "C58_failure",
    "C58_no_overwrite",
    "C58_dem_band",
    "C58_legacy_dir",
    "C58_carried_crs_fails",
    "C58_same_stem_fails",
    "C58_legacy_dir_fails",
    "C58_errors",
    "C58_command_crs",
    "C58_name"
   ],
   "note": "Holds with a CRS option or equal source CRSs and distinct stems; refuted otherwise. Ortho.process is a parameter that finishes, raises, or aborts."
  },
  {
   "property": "C59",
   "status": "partial",
   "theorems": [
    "C59_resolution",
    "C59_weights",
    "C59_bands",
    "C59_creation_partial",
    "C59_no_equals",
    "C59_case_fails",
    "C59_yaml_fails"
   ],
   "note": "YAML is a parameter. Creation option values lose their case, and bad YAML is not a usage error."
  },
  {
   "property": "C60",
   "status": "proved",
   "theorems": [
    "C60_points",
    "C60_rejects",
    "C60_no_exterior"
   ],
   "note": "Data type checks are not modelled."
  },
  {
   "property": "C61",
   "status": "proved",
   "theorems": [
    "C61_distort",
    "C61_undistort",
    "C61_inverse",
    "C61_boundary",
    "C61_pinhole_boundary",
    "C61_boundary_points"
   ],
   "note": "For every distortion model; the inverse needs exact undistortion, which is an assumption on OpenCV."
  },
  {
   "property": "C62",
   "status": "proved",
   "theorems": [
    "C62_weights",
    "C62_identity"
   ],
   "note": "Real arithmetic; numpy lstsq is a parameter that returns a least squares solution."
  },
  {
   "property": "C63",
   "status": "partial",
   "theorems": [
    "C63_same_crs_partial",
    "C63_units_fails",
    "C63_units_accepts_fails"
   ],
   "note": "Holds when both images have the same CRS; refuted for CRSs with different units."
  },
  {
   "property": "C64",
   "status": "proved",
   "theorems": [
    "C64_dem_unchanged",
    "C64_calls_independent",
    "C64_dem",
    "C64_refuses"
   ],
   "note": "DEM arrays are references into a memory, so in-place changes and aliasing are visible."
  },
  {
   "property": "C65",
   "status": "partial",
   "theorems": [
    "C65_linked_partial",
    "C65_position",
    "C65_zoom_fails",
    "C65_camera_id"
   ],
   "note": "Holds when images with the same camera ID have the same interior parameters; refuted for zoom lenses."
  },
  {
   "property": "C66",
   "status": "partial",
   "theorems": [
    "C66_zone",
    "C66_hemisphere",
    "C66_turns",
    "C66_images_partial",
    "C66_no_position",
    "C66_antimeridian_fails",
    "C66_csv_partial",
    "C66_csv_bad_row",
    "C66_csv_empty_fails",
    "C66_csv_antimeridian_fails",
    "C66_osfm"
   ],
   "note": "Refuted for images on both sides of the 180 degree meridian. The zone exceptions of Norway and Svalbard are not considered."
  },
  {
   "property": "C67",
   "status": "proved",
   "theorems": [
    "C67_says",
    "C67_accepts",
    "C67_missing",
    "C67_formats"
   ],
   "note": "YAML text parsing is not modelled."
  },
  {
   "property": "C68",
   "status": "partial",
   "theorems": [
    "C68_frame_partial",
    "C68_rpc",
    "C68_stale_gcps_fails",
    "C68_names"
   ],
   "note": "Text encoding is a parameter that gives back what was dumped. Holds for parameters as the readers make them and unless a camera has the ID \"camera\"; the last theorem records that the GCPs of another factory stay in the directory."
  },
  {
   "property": "C69",
   "status": "partial",
   "theorems": [
    "C69_reads_partial",
    "C69_int_unsupported",
    "C69_ext_unsupported",
    "C69_empty_fails"
   ],
   "note": "The readers are parameters (modelled elsewhere). Holds unless the interior parameters are empty, which ends in AttributeError for CSV and GeoJSON exterior files."
  },
  {
   "property": "C70",
   "status": "partial",
   "theorems": [
    "C70_factory",
    "C70_unchanged_partial",
    "C70_second_call_fails",
    "C70_zones_fails"
   ],
   "note": "Holds without keyword arguments or with a CRS; otherwise the CRS of the first call is written in the dictionary of the caller and used by later calls."
  },
  {
   "property": "C71",
   "status": "partial",
   "theorems": [
    "C71_gimbal",
    "C71_camera",
    "C71_no_angles",
    "C71_nadir",
    "C71_tilt",
    "C71_view",
    "C71_top_partial",
    "C71_roll_fails",
    "C71_over_fails"
   ],
   "note": "Names of tags, numbers and the rotation to OPK angles are modelled. Without roll, C71_view has all yaw and pitch angles and all horizontal directions of north; C71_top_partial leaves out cameras that look along the x axis of the world (C34). Fails of gimbal roll, which swings the direction of view (C71_roll_fails): a nadir camera with roll 180 looks straight up (C71_over_fails)."
  },
  {
   "property": "C72",
   "status": "partial",
   "theorems": [
    "C72_no_traceback_partial",
    "C72_sharpen",
    "C72_factory",
    "C72_dem",
    "C72_refined_partial",
    "C72_export_fails",
    "C72_no_sources_fails",
    "C72_few_gcps_fails"
   ],
   "note": "Holds for every exception of the camera factory, images, DEM and processing. Does not hold for --export-params with a geographic world CRS, whose CrsError is not caught, nor for --gcp-refine without images or with too few GCPs."
  },
  {
   "property": "C73",
   "status": "partial",
   "theorems": [
    "C73_pointwise",
    "C73_one_pixel",
    "C73_inverse",
    "C73_heights",
    "C73_refuses",
    "C73_crs",
    "C73_gcp_inverse",
    "C73_single_z_fails",
    "C73_crs_fails",
    "C73_inverse_local"
   ],
   "note": "GDAL inversion and CRS transforms are parameters assumed inverse. Does not hold for a one element z array with several pixels (IndexError), nor is every CRS that changes heights refused."
  },
  {
   "property": "C74",
   "status": "partial",
   "theorems": [
    "C74_rpc",
    "C74_gcps",
    "C74_rpc_sound",
    "C74_gcps_sound",
    "C74_no_tags",
    "C74_no_crs_fails"
   ],
   "note": "Holds for files of different names. GCPs without a CRS end in RuntimeError."
  },
  {
   "property": "C75",
   "status": "partial",
   "theorems": [
    "C75_images",
    "C75_accepts",
    "C75_refuses",
    "C75_projection_partial",
    "C75_gcps_partial",
    "C75_fisheye_fails"
   ],
   "note": "cv2.solvePnP is a parameter; float32 conversion is not modelled. Holds for pinhole, Brown and OpenCV cameras and poses without gimbal lock. For fisheye cameras the coefficients are given to a solver of another model, and GCPs are not put on their pixels."
  },
  {
   "property": "C76",
   "status": "partial",
   "theorems": [
    "C76_projection_partial",
    "C76_counts",
    "C76_level",
    "C76_fixed",
    "C76_counts_fails",
    "C76_tilted_fails",
    "C76_heights",
    "C76_images_fails"
   ],
   "note": "OpenCV calibration is a parameter with the shape of its results stated. Holds for poses without gimbal lock. Images with different numbers of GCPs, and co-planar GCPs that are not level, are refused. For several images too few parameters are counted, so the intrinsic matrix is fitted when there are too few GCPs (C76_images_fails)."
  },
  {
   "property": "C77",
   "status": "partial",
   "theorems": [
    "C77_crs",
    "C77_crs_errors",
    "C77_not_ignored_partial",
    "C77_lla",
    "C77_lla_errors_partial",
    "C77_sources",
    "C77_file",
    "C77_dir",
    "C77_odm_out_dir",
    "C77_gcp_refine",
    "C77_image_fails",
    "C77_long_string_fails",
    "C77_lla_image_fails",
    "C77_root_fails"
   ],
   "note": "fsspec, rasterio and pathlib calls are parameters. Does not hold for images without a CRS (--crs is ignored, --lla-crs ends in AttributeError), for CRS strings longer than a file name can be, nor for the root directory."
  },
  {
   "property": "C78",
   "status": "partial",
   "theorems": [
    "C78_reader",
    "C78_reader_errors",
    "C78_reader_given",
    "C78_projected_partial",
    "C78_ortho",
    "C78_ortho_source",
    "C78_ortho_camera",
    "C78_oty_fails",
    "C78_ortho_string_fails"
   ],
   "note": "The CRS library is a parameter. Does not hold for Orthority exterior files, whose CRS is not checked, nor for CRS strings that Ortho cannot read, which end in an exception of rasterio."
  },
  {
   "property": "C79",
   "status": "proved",
   "theorems": [
    "C79_config",
    "C79_pose",
    "C79_orthos",
    "C79_write_conf",
    "C79_missing_pose",
    "C79_checks",
    "C58_legacy_dir",
    "C79_default_dir",
    "C79_only_orthos"
   ],
   "note": "Given with an output directory; without one the orthos of images in different directories all go to the first (C58_legacy_dir_fails). Reading of files, camera construction and Ortho are parameters."
  },
  {
   "property": "C80",
   "status": "partial",
   "theorems": [
    "C80_elevation",
    "C80_clip",
    "C80_no_clip",
    "C80_surface",
    "C80_accuracy",
    "C80_horizon",
    "C80_pinhole",
    "C80_refuses",
    "C80_string_interp_fails",
    "C80_integer_partial",
    "C80_integer_fails",
    "C80_long_fails"
   ],
   "note": "For cameras whose distortion model is inverted exactly (all pinhole cameras) and boundary pixels with rays that point down (all of them for pinhole cameras that pass the horizon check). cv2.remap of the surface is a parameter. An interpolation type given as a string ends in AttributeError for surfaces. Surfaces of 32767 rows or columns and rays that cross more than 32765 pixels of the surface end in cv2.error (C80_long_fails)."
  },
  {
   "property": "C81",
   "status": "partial",
   "theorems": [
    "C81_camera",
    "C81_oty",
    "C81_osfm",
    "C81_refuses",
    "C81_values_fails",
    "C81_singular",
    "C81_sensor",
    "C81_im_size"
   ],
   "note": "For numbers in the file and focal lengths that are not zero. Values of the wrong kind pass the readers and end in TypeError or IndexError (C81_values_fails). For cameras with distortion; those without are in C43. Python comparison of numbers is a parameter."
  },
  {
   "property": "C82",
   "status": "partial",
   "theorems": [
    "C82_pixels",
    "C82_dilated",
    "C82_mask",
    "C82_resolution",
    "C82_completes",
    "C82_files",
    "C82_from_files",
    "C82_interp_fails",
    "C82_undistorted",
    "C82_between",
    "C82_size_fails"
   ],
   "note": "Composition of C01 to C07, C12, C54, C64 and, for frame cameras made from files, C81. What is missing: an unknown interp is found only after the output is made, so a file is changed although an error is raised (C82_interp_fails); so is a source, or a tile, with a side of 32767 pixels or more (C82_size_fails). What is in the file after an error in a thread is C85. Resolution for reprojected DEMs assumes that rasterio gives the resolution it is asked for."
  },
  {
   "property": "C83",
   "status": "partial",
   "theorems": [
    "C83_file",
    "C83_pixels",
    "C83_identity",
    "C83_deterministic",
    "C83_completes",
    "C83_files",
    "C83_replaced_fails",
    "C83_crs_fails"
   ],
   "note": "Real arithmetic; GDAL resampling is a parameter. The formula is for two or more pixels with data, pan that is not constant and MS bands that are not linearly dependent. What is missing: one MS band that decreases with pan is found to be unusable only after the output is made (C83_replaced_fails); a pan image without a CRS gives an output without one (C83_crs_fails). What is in the file after an error in a thread is C85."
  },
  {
   "property": "C84",
   "status": "partial",
   "theorems": [
    "C84_distorted",
    "C84_pinhole",
    "C84_undistorted",
    "C84_shows",
    "C84_refuses",
    "C84_default_fails",
    "C84_size_fails",
    "C84_limit_fails"
   ],
   "note": "Real arithmetic; OpenCV interpolation, rounding to float32 and undistortPoints are parameters, the maps follow the documented formulas. Not true in the code: a default nodata value (C84_default_fails), images of another size (C84_size_fails), sides of 32767 pixels (C84_limit_fails). Nothing is said of points on the axis of a fisheye camera (C46)."
  },
  {
   "property": "C85",
   "status": "partial",
   "theorems": [
    "C85_no_lost_error",
    "C85_left",
    "C85_pixels",
    "C85_values",
    "C85_mask",
    "C85_per_band_fails",
    "C85_sharp_no_lost_error",
    "C85_sharp_left",
    "C85_sharp_pixels",
    "C85_process_left",
    "C85_process",
    "C85_process_pixels",
    "C85_sharp_process_left",
    "C85_sharp_process"
   ],
   "note": "Proved for both classes, except that band by band the mask of an ortho image is written with the first band, so pixels are marked valid before their other bands are written, and stay so when a later band fails (C85_per_band_fails). Writes of GDAL are taken to change only pixels of the window that is written; what GDAL has flushed to disk when the process is killed is not modelled."
  },
  {
   "property": "C86",
   "status": "partial",
   "theorems": [
    "C86_reconstruction_partial",
    "C86_interior_partial",
    "C86_type_fails",
    "C86_root_fails",
    "C86_whole_fails"
   ],
   "note": "Acceptance is characterised for all files whose projection types are strings (and, for interior files, that are not a list of one value that is not a dictionary); for those, ParamError is the only error. The remaining files give AttributeError or TypeError (proved). Whole numbers without a decimal point are refused."
  },
  {
   "property": "C87",
   "status": "proved",
   "theorems": [
    "C87_batch",
    "C87_stopped",
    "C87_completes",
    "C87_frame",
    "C87_undistorted",
    "C87_on_pixel",
    "C87_rpc",
    "C87_rpc_refined",
    "C87_reports"
   ],
   "note": "Proved over the reals, with OpenCV's interpolation and float32 rounding, GDAL and rasterio as parameters, and given the footprint polygon of the camera (C06, C07). With --no-full-remap nodata may be dilated. Points level with the camera, and on the axis of a fisheye camera, are excluded (C46). Images of the same name: C59. Which CRS is used for images without one: C58."
  },
  {
   "property": "C88",
   "status": "partial",
   "theorems": [
    "C88_closed_partial",
    "C88_process",
    "C88_sharp_process",
    "C88_sharpen_partial",
    "C88_remote_fails",
    "C88_sharpen_fails"
   ],
   "note": "Datasets and text files are always closed, and used only while open, in all functions but sharpen, and in sharpen once both images are open. Not true in general: the fsspec file object of a remote image is left open when GDAL cannot open it, and sharpen leaves the panchromatic image open when the multispectral image cannot be opened (both until Python collects the objects)."
  },
  {
   "property": "C89",
   "status": "partial",
   "theorems": [
    "C89_ortho",
    "C89_sharp_partial",
    "C89_stats_partial",
    "C89_images_partial",
    "C89_info_fails",
    "C89_same_fails",
    "C89_images_fails"
   ],
   "note": "Transfers of pixels are exclusive, for different datasets. Not true in general: metadata of the ortho is read without the lock while other threads write to it, and a dataset of the caller that is given twice (as both images of PanSharpen, or twice in a list of images) is used by two threads at a time."
  },
  {
   "property": "C90",
   "status": "proved",
   "theorems": [
    "C90_world_to_pixel",
    "C90_pinhole",
    "C90_grid",
    "C90_remap",
    "C90_subpixel"
   ],
   "note": "For rotation and intrinsic matrices and heights as stored: the error of sin and cos and of the DEM is not included. C90_pinhole links the exact side to the camera model of the other properties."
  },
  {
   "property": "C91",
   "status": "proved",
   "theorems": [
    "C91_ortho",
    "C91_sharp",
    "C91_stats",
    "C91_images"
   ],
   "note": "Calls of GDAL are assumed to return."
  },
  {
   "property": "C92",
   "status": "partial",
   "theorems": [
    "C92_transforms",
    "C92_camera",
    "C92_tiles",
    "C92_process",
    "C92_fits",
    "C92_params_partial",
    "C92_refine_fails",
    "C92_from_images_fails"
   ],
   "note": "Proved for all executions of a model of references, views and in-place writes: transforms, remap, read, tile tasks, process, fits and writers change only new objects (or the camera). RpcCameras.refine changes the parameter dictionary of the caller (factory.py:358) and FrameCameras.from_images its io_kwargs (factory.py:138)."
  },
  {
   "property": "C93",
   "status": "partial",
   "theorems": [
    "C93_output",
    "C93_pixels",
    "C93_files",
    "C93_errors",
    "C93_completes",
    "C93_single_fails"
   ],
   "note": "Proved for all executions of the model of the command. Refuted for one MS band that decreases as pan increases (C93_single_fails): traceback, and the output is replaced by an image without data. Weights are numbers in the model; NaN weights pass the option callback (C59)."
  },
  {
   "property": "C94",
   "status": "partial",
   "theorems": [
    "C94_distinct_partial",
    "C94_alias_fails",
    "C94_example_fails"
   ],
   "note": "Holds for files without sharing. Refuted for files with sharing: items are popped from the shared dictionary, so every such file is refused."
  },
  {
   "property": "C95",
   "status": "partial",
   "theorems": [
    "C95_name_partial",
    "C95_opened_partial",
    "C95_camera_partial",
    "C95_chain_fails",
    "C95_number_fails",
    "C95_unnamed_fails",
    "C95_refused"
   ],
   "note": "Holds for paths and URIs whose last part fsspec keeps. Refuted for chained URIs, and for file objects without a name or with a number as name."
  },
  {
   "property": "C96",
   "status": "partial",
   "theorems": [
    "C96_no_overwrite",
    "C96_apart_partial",
    "C96_names",
    "C96_source_fails",
    "C96_sharpen_fails",
    "C96_params_fails"
   ],
   "note": "Proved without --overwrite, and with it when no input has the path of an output. Refuted with --overwrite for an input that has the path of an output."
  },
  {
   "property": "C97",
   "status": "partial",
   "theorems": [
    "C97_others_partial",
    "C97_alone_partial",
    "C97_wrapped_partial",
    "C97_left_fails",
    "C97_shown_fails",
    "C97_command_fails"
   ],
   "note": "Proved for all other warnings, for one file or thread, and for a caller with a catch_warnings block of their own. Refuted for two or more files and threads."
  },
  {
   "property": "C98",
   "status": "partial",
   "theorems": [
    "C98_extension_partial",
    "C98_path_partial",
    "C98_bare_fails",
    "C98_directory_fails"
   ],
   "note": "Holds for file names with an extension. Refuted for file names without one."
  },
  {
   "property": "C99",
   "status": "partial",
   "theorems": [
    "C99_camera_partial",
    "C99_refine_partial",
    "C99_camera_fails",
    "C99_world_fails",
    "C99_pixel_fails"
   ],
   "note": "Holds when there is a float among the numbers. Refuted for arrays of integers only."
  },
  {
   "property": "C100",
   "status": "partial",
   "theorems": [
    "C100_objects_partial",
    "C100_dict_fails"
   ],
   "note": "Holds for objects. Refuted for dictionaries."
  },
  {
   "property": "C101",
   "status": "proved",
   "theorems": [
    "C101_pose",
    "C101_missing"
   ],
   "note": "For files whose rows have different file names; rows with the same name are in C25."
  },
  {
   "property": "C102",
   "status": "partial",
   "theorems": [
    "C102_resume_partial",
    "C102_again_partial",
    "C102_possible_partial",
    "C102_refused",
    "C102_parts",
    "C102_parallel_partial",
    "C102_source_fails",
    "C102_sharpen_fails"
   ],
   "note": "Holds for commands whose outputs are not among their inputs. Refuted for the others. The dependence of the CRS on the first source is in C58 and C87."
  },
  {
   "property": "C103",
   "status": "proved",
   "theorems": [
    "C103_world",
    "C103_metres",
    "C103_pixel"
   ],
   "note": "Rounding is to nearest, with any rule for ties. How the solver of OpenCV reacts to the differences is not modelled."
  },
  {
   "property": "C104",
   "status": "partial",
   "theorems": [
    "C104_documented",
    "C104_created",
    "C104_fitted_partial",
    "C104_gcps_partial"
   ],
   "note": "Missing: poses with phi of 90 or -90 degrees (C35_gimbal_fails) and exterior fits of fisheye cameras (C75_fisheye_fails), for which the claim is false."
  },
  {
   "property": "C105",
   "status": "partial",
   "theorems": [
    "C105_seen_partial",
    "C105_sees_partial",
    "C105_portrait_fails"
   ],
   "note": "False in portrait format (C105_portrait_fails). Missing besides: files with camera IDs that differ by a leading \"v2 \" only (C24_collision_fails), poses with phi of 90 or -90 degrees (C35_gimbal_fails), points behind the camera, and points on the axis of a fisheye camera, which are NaN (C46)."
  },
  {
   "property": "C106",
   "status": "partial",
   "theorems": [
    "C106_pinhole_partial",
    "C106_distorted_fails",
    "C106_datum_fails",
    "C106_rpc_partial",
    "C106_rpc_fails",
    "C106_rpc_error_fails",
    "C106_crs_partial",
    "C106_rpc_crs_partial",
    "C106_range",
    "C106_metres_partial",
    "C106_low_fails",
    "C106_below_fails",
    "C106_gcp_partial",
    "C106_gcp_affine_partial",
    "C106_gcp_fails"
   ],
   "note": "Holds for cameras without distortion, when elevations in the world are an increasing function of those in the DEM. False with distortion (C106_distorted_fails) and for other vertical datums (C106_datum_fails). DEMs in another horizontal CRS: for bounds of transform_bounds that hold all that is in the bounds it is given (C106_crs_partial, C106_rpc_crs_partial). False for ground lower than -106.71 m (C106_low_fails), and Ortho() refuses cameras that are not above that (C106_below_fails). GCP cameras: holds for affine transforms (C106_gcp_affine_partial) and others that do not turn, false for transforms of order two (C106_gcp_fails)."
  },
  {
   "property": "C107",
   "status": "partial",
   "theorems": [
    "C107_level_partial",
    "C107_surface_partial",
    "C107_corners",
    "C107_narrow_fails",
    "C107_distorted_fails",
    "C107_range_partial",
    "C107_relief_fails",
    "C107_gcp_partial",
    "C107_gcp_fails",
    "C107_rpc_fails"
   ],
   "note": "Holds on level ground for cameras without distortion when the boundary has the corners of the image (C107_corners). False for narrow images (C107_narrow_fails), with distortion (C107_distorted_fails), and on ground that is not level (C107_relief_fails), where only the boundaries at the extremes hold all that is seen (C107_range_partial). GCP cameras: holds on every DEM for affine transforms (C107_gcp_partial), false for those of order two (C107_gcp_fails). False for RPC models that are not affine (C107_rpc_fails)."
  },
  {
   "property": "C108",
   "status": "partial",
   "theorems": [
    "C108_elevation",
    "C108_surface",
    "C108_gcp",
    "C108_accuracy_partial",
    "C108_accuracy_fails",
    "C108_nan",
    "C108_refuses",
    "C108_string_interp_fails",
    "C108_long_fails",
    "C108_finite"
   ],
   "note": "The points are ground of the boundary pixels, at the right elevations, and project back. The distance to the surface is bounded for rays that bend little (C108_accuracy_partial), not in general (C108_accuracy_fails). Interpolation types given as strings end in AttributeError (C108_string_interp_fails). Surfaces of 32767 rows or columns and ground that crosses more than 32765 pixels of the surface end in cv2.error (C108_long_fails)."
  },
  {
   "property": "C109",
   "status": "partial",
   "theorems": [
    "C109_messages",
    "C109_warnings",
    "C109_module",
    "C109_others_partial",
    "C109_packages_fails",
    "C109_after_fails",
    "C109_streams_fails",
    "C109_legacy_partial",
    "C109_legacy_default_fails",
    "C109_legacy_repeat_fails"
   ],
   "note": "Holds for messages and warnings of orthority while the streams stay the same. Warnings of other packages in the same site-packages directory are taken for those of orthority (C109_packages_fails); handlers stay after commands (C109_after_fails, C109_streams_fails)."
  },
  {
   "property": "C110",
   "status": "partial",
   "theorems": [
    "C110_grid_partial",
    "C110_ground_partial",
    "C110_exact",
    "C110_multiple_partial",
    "C110_resolution_fails",
    "C110_default_fails",
    "C110_crs_exact",
    "C110_crs_fails"
   ],
   "note": "Holds for a DEM in the CRS of the orthos when its pixels are a multiple of the ortho pixels (C110_grid_partial, C110_multiple_partial, C110_ground_partial); fails for other resolutions (C110_exact, C110_resolution_fails) and for the default resolution (C110_default_fails). For DEMs in another CRS orthos share a grid exactly when the corners of the crops in the CRS of the orthos differ by whole pixels (C110_crs_exact), which fails for CRSs that are turned (C110_crs_fails)."
  },
  {
   "property": "C111",
   "status": "partial",
   "theorems": [
    "C111_frame",
    "C111_rpc_partial",
    "C111_int_fails",
    "C111_one_fails"
   ],
   "note": "The arguments that each camera accepts are characterised (C111_frame, C111_rpc_partial); RPC and GCP cameras refuse integer arrays (C111_int_fails) and an array of one height with several pixels (C111_one_fails), which frame cameras take."
  },
  {
   "property": "C112",
   "status": "proved",
   "theorems": [
    "C112_world_to_pixel",
    "C112_subpixel"
   ],
   "note": "Forward error analysis for every rounding within half a unit in the last place. Coordinates are RPC coordinates; the error of PROJ is not included."
  },
  {
   "property": "C113",
   "status": "partial",
   "theorems": [
    "C113_near",
    "C113_average_same_fails",
    "C113_average_fails"
   ],
   "note": "Fails of average, which makes the ortho that bilinear makes: cv2.remap does not support INTER_AREA. What is assumed of cv2.remap is in Documented, with an instance."
  },
  {
   "property": "C114",
   "status": "partial",
   "theorems": [
    "C114_nearest",
    "C114_partial",
    "C114_fails",
    "C114_blend_fails"
   ],
   "note": "Fails: nodata values and masks of source files are not read. Holds with nearest interpolation when source pixels without data have the nodata value of the ortho (C114_partial). What is assumed of cv2.remap is in NearestOk and LinearOk, with instances."
  },
  {
   "property": "C115",
   "status": "partial",
   "theorems": [
    "C115_shift_partial",
    "C115_drift_partial",
    "C115_mixed_fails",
    "C115_saved_partial",
    "C115_saved_fails"
   ],
   "note": "Holds for sequences of shifts, and for shift-drift after any refinements when the projected GCPs are not all in one column or row. A shift after shift-drift keeps the drift (C115_mixed_fails), and only the GCPs of the last call are written (C115_saved_fails)."
  },
  {
   "property": "C116",
   "status": "partial",
   "theorems": [
    "C116_accurate_partial",
    "C116_runs_partial",
    "C116_bits_fails"
   ],
   "note": "Every run is within the stated rounding errors of the exact statistics, and two runs within twice those errors. Runs are not identical bit for bit (C116_bits_fails)."
  },
  {
   "property": "C117",
   "status": "partial",
   "theorems": [
    "C117_refused",
    "C117_reader",
    "C117_interior_partial",
    "C117_exterior",
    "C117_tuple_fails"
   ],
   "note": "Holds for making the reader, and for reading parameters of images whose 35 mm focal length is one number and whose positions the CRS libraries convert. A 35 mm focal length with two numbers is a TypeError (C117_tuple_fails)."
  },
  {
   "property": "C118",
   "status": "partial",
   "theorems": [
    "C118_reads",
    "C118_ends",
    "C118_projects_partial",
    "C118_factory_partial",
    "C118_distorted_fails",
    "C118_error_fails",
    "C118_stale_fails",
    "C118_pose_fails",
    "C118_factory_fails"
   ],
   "note": "Holds for threads that read images and project with one camera (C118_reads), for projections while alpha is set (C118_projects_partial), and for factories when threads get images of different camera IDs (C118_factory_partial). Fails when alpha or the pose is set while another thread uses the camera, which FrameCameras.get does for images of one camera. A load or store of a field is one step; other cameras (RPC, GCP) have no fields that change."
  },
  {
   "property": "C119",
   "status": "partial",
   "theorems": [
    "C119_exact",
    "C119_partial",
    "C119_fails"
   ],
   "note": "PROJ transforms and GDAL resampling are parameters; how GDAL applies a vertical shift is assumed (Warp, reprojectZ). Holds when DEM and world have the same vertical units or the same vertical datum; fails when both differ. Float32 rounding is not modelled."
  },
  {
   "property": "C120",
   "status": "partial",
   "theorems": [
    "C120_sources",
    "C120_partial",
    "C120_unreconstructed_fails",
    "C120_unreconstructed_error",
    "C120_mask_fails",
    "C120_again_fails"
   ],
   "note": "The listing of the file system, the shots and Ortho.process are parameters. Holds when every image file of the dataset has a shot; otherwise the command ends with a usage error at the first file without one, and images listed after it get no ortho. Lower case of extensions is that of ASCII text."
  },
  {
   "property": "C121",
   "status": "partial",
   "theorems": [
    "C121_frame_partial",
    "C121_rpc",
    "C121_model",
    "C121_models",
    "C121_camera_fails"
   ],
   "note": "Composition of C20-C22, C68, C81 and C87: the hypotheses on parameters are those of C68. Decoding of YAML and GeoJSON (load after dump is the identity), the CRS library and Ortho.process are parameters. Proved for RPC cameras, refined or not, and for frame cameras unless a camera has the ID \"camera\" (a witness shows the failure)."
  },
  {
   "property": "C122",
   "status": "partial",
   "theorems": [
    "C122_header_partial",
    "C122_rows_partial",
    "C122_images_partial",
    "C122_single_row_fails",
    "C122_blank_line_fails",
    "C122_texts_fails"
   ],
   "note": "csv.Sniffer.has_header and csv.DictReader are modelled after CPython 3.11; splitting of text into rows and cells, dialects and what complex() and float() accept are parameters. Proved for files in which more than half of the columns are numbers and that have a header or at least two rows of the same length at the start; witnesses show the failures for other files."
  },
  {
   "property": "C123",
   "status": "partial",
   "theorems": [
    "C123_frame",
    "C123_rpc_get",
    "C123_unread",
    "C123_refine_partial",
    "C123_retry_partial",
    "C123_refine_fails",
    "C123_nothing_fails"
   ],
   "note": "Holds in full for get of both factories, and for refine when the GCPs cannot be read. When refine raises for an image, those before it are already refined, and the GCPs kept or lost; proved is what is left, and that a later refine by shifts gives the same models for the images with GCPs. Exceptions of the constructor leave no factory."
  },
  {
   "property": "C124",
   "status": "partial",
   "theorems": [
    "C124_refused",
    "C124_warns",
    "C124_left_out",
    "C124_held",
    "C124_lowest",
    "C124_rpc_left_out",
    "C124_rpc_lowest",
    "C124_gcp",
    "C124_quiet_partial",
    "C124_near_fails",
    "C124_edge_fails"
   ],
   "note": "The warning is given when a boundary pixel of the image is outside the DEM at all elevations, or a drawn pixel has no elevation; without it the boundary found is in the DEM. This is for frame, RPC and GCP cameras. For pinhole cameras a DEM with all the ground gives no warning, except for boundary points on the border of the crop. Does not hold for cameras beside the DEM, where ground outside the DEM is missed without a warning, nor for boundaries on DEM pixel edges, where a warning is given for nothing. Surfaces and fillPoly are parameters."
  },
  {
   "property": "C125",
   "status": "proved",
   "theorems": [
    "C125_dem",
    "C125_process",
    "C125_process_error",
    "C125_frame",
    "C125_world_to_pixel",
    "C125_pixel_to_world",
    "C125_boundary",
    "C125_resolution"
   ],
   "note": "In exact arithmetic. C125_process is for any camera that sees points at the same pixels in both coordinates, and C125_frame for frame cameras, for which this is proved. Hypotheses about the libraries: reprojection, transformed bounds, the footprint drawn on a DEM and float32 rounding of elevations are the same in both coordinates; C125_boundary shows this of the footprint of frame cameras."
  },
  {
   "property": "C126",
   "status": "proved",
   "theorems": [
    "C126_pan",
    "C126_ms",
    "C126_gains_fails"
   ],
   "note": "In exact arithmetic, with the assumption that np.linalg.lstsq gives a multiple for multiples of its matrix and right side, and that the resampling of GDAL keeps gain and offset. C126_pan is for all outcomes of process; C126_ms for two runs that complete. C126_gains_fails shows that one gain for all MS bands is needed when weights are given."
  },
  {
   "property": "C127",
   "status": "proved",
   "theorems": [
    "C127_order",
    "C127_dependent_fails"
   ],
   "note": "In exact arithmetic, for two runs that complete, with the assumption that the result of np.linalg.lstsq for an unknown does not depend on the order of the unknowns. C127_dependent_fails shows that bands that do not depend on each other are needed."
  },
  {
   "property": "C128",
   "status": "proved",
   "theorems": [
    "C128_gain",
    "C128_integer_fails"
   ],
   "note": "In exact arithmetic, for two runs that complete, with the assumption that interpolation of cv2.remap is a mean with weights that add up to one. C128_integer_fails shows why integer types are left out (for Ortho._remap)."
  },
  {
   "property": "C129",
   "status": "proved",
   "theorems": [
    "C129_nearest",
    "C129_table"
   ],
   "note": "With the assumption that INTER_NEAREST of cv2.remap copies a pixel whose place does not depend on values."
  },
  {
   "property": "C130",
   "status": "partial",
   "theorems": [
    "C130_band_partial",
    "C130_per_band_partial",
    "C130_dilated_fails"
   ],
   "note": "For cameras that do not dilate, with other numbers and orders of bands too; for all cameras with per_band and the same number of bands. What is missing: without per_band, cameras that dilate mask pixels by the values of all bands (C130_dilated_fails, shown for Ortho._remap)."
  }
 ]
}