{
 "claims": [
  {
   "property": "C01",
   "status": "proved",
   "theorems": [
    "D10.C01_reachable_wellFormed",
    "D10.C01_wellFormed_reachable"
   ],
   "note": ""
  },
  {
   "property": "C02",
   "status": "proved",
   "theorems": [
    "D10.C02_new_with_color",
    "D10.C02_new",
    "D10.C02_new_from_raw",
    "D10.C02_new_from_func"
   ],
   "note": ""
  },
  {
   "property": "C03",
   "status": "proved",
   "theorems": [
    "D10.C03_get_pixel",
    "D10.C03_put_pixel",
    "D10.C03_get_after_put"
   ],
   "note": ""
  },
  {
   "property": "C04",
   "status": "proved",
   "theorems": [
    "D10.C04_get_pixel_clamped",
    "D10.C04_get_pixel_clamped_empty",
    "D10.C04_nearest"
   ],
   "note": ""
  },
  {
   "property": "C05",
   "status": "proved",
   "theorems": [
    "D10.C05_is_in_image",
    "D10.C05_get_pixel_optional"
   ],
   "note": ""
  },
  {
   "property": "C06",
   "status": "proved",
   "theorems": [
    "D10.C06_enumerate",
    "D10.C06_rebuild"
   ],
   "note": ""
  },
  {
   "property": "C07",
   "status": "proved",
   "theorems": [
    "D10.C07_map_colors",
    "D10.C07_mod_eq_map",
    "D10.C07_mod_colors",
    "D10.C07_map_colors_stateful",
    "D10.C07_map_colors_enumerated",
    "D10.C07_mod_colors_enumerated"
   ],
   "note": ""
  },
  {
   "property": "C08",
   "status": "proved",
   "theorems": [
    "D10.C08_try_map_colors_ok",
    "D10.C08_try_map_colors_err",
    "D10.C08_try_mod_colors_ok",
    "D10.C08_try_mod_colors_err",
    "D10.C08_cases",
    "D10.C08_try_new_from_func",
    "D10.C08_try_map_colors_enumerated",
    "D10.C08_try_mod_colors_enumerated"
   ],
   "note": ""
  },
  {
   "property": "C09",
   "status": "proved",
   "theorems": [
    "D10.C09_get_kernel",
    "D10.C09_get_kernel_in_image",
    "D10.C09_get_kernel_empty",
    "D10.C09_get_kernel_dyn"
   ],
   "note": ""
  },
  {
   "property": "C10",
   "status": "proved",
   "theorems": [
    "D10.C10_apply_kernel",
    "D10.C10_apply_kernel_dyn",
    "D10.C10_agree",
    "D10.C10_kernel_get",
    "D10.C10_kernel_new",
    "D10.C10_sobel_kernels"
   ],
   "note": ""
  },
  {
   "property": "C11",
   "status": "proved",
   "theorems": [
    "D10.C11_constant",
    "D10.C11_constant_one",
    "D10.C11_constant_zero",
    "D10.C11_constant_dyn",
    "D10.C11_between"
   ],
   "note": ""
  },
  {
   "property": "C12",
   "status": "proved",
   "theorems": [
    "D10.C12_constructors",
    "D10.C12_formula",
    "D10.C12_gaussian",
    "D10.C12_default_sigma",
    "D10.C12_sigma_zero_nan",
    "D10.C12_default_sigma_radius0",
    "D10.C12_gaussian_blur",
    "D10.C12_blur_constant"
   ],
   "note": ""
  },
  {
   "property": "C13",
   "status": "proved",
   "theorems": [
    "D10.C13_flip_horizontal",
    "D10.C13_flip_vertical",
    "D10.C13_flip_horizontal_involution",
    "D10.C13_flip_vertical_involution",
    "D10.C13_flips_commute"
   ],
   "note": ""
  },
  {
   "property": "C14",
   "status": "proved",
   "theorems": [
    "D10.C14_rotate90",
    "D10.C14_rotate180",
    "D10.C14_rotate270",
    "D10.C14_rotate180_eq_flips",
    "D10.C14_rotate90_twice",
    "D10.C14_rotate180_involution",
    "D10.C14_rotate90_rotate270",
    "D10.C14_rotate90_four"
   ],
   "note": ""
  },
  {
   "property": "C15",
   "status": "proved",
   "theorems": [
    "D10.C15_permute"
   ],
   "note": ""
  },
  {
   "property": "C16",
   "status": "proved",
   "theorems": [
    "D10.C16_crop"
   ],
   "note": ""
  },
  {
   "property": "C17",
   "status": "proved",
   "theorems": [
    "D10.C17_crop_crop",
    "D10.C17_crop_full"
   ],
   "note": ""
  },
  {
   "property": "C18",
   "status": "proved",
   "theorems": [
    "D10.C18_resize",
    "D10.C18_resize_same",
    "D10.C18_resize_invalid",
    "D10.C18_resize_empty",
    "D10.C18_auto_window"
   ],
   "note": ""
  },
  {
   "property": "C19",
   "status": "proved",
   "theorems": [
    "D10.C19_nearest_copies",
    "D10.C19_nearest_position"
   ],
   "note": ""
  },
  {
   "property": "C20",
   "status": "proved",
   "theorems": [
    "D10.C20_interpolation",
    "D10.C20_sample_at_pixel",
    "D10.C20_resize_constant",
    "D10.C20_rotate_constant",
    "D10.C20_bilinear_between",
    "D10.C20_position"
   ],
   "note": ""
  },
  {
   "property": "C21",
   "status": "proved",
   "theorems": [
    "D10.C21_rotate_360",
    "D10.C21_rotate",
    "D10.C21_rotated_position",
    "D10.C21_rotate_zero"
   ],
   "note": ""
  },
  {
   "property": "C22",
   "status": "proved",
   "theorems": [
    "D10.C22_interlace",
    "D10.C22_interlace_zero",
    "D10.C22_interlace_overflow"
   ],
   "note": ""
  },
  {
   "property": "C23",
   "status": "proved",
   "theorems": [
    "D10.C23_constructors",
    "D10.C23_range",
    "D10.C23_identity",
    "D10.C23_exact",
    "D10.C23_other_constructors"
   ],
   "note": ""
  },
  {
   "property": "C24",
   "status": "proved",
   "theorems": [
    "D10.C24_channel_maps_keep_alpha",
    "D10.C24_hsl_operations_keep_alpha",
    "D10.C24_vibrance_difference_opaque",
    "D10.C24_conversions_keep_alpha"
   ],
   "note": ""
  },
  {
   "property": "C25",
   "status": "proved",
   "theorems": [
    "D10.C25_tonal_operations_in_range",
    "D10.C25_conversions_in_range",
    "D10.C25_gray_hsv_not_clamped"
   ],
   "note": ""
  },
  {
   "property": "C26",
   "status": "proved",
   "theorems": [
    "D10.C26_invert",
    "D10.C26_invert_involution",
    "D10.C26_invert_involution_exact"
   ],
   "note": ""
  },
  {
   "property": "C27",
   "status": "proved",
   "theorems": [
    "D10.C27_gray_channels",
    "D10.C27_reported_gray",
    "D10.C27_gray_value",
    "D10.C27_gray_stays",
    "D10.C27_default"
   ],
   "note": ""
  },
  {
   "property": "C28",
   "status": "proved",
   "theorems": [
    "D10.C28_hsl_round_trip",
    "D10.C28_hsl_round_trip_exact",
    "D10.C28_hsl_range",
    "D10.C28_hsl_float",
    "D10.C28_hsl_float_apart",
    "D10.C28_hsl_float_not_eq"
   ],
   "note": ""
  },
  {
   "property": "C29",
   "status": "proved",
   "theorems": [
    "D10.C29_hsv_round_trip_exact",
    "D10.C29_hsv_round_trip",
    "D10.C29_gray_hue_is_nan",
    "D10.C29_hsv_float",
    "D10.C29_hsv_float_eq"
   ],
   "note": ""
  },
  {
   "property": "C30",
   "status": "proved",
   "theorems": [
    "D10.C30_end_points",
    "D10.C30_strictly_monotone",
    "D10.C30_range",
    "D10.C30_round_trip",
    "D10.C30_round_trip_linear",
    "D10.C30_colours"
   ],
   "note": ""
  },
  {
   "property": "C31",
   "status": "proved",
   "theorems": [
    "D10.C31_xyz_round_trip",
    "D10.C31_yuv_round_trip",
    "D10.C31_yuv_round_trip_rgb"
   ],
   "note": ""
  },
  {
   "property": "C32",
   "status": "proved",
   "theorems": [
    "D10.C32_eq_iff",
    "D10.C32_within_eq",
    "D10.C32_eq_within",
    "D10.C32_refl_symm",
    "D10.C32_nan_channel",
    "D10.C32_not_transitive"
   ],
   "note": ""
  },
  {
   "property": "C33",
   "status": "proved",
   "theorems": [
    "D10.C33_display",
    "D10.C33_transparency",
    "D10.C33_number"
   ],
   "note": ""
  },
  {
   "property": "C34",
   "status": "proved",
   "theorems": [
    "D10.C34_intensity",
    "D10.C34_edge_detection",
    "D10.C34_drawing",
    "D10.C34_saturation",
    "D10.C34_balance",
    "D10.C34_filter",
    "D10.C34_equalize",
    "D10.C34_blend",
    "D10.C34_png_color",
    "D10.C34_png_filter",
    "D10.C34_png_compression",
    "D10.C34_bmp_color",
    "D10.C34_ico_color",
    "D10.C34_jpeg_sampling",
    "D10.C34_webp_preset",
    "D10.C34_message"
   ],
   "note": ""
  },
  {
   "property": "C35",
   "status": "proved",
   "theorems": [
    "D10.C35_alpha_blend",
    "D10.C35_ends",
    "D10.C35_between"
   ],
   "note": ""
  },
  {
   "property": "C36",
   "status": "proved",
   "theorems": [
    "D10.C36_blend_image"
   ],
   "note": ""
  },
  {
   "property": "C37",
   "status": "proved",
   "theorems": [
    "D10.C37_channel_modes",
    "D10.C37_intensity_zero",
    "D10.C37_intensity_one",
    "D10.C37_darken_lighten",
    "D10.C37_normal",
    "D10.C37_normal_ends",
    "D10.C37_hsl_modes",
    "D10.C37_lch_modes",
    "D10.C37_hue_shorter_way",
    "D10.C37_hue_ends",
    "D10.C37_converted_modes_ends",
    "D10.C37_hsl_intensity_zero",
    "D10.C37_range"
   ],
   "note": ""
  },
  {
   "property": "C38",
   "status": "proved",
   "theorems": [
    "D10.C38_try_compose",
    "D10.C38_compose_none",
    "D10.C38_compose",
    "D10.C38_try_compose_array",
    "D10.C38_compose_array"
   ],
   "note": ""
  },
  {
   "property": "C39",
   "status": "proved",
   "theorems": [
    "D10.C39_apply_palette",
    "D10.C39_in_place",
    "D10.C39_empty_palette",
    "D10.C39_nearest",
    "D10.C39_palette_colour_kept"
   ],
   "note": ""
  },
  {
   "property": "C40",
   "status": "proved",
   "theorems": [
    "D10.C40_despeckle",
    "D10.C40_mean",
    "D10.C40_all_dark_nan"
   ],
   "note": ""
  },
  {
   "property": "C41",
   "status": "proved",
   "theorems": [
    "D10.C41_salt_n_pepper_noise",
    "D10.C41_rgb_noise",
    "D10.C41_in_place",
    "D10.C41_salt_n_pepper_pixels",
    "D10.C41_rgb_noise_pixels",
    "D10.C41_threshold_zero"
   ],
   "note": ""
  },
  {
   "property": "C42",
   "status": "proved",
   "theorems": [
    "D10.C42_random_noise",
    "D10.C42_gaussian_noise",
    "D10.C42_noise_pixels",
    "D10.C42_alpha_zero"
   ],
   "note": ""
  },
  {
   "property": "C43",
   "status": "proved",
   "theorems": [
    "D10.C43_symmetric_nearest_neighbor",
    "D10.C43_huge_radius",
    "D10.C43_mean",
    "D10.C43_nearer",
    "D10.C43_constant",
    "D10.C43_radius_zero_nan"
   ],
   "note": ""
  },
  {
   "property": "C44",
   "status": "proved",
   "theorems": [
    "D10.C44_table",
    "D10.C44_equalize",
    "D10.C44_exact",
    "D10.C44_monotone",
    "D10.C44_order_kept",
    "D10.C44_f32",
    "D10.C44_count_stuck"
   ],
   "note": ""
  },
  {
   "property": "C45",
   "status": "proved",
   "theorems": [
    "D10.C45_stretch_contrast",
    "D10.C45_alpha",
    "D10.C45_black_point",
    "D10.C45_white_point",
    "D10.C45_ordered",
    "D10.C45_channel"
   ],
   "note": ""
  },
  {
   "property": "C46",
   "status": "proved",
   "theorems": [
    "D10.C46_unsharp",
    "D10.C46_factor_zero",
    "D10.C46_constant",
    "D10.C46_range"
   ],
   "note": ""
  },
  {
   "property": "C47",
   "status": "proved",
   "theorems": [
    "D10.C47_sobel",
    "D10.C47_laplace",
    "D10.C47_constant"
   ],
   "note": ""
  },
  {
   "property": "C48",
   "status": "proved",
   "theorems": [
    "D10.C48_round_trip",
    "D10.C48_round_trip_exact",
    "D10.C48_encode",
    "D10.C48_encode_exact",
    "D10.C48_decode",
    "D10.C48_decode_exact",
    "D10.C48_monotone",
    "D10.C48_byte",
    "D10.C48_special"
   ],
   "note": ""
  },
  {
   "property": "C49",
   "status": "proved",
   "theorems": [
    "D10.C49_round_trip",
    "D10.C49_native",
    "D10.C49_round_trip_exact",
    "D10.C49_encode",
    "D10.C49_encode_exact",
    "D10.C49_decode_exact",
    "D10.C49_monotone",
    "D10.C49_word",
    "D10.C49_special"
   ],
   "note": ""
  },
  {
   "property": "C50",
   "status": "proved",
   "theorems": [
    "D10.C50_png",
    "D10.C50_bmp",
    "D10.C50_ico",
    "D10.C50_jpeg",
    "D10.C50_gif",
    "D10.C50_webp",
    "D10.C50_read_png",
    "D10.C50_read_png_fail",
    "D10.C50_read_jpeg",
    "D10.C50_read_jpeg_fail",
    "D10.C50_read_gif",
    "D10.C50_read_gif_fail",
    "D10.C50_read_webp",
    "D10.C50_read_webp_fail",
    "D10.C50_read_bmp",
    "D10.C50_read_ico",
    "D10.C50_read_bmp_ico_fail"
   ],
   "note": ""
  },
  {
   "property": "C51",
   "status": "proved",
   "theorems": [
    "D10.C51_length",
    "D10.C51_rejected"
   ],
   "note": ""
  },
  {
   "property": "C52",
   "status": "proved",
   "theorems": [
    "D10.C52_opaque",
    "D10.C52_rgb16_transparent"
   ],
   "note": ""
  },
  {
   "property": "C53",
   "status": "proved",
   "theorems": [
    "D10.C53_png_exact",
    "D10.C53_exact",
    "D10.C53_white",
    "D10.C53_alpha"
   ],
   "note": ""
  },
  {
   "property": "C54",
   "status": "proved",
   "theorems": [
    "D10.C54_sniff",
    "D10.C54_unique",
    "D10.C54_unknown",
    "D10.C54_first_twelve",
    "D10.C54_append",
    "D10.C54_short_read"
   ],
   "note": ""
  },
  {
   "property": "C55",
   "status": "proved",
   "theorems": [
    "D10.C55_from_path",
    "D10.C55_unique",
    "D10.C55_encoding",
    "D10.C55_usual",
    "D10.C55_case"
   ],
   "note": ""
  },
  {
   "property": "C56",
   "status": "proved",
   "theorems": [
    "D10.C56_content",
    "D10.C56_name",
    "D10.C56_unknown",
    "D10.C56_unreadable",
    "D10.C56_memory"
   ],
   "note": ""
  },
  {
   "property": "C57",
   "status": "proved",
   "theorems": [
    "D10.C57_bad_extension",
    "D10.C57_by_name",
    "D10.C57_not_created",
    "D10.C57_created",
    "D10.C57_other_files",
    "D10.C57_content_lost",
    "D10.C57_ok_but_cut"
   ],
   "note": ""
  },
  {
   "property": "C58",
   "status": "proved",
   "theorems": [
    "D10.C58_jpeg",
    "D10.C58_jpeg_iff",
    "D10.C58_gif",
    "D10.C58_gif_iff",
    "D10.C58_settings"
   ],
   "note": ""
  },
  {
   "property": "C59",
   "status": "proved",
   "theorems": [
    "D10.C59_formula",
    "D10.C59_range",
    "D10.C59_more_ink",
    "D10.C59_more_ink_strict",
    "D10.C59_black",
    "D10.C59_no_ink",
    "D10.C59_formula_f32"
   ],
   "note": ""
  },
  {
   "property": "C60",
   "status": "proved",
   "theorems": [
    "D10.C60_run",
    "D10.C60_deterministic",
    "D10.C60_append",
    "D10.C60_first_failure",
    "D10.C60_other_files",
    "D10.C60_saved_remains",
    "D10.C60_recolour",
    "D10.C60_builders",
    "D10.C60_messages"
   ],
   "note": ""
  },
  {
   "property": "C61",
   "status": "proved",
   "theorems": [
    "D10.C61_has_image",
    "D10.C61_after_open",
    "D10.C61_iff"
   ],
   "note": ""
  },
  {
   "property": "C62",
   "status": "proved",
   "theorems": [
    "D10.C62_log",
    "D10.C62_all",
    "D10.C62_silent"
   ],
   "note": ""
  },
  {
   "property": "C63",
   "status": "proved",
   "theorems": [
    "D10.C63_ok",
    "D10.C63_error",
    "D10.C63_unambiguous"
   ],
   "note": ""
  },
  {
   "property": "C64",
   "status": "proved",
   "theorems": [
    "D10.C64_first",
    "D10.C64_later",
    "D10.C64_opened",
    "D10.C64_option_first"
   ],
   "note": ""
  },
  {
   "property": "C65",
   "status": "proved",
   "theorems": [
    "D10.C65_operations",
    "D10.C65_operations_tone",
    "D10.C65_operations_noise",
    "D10.C65_pixels",
    "D10.C65_compose",
    "D10.C65_compose_array",
    "D10.C65_new",
    "D10.C65_open",
    "D10.C65_save",
    "D10.C65_same_size",
    "D10.C65_wellFormed",
    "D10.C65_no_background",
    "D10.C65_rotate",
    "D10.C65_rotate_background"
   ],
   "note": ""
  },
  {
   "property": "C66",
   "status": "proved",
   "theorems": [
    "D10.C66_resize_pct",
    "D10.C66_same",
    "D10.C66_too_large",
    "D10.C66_empty",
    "D10.C66_side",
    "D10.C66_hundred_exact",
    "D10.C66_hundred",
    "D10.C66_hundred_large"
   ],
   "note": ""
  },
  {
   "property": "C67",
   "status": "proved",
   "theorems": [
    "D10.C67_data_types",
    "D10.C67_export",
    "D10.C67_export_gray",
    "D10.C67_export_errors",
    "D10.C67_element",
    "D10.C67_import_alpha",
    "D10.C67_import",
    "D10.C67_import_gray",
    "D10.C67_lch_read_as_lab",
    "D10.C67_import_errors",
    "D10.C67_import_other",
    "D10.C67_import_size",
    "D10.C67_round_trip",
    "D10.C67_round_trip_opaque",
    "D10.C67_bool_inverted",
    "D10.C67_bool_white",
    "D10.C67_uint8_round_trip",
    "D10.C67_uint16_round_trip",
    "D10.C67_round_trip_models",
    "D10.C67_lch_round_trip_fails"
   ],
   "note": ""
  },
  {
   "property": "C68",
   "status": "proved",
   "theorems": [
    "D10.C68_same_picture",
    "D10.C68_light",
    "D10.C68_change",
    "D10.C68_alpha",
    "D10.C68_optimize",
    "D10.C68_same_temperature",
    "D10.C68_same_f32",
    "D10.C68_cold_nan"
   ],
   "note": ""
  },
  {
   "property": "C69",
   "status": "proved",
   "theorems": [
    "D10.C69_balance",
    "D10.C69_alpha",
    "D10.C69_channel",
    "D10.C69_leaves_range"
   ],
   "note": ""
  },
  {
   "property": "C70",
   "status": "proved",
   "theorems": [
    "D10.C70_neutral",
    "D10.C70_neutral_hsl",
    "D10.C70_monotone",
    "D10.C70_level"
   ],
   "note": ""
  },
  {
   "property": "C71",
   "status": "proved",
   "theorems": [
    "D10.C71_wraps_once",
    "D10.C71_full_turn",
    "D10.C71_large_angle_leaves_range",
    "D10.C71_three_turns_wrong",
    "D10.C71_rotation",
    "D10.C71_large_angle_gray"
   ],
   "note": ""
  },
  {
   "property": "C72",
   "status": "proved",
   "theorems": [
    "D10.C72_xyz_to_lab",
    "D10.C72_lab_to_xyz",
    "D10.C72_lab_by_xyz",
    "D10.C72_white",
    "D10.C72_xyz_round_trip",
    "D10.C72_lab_round_trip",
    "D10.C72_lch",
    "D10.C72_lch_to_xyz",
    "D10.C72_lch_round_trip"
   ],
   "note": ""
  },
  {
   "property": "C73",
   "status": "proved",
   "theorems": [
    "D10.C73_lightness",
    "D10.C73_saturation",
    "D10.C73_alpha",
    "D10.C73_power",
    "D10.C73_lightness_zero",
    "D10.C73_saturation_neutral"
   ],
   "note": ""
  },
  {
   "property": "C74",
   "status": "proved",
   "theorems": [
    "D10.C74_drawing",
    "D10.C74_gray",
    "D10.C74_colored_alpha",
    "D10.C74_opaque"
   ],
   "note": ""
  },
  {
   "property": "C75",
   "status": "proved",
   "theorems": [
    "D10.C75_jpeg_quality",
    "D10.C75_codec_error"
   ],
   "note": ""
  },
  {
   "property": "C76",
   "status": "proved",
   "theorems": [
    "D10.C76_convert",
    "D10.C76_has_transparency",
    "D10.C76_is_grayscale",
    "D10.C76_f32"
   ],
   "note": ""
  },
  {
   "property": "C77",
   "status": "proved",
   "theorems": [
    "D10.C77_no_panic",
    "D10.C77_jpeg_panics",
    "D10.C77_panic_iff"
   ],
   "note": ""
  },
  {
   "property": "C78",
   "status": "proved",
   "theorems": [
    "D10.C78_png",
    "D10.C78_bmp_ico",
    "D10.C78_webp",
    "D10.C78_again",
    "D10.C78_close"
   ],
   "note": ""
  },
  {
   "property": "C79",
   "status": "proved",
   "theorems": [
    "D10.C79_main",
    "D10.C79_code",
    "D10.C79_success",
    "D10.C79_wrong_changes_nothing"
   ],
   "note": ""
  },
  {
   "property": "C80",
   "status": "proved",
   "theorems": [
    "D10.C80_filters",
    "D10.C80_options",
    "D10.C80_defaults",
    "D10.C80_files",
    "D10.C80_jpeg",
    "D10.C80_png",
    "D10.C80_formats"
   ],
   "note": ""
  },
  {
   "property": "C81",
   "status": "proved",
   "theorems": [
    "D10.C81_new",
    "D10.C81_new_invalid",
    "D10.C81_items",
    "D10.C81_map",
    "D10.C81_mod",
    "D10.C81_compose",
    "D10.C81_compose_none"
   ],
   "note": ""
  },
  {
   "property": "C82",
   "status": "proved",
   "theorems": [
    "D10.C82_equal",
    "D10.C82_not_equal",
    "D10.C82_no_order",
    "D10.C82_map_channels",
    "D10.C82_text",
    "D10.C82_equal_and_not_equal",
    "D10.C82_new",
    "D10.C82_reference",
    "D10.C82_convert",
    "D10.C82_to_gray"
   ],
   "note": ""
  },
  {
   "property": "C83",
   "status": "proved",
   "theorems": [
    "D10.C83_brightness_contrast",
    "D10.C83_gamma",
    "D10.C83_level",
    "D10.C83_mix",
    "D10.C83_hsl",
    "D10.C83_hue"
   ],
   "note": ""
  },
  {
   "property": "C84",
   "status": "proved",
   "theorems": [
    "D10.C84_rgb",
    "D10.C84_srgb",
    "D10.C84_hsl",
    "D10.C84_hsv",
    "D10.C84_yuv",
    "D10.C84_xyz",
    "D10.C84_lab",
    "D10.C84_lch"
   ],
   "note": ""
  },
  {
   "property": "C85",
   "status": "proved",
   "theorems": [
    "D10.C85_values",
    "D10.C85_references",
    "D10.C85_list"
   ],
   "note": ""
  },
  {
   "property": "C86",
   "status": "proved",
   "theorems": [
    "D10.C86_sepia",
    "D10.C86_invert",
    "D10.C86_difference",
    "D10.C86_brightness",
    "D10.C86_contrast",
    "D10.C86_brightness_contrast",
    "D10.C86_alpha_blend",
    "D10.C86_matrices",
    "D10.C86_xyz_back",
    "D10.C86_xyz_round_trip",
    "D10.C86_gray",
    "D10.C86_gamma_to_linear",
    "D10.C86_linear_to_gamma",
    "D10.C86_srgb",
    "D10.C86_srgb_round_trip",
    "D10.C86_srgb_round_trip_rgb",
    "D10.C86_gamma"
   ],
   "note": ""
  },
  {
   "property": "C87",
   "status": "proved",
   "theorems": [
    "D10.C87_pointwise",
    "D10.C87_palette",
    "D10.C87_pointwise_copying",
    "D10.C87_equalize",
    "D10.C87_stretch_contrast",
    "D10.C87_balance",
    "D10.C87_convolution",
    "D10.C87_gaussian_blur",
    "D10.C87_unsharp",
    "D10.C87_edge_detection",
    "D10.C87_despeckle",
    "D10.C87_drawing",
    "D10.C87_change_color_temperature",
    "D10.C87_optimize_color_temperature",
    "D10.C87_optimize_lightness",
    "D10.C87_optimize_saturation",
    "D10.C87_snn_direction"
   ],
   "note": ""
  },
  {
   "property": "C88",
   "status": "proved",
   "theorems": [
    "D10.C88_auto_direction",
    "D10.C88_nearest_direction",
    "D10.C88_resize"
   ],
   "note": ""
  },
  {
   "property": "C89",
   "status": "proved",
   "theorems": [
    "D10.C89_rotate_turns",
    "D10.C89_rotate_flips"
   ],
   "note": ""
  },
  {
   "property": "C90",
   "status": "proved",
   "theorems": [
    "D10.C90_lanczos3_darkens",
    "D10.C90_auto_brightens"
   ],
   "note": ""
  },
  {
   "property": "C91",
   "status": "proved",
   "theorems": [
    "D10.C91_pointwise",
    "D10.C91_convolution",
    "D10.C91_convolution_dyn",
    "D10.C91_gaussian_blur",
    "D10.C91_unsharp",
    "D10.C91_edge_detection",
    "D10.C91_despeckle",
    "D10.C91_symmetric_nearest_neighbor",
    "D10.C91_drawing"
   ],
   "note": ""
  },
  {
   "property": "C92",
   "status": "proved",
   "theorems": [
    "D10.C92_formats",
    "D10.C92_rounding",
    "D10.C92_literal",
    "D10.C92_add",
    "D10.C92_sub_neg",
    "D10.C92_mul",
    "D10.C92_div",
    "D10.C92_compare",
    "D10.C92_min_max",
    "D10.C92_integral",
    "D10.C92_toInt",
    "D10.C92_cast",
    "D10.C92_widen",
    "D10.C92_bits"
   ],
   "note": ""
  },
  {
   "property": "C93",
   "status": "proved",
   "theorems": [
    "D10.C93_brightness",
    "D10.C93_contrast",
    "D10.C93_brightness_contrast",
    "D10.C93_invert",
    "D10.C93_gray",
    "D10.C93_sepia",
    "D10.C93_alpha_blend",
    "D10.C93_gamma",
    "D10.C93_gamma_opt",
    "D10.C93_level",
    "D10.C93_convolution"
   ],
   "note": ""
  },
  {
   "property": "C94",
   "status": "proved",
   "theorems": [
    "D10.C94_convert",
    "D10.C94_bad_input",
    "D10.C94_bad_output",
    "D10.C94_any"
   ],
   "note": ""
  },
  {
   "property": "C95",
   "status": "proved",
   "theorems": [
    "D10.C95_convolution",
    "D10.C95_convolution_dyn",
    "D10.C95_default_sigma",
    "D10.C95_gaussian_blur",
    "D10.C95_blur_range",
    "D10.C95_blur_flat",
    "D10.C95_unsharp",
    "D10.C95_sobel",
    "D10.C95_laplace"
   ],
   "note": ""
  },
  {
   "property": "C96",
   "status": "proved",
   "theorems": [
    "D10.C96_brightness_adds",
    "D10.C96_brightness_undo",
    "D10.C96_contrast_multiplies",
    "D10.C96_contrast_undo",
    "D10.C96_gamma_multiplies",
    "D10.C96_gamma_undo",
    "D10.C96_level_splits",
    "D10.C96_level_full",
    "D10.C96_level_twice",
    "D10.C96_negative_contrast",
    "D10.C96_negative_brightness",
    "D10.C96_negative_level",
    "D10.C96_difference",
    "D10.C96_blend_symmetric",
    "D10.C96_blend_negative"
   ],
   "note": ""
  },
  {
   "property": "C97",
   "status": "proved",
   "theorems": [
    "D10.C97_colour_operations",
    "D10.C97_two_colours",
    "D10.C97_blend",
    "D10.C97_convolution",
    "D10.C97_convolution_dyn",
    "D10.C97_gaussian_blur",
    "D10.C97_unsharp",
    "D10.C97_edge_detection",
    "D10.C97_resize",
    "D10.C97_rotate"
   ],
   "note": ""
  },
  {
   "property": "C98",
   "status": "proved",
   "theorems": [
    "D10.C98_pointwise",
    "D10.C98_colour_operations",
    "D10.C98_to_gray",
    "D10.C98_convolution",
    "D10.C98_convolution_dyn",
    "D10.C98_blur_sharpen_edges",
    "D10.C98_despeckle",
    "D10.C98_symmetric_nearest_neighbor",
    "D10.C98_stretch_contrast",
    "D10.C98_equalize",
    "D10.C98_resize",
    "D10.C98_rotate",
    "D10.C98_hsl",
    "D10.C98_stretch_saturation_colours",
    "D10.C98_equalize_hsl",
    "D10.C98_hsl_binary32"
   ],
   "note": ""
  },
  {
   "property": "C99",
   "status": "proved",
   "theorems": [
    "D10.C99_moves",
    "D10.C99_interlace",
    "D10.C99_resize_nearest",
    "D10.C99_rotate_nearest",
    "D10.C99_convolution",
    "D10.C99_convolution_dyn",
    "D10.C99_gaussian_blur",
    "D10.C99_unsharp",
    "D10.C99_edge_detection",
    "D10.C99_resize",
    "D10.C99_rotate",
    "D10.C99_linear"
   ],
   "note": ""
  },
  {
   "property": "C100",
   "status": "proved",
   "theorems": [
    "D10.C100_number",
    "D10.C100_exact",
    "D10.C100_special",
    "D10.C100_color",
    "D10.C100_gray_hsv",
    "D10.C100_negative_zero",
    "D10.C100_printable"
   ],
   "note": ""
  },
  {
   "property": "C101",
   "status": "proved",
   "theorems": [
    "D10.C101_reads",
    "D10.C101_refuses",
    "D10.C101_round_trip",
    "D10.C101_four_places",
    "D10.C101_option",
    "D10.C101_not_finite"
   ],
   "note": ""
  },
  {
   "property": "C102",
   "status": "proved",
   "theorems": [
    "D10.C102_hsl_back",
    "D10.C102_hue_twice",
    "D10.C102_hue_undo",
    "D10.C102_saturation_twice",
    "D10.C102_lightness_twice",
    "D10.C102_hue_saturation",
    "D10.C102_lost"
   ],
   "note": ""
  },
  {
   "property": "C103",
   "status": "proved",
   "theorems": [
    "D10.C103_enlarge",
    "D10.C103_reduce",
    "D10.C103_enlarge_reduce",
    "D10.C103_enlarge_exact",
    "D10.C103_reduce_exact",
    "D10.C103_enlarge_reduce_exact"
   ],
   "note": ""
  },
  {
   "property": "C104",
   "status": "proved",
   "theorems": [
    "D10.C104_bilinear",
    "D10.C104_bicubic",
    "D10.C104_nearest"
   ],
   "note": ""
  },
  {
   "property": "C105",
   "status": "proved",
   "theorems": [
    "D10.C105_background",
    "D10.C105_bilinear",
    "D10.C105_bicubic",
    "D10.C105_nearest"
   ],
   "note": ""
  },
  {
   "property": "C106",
   "status": "proved",
   "theorems": [
    "D10.C106_open",
    "D10.C106_encode",
    "D10.C106_save",
    "D10.C106_queue",
    "D10.C106_main",
    "D10.C106_no_panic"
   ],
   "note": ""
  },
  {
   "property": "C107",
   "status": "proved",
   "theorems": [
    "D10.C107_blur",
    "D10.C107_resize",
    "D10.C107_rotate",
    "D10.C107_bicubic",
    "D10.C107_bilinear_float"
   ],
   "note": ""
  },
  {
   "property": "C108",
   "status": "proved",
   "theorems": [
    "D10.C108_level",
    "D10.C108_bytes",
    "D10.C108_resize",
    "D10.C108_resize_any"
   ],
   "note": ""
  },
  {
   "property": "C109",
   "status": "proved",
   "theorems": [
    "D10.C109_prefix",
    "D10.C109_ok",
    "D10.C109_result",
    "D10.C109_reliable",
    "D10.C109_flushed",
    "D10.C109_silent",
    "D10.C109_to_buffer",
    "D10.C109_to_writer",
    "D10.C109_webp",
    "D10.C109_webp_encode",
    "D10.C109_webp_ok"
   ],
   "note": ""
  },
  {
   "property": "C110",
   "status": "proved",
   "theorems": [
    "D10.C110_whole",
    "D10.C110_error",
    "D10.C110_from_reader",
    "D10.C110_from_reader_error"
   ],
   "note": ""
  },
  {
   "property": "C111",
   "status": "proved",
   "theorems": [
    "D10.C111_enumerate_mut",
    "D10.C111_mod_colors_enumerated",
    "D10.C111_image",
    "D10.C111_source",
    "D10.C111_hues",
    "D10.C111_opposite"
   ],
   "note": ""
  },
  {
   "property": "C112",
   "status": "proved",
   "theorems": [
    "D10.C112_xyz_round_trip",
    "D10.C112_to_lab",
    "D10.C112_to_xyz",
    "D10.C112_lab_round_trip",
    "D10.C112_rgb_to_lab"
   ],
   "note": ""
  },
  {
   "property": "C113",
   "status": "proved",
   "theorems": [
    "D10.C113_to_lch",
    "D10.C113_xyz_round_trip",
    "D10.C113_rgb_to_lch",
    "D10.C113_lch_round_trip"
   ],
   "note": ""
  },
  {
   "property": "C114",
   "status": "proved",
   "theorems": [
    "D10.C114_calls",
    "D10.C114_total",
    "D10.C114_channels",
    "D10.C114_identity",
    "D10.C114_compose",
    "D10.C114_rgb_methods"
   ],
   "note": ""
  },
  {
   "property": "C115",
   "status": "proved",
   "theorems": [
    "D10.C115_read_io",
    "D10.C115_read_other",
    "D10.C115_read_text",
    "D10.C115_write_png",
    "D10.C115_write_gif",
    "D10.C115_write_jpeg",
    "D10.C115_write_bmp_ico",
    "D10.C115_outcome",
    "D10.C115_write_text"
   ],
   "note": ""
  },
  {
   "property": "C116",
   "status": "proved",
   "theorems": [
    "D10.C116_from_yuv",
    "D10.C116_srgb_round_trip",
    "D10.C116_rgb_round_trip"
   ],
   "note": ""
  },
  {
   "property": "C117",
   "status": "proved",
   "theorems": [
    "D10.C117_round_trip",
    "D10.C117_chain",
    "D10.C117_bytes"
   ],
   "note": ""
  },
  {
   "property": "C118",
   "status": "proved",
   "theorems": [
    "D10.C118_careful",
    "D10.C118_colours",
    "D10.C118_execute",
    "D10.C118_cli",
    "D10.C118_laplace_not",
    "D10.C118_balance_not"
   ],
   "note": ""
  },
  {
   "property": "C119",
   "status": "proved",
   "theorems": [
    "D10.C119_reading",
    "D10.C119_changing",
    "D10.C119_refused",
    "D10.C119_busy",
    "D10.C119_message",
    "D10.C119_create",
    "D10.C119_read",
    "D10.C119_read2",
    "D10.C119_write",
    "D10.C119_palette",
    "D10.C119_self",
    "D10.C119_begin",
    "D10.C119_next",
    "D10.C119_end",
    "D10.C119_raise"
   ],
   "note": ""
  },
  {
   "property": "C120",
   "status": "proved",
   "theorems": [
    "D10.C120_shape",
    "D10.C120_same_size",
    "D10.C120_range",
    "D10.C120_methods_ask",
    "D10.C120_methods_make",
    "D10.C120_methods_options",
    "D10.C120_methods_change",
    "D10.C120_methods_create"
   ],
   "note": ""
  },
  {
   "property": "C121",
   "status": "proved",
   "theorems": [
    "D10.C121_methods",
    "D10.C121_two_images",
    "D10.C121_changes",
    "D10.C121_making",
    "D10.C121_program_reads",
    "D10.C121_program_two_images",
    "D10.C121_program_changes",
    "D10.C121_program_making"
   ],
   "note": ""
  },
  {
   "property": "C122",
   "status": "proved",
   "theorems": [
    "D10.C122_colours",
    "D10.C122_execute",
    "D10.C122_cli",
    "D10.C122_brightness_not",
    "D10.C122_gamma_saturation_not",
    "D10.C122_gamma_saturation"
   ],
   "note": ""
  },
  {
   "property": "C123",
   "status": "proved",
   "theorems": [
    "D10.C123_tame",
    "D10.C123_blend_not"
   ],
   "note": ""
  },
  {
   "property": "C124",
   "status": "proved",
   "theorems": [
    "D10.C124_blur",
    "D10.C124_unsharp",
    "D10.C124_blur_unsharp",
    "D10.C124_drawing",
    "D10.C124_radius_zero_nan"
   ],
   "note": ""
  },
  {
   "property": "C125",
   "status": "proved",
   "theorems": [
    "D10.C125_step",
    "D10.C125_step_16",
    "D10.C125_files",
    "D10.C125_files_16",
    "D10.C125_saved"
   ],
   "note": ""
  },
  {
   "property": "C126",
   "status": "proved",
   "theorems": [
    "D10.C126_lightness",
    "D10.C126_saturation",
    "D10.C126_palette",
    "D10.C126_images",
    "D10.C126_saturation_not",
    "D10.C126_temperature",
    "D10.C126_auto_temperature",
    "D10.C126_temperature_images"
   ],
   "note": ""
  },
  {
   "property": "C127",
   "status": "proved",
   "theorems": [
    "D10.C127_colours",
    "D10.C127_gamma",
    "D10.C127_same",
    "D10.C127_both",
    "D10.C127_unsharp",
    "D10.C127_edges",
    "D10.C127_close",
    "D10.C127_bytes",
    "D10.C127_open",
    "D10.C127_blur",
    "D10.C127_laplace"
   ],
   "note": ""
  },
  {
   "property": "C128",
   "status": "proved",
   "theorems": [
    "D10.C128_lanczos3",
    "D10.C128_auto",
    "D10.C128_rotate"
   ],
   "note": ""
  },
  {
   "property": "C129",
   "status": "proved",
   "theorems": [
    "D10.C129_convert"
   ],
   "note": ""
  },
  {
   "property": "C130",
   "status": "proved",
   "theorems": [
    "D10.C130_modes",
    "D10.C130_factor",
    "D10.C130_colours",
    "D10.C130_blend",
    "D10.C130_compose"
   ],
   "note": ""
  },
  {
   "property": "C131",
   "status": "proved",
   "theorems": [
    "D10.C131_level",
    "D10.C131_png",
    "D10.C131_image",
    "D10.C131_jpeg",
    "D10.C131_gif",
    "D10.C131_webp",
    "D10.C131_read_jpeg",
    "D10.C131_read_image"
   ],
   "note": ""
  },
  {
   "property": "C132",
   "status": "proved",
   "theorems": [
    "D10.C132_level",
    "D10.C132_save",
    "D10.C132_convert"
   ],
   "note": ""
  },
  {
   "property": "C133",
   "status": "proved",
   "theorems": [
    "D10.C133_fade",
    "D10.C133_exact",
    "D10.C133_follows"
   ],
   "note": ""
  },
  {
   "property": "C134",
   "status": "proved",
   "theorems": [
    "D10.C134_turn",
    "D10.C134_exact",
    "D10.C134_follows"
   ],
   "note": ""
  },
  {
   "property": "C135",
   "status": "proved",
   "theorems": [
    "D10.C135_noise",
    "D10.C135_rgb",
    "D10.C135_salt",
    "D10.C135_salt_tie"
   ],
   "note": ""
  },
  {
   "property": "C136",
   "status": "proved",
   "theorems": [
    "D10.C136_line",
    "D10.C136_png"
   ],
   "note": ""
  },
  {
   "property": "C137",
   "status": "proved",
   "theorems": [
    "D10.C137_lightness",
    "D10.C137_darken",
    "D10.C137_lighten",
    "D10.C137_near_white",
    "D10.C137_not_stable",
    "D10.C137_saturation",
    "D10.C137_darken_float"
   ],
   "note": ""
  },
  {
   "property": "C138",
   "status": "proved",
   "theorems": [
    "D10.C138_layers",
    "D10.C138_below",
    "D10.C138_opaque",
    "D10.C138_halo",
    "D10.C138_merge",
    "D10.C138_merge_fails",
    "D10.C138_on_nothing",
    "D10.C138_images",
    "D10.C138_layer_float",
    "D10.C138_layers_float",
    "D10.C138_float",
    "D10.C138_images_float"
   ],
   "note": ""
  },
  {
   "property": "C139",
   "status": "proved",
   "theorems": [
    "D10.C139_after",
    "D10.C139_again"
   ],
   "note": ""
  },
  {
   "property": "C140",
   "status": "proved",
   "theorems": [
    "D10.C140_stages",
    "D10.C140_png"
   ],
   "note": ""
  },
  {
   "property": "C141",
   "status": "proved",
   "theorems": [
    "D10.C141_swap",
    "D10.C141_order",
    "D10.C141_corner",
    "D10.C141_self",
    "D10.C141_neutral",
    "D10.C141_add_subtract",
    "D10.C141_full_float",
    "D10.C141_swap_float",
    "D10.C141_order_float",
    "D10.C141_sum_order_fails",
    "D10.C141_self_float"
   ],
   "note": ""
  },
  {
   "property": "C142",
   "status": "proved",
   "theorems": [
    "D10.C142_moves",
    "D10.C142_crop",
    "D10.C142_diagonal",
    "D10.C142_compose",
    "D10.C142_anchored"
   ],
   "note": ""
  },
  {
   "property": "C143",
   "status": "proved",
   "theorems": [
    "D10.C143_repeated",
    "D10.C143_order",
    "D10.C143_more",
    "D10.C143_opacity"
   ],
   "note": ""
  },
  {
   "property": "C144",
   "status": "proved",
   "theorems": [
    "D10.C144_adds",
    "D10.C144_smeared",
    "D10.C144_turned",
    "D10.C144_mirrored"
   ],
   "note": ""
  },
  {
   "property": "C145",
   "status": "proved",
   "theorems": [
    "D10.C145_moves",
    "D10.C145_twice",
    "D10.C145_corner"
   ],
   "note": ""
  },
  {
   "property": "C146",
   "status": "proved",
   "theorems": [
    "D10.C146_exact",
    "D10.C146_close",
    "D10.C146_average_moves",
    "D10.C146_black_white"
   ],
   "note": ""
  },
  {
   "property": "C147",
   "status": "proved",
   "theorems": [
    "D10.C147_thrice",
    "D10.C147_twice",
    "D10.C147_light",
    "D10.C147_pictures",
    "D10.C147_dark",
    "D10.C147_commands"
   ],
   "note": ""
  },
  {
   "property": "C148",
   "status": "proved",
   "theorems": [
    "D10.C148_brightness",
    "D10.C148_contrast",
    "D10.C148_contrast_light",
    "D10.C148_contrast_again",
    "D10.C148_both",
    "D10.C148_contrast_dark"
   ],
   "note": ""
  },
  {
   "property": "C149",
   "status": "proved",
   "theorems": [
    "D10.C149_ends",
    "D10.C149_alpha",
    "D10.C149_not_between"
   ],
   "note": ""
  },
  {
   "property": "C150",
   "status": "proved",
   "theorems": [
    "D10.C150_nothing",
    "D10.C150_normal",
    "D10.C150_picture"
   ],
   "note": ""
  }
 ]
}