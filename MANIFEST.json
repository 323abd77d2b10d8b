{
 "claims": [
  {
   "property": "C01",
   "status": "proved",
   "theorems": [
    "Mlx.Props.C01_checksum_round_trip"
   ],
   "note": ""
  },
  {
   "property": "C02",
   "status": "proved",
   "theorems": [
    "Mlx.Props.C02_single_bit_errors_corrected"
   ],
   "note": ""
  },
  {
   "property": "C03",
   "status": "proved",
   "theorems": [
    "Mlx.Props.C03_double_bit_errors_detected"
   ],
   "note": ""
  },
  {
   "property": "C04",
   "status": "proved",
   "theorems": [
    "Mlx.Props.C04_decoder_characterisation"
   ],
   "note": ""
  },
  {
   "property": "C05",
   "status": "proved",
   "theorems": [
    "Mlx.Props.C05_control_field_laws"
   ],
   "note": ""
  },
  {
   "property": "C06",
   "status": "proved",
   "theorems": [
    "Mlx.Props.C06_status_register_bits"
   ],
   "note": ""
  },
  {
   "property": "C07",
   "status": "proved",
   "theorems": [
    "Mlx.Props.C07_register_byte_encoding"
   ],
   "note": ""
  },
  {
   "property": "C08",
   "status": "proved",
   "theorems": [
    "Mlx.Props.C08_reserved_bits_lost",
    "Mlx.Props.C08_i2c_register_round_trip"
   ],
   "note": ""
  },
  {
   "property": "C09",
   "status": "proved",
   "theorems": [
    "Mlx.Props.C09_frame_rate_binary32",
    "Mlx.Props.C09_frame_rate_and_resolution_conversions",
    "Mlx.Props.C09_frame_rate_f32"
   ],
   "note": ""
  },
  {
   "property": "C10",
   "status": "proved",
   "theorems": [
    "Mlx.Props.C10_register_equality"
   ],
   "note": ""
  },
  {
   "property": "C11",
   "status": "proved",
   "theorems": [
    "Mlx.Props.C11_sign_extension"
   ],
   "note": ""
  },
  {
   "property": "C12",
   "status": "proved",
   "theorems": [
    "Mlx.Props.C12_mlx90640_subpage_partition"
   ],
   "note": ""
  },
  {
   "property": "C13",
   "status": "proved",
   "theorems": [
    "Mlx.Props.C13_mlx90641_full_subpages"
   ],
   "note": ""
  },
  {
   "property": "C14",
   "status": "proved",
   "theorems": [
    "Mlx.Props.C14_mlx90640_ram_ranges"
   ],
   "note": ""
  },
  {
   "property": "C15",
   "status": "proved",
   "theorems": [
    "Mlx.Props.C15_mlx90641_ram_ranges"
   ],
   "note": ""
  },
  {
   "property": "C16",
   "status": "proved",
   "theorems": [
    "Mlx.Props.C16_addresses",
    "Mlx.Props.C16_read_ram"
   ],
   "note": ""
  },
  {
   "property": "C17",
   "status": "proved",
   "theorems": [
    "Mlx.Props.C17_one_pass_eq_two_pass"
   ],
   "note": ""
  },
  {
   "property": "C18",
   "status": "proved",
   "theorems": [
    "Mlx.Props.C18_unselected_pixels_kept",
    "Mlx.Props.C18_pixels_are_independent"
   ],
   "note": ""
  },
  {
   "property": "C19",
   "status": "proved",
   "theorems": [
    "Mlx.Props.C19_two_subpages_make_an_image"
   ],
   "note": ""
  },
  {
   "property": "C20",
   "status": "proved",
   "theorems": [
    "Mlx.Props.C20_emissivity_one_ignores_reflected"
   ],
   "note": ""
  },
  {
   "property": "C21",
   "status": "proved",
   "theorems": [
    "Mlx.Props.C21_ambient_dependencies"
   ],
   "note": ""
  },
  {
   "property": "C22",
   "status": "proved",
   "theorems": [
    "Mlx.Props.C22_no_gradient_ignores_compensation_pixel"
   ],
   "note": ""
  },
  {
   "property": "C23",
   "status": "proved",
   "theorems": [
    "Mlx.Props.C23_overflow_640",
    "Mlx.Props.C23_delta_v_exact",
    "Mlx.Props.C23_overflow_reachable"
   ],
   "note": ""
  },
  {
   "property": "C24",
   "status": "proved",
   "theorems": [
    "Mlx.Props.C24_dump_length"
   ],
   "note": ""
  },
  {
   "property": "C25",
   "status": "proved",
   "theorems": [
    "Mlx.Props.C25_scalars"
   ],
   "note": ""
  },
  {
   "property": "C26",
   "status": "proved",
   "theorems": [
    "Mlx.Props.C26_offsets"
   ],
   "note": ""
  },
  {
   "property": "C27",
   "status": "proved",
   "theorems": [
    "Mlx.Props.C27_flags"
   ],
   "note": ""
  },
  {
   "property": "C28",
   "status": "proved",
   "theorems": [
    "Mlx.Props.C28_complete_640",
    "Mlx.Props.C28_complete_641"
   ],
   "note": ""
  },
  {
   "property": "C29",
   "status": "proved",
   "theorems": [
    "Mlx.Props.C29_range_correction_640",
    "Mlx.Props.C29_range_correction_641"
   ],
   "note": ""
  },
  {
   "property": "C30",
   "status": "proved",
   "theorems": [
    "Mlx.Props.C30_pixel_coefficients"
   ],
   "note": ""
  },
  {
   "property": "C31",
   "status": "proved",
   "theorems": [
    "Mlx.Props.C31_interleave_compensation"
   ],
   "note": ""
  },
  {
   "property": "C32",
   "status": "proved",
   "theorems": [
    "Mlx.Props.C32_dump_length"
   ],
   "note": ""
  },
  {
   "property": "C33",
   "status": "proved",
   "theorems": [
    "Mlx.Props.C33_one_bit_per_word"
   ],
   "note": ""
  },
  {
   "property": "C34",
   "status": "proved",
   "theorems": [
    "Mlx.Props.C34_uncorrectable_reported"
   ],
   "note": ""
  },
  {
   "property": "C35",
   "status": "proved",
   "theorems": [
    "Mlx.Props.C35_scalars_641"
   ],
   "note": ""
  },
  {
   "property": "C36",
   "status": "proved",
   "theorems": [
    "Mlx.Props.C36_offset_average"
   ],
   "note": ""
  },
  {
   "property": "C37",
   "status": "proved",
   "theorems": [
    "Mlx.Props.C37_pixels_641"
   ],
   "note": ""
  },
  {
   "property": "C38",
   "status": "proved",
   "theorems": [
    "Mlx.Props.C38_header_ignored_640",
    "Mlx.Props.C38_irrelevant_words_641"
   ],
   "note": ""
  },
  {
   "property": "C39",
   "status": "proved",
   "theorems": [
    "Mlx.Props.C39_construction",
    "Mlx.Props.C39_constructed_drivers_supported"
   ],
   "note": ""
  },
  {
   "property": "C40",
   "status": "proved",
   "theorems": [
    "Mlx.Props.C40_control_getters",
    "Mlx.Props.C40_status_getters"
   ],
   "note": ""
  },
  {
   "property": "C41",
   "status": "proved",
   "theorems": [
    "Mlx.Props.C41_control_setters",
    "Mlx.Props.C41_overwrite_setter",
    "Mlx.Props.C41_setter_takes_effect"
   ],
   "note": ""
  },
  {
   "property": "C42",
   "status": "proved",
   "theorems": [
    "Mlx.Props.C42_data_available_flag"
   ],
   "note": ""
  },
  {
   "property": "C43",
   "status": "proved",
   "theorems": [
    "Mlx.Props.C43_not_ready_no_effect"
   ],
   "note": ""
  },
  {
   "property": "C44",
   "status": "proved",
   "theorems": [
    "Mlx.Props.C44_ready_frame_always_converted",
    "Mlx.Props.C44_ready_frame_converted_then_acknowledged"
   ],
   "note": ""
  },
  {
   "property": "C45",
   "status": "proved",
   "theorems": [
    "Mlx.Props.C45_failures_if_ready",
    "Mlx.Props.C45_failures_unconditional"
   ],
   "note": ""
  },
  {
   "property": "C46",
   "status": "proved",
   "theorems": [
    "Mlx.Props.C46_unconditional_methods_never_write"
   ],
   "note": ""
  },
  {
   "property": "C47",
   "status": "proved",
   "theorems": [
    "Mlx.Props.C47_in_sessions",
    "Mlx.Props.C47_after_construction",
    "Mlx.Props.C47_each_call",
    "Mlx.Props.C47_caches_agree",
    "Mlx.Props.C47_recovers",
    "Mlx.Props.C47_failed_write_breaks_agreement"
   ],
   "note": ""
  },
  {
   "property": "C48",
   "status": "proved",
   "theorems": [
    "Mlx.Props.C48_spins_on_idle_camera",
    "Mlx.Props.C48_synchronize_waits_for_fresh_data",
    "Mlx.Props.C48_bound_is_only_observation",
    "Mlx.Props.C48_returns_iff"
   ],
   "note": ""
  },
  {
   "property": "C49",
   "status": "proved",
   "theorems": [
    "Mlx.Props.C49_local_settings_no_traffic",
    "Mlx.Props.C49_settings_after_history",
    "Mlx.Props.C49_ambient_only_by_images",
    "Mlx.Props.C49_ambient_of_last_image",
    "Mlx.Props.C49_ambient_each_call",
    "Mlx.Props.C49_ambient_history"
   ],
   "note": ""
  },
  {
   "property": "C50",
   "status": "proved",
   "theorems": [
    "Mlx.Props.C50_only_two_registers_written"
   ],
   "note": ""
  },
  {
   "property": "C51",
   "status": "proved",
   "theorems": [
    "Mlx.Props.C51_no_stale_pixels",
    "Mlx.Props.C51_histories"
   ],
   "note": ""
  },
  {
   "property": "C52",
   "status": "proved",
   "theorems": [
    "Mlx.Props.C52_each_call",
    "Mlx.Props.C52_reserved_bits_survive"
   ],
   "note": ""
  },
  {
   "property": "C53",
   "status": "proved",
   "theorems": [
    "Mlx.Props.C53_only_configured_address"
   ],
   "note": ""
  },
  {
   "property": "C54",
   "status": "proved",
   "theorems": [
    "Mlx.Props.C54_single_frame_when_quiet",
    "Mlx.Props.C54_torn_frame"
   ],
   "note": ""
  },
  {
   "property": "C55",
   "status": "proved",
   "theorems": [
    "Mlx.Props.C55_documented_formulas",
    "Mlx.Props.C55_frame_of_memory",
    "Mlx.Props.C55_end_to_end"
   ],
   "note": ""
  },
  {
   "property": "C56",
   "status": "proved",
   "theorems": [
    "Mlx.Props.C56_inverts_radiation_law",
    "Mlx.Props.C56_zero_signal_is_ambient"
   ],
   "note": ""
  },
  {
   "property": "C57",
   "status": "proved",
   "theorems": [
    "Mlx.Props.C57_resolution_correction_binary32",
    "Mlx.Props.C57_resolution_correction"
   ],
   "note": ""
  },
  {
   "property": "C58",
   "status": "proved",
   "theorems": [
    "Mlx.Props.C58_flags_never_consulted",
    "Mlx.Props.C58_failed_pixels_not_skipped"
   ],
   "note": ""
  },
  {
   "property": "C59",
   "status": "proved",
   "theorems": [
    "Mlx.Props.C59_supply_voltage_vs_datasheet",
    "Mlx.Props.C59_supply_voltage_differs"
   ],
   "note": ""
  },
  {
   "property": "C60",
   "status": "proved",
   "theorems": [
    "Mlx.Props.C60_recorder_transparent",
    "Mlx.Props.C60_recorder_histories"
   ],
   "note": ""
  },
  {
   "property": "C61",
   "status": "proved",
   "theorems": [
    "Mlx.Props.C61_alpha_ptat_truncated"
   ],
   "note": ""
  },
  {
   "property": "C62",
   "status": "proved",
   "theorems": [
    "Mlx.Props.C62_decoding_and_conversion",
    "Mlx.Props.C62_construction",
    "Mlx.Props.C62_calls",
    "Mlx.Props.C62_histories"
   ],
   "note": ""
  },
  {
   "property": "C63",
   "status": "proved",
   "theorems": [
    "Mlx.Props.C63_panics_only_on_voltage_overflow",
    "Mlx.Props.C63_release_never_panics"
   ],
   "note": ""
  },
  {
   "property": "C64",
   "status": "proved",
   "theorems": [
    "Mlx.Props.C64_errors_are_bus_errors"
   ],
   "note": ""
  },
  {
   "property": "C65",
   "status": "proved",
   "theorems": [
    "Mlx.Props.C65_flagged_pixels",
    "Mlx.Props.C65_flagged_640",
    "Mlx.Props.C65_flagged_641"
   ],
   "note": ""
  },
  {
   "property": "C66",
   "status": "proved",
   "theorems": [
    "Mlx.Props.C66_table_640",
    "Mlx.Props.C66_table_641",
    "Mlx.Props.C66_camera_640",
    "Mlx.Props.C66_camera_641"
   ],
   "note": ""
  },
  {
   "property": "C67",
   "status": "proved",
   "theorems": [
    "Mlx.Props.C67_documented_accesses",
    "Mlx.Props.C67_from_construction"
   ],
   "note": ""
  },
  {
   "property": "C68",
   "status": "proved",
   "theorems": [
    "Mlx.Props.C68_construction",
    "Mlx.Props.C68_healthy_camera_works"
   ],
   "note": ""
  },
  {
   "property": "C69",
   "status": "proved",
   "theorems": [
    "Mlx.Props.C69_exact_640",
    "Mlx.Props.C69_exact_641"
   ],
   "note": ""
  },
  {
   "property": "C70",
   "status": "proved",
   "theorems": [
    "Mlx.Props.C70_accurate_640",
    "Mlx.Props.C70_accurate_641"
   ],
   "note": ""
  },
  {
   "property": "C71",
   "status": "proved",
   "theorems": [
    "Mlx.Props.C71_signal_640",
    "Mlx.Props.C71_signal_641"
   ],
   "note": ""
  },
  {
   "property": "C72",
   "status": "proved",
   "theorems": [
    "Mlx.Props.C72_one_transaction",
    "Mlx.Props.C72_i2c_configuration",
    "Mlx.Props.C72_defaults"
   ],
   "note": ""
  },
  {
   "property": "C73",
   "status": "proved",
   "theorems": [
    "Mlx.Props.C73_destinations",
    "Mlx.Props.C73_geometry"
   ],
   "note": ""
  },
  {
   "property": "C74",
   "status": "proved",
   "theorems": [
    "Mlx.Props.C74_typical",
    "Mlx.Props.C74_temperature_640",
    "Mlx.Props.C74_temperature_641"
   ],
   "note": ""
  },
  {
   "property": "C75",
   "status": "proved",
   "theorems": [
    "Mlx.Props.C75_camera_640",
    "Mlx.Props.C75_camera_641"
   ],
   "note": ""
  },
  {
   "property": "C76",
   "status": "proved",
   "theorems": [
    "Mlx.Props.C76_status_write_mask",
    "Mlx.Props.C76_control_write_mask",
    "Mlx.Props.C76_i2c_write_mask",
    "Mlx.Props.C76_i2c_setters"
   ],
   "note": ""
  },
  {
   "property": "C77",
   "status": "proved",
   "theorems": [
    "Mlx.Props.C77_raw_images_keep_order",
    "Mlx.Props.C77_images_keep_strict_order"
   ],
   "note": ""
  },
  {
   "property": "C78",
   "status": "proved",
   "theorems": [
    "Mlx.Props.C78_driver_works_on_mock",
    "Mlx.Props.C78_construction_on_mock"
   ],
   "note": ""
  },
  {
   "property": "C79",
   "status": "proved",
   "theorems": [
    "Mlx.Props.C79_mock_reads",
    "Mlx.Props.C79_mock_register_writes",
    "Mlx.Props.C79_mock_writes",
    "Mlx.Props.C79_mock_eeprom_words"
   ],
   "note": ""
  },
  {
   "property": "C80",
   "status": "proved",
   "theorems": [
    "Mlx.Props.C80_recent_operations",
    "Mlx.Props.C80_queue_bounded"
   ],
   "note": ""
  },
  {
   "property": "C81",
   "status": "proved",
   "theorems": [
    "Mlx.Props.C81_update_frame",
    "Mlx.Props.C81_set_data_available",
    "Mlx.Props.C81_frames_in_sessions",
    "Mlx.Props.C81_driver_sees_flag"
   ],
   "note": ""
  },
  {
   "property": "C82",
   "status": "proved",
   "theorems": [
    "Mlx.Props.C82_each_measurement_once",
    "Mlx.Props.C82_ready_after_measurement"
   ],
   "note": ""
  },
  {
   "property": "C83",
   "status": "proved",
   "theorems": [
    "Mlx.Props.C83_newest_pixels_640",
    "Mlx.Props.C83_newest_pixels_641",
    "Mlx.Props.C83_two_subpages_640",
    "Mlx.Props.C83_newest_pixels_640_binary32",
    "Mlx.Props.C83_newest_pixels_641_binary32"
   ],
   "note": ""
  },
  {
   "property": "C84",
   "status": "proved",
   "theorems": [
    "Mlx.Props.C84_like_alone",
    "Mlx.Props.C84_two_cameras"
   ],
   "note": ""
  },
  {
   "property": "C85",
   "status": "proved",
   "theorems": [
    "Mlx.Props.C85_call_traffic",
    "Mlx.Props.C85_history_traffic"
   ],
   "note": ""
  },
  {
   "property": "C86",
   "status": "proved",
   "theorems": [
    "Mlx.Props.C86_ram_addresses"
   ],
   "note": ""
  },
  {
   "property": "C87",
   "status": "proved",
   "theorems": [
    "Mlx.Props.C87_error_texts",
    "Mlx.Props.C87_address_texts"
   ],
   "note": ""
  },
  {
   "property": "C88",
   "status": "proved",
   "theorems": [
    "Mlx.Props.C88_settings_last_acknowledged"
   ],
   "note": ""
  },
  {
   "property": "C89",
   "status": "proved",
   "theorems": [
    "Mlx.Props.C89_restart_after_crash"
   ],
   "note": ""
  },
  {
   "property": "C90",
   "status": "proved",
   "theorems": [
    "Mlx.Props.C90_emissivity_divides_raw_image",
    "Mlx.Props.C90_reflected_temperature_lowers"
   ],
   "note": ""
  },
  {
   "property": "C91",
   "status": "proved",
   "theorems": [
    "Mlx.Props.C91_lower_emissivity_raises"
   ],
   "note": ""
  },
  {
   "property": "C92",
   "status": "proved",
   "theorems": [
    "Mlx.Props.C92_address_argument",
    "Mlx.Props.C92_picture",
    "Mlx.Props.C92_terminal_640",
    "Mlx.Props.C92_terminal_641"
   ],
   "note": ""
  },
  {
   "property": "C93",
   "status": "proved",
   "theorems": [
    "Mlx.Props.C93_statistics",
    "Mlx.Props.C93_even_median_wrong",
    "Mlx.Props.C93_durations",
    "Mlx.Props.C93_find_frequency"
   ],
   "note": ""
  },
  {
   "property": "C94",
   "status": "proved",
   "theorems": [
    "Mlx.Props.C94_objects_following_the_law",
    "Mlx.Props.C94_camera_640",
    "Mlx.Props.C94_camera_641"
   ],
   "note": ""
  },
  {
   "property": "C95",
   "status": "proved",
   "theorems": [
    "Mlx.Props.C95_pixels_640",
    "Mlx.Props.C95_pixels_641"
   ],
   "note": ""
  },
  {
   "property": "C96",
   "status": "proved",
   "theorems": [
    "Mlx.Props.C96_history_independence"
   ],
   "note": ""
  },
  {
   "property": "C97",
   "status": "proved",
   "theorems": [
    "Mlx.Props.C97_camera_640",
    "Mlx.Props.C97_camera_641"
   ],
   "note": ""
  },
  {
   "property": "C98",
   "status": "proved",
   "theorems": [
    "Mlx.Props.C98_camera_640",
    "Mlx.Props.C98_camera_641",
    "Mlx.Props.C98_unnoticed_until_control_call"
   ],
   "note": ""
  },
  {
   "property": "C99",
   "status": "proved",
   "theorems": [
    "Mlx.Props.C99_memory_exists",
    "Mlx.Props.C99_replay_640",
    "Mlx.Props.C99_replay_641",
    "Mlx.Props.C99_camera_640",
    "Mlx.Props.C99_camera_641",
    "Mlx.Props.C99_healthy_camera"
   ],
   "note": ""
  },
  {
   "property": "C100",
   "status": "proved",
   "theorems": [
    "Mlx.Props.C100_camera_640",
    "Mlx.Props.C100_usual_640",
    "Mlx.Props.C100_camera_641",
    "Mlx.Props.C100_usual_641"
   ],
   "note": ""
  },
  {
   "property": "C101",
   "status": "proved",
   "theorems": [
    "Mlx.Props.C101_exact_640",
    "Mlx.Props.C101_exact_641",
    "Mlx.Props.C101_rounded_640",
    "Mlx.Props.C101_rounded_641"
   ],
   "note": ""
  },
  {
   "property": "C102",
   "status": "proved",
   "theorems": [
    "Mlx.Props.C102_calls",
    "Mlx.Props.C102_session_640",
    "Mlx.Props.C102_session_641"
   ],
   "note": ""
  },
  {
   "property": "C103",
   "status": "proved",
   "theorems": [
    "Mlx.Props.C103_exact_640",
    "Mlx.Props.C103_exact_641",
    "Mlx.Props.C103_rounded_640",
    "Mlx.Props.C103_rounded_641"
   ],
   "note": ""
  },
  {
   "property": "C104",
   "status": "proved",
   "theorems": [
    "Mlx.Props.C104_exact_640",
    "Mlx.Props.C104_exact_641",
    "Mlx.Props.C104_rounded_640",
    "Mlx.Props.C104_rounded_641"
   ],
   "note": ""
  },
  {
   "property": "C105",
   "status": "proved",
   "theorems": [
    "Mlx.Props.C105_held_data_stay",
    "Mlx.Props.C105_hold_takes_effect",
    "Mlx.Props.C105_synchronize_thaws",
    "Mlx.Props.C105_whole_frames",
    "Mlx.Props.C105_overwriting_tears"
   ],
   "note": ""
  },
  {
   "property": "C106",
   "status": "proved",
   "theorems": [
    "Mlx.Props.C106_checked_images",
    "Mlx.Props.C106_torn_image_found",
    "Mlx.Props.C106_flag_lost"
   ],
   "note": ""
  },
  {
   "property": "C107",
   "status": "proved",
   "theorems": [
    "Mlx.Props.C107_images_at_most_measurements",
    "Mlx.Props.C107_synchronize_measured",
    "Mlx.Props.C107_not_missed"
   ],
   "note": ""
  },
  {
   "property": "C108",
   "status": "proved",
   "theorems": [
    "Mlx.Props.C108_same_calibration",
    "Mlx.Props.C108_same_raw_images",
    "Mlx.Props.C108_thermal_640",
    "Mlx.Props.C108_thermal_641"
   ],
   "note": ""
  },
  {
   "property": "C109",
   "status": "proved",
   "theorems": [
    "Mlx.Props.C109_retry",
    "Mlx.Props.C109_retry_image",
    "Mlx.Props.C109_retry_if_ready",
    "Mlx.Props.C109_lost_acknowledgement",
    "Mlx.Props.C109_retry_construction"
   ],
   "note": ""
  },
  {
   "property": "C110",
   "status": "proved",
   "theorems": [
    "Mlx.Props.C110_ranges_640",
    "Mlx.Props.C110_ranges_641"
   ],
   "note": ""
  },
  {
   "property": "C111",
   "status": "proved",
   "theorems": [
    "Mlx.Props.C111_camera_640"
   ],
   "note": ""
  },
  {
   "property": "C112",
   "status": "proved",
   "theorems": [
    "Mlx.Props.C112_camera_641"
   ],
   "note": ""
  },
  {
   "property": "C113",
   "status": "proved",
   "theorems": [
    "Mlx.Props.C113_usual",
    "Mlx.Props.C113_camera_640",
    "Mlx.Props.C113_camera_641"
   ],
   "note": ""
  },
  {
   "property": "C114",
   "status": "proved",
   "theorems": [
    "Mlx.Props.C114_conversions",
    "Mlx.Props.C114_any_image",
    "Mlx.Props.C114_images_640",
    "Mlx.Props.C114_images_641"
   ],
   "note": ""
  },
  {
   "property": "C115",
   "status": "proved",
   "theorems": [
    "Mlx.Props.C115_zero_640",
    "Mlx.Props.C115_zero_641",
    "Mlx.Props.C115_reflected_640",
    "Mlx.Props.C115_reflected_641"
   ],
   "note": ""
  },
  {
   "property": "C116",
   "status": "proved",
   "theorems": [
    "Mlx.Props.C116_quick_start_640",
    "Mlx.Props.C116_quick_start_641",
    "Mlx.Props.C116_complete",
    "Mlx.Props.C116_incomplete"
   ],
   "note": ""
  },
  {
   "property": "C117",
   "status": "proved",
   "theorems": [
    "Mlx.Props.C117_raw_640",
    "Mlx.Props.C117_raw_641",
    "Mlx.Props.C117_temperatures_640",
    "Mlx.Props.C117_temperatures_641"
   ],
   "note": ""
  },
  {
   "property": "C118",
   "status": "proved",
   "theorems": [
    "Mlx.Props.C118_raw_640",
    "Mlx.Props.C118_raw_641",
    "Mlx.Props.C118_temperatures_640",
    "Mlx.Props.C118_temperatures_641"
   ],
   "note": ""
  }
 ]
}