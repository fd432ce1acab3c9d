{
 "claims": [
  {
   "property": "C01",
   "status": "proved",
   "theorems": [
    "Genie.C01_int8_write_read",
    "Genie.C01_int16_write_read",
    "Genie.C01_uint16_write_read",
    "Genie.C01_int32_write_read",
    "Genie.C01_uint32_write_read",
    "Genie.C01_little_endian"
   ],
   "note": ""
  },
  {
   "property": "C02",
   "status": "proved",
   "theorems": [
    "Genie.C02_int8_read_write",
    "Genie.C02_int16_read_write",
    "Genie.C02_uint16_read_write",
    "Genie.C02_int32_read_write",
    "Genie.C02_uint32_read_write"
   ],
   "note": ""
  },
  {
   "property": "C03",
   "status": "proved",
   "theorems": [
    "Genie.C03_int8_overflow",
    "Genie.C03_int16_overflow",
    "Genie.C03_uint16_overflow",
    "Genie.C03_int32_overflow",
    "Genie.C03_uint32_overflow",
    "Genie.C03_struct_b",
    "Genie.C03_struct_h",
    "Genie.C03_struct_l",
    "Genie.C03_no_wrap",
    "Genie.C03_int_field",
    "Genie.C03_list_element",
    "Genie.C03_int_field_alone"
   ],
   "note": ""
  },
  {
   "property": "C04",
   "status": "proved",
   "theorems": [
    "Genie.C04_float_read_write",
    "Genie.C04_float_read_write_all",
    "Genie.C04_float_read_exact"
   ],
   "note": ""
  },
  {
   "property": "C05",
   "status": "proved",
   "theorems": [
    "Genie.C05_float_field",
    "Genie.C05_float_field_alone",
    "Genie.C05_write_float_total",
    "Genie.C05_float_write_read_iff",
    "Genie.C05_representable_iff",
    "Genie.C05_float_write_nearest",
    "Genie.C05_float_overflow",
    "Genie.C05_struct_float_agrees"
   ],
   "note": ""
  },
  {
   "property": "C06",
   "status": "proved",
   "theorems": [
    "Genie.C06_text_field",
    "Genie.C06_debug_string_write_read",
    "Genie.C06_debug_string_too_long",
    "Genie.C06_debug_string_surrogate",
    "Genie.C06_debug_string_trailing_nuls",
    "Genie.C06_debug_string_read_fits",
    "Genie.C06_debug_string_marker"
   ],
   "note": ""
  },
  {
   "property": "C07",
   "status": "proved",
   "theorems": [
    "Genie.C07_fixed_string_fits",
    "Genie.C07_fixed_string_too_long",
    "Genie.C07_fixed_string_zero",
    "Genie.C07_fixed_string_surrogate"
   ],
   "note": ""
  },
  {
   "property": "C08",
   "status": "proved",
   "theorems": [
    "Genie.C08_primitive_cursor",
    "Genie.C08_record_cursor",
    "Genie.C08_datfile_cursor"
   ],
   "note": ""
  },
  {
   "property": "C09",
   "status": "proved",
   "theorems": [
    "Genie.C09_primitive_local",
    "Genie.C09_record_local",
    "Genie.C09_datfile_local",
    "Genie.C09_datfile_append"
   ],
   "note": ""
  },
  {
   "property": "C10",
   "status": "proved",
   "theorems": [
    "Genie.C10_datfile_errors",
    "Genie.C10_record_errors",
    "Genie.C10_datfile_value_error"
   ],
   "note": ""
  },
  {
   "property": "C11",
   "status": "proved",
   "theorems": [
    "Genie.C11_record_round_trip"
   ],
   "note": ""
  },
  {
   "property": "C12",
   "status": "proved",
   "theorems": [
    "Genie.C12_datfile_round_trip",
    "Genie.C12_datfile_round_trip_file"
   ],
   "note": ""
  },
  {
   "property": "C13",
   "status": "proved",
   "theorems": [
    "Genie.C13_parsed_wellformed",
    "Genie.C13_record_parsed_wellformed",
    "Genie.C13_round_trips_iff",
    "Genie.C13_record_round_trips_iff"
   ],
   "note": ""
  },
  {
   "property": "C14",
   "status": "proved",
   "theorems": [
    "Genie.C14_parsed_can_be_saved",
    "Genie.C14_record_parsed_can_be_saved",
    "Genie.C14_resave_total",
    "Genie.C14_resave_idempotent"
   ],
   "note": ""
  },
  {
   "property": "C15",
   "status": "proved",
   "theorems": [
    "Genie.C15_byte_exact_iff_clean",
    "Genie.C15_record_byte_exact_iff_clean",
    "Genie.C15_clean_within",
    "Genie.C15_int_flag",
    "Genie.C15_float_flag",
    "Genie.C15_debug_string_flag",
    "Genie.C15_struct_flag",
    "Genie.C15_array_flag",
    "Genie.C15_slot_flag",
    "Genie.C15_file_items",
    "Genie.C15_record_items",
    "Genie.C15_file_exact_iff_no_odd",
    "Genie.C15_file_exact_iff_pieces",
    "Genie.C15_record_exact_iff_pieces"
   ],
   "note": ""
  },
  {
   "property": "C16",
   "status": "proved",
   "theorems": [
    "Genie.C16_lengths",
    "Genie.C16_pack_unpack",
    "Genie.C16_unpack_pack",
    "Genie.C16_wrong_size"
   ],
   "note": ""
  },
  {
   "property": "C17",
   "status": "proved",
   "theorems": [
    "Genie.C17_order",
    "Genie.C17_total",
    "Genie.C17_transitive",
    "Genie.C17_drop_site_gate",
    "Genie.C17_lookup",
    "Genie.C17_lookup_unknown"
   ],
   "note": ""
  },
  {
   "property": "C18",
   "status": "proved",
   "theorems": [
    "Genie.C18_parsed_parts",
    "Genie.C18_uncalled_ignored",
    "Genie.C18_parts_written",
    "Genie.C18_wrong_parts_not_read"
   ],
   "note": ""
  },
  {
   "property": "C19",
   "status": "proved",
   "theorems": [
    "Genie.C19_slots_follow_pointers",
    "Genie.C19_civ_writes_slots",
    "Genie.C19_civ_slots",
    "Genie.C19_graphic_slots"
   ],
   "note": ""
  },
  {
   "property": "C20",
   "status": "proved",
   "theorems": [
    "Genie.C20_upgrade",
    "Genie.C20_parsed"
   ],
   "note": ""
  },
  {
   "property": "C21",
   "status": "proved",
   "theorems": [
    "Genie.C21_same_bytes",
    "Genie.C21_converts",
    "Genie.C21_any_version",
    "Genie.C21_downgrade",
    "Genie.C21_homeless",
    "Genie.C21_downgrade_iff",
    "Genie.C21_parsed"
   ],
   "note": ""
  },
  {
   "property": "C22",
   "status": "proved",
   "theorems": [
    "Genie.C22_unambiguous",
    "Genie.C22_prefix_free",
    "Genie.C22_sequences",
    "Genie.C22_datfile_unambiguous"
   ],
   "note": ""
  },
  {
   "property": "C23",
   "status": "proved",
   "theorems": [
    "Genie.C23_bytes_read",
    "Genie.C23_file_bytes_read",
    "Genie.C23_at_least",
    "Genie.C23_record_size",
    "Genie.C23_constant_size",
    "Genie.C23_datfile_size",
    "Genie.C23_read_size"
   ],
   "note": ""
  },
  {
   "property": "C24",
   "status": "proved",
   "theorems": [
    "Genie.C24_save_then_parse",
    "Genie.C24_parse_save_parse",
    "Genie.C24_trailing_bytes",
    "Genie.C24_parse_outcome"
   ],
   "note": ""
  },
  {
   "property": "C25",
   "status": "proved",
   "theorems": [
    "Genie.C25_failed_encode_untouched"
   ],
   "note": ""
  },
  {
   "property": "C26",
   "status": "proved",
   "theorems": [
    "Genie.C26_interrupted_target",
    "Genie.C26_returned_complete",
    "Genie.C26_not_atomic",
    "Genie.C26_interrupted_load"
   ],
   "note": ""
  },
  {
   "property": "C27",
   "status": "proved",
   "theorems": [
    "Genie.C27_int_field",
    "Genie.C27_int_field_only",
    "Genie.C27_float_field",
    "Genie.C27_text_field",
    "Genie.C27_list_element",
    "Genie.C27_research_location_before_88",
    "Genie.C27_train_location_before_88",
    "Genie.C27_loom",
    "Genie.C27_hot_key_before_88",
    "Genie.C27_hot_key_since_88"
   ],
   "note": ""
  },
  {
   "property": "C28",
   "status": "proved",
   "theorems": [
    "Genie.C28_completed",
    "Genie.C28_record_completed",
    "Genie.C28_zeros",
    "Genie.C28_record_zeros",
    "Genie.C28_zeros_cut",
    "Genie.C28_cut_before_part",
    "Genie.C28_early_cut_raises",
    "Genie.C28_cut_inside_random_maps",
    "Genie.C28_truncation_detectable",
    "Genie.C28_record_truncation_detectable",
    "Genie.C28_silent_truncation",
    "Genie.C28_zero_filled",
    "Genie.C28_sign_extension"
   ],
   "note": ""
  },
  {
   "property": "C29",
   "status": "proved",
   "theorems": [
    "Genie.C29_written_unchecked",
    "Genie.C29_size_written",
    "Genie.C29_read_back_iff",
    "Genie.C29_parsed_sizes_match",
    "Genie.C29_file",
    "Genie.C29_angle_sounds"
   ],
   "note": ""
  },
  {
   "property": "C30",
   "status": "proved",
   "theorems": [
    "Genie.C30_assertion_iff",
    "Genie.C30_read_back_iff",
    "Genie.C30_count_written"
   ],
   "note": ""
  },
  {
   "property": "C31",
   "status": "proved",
   "theorems": [
    "Genie.C31_fixed_list",
    "Genie.C31_fixed_list_alone",
    "Genie.C31_unit_lists",
    "Genie.C31_unit_lists_alone",
    "Genie.C31_unit_regrouped",
    "Genie.C31_looting_table",
    "Genie.C31_spawning_area"
   ],
   "note": ""
  },
  {
   "property": "C32",
   "status": "proved",
   "theorems": [
    "Genie.C32_counted_list",
    "Genie.C32_slot_list",
    "Genie.C32_remove",
    "Genie.C32_insert",
    "Genie.C32_kings"
   ],
   "note": ""
  },
  {
   "property": "C33",
   "status": "proved",
   "theorems": [
    "Genie.C33_map_info_unbounded",
    "Genie.C33_datfile_unbounded"
   ],
   "note": ""
  },
  {
   "property": "C34",
   "status": "proved",
   "theorems": [
    "Genie.C34_fields_EffectCommand",
    "Genie.C34_fields_Effect",
    "Genie.C34_fields_SoundItem",
    "Genie.C34_fields_Sound",
    "Genie.C34_fields_PlayerColour",
    "Genie.C34_fields_GraphicDelta",
    "Genie.C34_fields_GraphicAngleSound",
    "Genie.C34_fields_Graphic",
    "Genie.C34_fields_TerrainPassGraphic",
    "Genie.C34_fields_TerrainRestriction",
    "Genie.C34_fields_FrameData",
    "Genie.C34_fields_Terrain",
    "Genie.C34_fields_TileSize",
    "Genie.C34_fields_TerrainBlock",
    "Genie.C34_fields_MapUnit",
    "Genie.C34_fields_MapTerrain",
    "Genie.C34_fields_MapLand",
    "Genie.C34_fields_MapElevation",
    "Genie.C34_fields_MapInfo",
    "Genie.C34_fields_RandomMaps",
    "Genie.C34_fields_ResearchResourceCost",
    "Genie.C34_fields_ResearchLocation",
    "Genie.C34_fields_Tech",
    "Genie.C34_fields_Common",
    "Genie.C34_fields_TechTreeAge",
    "Genie.C34_fields_BuildingConnection",
    "Genie.C34_fields_UnitConnection",
    "Genie.C34_fields_ResearchConnection",
    "Genie.C34_fields_TechTree",
    "Genie.C34_fields_Task",
    "Genie.C34_fields_ResourceStorage",
    "Genie.C34_fields_DamageGraphic",
    "Genie.C34_fields_DeadFish",
    "Genie.C34_fields_Bird",
    "Genie.C34_fields_AttackOrArmor",
    "Genie.C34_fields_Type50",
    "Genie.C34_fields_Projectile",
    "Genie.C34_fields_ResourceCost",
    "Genie.C34_fields_TrainLocation",
    "Genie.C34_fields_Creatable",
    "Genie.C34_fields_BuildingAnnex",
    "Genie.C34_fields_Building",
    "Genie.C34_fields_Unit",
    "Genie.C34_fields_UnitHeaders",
    "Genie.C34_fields_Civ",
    "Genie.C34_fields_DatFile",
    "Genie.C34_record_tree_determines",
    "Genie.C34_tree_determines",
    "Genie.C34_text_determines",
    "Genie.C34_text_determines_without_nan",
    "Genie.C34_program_output_determines",
    "Genie.C34_program_total",
    "Genie.C34_program_output_ascii",
    "Genie.C34_text_survives_save",
    "Genie.C34_loom_in_tree",
    "Genie.C34_nan_payload_is_lost"
   ],
   "note": ""
  },
  {
   "property": "C35",
   "status": "proved",
   "theorems": [
    "Genie.C35_upgrade",
    "Genie.C35_upgrade_to_84",
    "Genie.C35_parsed"
   ],
   "note": ""
  },
  {
   "property": "C36",
   "status": "proved",
   "theorems": [
    "Genie.C36_record_overlong",
    "Genie.C36_record_overflow",
    "Genie.C36_record_counts_fit",
    "Genie.C36_datfile_overlong",
    "Genie.C36_datfile_nested_overlong"
   ],
   "note": ""
  },
  {
   "property": "C37",
   "status": "proved",
   "theorems": [
    "Genie.C37_record_errors",
    "Genie.C37_record_refused",
    "Genie.C37_datfile_errors",
    "Genie.C37_datfile_refused",
    "Genie.C37_tables_mismatched",
    "Genie.C37_creatable_homeless"
   ],
   "note": ""
  },
  {
   "property": "C38",
   "status": "proved",
   "theorems": [
    "Genie.C38_value_error_iff",
    "Genie.C38_write_unknown_version",
    "Genie.C38_version_argument_ignored",
    "Genie.C38_read_undecodable",
    "Genie.C38_read_unknown_version",
    "Genie.C38_parsed_version"
   ],
   "note": ""
  },
  {
   "property": "C39",
   "status": "proved",
   "theorems": [
    "Genie.C39_record_format",
    "Genie.C39_record_error",
    "Genie.C39_datfile_format",
    "Genie.C39_datfile_error",
    "Genie.C39_read_format"
   ],
   "note": ""
  },
  {
   "property": "C40",
   "status": "proved",
   "theorems": [
    "Genie.C40_up_and_back",
    "Genie.C40_up_and_back_parsed",
    "Genie.C40_down_and_up",
    "Genie.C40_convert_twice",
    "Genie.C40_convert_unique"
   ],
   "note": ""
  },
  {
   "property": "C41",
   "status": "proved",
   "theorems": [
    "Genie.C41_valid_json",
    "Genie.C41_invalid_json",
    "Genie.C41_program_output",
    "Genie.C41_both_cases"
   ],
   "note": ""
  },
  {
   "property": "C42",
   "status": "proved",
   "theorems": [
    "Genie.C42_ints_never_raise",
    "Genie.C42_float_raises_iff",
    "Genie.C42_unpack_raises_iff",
    "Genie.C42_string_raises_iff",
    "Genie.C42_debug_string_raises_iff",
    "Genie.C42_record_errors",
    "Genie.C42_record_errors_occur",
    "Genie.C42_integer_records_never_raise",
    "Genie.C42_outcome_is_decided",
    "Genie.C42_struct_error_is_missing_data"
   ],
   "note": ""
  },
  {
   "property": "C43",
   "status": "proved",
   "theorems": [
    "Genie.C43_raises_untouched",
    "Genie.C43_loom_edit",
    "Genie.C43_loom_program",
    "Genie.C43_loom_twice",
    "Genie.C43_king_edit",
    "Genie.C43_king_program"
   ],
   "note": ""
  },
  {
   "property": "C44",
   "status": "proved",
   "theorems": [
    "Genie.C44_run",
    "Genie.C44_interrupted_run",
    "Genie.C44_history",
    "Genie.C44_interrupted_history",
    "Genie.C44_wellformed_comes_back",
    "Genie.C44_converted_comes_back",
    "Genie.C44_loads_after",
    "Genie.C44_other_files",
    "Genie.C44_readme_keeps_wf",
    "Genie.C44_int_edit_wf",
    "Genie.C44_list_edit_wf"
   ],
   "note": ""
  },
  {
   "property": "C45",
   "status": "proved",
   "theorems": [
    "Genie.C45_load_builds",
    "Genie.C45_no_sharing",
    "Genie.C45_load_fresh",
    "Genie.C45_expressions",
    "Genie.C45_statements",
    "Genie.C45_put",
    "Genie.C45_two_files",
    "Genie.C45_readme_loom",
    "Genie.C45_readme_kings",
    "Genie.C45_asdict"
   ],
   "note": ""
  },
  {
   "property": "C46",
   "status": "proved",
   "theorems": [
    "Genie.C46_loaded_types",
    "Genie.C46_loaded_types_84",
    "Genie.C46_exception",
    "Genie.C46_tuples_immutable"
   ],
   "note": ""
  },
  {
   "property": "C47",
   "status": "proved",
   "theorems": [
    "Genie.C47_looks_decide",
    "Genie.C47_looks_iff_value",
    "Genie.C47_value_decides",
    "Genie.C47_any_error",
    "Genie.C47_any_room",
    "Genie.C47_any_save",
    "Genie.C47_any_program",
    "Genie.C47_any_program_heap",
    "Genie.C47_float_field",
    "Genie.C47_int_as_float",
    "Genie.C47_small_int_as_float",
    "Genie.C47_int_field",
    "Genie.C47_truth",
    "Genie.C47_compare_inf",
    "Genie.C47_compare_other",
    "Genie.C47_save",
    "Genie.C47_save_record",
    "Genie.C47_save_loaded",
    "Genie.C47_identity_irrelevant",
    "Genie.C47_load_edit_save",
    "Genie.C47_parse",
    "Genie.C47_save_file",
    "Genie.C47_readme_loom_file",
    "Genie.C47_readme_kings_file",
    "Genie.C47_cycle"
   ],
   "note": ""
  },
  {
   "property": "C48",
   "status": "proved",
   "theorems": [
    "Genie.C48_fits_iff",
    "Genie.C48_loaded_fits",
    "Genie.C48_typed_keeps",
    "Genie.C48_typed_raises",
    "Genie.C48_load_edit_save",
    "Genie.C48_save_raises",
    "Genie.C48_reload",
    "Genie.C48_file"
   ],
   "note": ""
  },
  {
   "property": "C49",
   "status": "proved",
   "theorems": [
    "Genie.C49_independent",
    "Genie.C49_faults",
    "Genie.C49_faults_load",
    "Genie.C49_progress",
    "Genie.C49_terminates",
    "Genie.C49_ends",
    "Genie.C49_load_during_save",
    "Genie.C49_load_during_save_result",
    "Genie.C49_lost_update",
    "Genie.C49_two_saves",
    "Genie.C49_torn_read",
    "Genie.C49_torn_read_third"
   ],
   "note": ""
  },
  {
   "property": "C50",
   "status": "proved",
   "theorems": [
    "Genie.C50_deepcopy",
    "Genie.C50_deepcopy_room",
    "Genie.C50_programs",
    "Genie.C50_copies_are_literals",
    "Genie.C50_independent",
    "Genie.C50_shared_statement",
    "Genie.C50_shared_error",
    "Genie.C50_named",
    "Genie.C50_copy_file",
    "Genie.C50_typed",
    "Genie.C50_load_copy_save",
    "Genie.C50_file",
    "Genie.C50_two_files"
   ],
   "note": ""
  },
  {
   "property": "C51",
   "status": "proved",
   "theorems": [
    "Genie.C51_every_attribute",
    "Genie.C51_every_list",
    "Genie.C51_place",
    "Genie.C51_object",
    "Genie.C51_load_edit_save",
    "Genie.C51_missing",
    "Genie.C51_program",
    "Genie.C51_set_int",
    "Genie.C51_set_float",
    "Genie.C51_set_text",
    "Genie.C51_append",
    "Genie.C51_pop",
    "Genie.C51_set_item",
    "Genie.C51_insert",
    "Genie.C51_del_item",
    "Genie.C51_del_slice",
    "Genie.C51_undeclared"
   ],
   "note": ""
  },
  {
   "property": "C52",
   "status": "proved",
   "theorems": [
    "Genie.C52_equal",
    "Genie.C52_room",
    "Genie.C52_loads",
    "Genie.C52_same_bytes",
    "Genie.C52_round_trip",
    "Genie.C52_copy",
    "Genie.C52_equal_bytes",
    "Genie.C52_equal_files"
   ],
   "note": ""
  },
  {
   "property": "C53",
   "status": "proved",
   "theorems": [
    "Genie.C53_total",
    "Genie.C53_record_total",
    "Genie.C53_raises",
    "Genie.C53_record_raises",
    "Genie.C53_file_grammar",
    "Genie.C53_record_grammar",
    "Genie.C53_whole_file",
    "Genie.C53_unambiguous",
    "Genie.C53_same_object",
    "Genie.C53_every_oddity_is_read",
    "Genie.C53_rejects"
   ],
   "note": ""
  },
  {
   "property": "C54",
   "status": "proved",
   "theorems": [
    "Genie.C54_record_exception",
    "Genie.C54_file_exception",
    "Genie.C54_record_same_items",
    "Genie.C54_file_same_items",
    "Genie.C54_file_outcome",
    "Genie.C54_record_outcome",
    "Genie.C54_save_exception"
   ],
   "note": ""
  },
  {
   "property": "C55",
   "status": "proved",
   "theorems": [
    "Genie.C55_read",
    "Genie.C55_record_read",
    "Genie.C55_no_assertion",
    "Genie.C55_read_repaired",
    "Genie.C55_record_read_repaired",
    "Genie.C55_any_marker",
    "Genie.C55_read_then_save",
    "Genie.C55_write",
    "Genie.C55_record_write",
    "Genie.C55_write_exact",
    "Genie.C55_write_lost"
   ],
   "note": ""
  },
  {
   "property": "C56",
   "status": "proved",
   "theorems": [
    "Genie.C56_operation",
    "Genie.C56_has_meaning",
    "Genie.C56_script",
    "Genie.C56_from_scratch",
    "Genie.C56_program",
    "Genie.C56_program_ends",
    "Genie.C56_then",
    "Genie.C56_try",
    "Genie.C56_written",
    "Genie.C56_load_change_save",
    "Genie.C56_hit_points"
   ],
   "note": ""
  },
  {
   "property": "C57",
   "status": "proved",
   "theorems": [
    "Genie.C57_action",
    "Genie.C57_no_type_error",
    "Genie.C57_script",
    "Genie.C57_start",
    "Genie.C57_types_mean",
    "Genie.C57_saved",
    "Genie.C57_deepcopy",
    "Genie.C57_files",
    "Genie.C57_program"
   ],
   "note": ""
  },
  {
   "property": "C58",
   "status": "proved",
   "theorems": [
    "Genie.C58_threads",
    "Genie.C58_alone",
    "Genie.C58_typed",
    "Genie.C58_no_type_error"
   ],
   "note": ""
  },
  {
   "property": "C59",
   "status": "proved",
   "theorems": [
    "Genie.C59_repr",
    "Genie.C59_determines",
    "Genie.C59_determines_without_nan",
    "Genie.C59_alike_equal",
    "Genie.C59_copy",
    "Genie.C59_loads",
    "Genie.C59_same_bytes",
    "Genie.C59_typed",
    "Genie.C59_no_loop"
   ],
   "note": ""
  },
  {
   "property": "C60",
   "status": "proved",
   "theorems": [
    "Genie.Src.C60_from_bytes_of_every_class",
    "Genie.Src.C60_load",
    "Genie.Src.C60_versions",
    "Genie.Src.C60_unit_types"
   ],
   "note": ""
  },
  {
   "property": "C61",
   "status": "proved",
   "theorems": [
    "Genie.Src.C61_to_bytes_of_every_object",
    "Genie.Src.C61_to_bytes_of_values",
    "Genie.Src.C61_save",
    "Genie.Src.C61_objects_keep_class",
    "Genie.Src.C61_load_then_save"
   ],
   "note": ""
  },
  {
   "property": "C62",
   "status": "proved",
   "theorems": [
    "Genie.Src.C62_parse",
    "Genie.Src.C62_save",
    "Genie.Src.C62_save_any",
    "Genie.Src.C62_dat_to_json",
    "Genie.Src.C62_main",
    "Genie.Src.C62_readme_loom",
    "Genie.Src.C62_readme_kings",
    "Genie.Src.C62_loom_costs_69",
    "Genie.Src.C62_kings_lose_a_task",
    "Genie.Src.C62_readme_fails"
   ],
   "note": ""
  },
  {
   "property": "C63",
   "status": "proved",
   "theorems": [
    "Genie.Src.C63_where",
    "Genie.Src.C63_left_out",
    "Genie.Src.C63_every_function",
    "Genie.Src.C63_success",
    "Genie.Src.C63_load",
    "Genie.Src.C63_write",
    "Genie.Src.C63_save",
    "Genie.Src.C63_load_then_save"
   ],
   "note": ""
  },
  {
   "property": "C64",
   "status": "proved",
   "theorems": [
    "Genie.Src.C64_every_function",
    "Genie.Src.C64_optimized",
    "Genie.Src.C64_no_choice",
    "Genie.Src.C64_files",
    "Genie.Src.C64_program",
    "Genie.Src.C64_reading_needs_13"
   ],
   "note": ""
  },
  {
   "property": "C65",
   "status": "proved",
   "theorems": [
    "Genie.Src.Text.C65_package",
    "Genie.Src.Text.C65_parse_and_save",
    "Genie.Src.Text.C65_scripts",
    "Genie.Src.Text.C65_readme",
    "Genie.Src.Text.C65_blank_lines"
   ],
   "note": ""
  },
  {
   "property": "C66",
   "status": "proved",
   "theorems": [
    "Genie.Src.C66_objects",
    "Genie.Src.C66_action",
    "Genie.Src.C66_script",
    "Genie.Src.C66_program",
    "Genie.Src.C66_load_change_save",
    "Genie.Src.C66_hit_points"
   ],
   "note": ""
  },
  {
   "property": "C67",
   "status": "proved",
   "theorems": [
    "Genie.Src.C67_int8",
    "Genie.Src.C67_int16",
    "Genie.Src.C67_uint16",
    "Genie.Src.C67_int32",
    "Genie.Src.C67_uint32",
    "Genie.Src.C67_int_read_write",
    "Genie.Src.C67_debug_string",
    "Genie.Src.C67_float",
    "Genie.Src.C67_string",
    "Genie.Src.C67_new_instance"
   ],
   "note": ""
  },
  {
   "property": "C68",
   "status": "proved",
   "theorems": [
    "Genie.Src.C68_total",
    "Genie.Src.C68_isolated",
    "Genie.Src.C68_load_save_load",
    "Genie.Src.C68_values_and_bytes",
    "Genie.Src.C68_only_the_bytes_read",
    "Genie.Src.C68_cut",
    "Genie.Src.C68_parse_save_parse"
   ],
   "note": ""
  },
  {
   "property": "C69",
   "status": "proved",
   "theorems": [
    "Genie.Src.C69_total",
    "Genie.Src.C69_isolated",
    "Genie.Src.C69_read_write_read",
    "Genie.Src.C69_values_and_bytes",
    "Genie.Src.C69_only_the_bytes_read",
    "Genie.Src.C69_write_exceptions"
   ],
   "note": ""
  },
  {
   "property": "C70",
   "status": "proved",
   "theorems": [
    "Genie.Src.C70_loaded",
    "Genie.Src.C70_statements",
    "Genie.Src.C70_missing",
    "Genie.Src.C70_set_int",
    "Genie.Src.C70_set_float",
    "Genie.Src.C70_set_text",
    "Genie.Src.C70_typed_program",
    "Genie.Src.C70_parse_edit_save",
    "Genie.Src.C70_upgrade_to_88",
    "Genie.Src.C70_upgrade",
    "Genie.Src.C70_downgrade",
    "Genie.Src.C70_any_version"
   ],
   "note": ""
  },
  {
   "property": "C71",
   "status": "proved",
   "theorems": [
    "Genie.Src.Text.C71_sound",
    "Genie.Src.Text.C71_complete",
    "Genie.Src.Text.C71_exact",
    "Genie.Src.Text.C71_unambiguous",
    "Genie.Src.Text.C71_refuses",
    "Genie.Src.Text.C71_room",
    "Genie.Src.Text.C71_whole"
   ],
   "note": ""
  },
  {
   "property": "C72",
   "status": "proved",
   "theorems": [
    "Genie.Src.Text.C72_module",
    "Genie.Src.Text.C72_program",
    "Genie.Src.Text.C72_statements",
    "Genie.Src.Text.C72_function",
    "Genie.Src.Text.C72_class",
    "Genie.Src.Text.C72_complete",
    "Genie.Src.Text.C72_exact",
    "Genie.Src.Text.C72_unambiguous",
    "Genie.Src.Text.C72_blocks_unambiguous",
    "Genie.Src.Text.C72_only",
    "Genie.Src.Text.C72_reindent",
    "Genie.Src.Text.C72_package",
    "Genie.Src.Text.C72_programs"
   ],
   "note": ""
  },
  {
   "property": "C73",
   "status": "proved",
   "theorems": [
    "Genie.Src.Text.C73_tokens",
    "Genie.Src.Text.C73_unambiguous",
    "Genie.Src.Text.C73_longest",
    "Genie.Src.Text.C73_trailing_comment",
    "Genie.Src.Text.C73_lines",
    "Genie.Src.Text.C73_comments",
    "Genie.Src.Text.C73_module",
    "Genie.Src.Text.C73_program",
    "Genie.Src.Text.C73_one_tree",
    "Genie.Src.Text.C73_exact",
    "Genie.Src.Text.C73_package",
    "Genie.Src.Text.C73_programs"
   ],
   "note": ""
  }
 ]
}