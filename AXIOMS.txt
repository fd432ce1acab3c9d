'Genie.C01_int16_write_read' depends on axioms: [propext, Classical.choice, Quot.sound]
'Genie.C01_int32_write_read' depends on axioms: [propext, Classical.choice, Quot.sound]
'Genie.C01_int8_write_read' depends on axioms: [propext, Classical.choice, Quot.sound]
'Genie.C01_little_endian' depends on axioms: [propext, Quot.sound]
'Genie.C01_uint16_write_read' depends on axioms: [propext, Classical.choice, Quot.sound]
'Genie.C01_uint32_write_read' depends on axioms: [propext, Classical.choice, Quot.sound]
'Genie.C02_int16_read_write' depends on axioms: [propext, Classical.choice, Quot.sound]
'Genie.C02_int32_read_write' depends on axioms: [propext, Classical.choice, Quot.sound]
'Genie.C02_int8_read_write' depends on axioms: [propext, Classical.choice, Quot.sound]
'Genie.C02_uint16_read_write' depends on axioms: [propext, Classical.choice, Quot.sound]
'Genie.C02_uint32_read_write' depends on axioms: [propext, Classical.choice, Quot.sound]
'Genie.C03_int16_overflow' depends on axioms: [propext, Classical.choice, Quot.sound]
'Genie.C03_int32_overflow' depends on axioms: [propext, Classical.choice, Quot.sound]
'Genie.C03_int8_overflow' depends on axioms: [propext, Classical.choice, Quot.sound]
'Genie.C03_int_field' depends on axioms: [propext, Classical.choice, Quot.sound]
'Genie.C03_int_field_alone' depends on axioms: [propext, Classical.choice, Quot.sound]
'Genie.C03_list_element' depends on axioms: [propext, Classical.choice, Quot.sound]
'Genie.C03_no_wrap' depends on axioms: [propext, Classical.choice, Quot.sound]
'Genie.C03_struct_b' depends on axioms: [propext, Classical.choice, Quot.sound]
'Genie.C03_struct_h' depends on axioms: [propext, Classical.choice, Quot.sound]
'Genie.C03_struct_l' depends on axioms: [propext, Classical.choice, Quot.sound]
'Genie.C03_uint16_overflow' depends on axioms: [propext, Classical.choice, Quot.sound]
'Genie.C03_uint32_overflow' depends on axioms: [propext, Classical.choice, Quot.sound]
'Genie.C04_float_read_exact' depends on axioms: [propext, Classical.choice, Quot.sound]
'Genie.C04_float_read_write' depends on axioms: [propext, Classical.choice, Quot.sound]
'Genie.C04_float_read_write_all' depends on axioms: [propext, Classical.choice, Quot.sound]
'Genie.C05_float_field' depends on axioms: [propext, Classical.choice, Quot.sound]
'Genie.C05_float_field_alone' depends on axioms: [propext, Classical.choice, Quot.sound]
'Genie.C05_float_overflow' depends on axioms: [propext, Classical.choice, Quot.sound]
'Genie.C05_float_write_nearest' depends on axioms: [propext, Classical.choice, Quot.sound]
'Genie.C05_float_write_read_iff' depends on axioms: [propext, Classical.choice, Quot.sound]
'Genie.C05_representable_iff' depends on axioms: [propext, Classical.choice, Quot.sound]
'Genie.C05_struct_float_agrees' depends on axioms: [propext, Classical.choice, Quot.sound]
'Genie.C05_write_float_total' depends on axioms: [propext]
'Genie.C06_debug_string_marker' depends on axioms: [propext, Classical.choice, Quot.sound]
'Genie.C06_debug_string_read_fits' depends on axioms: [propext, Classical.choice, Quot.sound]
'Genie.C06_debug_string_surrogate' depends on axioms: [propext, Classical.choice, Quot.sound]
'Genie.C06_debug_string_too_long' depends on axioms: [propext, Classical.choice, Quot.sound]
'Genie.C06_debug_string_trailing_nuls' depends on axioms: [propext, Classical.choice, Quot.sound]
'Genie.C06_debug_string_write_read' depends on axioms: [propext, Classical.choice, Quot.sound]
'Genie.C06_text_field' depends on axioms: [propext, Classical.choice, Quot.sound]
'Genie.C07_fixed_string_fits' depends on axioms: [propext, Classical.choice, Quot.sound]
'Genie.C07_fixed_string_surrogate' depends on axioms: [propext, Classical.choice, Quot.sound]
'Genie.C07_fixed_string_too_long' depends on axioms: [propext, Classical.choice, Quot.sound]
'Genie.C07_fixed_string_zero' depends on axioms: [propext, Classical.choice, Quot.sound]
'Genie.C08_datfile_cursor' depends on axioms: [propext, Classical.choice, Quot.sound]
'Genie.C08_primitive_cursor' depends on axioms: [propext, Classical.choice, Quot.sound]
'Genie.C08_record_cursor' depends on axioms: [propext, Classical.choice, Quot.sound]
'Genie.C09_datfile_append' depends on axioms: [propext, Classical.choice, Quot.sound]
'Genie.C09_datfile_local' depends on axioms: [propext, Classical.choice, Quot.sound]
'Genie.C09_primitive_local' depends on axioms: [propext, Classical.choice, Quot.sound]
'Genie.C09_record_local' depends on axioms: [propext, Classical.choice, Quot.sound]
'Genie.C10_datfile_errors' depends on axioms: [propext, Classical.choice, Quot.sound]
'Genie.C10_datfile_value_error' depends on axioms: [propext, Classical.choice, Quot.sound]
'Genie.C10_record_errors' depends on axioms: [propext, Classical.choice, Quot.sound]
'Genie.C11_record_round_trip' depends on axioms: [propext, Classical.choice, Quot.sound]
'Genie.C12_datfile_round_trip' depends on axioms: [propext, Classical.choice, Quot.sound]
'Genie.C12_datfile_round_trip_file' depends on axioms: [propext, Classical.choice, Quot.sound]
'Genie.C13_parsed_wellformed' depends on axioms: [propext, Classical.choice, Quot.sound]
'Genie.C13_record_parsed_wellformed' depends on axioms: [propext, Classical.choice, Quot.sound]
'Genie.C13_record_round_trips_iff' depends on axioms: [propext, Classical.choice, Quot.sound]
'Genie.C13_round_trips_iff' depends on axioms: [propext, Classical.choice, Quot.sound]
'Genie.C14_parsed_can_be_saved' depends on axioms: [propext, Classical.choice, Quot.sound]
'Genie.C14_record_parsed_can_be_saved' depends on axioms: [propext, Classical.choice, Quot.sound]
'Genie.C14_resave_idempotent' depends on axioms: [propext, Classical.choice, Quot.sound]
'Genie.C14_resave_total' depends on axioms: [propext, Classical.choice, Quot.sound]
'Genie.C15_array_flag' does not depend on any axioms
'Genie.C15_byte_exact_iff_clean' depends on axioms: [propext, Classical.choice, Quot.sound]
'Genie.C15_clean_within' depends on axioms: [propext, Classical.choice, Quot.sound]
'Genie.C15_debug_string_flag' depends on axioms: [propext, Classical.choice, Quot.sound]
'Genie.C15_file_exact_iff_no_odd' depends on axioms: [propext, Classical.choice, Quot.sound]
'Genie.C15_file_exact_iff_pieces' depends on axioms: [propext, Classical.choice, Quot.sound]
'Genie.C15_file_items' depends on axioms: [propext, Classical.choice, Quot.sound]
'Genie.C15_float_flag' depends on axioms: [propext, Classical.choice, Quot.sound]
'Genie.C15_int_flag' depends on axioms: [propext, Classical.choice, Quot.sound]
'Genie.C15_record_byte_exact_iff_clean' depends on axioms: [propext, Classical.choice, Quot.sound]
'Genie.C15_record_exact_iff_pieces' depends on axioms: [propext, Classical.choice, Quot.sound]
'Genie.C15_record_items' depends on axioms: [propext, Classical.choice, Quot.sound]
'Genie.C15_slot_flag' depends on axioms: [propext]
'Genie.C15_struct_flag' depends on axioms: [propext, Classical.choice, Quot.sound]
'Genie.C16_lengths' depends on axioms: [propext, Classical.choice, Quot.sound]
'Genie.C16_pack_unpack' depends on axioms: [propext, Classical.choice, Quot.sound]
'Genie.C16_unpack_pack' depends on axioms: [propext, Classical.choice, Quot.sound]
'Genie.C16_wrong_size' depends on axioms: [propext, Classical.choice, Quot.sound]
'Genie.C17_drop_site_gate' depends on axioms: [propext, Classical.choice, Quot.sound]
'Genie.C17_lookup' depends on axioms: [propext, Classical.choice, Quot.sound]
'Genie.C17_lookup_unknown' depends on axioms: [propext, Classical.choice, Quot.sound]
'Genie.C17_order' depends on axioms: [propext, Classical.choice, Quot.sound]
'Genie.C17_total' depends on axioms: [propext, Classical.choice, Quot.sound]
'Genie.C17_transitive' depends on axioms: [propext, Classical.choice, Quot.sound]
'Genie.C18_parsed_parts' depends on axioms: [propext, Classical.choice, Quot.sound]
'Genie.C18_parts_written' depends on axioms: [propext, Classical.choice, Quot.sound]
'Genie.C18_uncalled_ignored' depends on axioms: [propext, Classical.choice, Quot.sound]
'Genie.C18_wrong_parts_not_read' depends on axioms: [propext, Classical.choice, Quot.sound]
'Genie.C19_civ_slots' depends on axioms: [propext, Classical.choice, Quot.sound]
'Genie.C19_civ_writes_slots' depends on axioms: [propext, Classical.choice, Quot.sound]
'Genie.C19_graphic_slots' depends on axioms: [propext, Classical.choice, Quot.sound]
'Genie.C19_slots_follow_pointers' depends on axioms: [propext, Classical.choice, Quot.sound]
'Genie.C20_parsed' depends on axioms: [propext, Classical.choice, Quot.sound]
'Genie.C20_upgrade' depends on axioms: [propext, Classical.choice, Quot.sound]
'Genie.C21_any_version' depends on axioms: [propext, Classical.choice, Quot.sound]
'Genie.C21_converts' depends on axioms: [propext, Classical.choice, Quot.sound]
'Genie.C21_downgrade' depends on axioms: [propext, Classical.choice, Quot.sound]
'Genie.C21_downgrade_iff' depends on axioms: [propext, Classical.choice, Quot.sound]
'Genie.C21_homeless' depends on axioms: [propext, Classical.choice, Quot.sound]
'Genie.C21_parsed' depends on axioms: [propext, Classical.choice, Quot.sound]
'Genie.C21_same_bytes' depends on axioms: [propext, Classical.choice, Quot.sound]
'Genie.C22_datfile_unambiguous' depends on axioms: [propext, Classical.choice, Quot.sound]
'Genie.C22_prefix_free' depends on axioms: [propext, Classical.choice, Quot.sound]
'Genie.C22_sequences' depends on axioms: [propext, Classical.choice, Quot.sound]
'Genie.C22_unambiguous' depends on axioms: [propext, Classical.choice, Quot.sound]
'Genie.C23_at_least' depends on axioms: [propext, Classical.choice, Quot.sound]
'Genie.C23_bytes_read' depends on axioms: [propext, Classical.choice, Quot.sound]
'Genie.C23_constant_size' depends on axioms: [propext, Classical.choice, Quot.sound]
'Genie.C23_datfile_size' depends on axioms: [propext, Classical.choice, Quot.sound]
'Genie.C23_file_bytes_read' depends on axioms: [propext, Classical.choice, Quot.sound]
'Genie.C23_read_size' depends on axioms: [propext, Classical.choice, Quot.sound]
'Genie.C23_record_size' depends on axioms: [propext, Classical.choice, Quot.sound]
'Genie.C24_parse_outcome' depends on axioms: [propext, Classical.choice, Quot.sound]
'Genie.C24_parse_save_parse' depends on axioms: [propext, Classical.choice, Quot.sound]
'Genie.C24_save_then_parse' depends on axioms: [propext, Classical.choice, Quot.sound]
'Genie.C24_trailing_bytes' depends on axioms: [propext, Classical.choice, Quot.sound]
'Genie.C25_failed_encode_untouched' depends on axioms: [propext, Classical.choice, Quot.sound]
'Genie.C26_interrupted_load' depends on axioms: [propext, Classical.choice, Quot.sound]
'Genie.C26_interrupted_target' depends on axioms: [propext, Classical.choice, Quot.sound]
'Genie.C26_not_atomic' depends on axioms: [propext, Classical.choice, Quot.sound]
'Genie.C26_returned_complete' depends on axioms: [propext, Classical.choice, Quot.sound]
'Genie.C27_float_field' depends on axioms: [propext, Classical.choice, Quot.sound]
'Genie.C27_hot_key_before_88' depends on axioms: [propext, Classical.choice, Quot.sound]
'Genie.C27_hot_key_since_88' depends on axioms: [propext, Classical.choice, Quot.sound]
'Genie.C27_int_field' depends on axioms: [propext, Classical.choice, Quot.sound]
'Genie.C27_int_field_only' depends on axioms: [propext, Classical.choice, Quot.sound]
'Genie.C27_list_element' depends on axioms: [propext, Classical.choice, Quot.sound]
'Genie.C27_loom' depends on axioms: [propext, Classical.choice, Quot.sound]
'Genie.C27_research_location_before_88' depends on axioms: [propext, Classical.choice, Quot.sound]
'Genie.C27_text_field' depends on axioms: [propext, Classical.choice, Quot.sound]
'Genie.C27_train_location_before_88' depends on axioms: [propext, Classical.choice, Quot.sound]
'Genie.C28_completed' depends on axioms: [propext, Classical.choice, Quot.sound]
'Genie.C28_cut_before_part' depends on axioms: [propext, Classical.choice, Quot.sound]
'Genie.C28_cut_inside_random_maps' depends on axioms: [propext, Classical.choice, Quot.sound]
'Genie.C28_early_cut_raises' depends on axioms: [propext, Classical.choice, Quot.sound]
'Genie.C28_record_completed' depends on axioms: [propext, Classical.choice, Quot.sound]
'Genie.C28_record_truncation_detectable' depends on axioms: [propext, Classical.choice, Quot.sound]
'Genie.C28_record_zeros' depends on axioms: [propext, Classical.choice, Quot.sound]
'Genie.C28_sign_extension' does not depend on any axioms
'Genie.C28_silent_truncation' depends on axioms: [propext, Classical.choice, Quot.sound]
'Genie.C28_truncation_detectable' depends on axioms: [propext, Classical.choice, Quot.sound]
'Genie.C28_zero_filled' depends on axioms: [propext, Classical.choice, Quot.sound]
'Genie.C28_zeros' depends on axioms: [propext, Classical.choice, Quot.sound]
'Genie.C28_zeros_cut' depends on axioms: [propext, Classical.choice, Quot.sound]
'Genie.C29_angle_sounds' depends on axioms: [propext, Classical.choice, Quot.sound]
'Genie.C29_file' depends on axioms: [propext, Classical.choice, Quot.sound]
'Genie.C29_parsed_sizes_match' depends on axioms: [propext, Classical.choice, Quot.sound]
'Genie.C29_read_back_iff' depends on axioms: [propext, Classical.choice, Quot.sound]
'Genie.C29_size_written' depends on axioms: [propext, Quot.sound]
'Genie.C29_written_unchecked' depends on axioms: [propext, Classical.choice, Quot.sound]
'Genie.C30_assertion_iff' depends on axioms: [propext, Classical.choice, Quot.sound]
'Genie.C30_count_written' depends on axioms: [propext, Classical.choice, Quot.sound]
'Genie.C30_read_back_iff' depends on axioms: [propext, Classical.choice, Quot.sound]
'Genie.C31_fixed_list' depends on axioms: [propext, Classical.choice, Quot.sound]
'Genie.C31_fixed_list_alone' depends on axioms: [propext, Classical.choice, Quot.sound]
'Genie.C31_looting_table' depends on axioms: [propext, Classical.choice, Quot.sound]
'Genie.C31_spawning_area' depends on axioms: [propext, Classical.choice, Quot.sound]
'Genie.C31_unit_lists' depends on axioms: [propext, Classical.choice, Quot.sound]
'Genie.C31_unit_lists_alone' depends on axioms: [propext, Classical.choice, Quot.sound]
'Genie.C31_unit_regrouped' depends on axioms: [propext, Classical.choice, Quot.sound]
'Genie.C32_counted_list' depends on axioms: [propext, Classical.choice, Quot.sound]
'Genie.C32_insert' depends on axioms: [propext, Classical.choice, Quot.sound]
'Genie.C32_kings' depends on axioms: [propext, Classical.choice, Quot.sound]
'Genie.C32_remove' depends on axioms: [propext, Classical.choice, Quot.sound]
'Genie.C32_slot_list' depends on axioms: [propext, Classical.choice, Quot.sound]
'Genie.C33_datfile_unbounded' depends on axioms: [propext, Classical.choice, Quot.sound]
'Genie.C33_map_info_unbounded' depends on axioms: [propext, Classical.choice, Quot.sound]
'Genie.C34_fields_AttackOrArmor' depends on axioms: [propext, Classical.choice, Quot.sound]
'Genie.C34_fields_Bird' depends on axioms: [propext, Classical.choice, Quot.sound]
'Genie.C34_fields_Building' depends on axioms: [propext, Classical.choice, Quot.sound]
'Genie.C34_fields_BuildingAnnex' depends on axioms: [propext, Classical.choice, Quot.sound]
'Genie.C34_fields_BuildingConnection' depends on axioms: [propext, Classical.choice, Quot.sound]
'Genie.C34_fields_Civ' depends on axioms: [propext, Classical.choice, Quot.sound]
'Genie.C34_fields_Common' depends on axioms: [propext, Classical.choice, Quot.sound]
'Genie.C34_fields_Creatable' depends on axioms: [propext, Classical.choice, Quot.sound]
'Genie.C34_fields_DamageGraphic' depends on axioms: [propext, Classical.choice, Quot.sound]
'Genie.C34_fields_DatFile' depends on axioms: [propext, Classical.choice, Quot.sound]
'Genie.C34_fields_DeadFish' depends on axioms: [propext, Classical.choice, Quot.sound]
'Genie.C34_fields_Effect' depends on axioms: [propext, Classical.choice, Quot.sound]
'Genie.C34_fields_EffectCommand' depends on axioms: [propext, Classical.choice, Quot.sound]
'Genie.C34_fields_FrameData' depends on axioms: [propext, Classical.choice, Quot.sound]
'Genie.C34_fields_Graphic' depends on axioms: [propext, Classical.choice, Quot.sound]
'Genie.C34_fields_GraphicAngleSound' depends on axioms: [propext, Classical.choice, Quot.sound]
'Genie.C34_fields_GraphicDelta' depends on axioms: [propext, Classical.choice, Quot.sound]
'Genie.C34_fields_MapElevation' depends on axioms: [propext, Classical.choice, Quot.sound]
'Genie.C34_fields_MapInfo' depends on axioms: [propext, Classical.choice, Quot.sound]
'Genie.C34_fields_MapLand' depends on axioms: [propext, Classical.choice, Quot.sound]
'Genie.C34_fields_MapTerrain' depends on axioms: [propext, Classical.choice, Quot.sound]
'Genie.C34_fields_MapUnit' depends on axioms: [propext, Classical.choice, Quot.sound]
'Genie.C34_fields_PlayerColour' depends on axioms: [propext, Classical.choice, Quot.sound]
'Genie.C34_fields_Projectile' depends on axioms: [propext, Classical.choice, Quot.sound]
'Genie.C34_fields_RandomMaps' depends on axioms: [propext, Classical.choice, Quot.sound]
'Genie.C34_fields_ResearchConnection' depends on axioms: [propext, Classical.choice, Quot.sound]
'Genie.C34_fields_ResearchLocation' depends on axioms: [propext, Classical.choice, Quot.sound]
'Genie.C34_fields_ResearchResourceCost' depends on axioms: [propext, Classical.choice, Quot.sound]
'Genie.C34_fields_ResourceCost' depends on axioms: [propext, Classical.choice, Quot.sound]
'Genie.C34_fields_ResourceStorage' depends on axioms: [propext, Classical.choice, Quot.sound]
'Genie.C34_fields_Sound' depends on axioms: [propext, Classical.choice, Quot.sound]
'Genie.C34_fields_SoundItem' depends on axioms: [propext, Classical.choice, Quot.sound]
'Genie.C34_fields_Task' depends on axioms: [propext, Classical.choice, Quot.sound]
'Genie.C34_fields_Tech' depends on axioms: [propext, Classical.choice, Quot.sound]
'Genie.C34_fields_TechTree' depends on axioms: [propext, Classical.choice, Quot.sound]
'Genie.C34_fields_TechTreeAge' depends on axioms: [propext, Classical.choice, Quot.sound]
'Genie.C34_fields_Terrain' depends on axioms: [propext, Classical.choice, Quot.sound]
'Genie.C34_fields_TerrainBlock' depends on axioms: [propext, Classical.choice, Quot.sound]
'Genie.C34_fields_TerrainPassGraphic' depends on axioms: [propext, Classical.choice, Quot.sound]
'Genie.C34_fields_TerrainRestriction' depends on axioms: [propext, Classical.choice, Quot.sound]
'Genie.C34_fields_TileSize' depends on axioms: [propext, Classical.choice, Quot.sound]
'Genie.C34_fields_TrainLocation' depends on axioms: [propext, Classical.choice, Quot.sound]
'Genie.C34_fields_Type50' depends on axioms: [propext, Classical.choice, Quot.sound]
'Genie.C34_fields_Unit' depends on axioms: [propext, Classical.choice, Quot.sound]
'Genie.C34_fields_UnitConnection' depends on axioms: [propext, Classical.choice, Quot.sound]
'Genie.C34_fields_UnitHeaders' depends on axioms: [propext, Classical.choice, Quot.sound]
'Genie.C34_loom_in_tree' depends on axioms: [propext, Classical.choice, Quot.sound]
'Genie.C34_nan_payload_is_lost' depends on axioms: [propext, Classical.choice, Quot.sound]
'Genie.C34_program_output_ascii' depends on axioms: [propext, Classical.choice, Quot.sound]
'Genie.C34_program_output_determines' depends on axioms: [propext, Classical.choice, Quot.sound]
'Genie.C34_program_total' depends on axioms: [propext, Classical.choice, Quot.sound]
'Genie.C34_record_tree_determines' depends on axioms: [propext, Classical.choice, Quot.sound]
'Genie.C34_text_determines' depends on axioms: [propext, Classical.choice, Quot.sound]
'Genie.C34_text_determines_without_nan' depends on axioms: [propext, Classical.choice, Quot.sound]
'Genie.C34_text_survives_save' depends on axioms: [propext, Classical.choice, Quot.sound]
'Genie.C34_tree_determines' depends on axioms: [propext, Classical.choice, Quot.sound]
'Genie.C35_parsed' depends on axioms: [propext, Classical.choice, Quot.sound]
'Genie.C35_upgrade' depends on axioms: [propext, Classical.choice, Quot.sound]
'Genie.C35_upgrade_to_84' depends on axioms: [propext, Classical.choice, Quot.sound]
'Genie.C36_datfile_nested_overlong' depends on axioms: [propext, Classical.choice, Quot.sound]
'Genie.C36_datfile_overlong' depends on axioms: [propext, Classical.choice, Quot.sound]
'Genie.C36_record_counts_fit' depends on axioms: [propext, Classical.choice, Quot.sound]
'Genie.C36_record_overflow' depends on axioms: [propext, Classical.choice, Quot.sound]
'Genie.C36_record_overlong' depends on axioms: [propext, Classical.choice, Quot.sound]
'Genie.C37_creatable_homeless' depends on axioms: [propext, Classical.choice, Quot.sound]
'Genie.C37_datfile_errors' depends on axioms: [propext, Classical.choice, Quot.sound]
'Genie.C37_datfile_refused' depends on axioms: [propext, Classical.choice, Quot.sound]
'Genie.C37_record_errors' depends on axioms: [propext, Classical.choice, Quot.sound]
'Genie.C37_record_refused' depends on axioms: [propext, Classical.choice, Quot.sound]
'Genie.C37_tables_mismatched' depends on axioms: [propext, Classical.choice, Quot.sound]
'Genie.C38_parsed_version' depends on axioms: [propext, Classical.choice, Quot.sound]
'Genie.C38_read_undecodable' depends on axioms: [propext, Classical.choice, Quot.sound]
'Genie.C38_read_unknown_version' depends on axioms: [propext, Classical.choice, Quot.sound]
'Genie.C38_value_error_iff' depends on axioms: [propext, Classical.choice, Quot.sound]
'Genie.C38_version_argument_ignored' depends on axioms: [propext, Classical.choice, Quot.sound]
'Genie.C38_write_unknown_version' depends on axioms: [propext, Classical.choice, Quot.sound]
'Genie.C39_datfile_error' depends on axioms: [propext, Classical.choice, Quot.sound]
'Genie.C39_datfile_format' depends on axioms: [propext, Classical.choice, Quot.sound]
'Genie.C39_read_format' depends on axioms: [propext, Classical.choice, Quot.sound]
'Genie.C39_record_error' depends on axioms: [propext, Classical.choice, Quot.sound]
'Genie.C39_record_format' depends on axioms: [propext, Classical.choice, Quot.sound]
'Genie.C40_convert_twice' depends on axioms: [propext, Classical.choice, Quot.sound]
'Genie.C40_convert_unique' depends on axioms: [propext, Classical.choice, Quot.sound]
'Genie.C40_down_and_up' depends on axioms: [propext, Classical.choice, Quot.sound]
'Genie.C40_up_and_back' depends on axioms: [propext, Classical.choice, Quot.sound]
'Genie.C40_up_and_back_parsed' depends on axioms: [propext, Classical.choice, Quot.sound]
'Genie.C41_both_cases' depends on axioms: [propext, Classical.choice, Quot.sound]
'Genie.C41_invalid_json' depends on axioms: [propext, Classical.choice, Quot.sound]
'Genie.C41_program_output' depends on axioms: [propext, Classical.choice, Quot.sound]
'Genie.C41_valid_json' depends on axioms: [propext, Classical.choice, Quot.sound]
'Genie.C42_debug_string_raises_iff' depends on axioms: [propext, Classical.choice, Quot.sound]
'Genie.C42_float_raises_iff' depends on axioms: [propext, Classical.choice, Quot.sound]
'Genie.C42_integer_records_never_raise' depends on axioms: [propext, Classical.choice, Quot.sound]
'Genie.C42_ints_never_raise' depends on axioms: [propext, Classical.choice, Quot.sound]
'Genie.C42_outcome_is_decided' depends on axioms: [propext, Classical.choice, Quot.sound]
'Genie.C42_record_errors' depends on axioms: [propext, Classical.choice, Quot.sound]
'Genie.C42_record_errors_occur' depends on axioms: [propext, Classical.choice, Quot.sound]
'Genie.C42_string_raises_iff' depends on axioms: [propext, Classical.choice, Quot.sound]
'Genie.C42_struct_error_is_missing_data' depends on axioms: [propext, Classical.choice, Quot.sound]
'Genie.C42_unpack_raises_iff' depends on axioms: [propext, Classical.choice, Quot.sound]
'Genie.C43_king_edit' depends on axioms: [propext, Classical.choice, Quot.sound]
'Genie.C43_king_program' depends on axioms: [propext, Classical.choice, Quot.sound]
'Genie.C43_loom_edit' depends on axioms: [propext, Classical.choice, Quot.sound]
'Genie.C43_loom_program' depends on axioms: [propext, Classical.choice, Quot.sound]
'Genie.C43_loom_twice' depends on axioms: [propext, Classical.choice, Quot.sound]
'Genie.C43_raises_untouched' depends on axioms: [propext, Classical.choice, Quot.sound]
'Genie.C44_converted_comes_back' depends on axioms: [propext, Classical.choice, Quot.sound]
'Genie.C44_history' depends on axioms: [propext, Classical.choice, Quot.sound]
'Genie.C44_int_edit_wf' depends on axioms: [propext, Classical.choice, Quot.sound]
'Genie.C44_interrupted_history' depends on axioms: [propext, Classical.choice, Quot.sound]
'Genie.C44_interrupted_run' depends on axioms: [propext, Classical.choice, Quot.sound]
'Genie.C44_list_edit_wf' depends on axioms: [propext, Classical.choice, Quot.sound]
'Genie.C44_loads_after' depends on axioms: [propext, Classical.choice, Quot.sound]
'Genie.C44_other_files' depends on axioms: [propext, Classical.choice, Quot.sound]
'Genie.C44_readme_keeps_wf' depends on axioms: [propext, Classical.choice, Quot.sound]
'Genie.C44_run' depends on axioms: [propext, Classical.choice, Quot.sound]
'Genie.C44_wellformed_comes_back' depends on axioms: [propext, Classical.choice, Quot.sound]
'Genie.C45_asdict' depends on axioms: [propext, Classical.choice, Quot.sound]
'Genie.C45_expressions' depends on axioms: [propext, Classical.choice, Quot.sound]
'Genie.C45_load_builds' depends on axioms: [propext, Classical.choice, Quot.sound]
'Genie.C45_load_fresh' depends on axioms: [propext, Classical.choice, Quot.sound]
'Genie.C45_no_sharing' depends on axioms: [propext, Classical.choice, Quot.sound]
'Genie.C45_put' depends on axioms: [propext, Quot.sound]
'Genie.C45_readme_kings' depends on axioms: [propext, Classical.choice, Quot.sound]
'Genie.C45_readme_loom' depends on axioms: [propext, Classical.choice, Quot.sound]
'Genie.C45_statements' depends on axioms: [propext, Classical.choice, Quot.sound]
'Genie.C45_two_files' depends on axioms: [propext, Classical.choice, Quot.sound]
'Genie.C46_exception' depends on axioms: [propext, Classical.choice, Quot.sound]
'Genie.C46_loaded_types' depends on axioms: [propext, Classical.choice, Quot.sound]
'Genie.C46_loaded_types_84' depends on axioms: [propext, Classical.choice, Quot.sound]
'Genie.C46_tuples_immutable' depends on axioms: [propext, Classical.choice, Quot.sound]
'Genie.C47_any_error' depends on axioms: [propext, Classical.choice, Quot.sound]
'Genie.C47_any_program' depends on axioms: [propext, Classical.choice, Quot.sound]
'Genie.C47_any_program_heap' depends on axioms: [propext, Classical.choice, Quot.sound]
'Genie.C47_any_room' depends on axioms: [propext, Classical.choice, Quot.sound]
'Genie.C47_any_save' depends on axioms: [propext, Classical.choice, Quot.sound]
'Genie.C47_compare_inf' depends on axioms: [propext, Quot.sound]
'Genie.C47_compare_other' depends on axioms: [propext]
'Genie.C47_cycle' depends on axioms: [propext, Classical.choice, Quot.sound]
'Genie.C47_float_field' depends on axioms: [propext]
'Genie.C47_identity_irrelevant' depends on axioms: [propext, Classical.choice, Quot.sound]
'Genie.C47_int_as_float' depends on axioms: [propext, Classical.choice, Quot.sound]
'Genie.C47_int_field' depends on axioms: [propext]
'Genie.C47_load_edit_save' depends on axioms: [propext, Classical.choice, Quot.sound]
'Genie.C47_looks_decide' depends on axioms: [propext, Classical.choice, Quot.sound]
'Genie.C47_looks_iff_value' depends on axioms: [propext, Quot.sound]
'Genie.C47_parse' depends on axioms: [propext, Classical.choice, Quot.sound]
'Genie.C47_readme_kings_file' depends on axioms: [propext, Classical.choice, Quot.sound]
'Genie.C47_readme_loom_file' depends on axioms: [propext, Classical.choice, Quot.sound]
'Genie.C47_save' depends on axioms: [propext, Classical.choice, Quot.sound]
'Genie.C47_save_file' depends on axioms: [propext, Classical.choice, Quot.sound]
'Genie.C47_save_loaded' depends on axioms: [propext, Classical.choice, Quot.sound]
'Genie.C47_save_record' depends on axioms: [propext, Classical.choice, Quot.sound]
'Genie.C47_small_int_as_float' depends on axioms: [propext, Classical.choice, Quot.sound]
'Genie.C47_truth' depends on axioms: [propext, Quot.sound]
'Genie.C47_value_decides' depends on axioms: [propext, Classical.choice, Quot.sound]
'Genie.C48_file' depends on axioms: [propext, Classical.choice, Quot.sound]
'Genie.C48_fits_iff' depends on axioms: [propext, Classical.choice, Quot.sound]
'Genie.C48_load_edit_save' depends on axioms: [propext, Classical.choice, Quot.sound]
'Genie.C48_loaded_fits' depends on axioms: [propext, Classical.choice, Quot.sound]
'Genie.C48_reload' depends on axioms: [propext, Classical.choice, Quot.sound]
'Genie.C48_save_raises' depends on axioms: [propext, Classical.choice, Quot.sound]
'Genie.C48_typed_keeps' depends on axioms: [propext, Classical.choice, Quot.sound]
'Genie.C48_typed_raises' depends on axioms: [propext, Classical.choice, Quot.sound]
'Genie.C49_ends' depends on axioms: [propext, Classical.choice, Quot.sound]
'Genie.C49_faults' depends on axioms: [propext, Classical.choice, Quot.sound]
'Genie.C49_faults_load' depends on axioms: [propext, Classical.choice, Quot.sound]
'Genie.C49_independent' depends on axioms: [propext, Classical.choice, Quot.sound]
'Genie.C49_load_during_save' depends on axioms: [propext, Classical.choice, Quot.sound]
'Genie.C49_load_during_save_result' depends on axioms: [propext, Classical.choice, Quot.sound]
'Genie.C49_lost_update' depends on axioms: [propext, Classical.choice, Quot.sound]
'Genie.C49_progress' depends on axioms: [propext, Classical.choice, Quot.sound]
'Genie.C49_terminates' depends on axioms: [propext, Classical.choice, Quot.sound]
'Genie.C49_torn_read' depends on axioms: [propext, Classical.choice, Quot.sound]
'Genie.C49_torn_read_third' depends on axioms: [propext, Classical.choice, Quot.sound]
'Genie.C49_two_saves' depends on axioms: [propext, Classical.choice, Quot.sound]
'Genie.C50_copies_are_literals' depends on axioms: [propext, Classical.choice, Quot.sound]
'Genie.C50_copy_file' depends on axioms: [propext, Classical.choice, Quot.sound]
'Genie.C50_deepcopy' depends on axioms: [propext, Quot.sound]
'Genie.C50_deepcopy_room' depends on axioms: [propext, Classical.choice, Quot.sound]
'Genie.C50_file' depends on axioms: [propext, Classical.choice, Quot.sound]
'Genie.C50_independent' depends on axioms: [propext, Classical.choice, Quot.sound]
'Genie.C50_load_copy_save' depends on axioms: [propext, Classical.choice, Quot.sound]
'Genie.C50_named' depends on axioms: [propext, Classical.choice, Quot.sound]
'Genie.C50_programs' depends on axioms: [propext, Classical.choice, Quot.sound]
'Genie.C50_shared_error' depends on axioms: [propext, Classical.choice, Quot.sound]
'Genie.C50_shared_statement' depends on axioms: [propext, Classical.choice, Quot.sound]
'Genie.C50_two_files' depends on axioms: [propext, Classical.choice, Quot.sound]
'Genie.C50_typed' depends on axioms: [propext, Classical.choice, Quot.sound]
'Genie.C51_append' depends on axioms: [propext, Classical.choice, Quot.sound]
'Genie.C51_del_item' depends on axioms: [propext, Classical.choice, Quot.sound]
'Genie.C51_del_slice' depends on axioms: [propext, Classical.choice, Quot.sound]
'Genie.C51_every_attribute' depends on axioms: [propext, Classical.choice, Quot.sound]
'Genie.C51_every_list' depends on axioms: [propext, Classical.choice, Quot.sound]
'Genie.C51_insert' depends on axioms: [propext, Classical.choice, Quot.sound]
'Genie.C51_load_edit_save' depends on axioms: [propext, Classical.choice, Quot.sound]
'Genie.C51_missing' depends on axioms: [propext, Classical.choice, Quot.sound]
'Genie.C51_object' depends on axioms: [propext, Classical.choice, Quot.sound]
'Genie.C51_place' depends on axioms: [propext, Classical.choice, Quot.sound]
'Genie.C51_pop' depends on axioms: [propext, Classical.choice, Quot.sound]
'Genie.C51_program' depends on axioms: [propext, Classical.choice, Quot.sound]
'Genie.C51_set_float' depends on axioms: [propext, Classical.choice, Quot.sound]
'Genie.C51_set_int' depends on axioms: [propext, Classical.choice, Quot.sound]
'Genie.C51_set_item' depends on axioms: [propext, Classical.choice, Quot.sound]
'Genie.C51_set_text' depends on axioms: [propext, Classical.choice, Quot.sound]
'Genie.C51_undeclared' depends on axioms: [propext, Classical.choice, Quot.sound]
'Genie.C52_copy' depends on axioms: [propext, Classical.choice, Quot.sound]
'Genie.C52_equal' depends on axioms: [propext, Classical.choice, Quot.sound]
'Genie.C52_equal_bytes' depends on axioms: [propext, Classical.choice, Quot.sound]
'Genie.C52_equal_files' depends on axioms: [propext, Classical.choice, Quot.sound]
'Genie.C52_loads' depends on axioms: [propext, Classical.choice, Quot.sound]
'Genie.C52_room' depends on axioms: [propext, Classical.choice, Quot.sound]
'Genie.C52_round_trip' depends on axioms: [propext, Classical.choice, Quot.sound]
'Genie.C52_same_bytes' depends on axioms: [propext, Classical.choice, Quot.sound]
'Genie.C53_every_oddity_is_read' depends on axioms: [propext, Classical.choice, Quot.sound]
'Genie.C53_file_grammar' depends on axioms: [propext, Classical.choice, Quot.sound]
'Genie.C53_raises' depends on axioms: [propext, Classical.choice, Quot.sound]
'Genie.C53_record_grammar' depends on axioms: [propext, Classical.choice, Quot.sound]
'Genie.C53_record_raises' depends on axioms: [propext, Classical.choice, Quot.sound]
'Genie.C53_record_total' depends on axioms: [propext, Classical.choice, Quot.sound]
'Genie.C53_rejects' depends on axioms: [propext, Classical.choice, Quot.sound]
'Genie.C53_same_object' depends on axioms: [propext, Classical.choice, Quot.sound]
'Genie.C53_total' depends on axioms: [propext, Classical.choice, Quot.sound]
'Genie.C53_unambiguous' depends on axioms: [propext, Classical.choice, Quot.sound]
'Genie.C53_whole_file' depends on axioms: [propext, Classical.choice, Quot.sound]
'Genie.C54_file_exception' depends on axioms: [propext, Classical.choice, Quot.sound]
'Genie.C54_file_outcome' depends on axioms: [propext, Classical.choice, Quot.sound]
'Genie.C54_file_same_items' depends on axioms: [propext, Classical.choice, Quot.sound]
'Genie.C54_record_exception' depends on axioms: [propext, Classical.choice, Quot.sound]
'Genie.C54_record_outcome' depends on axioms: [propext, Classical.choice, Quot.sound]
'Genie.C54_record_same_items' depends on axioms: [propext, Classical.choice, Quot.sound]
'Genie.C54_save_exception' depends on axioms: [propext, Classical.choice, Quot.sound]
'Genie.C55_any_marker' depends on axioms: [propext, Classical.choice, Quot.sound]
'Genie.C55_no_assertion' depends on axioms: [propext, Classical.choice, Quot.sound]
'Genie.C55_read' depends on axioms: [propext, Classical.choice, Quot.sound]
'Genie.C55_read_repaired' depends on axioms: [propext, Classical.choice, Quot.sound]
'Genie.C55_read_then_save' depends on axioms: [propext, Classical.choice, Quot.sound]
'Genie.C55_record_read' depends on axioms: [propext, Classical.choice, Quot.sound]
'Genie.C55_record_read_repaired' depends on axioms: [propext, Classical.choice, Quot.sound]
'Genie.C55_record_write' depends on axioms: [propext, Quot.sound]
'Genie.C55_write' depends on axioms: [propext, Classical.choice, Quot.sound]
'Genie.C55_write_exact' depends on axioms: [propext, Classical.choice, Quot.sound]
'Genie.C55_write_lost' depends on axioms: [propext, Classical.choice, Quot.sound]
'Genie.C56_from_scratch' depends on axioms: [propext, Classical.choice, Quot.sound]
'Genie.C56_has_meaning' depends on axioms: [propext, Classical.choice, Quot.sound]
'Genie.C56_hit_points' depends on axioms: [propext, Classical.choice, Quot.sound]
'Genie.C56_load_change_save' depends on axioms: [propext, Classical.choice, Quot.sound]
'Genie.C56_operation' depends on axioms: [propext, Classical.choice, Quot.sound]
'Genie.C56_program' depends on axioms: [propext, Classical.choice, Quot.sound]
'Genie.C56_program_ends' depends on axioms: [propext, Classical.choice, Quot.sound]
'Genie.C56_script' depends on axioms: [propext, Classical.choice, Quot.sound]
'Genie.C56_then' depends on axioms: [propext, Classical.choice, Quot.sound]
'Genie.C56_try' depends on axioms: [propext, Classical.choice, Quot.sound]
'Genie.C56_written' depends on axioms: [propext, Classical.choice, Quot.sound]
'Genie.C57_action' depends on axioms: [propext, Classical.choice, Quot.sound]
'Genie.C57_deepcopy' depends on axioms: [propext, Classical.choice, Quot.sound]
'Genie.C57_files' depends on axioms: [propext, Classical.choice, Quot.sound]
'Genie.C57_no_type_error' depends on axioms: [propext, Classical.choice, Quot.sound]
'Genie.C57_program' depends on axioms: [propext, Classical.choice, Quot.sound]
'Genie.C57_saved' depends on axioms: [propext, Classical.choice, Quot.sound]
'Genie.C57_script' depends on axioms: [propext, Classical.choice, Quot.sound]
'Genie.C57_start' depends on axioms: [propext, Classical.choice, Quot.sound]
'Genie.C57_types_mean' depends on axioms: [propext, Classical.choice, Quot.sound]
'Genie.C58_alone' depends on axioms: [propext, Classical.choice, Quot.sound]
'Genie.C58_no_type_error' depends on axioms: [propext, Classical.choice, Quot.sound]
'Genie.C58_threads' depends on axioms: [propext, Classical.choice, Quot.sound]
'Genie.C58_typed' depends on axioms: [propext, Classical.choice, Quot.sound]
'Genie.C59_alike_equal' depends on axioms: [propext, Classical.choice, Quot.sound]
'Genie.C59_copy' depends on axioms: [propext, Classical.choice, Quot.sound]
'Genie.C59_determines' depends on axioms: [propext, Classical.choice, Quot.sound]
'Genie.C59_determines_without_nan' depends on axioms: [propext, Classical.choice, Quot.sound]
'Genie.C59_loads' depends on axioms: [propext, Classical.choice, Quot.sound]
'Genie.C59_no_loop' depends on axioms: [propext, Classical.choice, Quot.sound]
'Genie.C59_repr' depends on axioms: [propext, Classical.choice, Quot.sound]
'Genie.C59_same_bytes' depends on axioms: [propext, Classical.choice, Quot.sound]
'Genie.C59_typed' depends on axioms: [propext, Classical.choice, Quot.sound]
'Genie.Src.C60_from_bytes_of_every_class' depends on axioms: [propext, Classical.choice, Quot.sound]
'Genie.Src.C60_load' depends on axioms: [propext, Classical.choice, Quot.sound]
'Genie.Src.C60_unit_types' depends on axioms: [propext]
'Genie.Src.C60_versions' depends on axioms: [propext, Classical.choice, Quot.sound]
'Genie.Src.C61_load_then_save' depends on axioms: [propext, Classical.choice, Quot.sound]
'Genie.Src.C61_objects_keep_class' depends on axioms: [propext, Classical.choice, Quot.sound]
'Genie.Src.C61_save' depends on axioms: [propext, Classical.choice, Quot.sound]
'Genie.Src.C61_to_bytes_of_every_object' depends on axioms: [propext, Classical.choice, Quot.sound]
'Genie.Src.C61_to_bytes_of_values' depends on axioms: [propext, Classical.choice, Quot.sound]
'Genie.Src.C62_dat_to_json' depends on axioms: [propext, Classical.choice, Quot.sound]
'Genie.Src.C62_kings_lose_a_task' depends on axioms: [propext, Classical.choice, Quot.sound]
'Genie.Src.C62_loom_costs_69' depends on axioms: [propext, Classical.choice, Quot.sound]
'Genie.Src.C62_main' depends on axioms: [propext, Classical.choice, Quot.sound]
'Genie.Src.C62_parse' depends on axioms: [propext, Classical.choice, Quot.sound]
'Genie.Src.C62_readme_fails' depends on axioms: [propext, Classical.choice, Quot.sound]
'Genie.Src.C62_readme_kings' depends on axioms: [propext, Classical.choice, Quot.sound]
'Genie.Src.C62_readme_loom' depends on axioms: [propext, Classical.choice, Quot.sound]
'Genie.Src.C62_save' depends on axioms: [propext, Classical.choice, Quot.sound]
'Genie.Src.C62_save_any' depends on axioms: [propext, Classical.choice, Quot.sound]
'Genie.Src.C63_every_function' depends on axioms: [propext, Classical.choice, Quot.sound]
'Genie.Src.C63_left_out' depends on axioms: [propext]
'Genie.Src.C63_load' depends on axioms: [propext, Classical.choice, Quot.sound]
'Genie.Src.C63_load_then_save' depends on axioms: [propext, Classical.choice, Quot.sound]
'Genie.Src.C63_save' depends on axioms: [propext, Classical.choice, Quot.sound]
'Genie.Src.C63_success' depends on axioms: [propext, Classical.choice, Quot.sound]
'Genie.Src.C63_where' does not depend on any axioms
'Genie.Src.C63_write' depends on axioms: [propext, Classical.choice, Quot.sound]
'Genie.Src.C64_every_function' depends on axioms: [propext, Classical.choice, Quot.sound]
'Genie.Src.C64_files' depends on axioms: [propext, Classical.choice, Quot.sound]
'Genie.Src.C64_no_choice' depends on axioms: [propext, Classical.choice, Quot.sound]
'Genie.Src.C64_optimized' depends on axioms: [propext, Classical.choice, Quot.sound]
'Genie.Src.C64_program' depends on axioms: [propext, Classical.choice, Quot.sound]
'Genie.Src.C64_reading_needs_13' depends on axioms: [propext, Classical.choice, Quot.sound]
'Genie.Src.C66_action' depends on axioms: [propext, Classical.choice, Quot.sound]
'Genie.Src.C66_hit_points' depends on axioms: [propext, Classical.choice, Quot.sound]
'Genie.Src.C66_load_change_save' depends on axioms: [propext, Classical.choice, Quot.sound]
'Genie.Src.C66_objects' depends on axioms: [propext, Classical.choice, Quot.sound]
'Genie.Src.C66_program' depends on axioms: [propext, Classical.choice, Quot.sound]
'Genie.Src.C66_script' depends on axioms: [propext, Classical.choice, Quot.sound]
'Genie.Src.C67_debug_string' depends on axioms: [propext, Classical.choice, Quot.sound]
'Genie.Src.C67_float' depends on axioms: [propext, Classical.choice, Quot.sound]
'Genie.Src.C67_int16' depends on axioms: [propext, Classical.choice, Quot.sound]
'Genie.Src.C67_int32' depends on axioms: [propext, Classical.choice, Quot.sound]
'Genie.Src.C67_int8' depends on axioms: [propext, Classical.choice, Quot.sound]
'Genie.Src.C67_int_read_write' depends on axioms: [propext, Classical.choice, Quot.sound]
'Genie.Src.C67_new_instance' depends on axioms: [propext]
'Genie.Src.C67_string' depends on axioms: [propext, Classical.choice, Quot.sound]
'Genie.Src.C67_uint16' depends on axioms: [propext, Classical.choice, Quot.sound]
'Genie.Src.C67_uint32' depends on axioms: [propext, Classical.choice, Quot.sound]
'Genie.Src.C68_cut' depends on axioms: [propext, Classical.choice, Quot.sound]
'Genie.Src.C68_isolated' depends on axioms: [propext, Classical.choice, Quot.sound]
'Genie.Src.C68_load_save_load' depends on axioms: [propext, Classical.choice, Quot.sound]
'Genie.Src.C68_only_the_bytes_read' depends on axioms: [propext, Classical.choice, Quot.sound]
'Genie.Src.C68_parse_save_parse' depends on axioms: [propext, Classical.choice, Quot.sound]
'Genie.Src.C68_total' depends on axioms: [propext, Classical.choice, Quot.sound]
'Genie.Src.C68_values_and_bytes' depends on axioms: [propext, Classical.choice, Quot.sound]
'Genie.Src.C69_isolated' depends on axioms: [propext, Classical.choice, Quot.sound]
'Genie.Src.C69_only_the_bytes_read' depends on axioms: [propext, Classical.choice, Quot.sound]
'Genie.Src.C69_read_write_read' depends on axioms: [propext, Classical.choice, Quot.sound]
'Genie.Src.C69_total' depends on axioms: [propext, Classical.choice, Quot.sound]
'Genie.Src.C69_values_and_bytes' depends on axioms: [propext, Classical.choice, Quot.sound]
'Genie.Src.C69_write_exceptions' depends on axioms: [propext, Classical.choice, Quot.sound]
'Genie.Src.C70_any_version' depends on axioms: [propext, Classical.choice, Quot.sound]
'Genie.Src.C70_downgrade' depends on axioms: [propext, Classical.choice, Quot.sound]
'Genie.Src.C70_loaded' depends on axioms: [propext, Classical.choice, Quot.sound]
'Genie.Src.C70_missing' depends on axioms: [propext, Classical.choice, Quot.sound]
'Genie.Src.C70_parse_edit_save' depends on axioms: [propext, Classical.choice, Quot.sound]
'Genie.Src.C70_set_float' depends on axioms: [propext, Classical.choice, Quot.sound]
'Genie.Src.C70_set_int' depends on axioms: [propext, Classical.choice, Quot.sound]
'Genie.Src.C70_set_text' depends on axioms: [propext, Classical.choice, Quot.sound]
'Genie.Src.C70_statements' depends on axioms: [propext, Classical.choice, Quot.sound]
'Genie.Src.C70_typed_program' depends on axioms: [propext, Classical.choice, Quot.sound]
'Genie.Src.C70_upgrade' depends on axioms: [propext, Classical.choice, Quot.sound]
'Genie.Src.C70_upgrade_to_88' depends on axioms: [propext, Classical.choice, Quot.sound]
'Genie.Src.Text.C65_blank_lines' depends on axioms: [propext]
'Genie.Src.Text.C65_package' depends on axioms: [propext, Quot.sound]
'Genie.Src.Text.C65_parse_and_save' depends on axioms: [propext, Quot.sound]
'Genie.Src.Text.C65_readme' depends on axioms: [propext]
'Genie.Src.Text.C65_scripts' depends on axioms: [propext]
'Genie.Src.Text.C71_complete' depends on axioms: [propext, Quot.sound]
'Genie.Src.Text.C71_exact' depends on axioms: [propext, Quot.sound]
'Genie.Src.Text.C71_refuses' depends on axioms: [propext, Quot.sound]
'Genie.Src.Text.C71_room' depends on axioms: [propext]
'Genie.Src.Text.C71_sound' depends on axioms: [propext, Quot.sound]
'Genie.Src.Text.C71_unambiguous' depends on axioms: [propext, Quot.sound]
'Genie.Src.Text.C71_whole' depends on axioms: [propext, Quot.sound]
'Genie.Src.Text.C72_blocks_unambiguous' depends on axioms: [propext, Quot.sound]
'Genie.Src.Text.C72_class' depends on axioms: [propext, Quot.sound]
'Genie.Src.Text.C72_complete' depends on axioms: [propext, Quot.sound]
'Genie.Src.Text.C72_exact' depends on axioms: [propext, Quot.sound]
'Genie.Src.Text.C72_function' depends on axioms: [propext, Quot.sound]
'Genie.Src.Text.C72_module' depends on axioms: [propext, Quot.sound]
'Genie.Src.Text.C72_only' depends on axioms: [propext, Quot.sound]
'Genie.Src.Text.C72_package' depends on axioms: [propext, Quot.sound]
'Genie.Src.Text.C72_program' depends on axioms: [propext, Quot.sound]
'Genie.Src.Text.C72_programs' depends on axioms: [propext, Quot.sound]
'Genie.Src.Text.C72_reindent' depends on axioms: [propext, Quot.sound]
'Genie.Src.Text.C72_statements' depends on axioms: [propext, Quot.sound]
'Genie.Src.Text.C72_unambiguous' depends on axioms: [propext, Quot.sound]
'Genie.Src.Text.C73_comments' depends on axioms: [propext, Classical.choice, Quot.sound]
'Genie.Src.Text.C73_exact' depends on axioms: [propext, Classical.choice, Quot.sound]
'Genie.Src.Text.C73_lines' depends on axioms: [propext, Classical.choice, Quot.sound]
'Genie.Src.Text.C73_longest' depends on axioms: [propext, Classical.choice, Quot.sound]
'Genie.Src.Text.C73_module' depends on axioms: [propext, Classical.choice, Quot.sound]
'Genie.Src.Text.C73_one_tree' depends on axioms: [propext, Classical.choice, Quot.sound]
'Genie.Src.Text.C73_package' depends on axioms: [propext, Classical.choice, Quot.sound]
'Genie.Src.Text.C73_program' depends on axioms: [propext, Classical.choice, Quot.sound]
'Genie.Src.Text.C73_programs' depends on axioms: [propext, Classical.choice, Quot.sound]
'Genie.Src.Text.C73_tokens' depends on axioms: [propext, Classical.choice, Quot.sound]
'Genie.Src.Text.C73_trailing_comment' depends on axioms: [propext, Classical.choice, Quot.sound]
'Genie.Src.Text.C73_unambiguous' depends on axioms: [propext, Classical.choice, Quot.sound]
