{
 "claims": [
  {
   "property": "C01",
   "status": "proved",
   "theorems": [
    "GoTable.C01_boundaries_follow_UAX29"
   ],
   "note": ""
  },
  {
   "property": "C02",
   "status": "proved",
   "theorems": [
    "GoTable.C02_iteration_lossless_and_finite"
   ],
   "note": ""
  },
  {
   "property": "C03",
   "status": "proved",
   "theorems": [
    "GoTable.C03_stepString_resumable",
    "GoTable.C03_stepString_empty",
    "GoTable.C03_stepString_cluster"
   ],
   "note": ""
  },
  {
   "property": "C04",
   "status": "proved",
   "theorems": [
    "GoTable.C04_inTable_iff_member",
    "GoTable.C04_property_iff_member"
   ],
   "note": ""
  },
  {
   "property": "C05",
   "status": "proved",
   "theorems": [
    "GoTable.C05_runeWidth_definition"
   ],
   "note": ""
  },
  {
   "property": "C06",
   "status": "proved",
   "theorems": [
    "GoTable.C06_lut_transparent"
   ],
   "note": ""
  },
  {
   "property": "C07",
   "status": "proved",
   "theorems": [
    "GoTable.C07_default_condition_coherent",
    "GoTable.C07_frozen"
   ],
   "note": ""
  },
  {
   "property": "C08",
   "status": "proved",
   "theorems": [
    "GoTable.C08_east_asian_only_widens",
    "GoTable.C08_emoji_only_widens"
   ],
   "note": ""
  },
  {
   "property": "C09",
   "status": "proved",
   "theorems": [
    "GoTable.C09_stringWidth_bounds"
   ],
   "note": ""
  },
  {
   "property": "C10",
   "status": "proved",
   "theorems": [
    "GoTable.C10_ascii_width",
    "GoTable.C10_ascii_width_alone"
   ],
   "note": ""
  },
  {
   "property": "C11",
   "status": "proved",
   "theorems": [
    "GoTable.C11_cache_invisible",
    "GoTable.C11_stale_after_settings_change"
   ],
   "note": ""
  },
  {
   "property": "C12",
   "status": "proved",
   "theorems": [
    "GoTable.C12_cache_invisible_concurrently"
   ],
   "note": "Assumes that each Get and Set of the cache is atomic; the cache package (ilius/go-lru) is not in the repository."
  },
  {
   "property": "C13",
   "status": "proved",
   "theorems": [
    "GoTable.C13_no_introducer"
   ],
   "note": ""
  },
  {
   "property": "C14",
   "status": "proved",
   "theorems": [
    "GoTable.C14_sgr_invisible",
    "GoTable.C14_control_sequence_invisible"
   ],
   "note": ""
  },
  {
   "property": "C15",
   "status": "proved",
   "theorems": [
    "GoTable.C15_no_underflow",
    "GoTable.C15_underflow_with_9b"
   ],
   "note": ""
  },
  {
   "property": "C16",
   "status": "proved",
   "theorems": [
    "GoTable.C16_alignmentLeft_exact",
    "GoTable.C16_inexact_after_prepend"
   ],
   "note": ""
  },
  {
   "property": "C17",
   "status": "proved",
   "theorems": [
    "GoTable.C17_alignmentRight_exact",
    "GoTable.C17_inexact_before_extending"
   ],
   "note": ""
  },
  {
   "property": "C18",
   "status": "proved",
   "theorems": [
    "GoTable.C18_alignmentCenter_exact"
   ],
   "note": ""
  },
  {
   "property": "C19",
   "status": "proved",
   "theorems": [
    "GoTable.C19_no_truncation",
    "GoTable.C19_idempotent",
    "GoTable.C19_not_idempotent_after_prepend"
   ],
   "note": ""
  },
  {
   "property": "C20",
   "status": "proved",
   "theorems": [
    "GoTable.C20_width_is_maximum",
    "GoTable.C20_width_monotone"
   ],
   "note": ""
  },
  {
   "property": "C21",
   "status": "proved",
   "theorems": [
    "GoTable.C21_formatItem",
    "GoTable.C21_upToError"
   ],
   "note": ""
  },
  {
   "property": "C22",
   "status": "proved",
   "theorems": [
    "GoTable.C22_updateWidth_is_maximum",
    "GoTable.C22_updateWidth_order"
   ],
   "note": ""
  },
  {
   "property": "C23",
   "status": "proved",
   "theorems": [
    "GoTable.C23_sharing",
    "GoTable.C23_isolation"
   ],
   "note": ""
  },
  {
   "property": "C24",
   "status": "proved",
   "theorems": [
    "GoTable.C24_registry"
   ],
   "note": ""
  },
  {
   "property": "C25",
   "status": "proved",
   "theorems": [
    "GoTable.C25_formatItemBasic"
   ],
   "note": ""
  },
  {
   "property": "C26",
   "status": "proved",
   "theorems": [
    "GoTable.C26_align_in_place"
   ],
   "note": ""
  },
  {
   "property": "C27",
   "status": "proved",
   "theorems": [
    "GoTable.C27_equal_widths"
   ],
   "note": ""
  },
  {
   "property": "C28",
   "status": "proved",
   "theorems": [
    "GoTable.C28_header"
   ],
   "note": ""
  },
  {
   "property": "C29",
   "status": "proved",
   "theorems": [
    "GoTable.C29_tableWidth"
   ],
   "note": ""
  },
  {
   "property": "C30",
   "status": "proved",
   "theorems": [
    "GoTable.C30_horizontal",
    "GoTable.C30_each_once",
    "GoTable.C30_empty"
   ],
   "note": ""
  },
  {
   "property": "C31",
   "status": "proved",
   "theorems": [
    "GoTable.C31_vertical",
    "GoTable.C31_each_once",
    "GoTable.C31_empty"
   ],
   "note": ""
  },
  {
   "property": "C32",
   "status": "proved",
   "theorems": [
    "GoTable.C32_horizontal",
    "GoTable.C32_vertical",
    "GoTable.C32_too_wide_without_separator"
   ],
   "note": ""
  },
  {
   "property": "C33",
   "status": "proved",
   "theorems": [
    "GoTable.C33_horizontal",
    "GoTable.C33_vertical",
    "GoTable.C33_wraps_around"
   ],
   "note": ""
  },
  {
   "property": "C34",
   "status": "proved",
   "theorems": [
    "GoTable.C34_horizontal",
    "GoTable.C34_vertical"
   ],
   "note": ""
  },
  {
   "property": "C35",
   "status": "proved",
   "theorems": [
    "GoTable.C35_horizontal",
    "GoTable.C35_vertical"
   ],
   "note": ""
  },
  {
   "property": "C36",
   "status": "proved",
   "theorems": [
    "GoTable.C36_groups"
   ],
   "note": ""
  },
  {
   "property": "C37",
   "status": "proved",
   "theorems": [
    "GoTable.C37_ends",
    "GoTable.C37_never_widest",
    "GoTable.C37_never_narrow",
    "GoTable.C37_exact"
   ],
   "note": ""
  },
  {
   "property": "C38",
   "status": "proved",
   "theorems": [
    "GoTable.C38_horizontal",
    "GoTable.C38_vertical",
    "GoTable.C38_no_columns"
   ],
   "note": ""
  },
  {
   "property": "C39",
   "status": "proved",
   "theorems": [
    "GoTable.C39_horizontal",
    "GoTable.C39_vertical"
   ],
   "note": ""
  },
  {
   "property": "C40",
   "status": "proved",
   "theorems": [
    "GoTable.C40_clamp",
    "GoTable.C40_monotone_horizontal",
    "GoTable.C40_monotone_vertical"
   ],
   "note": ""
  },
  {
   "property": "C41",
   "status": "proved",
   "theorems": [
    "GoTable.C41_locale_detection"
   ],
   "note": ""
  },
  {
   "property": "C42",
   "status": "proved",
   "theorems": [
    "GoTable.C42_never_panics"
   ],
   "note": ""
  },
  {
   "property": "C43",
   "status": "proved",
   "theorems": [
    "GoTable.C43_override",
    "GoTable.C43_platforms"
   ],
   "note": ""
  },
  {
   "property": "C44",
   "status": "proved",
   "theorems": [
    "GoTable.C44_compaction",
    "GoTable.C44_canonical",
    "GoTable.C44_shipped_tables"
   ],
   "note": ""
  },
  {
   "property": "C45",
   "status": "proved",
   "theorems": [
    "GoTable.C45_hangul_classes"
   ],
   "note": ""
  },
  {
   "property": "C46",
   "status": "proved",
   "theorems": [
    "GoTable.C46_stepString_width",
    "GoTable.C46_cluster_cases",
    "GoTable.C46_exceptions",
    "GoTable.C46_documentation_differs"
   ],
   "note": ""
  },
  {
   "property": "C47",
   "status": "proved",
   "theorems": [
    "GoTable.C47_decode_one",
    "GoTable.C47_decode_all"
   ],
   "note": ""
  },
  {
   "property": "C48",
   "status": "proved",
   "theorems": [
    "GoTable.C48_fails_inside_character",
    "GoTable.C48_stringWidth_subadditive"
   ],
   "note": ""
  },
  {
   "property": "C49",
   "status": "proved",
   "theorems": [
    "GoTable.C49_depends"
   ],
   "note": ""
  },
  {
   "property": "C50",
   "status": "proved",
   "theorems": [
    "GoTable.C50_code_pages_agree"
   ],
   "note": ""
  },
  {
   "property": "C51",
   "status": "proved",
   "theorems": [
    "GoTable.C51_escapes_left_out"
   ],
   "note": ""
  },
  {
   "property": "C52",
   "status": "proved",
   "theorems": [
    "GoTable.C52_visible_width",
    "GoTable.C52_exact",
    "GoTable.C52_visible_width_esc",
    "GoTable.C52_lost_after_escape"
   ],
   "note": ""
  },
  {
   "property": "C53",
   "status": "proved",
   "theorems": [
    "GoTable.C53_stripped_not_wider",
    "GoTable.C53_stripped_same",
    "GoTable.C53_stripped_narrower"
   ],
   "note": ""
  },
  {
   "property": "C54",
   "status": "proved",
   "theorems": [
    "GoTable.C54_stringWidth_across",
    "GoTable.C54_visualWidth_across",
    "GoTable.C54_lines",
    "GoTable.C54_not_across_esc"
   ],
   "note": ""
  },
  {
   "property": "C55",
   "status": "proved",
   "theorems": [
    "GoTable.C55_append_not_narrower",
    "GoTable.C55_append_zero_width",
    "GoTable.C55_visualWidth_shrinks",
    "GoTable.C55_cut_inside_character"
   ],
   "note": ""
  },
  {
   "property": "C56",
   "status": "proved",
   "theorems": [
    "GoTable.C56_formatted_rows",
    "GoTable.C56_format_then_merge"
   ],
   "note": ""
  },
  {
   "property": "C57",
   "status": "proved",
   "theorems": [
    "GoTable.C57_aligned_before_merge",
    "GoTable.C57_not_with_compaction"
   ],
   "note": ""
  },
  {
   "property": "C58",
   "status": "proved",
   "theorems": [
    "GoTable.C58_nil_alignment",
    "GoTable.C58_not_when_aligning"
   ],
   "note": ""
  },
  {
   "property": "C59",
   "status": "proved",
   "theorems": [
    "GoTable.C59_header_lines_up",
    "GoTable.C59_not_without_width"
   ],
   "note": ""
  },
  {
   "property": "C60",
   "status": "proved",
   "theorems": [
    "GoTable.C60_same_shape"
   ],
   "note": ""
  },
  {
   "property": "C61",
   "status": "proved",
   "theorems": [
    "GoTable.C61_addColumn",
    "GoTable.C61_zero_spec"
   ],
   "note": ""
  },
  {
   "property": "C62",
   "status": "proved",
   "theorems": [
    "GoTable.C62_updateWidth",
    "GoTable.C62_formatItem_agrees",
    "GoTable.C62_formatItem_without_map",
    "GoTable.C62_nil_column",
    "GoTable.C62_tableWidth"
   ],
   "note": ""
  },
  {
   "property": "C63",
   "status": "proved",
   "theorems": [
    "GoTable.C63_parse_line"
   ],
   "note": ""
  },
  {
   "property": "C64",
   "status": "proved",
   "theorems": [
    "GoTable.C64_trim",
    "GoTable.C64_parse",
    "GoTable.C64_table",
    "GoTable.C64_compiles",
    "GoTable.C64_constants",
    "GoTable.C64_not_if_listed_twice"
   ],
   "note": ""
  },
  {
   "property": "C65",
   "status": "proved",
   "theorems": [
    "GoTable.C65_width_line",
    "GoTable.C65_skipped",
    "GoTable.C65_emoji_line",
    "GoTable.C65_width_exact",
    "GoTable.C65_emoji_exact"
   ],
   "note": ""
  },
  {
   "property": "C66",
   "status": "proved",
   "theorems": [
    "GoTable.C66_width_tables"
   ],
   "note": ""
  },
  {
   "property": "C67",
   "status": "proved",
   "theorems": [
    "GoTable.C67_emoji_table",
    "GoTable.C67_no_marker"
   ],
   "note": ""
  },
  {
   "property": "C68",
   "status": "proved",
   "theorems": [
    "GoTable.C68_number",
    "GoTable.C68_source",
    "GoTable.C68_unique"
   ],
   "note": ""
  },
  {
   "property": "C69",
   "status": "proved",
   "theorems": [
    "GoTable.C69_programs",
    "GoTable.C69_alignments",
    "GoTable.C69_format_item",
    "GoTable.C69_format_item_basic",
    "GoTable.C69_align_item",
    "GoTable.C69_header",
    "GoTable.C69_horizontal",
    "GoTable.C69_vertical",
    "GoTable.C69_not_if_unsound"
   ],
   "note": ""
  },
  {
   "property": "C70",
   "status": "proved",
   "theorems": [
    "GoTable.C70_goroutines"
   ],
   "note": "Assumes that each Get and Set of the cache is atomic; the cache package (ilius/go-lru) is not in the repository."
  },
  {
   "property": "C71",
   "status": "proved",
   "theorems": [
    "GoTable.C71_settings_of_a_call",
    "GoTable.C71_never_stale",
    "GoTable.C71_kept"
   ],
   "note": ""
  },
  {
   "property": "C72",
   "status": "proved",
   "theorems": [
    "GoTable.C72_unique",
    "GoTable.C72_horizontal",
    "GoTable.C72_vertical"
   ],
   "note": ""
  },
  {
   "property": "C73",
   "status": "proved",
   "theorems": [
    "GoTable.C73_pieces",
    "GoTable.C73_stringWidth"
   ],
   "note": ""
  },
  {
   "property": "C74",
   "status": "proved",
   "theorems": [
    "GoTable.C74_source",
    "GoTable.C74_name_on_two_lines",
    "GoTable.C74_header_names_unused_file"
   ],
   "note": ""
  },
  {
   "property": "C75",
   "status": "proved",
   "theorems": [
    "GoTable.C75_flags",
    "GoTable.C75_sources",
    "GoTable.C75_outcomes"
   ],
   "note": ""
  },
  {
   "property": "C76",
   "status": "proved",
   "theorems": [
    "GoTable.C76_horizontal",
    "GoTable.C76_vertical"
   ],
   "note": ""
  },
  {
   "property": "C77",
   "status": "proved",
   "theorems": [
    "GoTable.C77_horizontal",
    "GoTable.C77_vertical"
   ],
   "note": ""
  },
  {
   "property": "C78",
   "status": "proved",
   "theorems": [
    "GoTable.C78_in_range",
    "GoTable.C78_zero"
   ],
   "note": ""
  },
  {
   "property": "C79",
   "status": "proved",
   "theorems": [
    "GoTable.C79_horizontal",
    "GoTable.C79_vertical",
    "GoTable.C79_exists"
   ],
   "note": ""
  },
  {
   "property": "C80",
   "status": "proved",
   "theorems": [
    "GoTable.C80_calls",
    "GoTable.C80_row",
    "GoTable.C80_ends"
   ],
   "note": ""
  },
  {
   "property": "C81",
   "status": "proved",
   "theorems": [
    "GoTable.C81_grown",
    "GoTable.C81_covered"
   ],
   "note": ""
  },
  {
   "property": "C82",
   "status": "proved",
   "theorems": [
    "GoTable.C82_quiet",
    "GoTable.C82_quiet_exists"
   ],
   "note": ""
  },
  {
   "property": "C83",
   "status": "proved",
   "theorems": [
    "GoTable.C83_basic"
   ],
   "note": ""
  },
  {
   "property": "C84",
   "status": "proved",
   "theorems": [
    "GoTable.C84_align"
   ],
   "note": ""
  },
  {
   "property": "C85",
   "status": "proved",
   "theorems": [
    "GoTable.C85_horizontal",
    "GoTable.C85_vertical",
    "GoTable.C85_ends"
   ],
   "note": ""
  },
  {
   "property": "C86",
   "status": "proved",
   "theorems": [
    "GoTable.C86_chained"
   ],
   "note": ""
  },
  {
   "property": "C87",
   "status": "proved",
   "theorems": [
    "GoTable.C87_horizontal",
    "GoTable.C87_vertical",
    "GoTable.C87_fixed_horizontal",
    "GoTable.C87_fixed_vertical"
   ],
   "note": ""
  },
  {
   "property": "C88",
   "status": "proved",
   "theorems": [
    "GoTable.C88_stops"
   ],
   "note": ""
  },
  {
   "property": "C89",
   "status": "proved",
   "theorems": [
    "GoTable.C89_steady",
    "GoTable.C89_range"
   ],
   "note": ""
  },
  {
   "property": "C90",
   "status": "proved",
   "theorems": [
    "GoTable.C90_horizontal",
    "GoTable.C90_vertical"
   ],
   "note": ""
  },
  {
   "property": "C91",
   "status": "proved",
   "theorems": [
    "GoTable.C91_rounds",
    "GoTable.C91_plain",
    "GoTable.C91_vertical"
   ],
   "note": ""
  },
  {
   "property": "C92",
   "status": "proved",
   "theorems": [
    "GoTable.C92_horizontal",
    "GoTable.C92_vertical",
    "GoTable.C92_fixed_horizontal",
    "GoTable.C92_fixed_vertical",
    "GoTable.C92_smallest_length"
   ],
   "note": ""
  },
  {
   "property": "C93",
   "status": "proved",
   "theorems": [
    "GoTable.C93_source",
    "GoTable.C93_unique"
   ],
   "note": ""
  },
  {
   "property": "C94",
   "status": "proved",
   "theorems": [
    "GoTable.C94_lines",
    "GoTable.C94_not_fetched",
    "GoTable.C94_widths_cut",
    "GoTable.C94_emoji_cut",
    "GoTable.C94_emoji_missing",
    "GoTable.C94_always_tables"
   ],
   "note": ""
  },
  {
   "property": "C95",
   "status": "proved",
   "theorems": [
    "GoTable.C95_intact",
    "GoTable.C95_trouble"
   ],
   "note": ""
  },
  {
   "property": "C96",
   "status": "proved",
   "theorems": [
    "GoTable.C96_copy_covers",
    "GoTable.C96_other_maps",
    "GoTable.C96_overwritten"
   ],
   "note": ""
  },
  {
   "property": "C97",
   "status": "proved",
   "theorems": [
    "GoTable.C97_answers",
    "GoTable.C97_ascii",
    "GoTable.C97_characters",
    "GoTable.C97_horizontal",
    "GoTable.C97_vertical",
    "GoTable.C97_format",
    "GoTable.C97_covered",
    "GoTable.C97_uncovered"
   ],
   "note": ""
  },
  {
   "property": "C98",
   "status": "proved",
   "theorems": [
    "GoTable.C98_horizontal",
    "GoTable.C98_vertical",
    "GoTable.C98_bound"
   ],
   "note": ""
  },
  {
   "property": "C99",
   "status": "proved",
   "theorems": [
    "GoTable.C99_not_go",
    "GoTable.C99_width_refused",
    "GoTable.C99_emoji_refused",
    "GoTable.C99_accepted",
    "GoTable.C99_hidden"
   ],
   "note": ""
  },
  {
   "property": "C100",
   "status": "proved",
   "theorems": [
    "GoTable.C100_sum",
    "GoTable.C100_cells",
    "GoTable.C100_no_cell",
    "GoTable.C100_aligned"
   ],
   "note": ""
  },
  {
   "property": "C101",
   "status": "proved",
   "theorems": [
    "GoTable.C101_units",
    "GoTable.C101_first",
    "GoTable.C101_emoji",
    "GoTable.C101_flags",
    "GoTable.C101_narrower_than_cluster"
   ],
   "note": ""
  },
  {
   "property": "C102",
   "status": "proved",
   "theorems": [
    "GoTable.C102_in_force",
    "GoTable.C102_package_never_refreshes",
    "GoTable.C102_refresh",
    "GoTable.C102_variables"
   ],
   "note": ""
  },
  {
   "property": "C103",
   "status": "proved",
   "theorems": [
    "GoTable.C103_without_flag",
    "GoTable.C103_with_flag",
    "GoTable.C103_zero",
    "GoTable.C103_new",
    "GoTable.C103_census"
   ],
   "note": ""
  },
  {
   "property": "C104",
   "status": "proved",
   "theorems": [
    "GoTable.C104_one_character",
    "GoTable.C104_marks"
   ],
   "note": ""
  },
  {
   "property": "C105",
   "status": "proved",
   "theorems": [
    "GoTable.C105_walk",
    "GoTable.C105_units",
    "GoTable.C105_accents",
    "GoTable.C105_plain",
    "GoTable.C105_flags",
    "GoTable.C105_emoji"
   ],
   "note": ""
  },
  {
   "property": "C106",
   "status": "proved",
   "theorems": [
    "GoTable.C106_clusters",
    "GoTable.C106_width",
    "GoTable.C106_no_joiner",
    "GoTable.C106_same",
    "GoTable.C106_flag_text",
    "GoTable.C106_flag",
    "GoTable.C106_number",
    "GoTable.C106_contextual",
    "GoTable.C106_visual"
   ],
   "note": ""
  },
  {
   "property": "C107",
   "status": "proved",
   "theorems": [
    "GoTable.C107_clusters",
    "GoTable.C107_width",
    "GoTable.C107_on_letters",
    "GoTable.C107_wide",
    "GoTable.C107_equivalent"
   ],
   "note": ""
  },
  {
   "property": "C108",
   "status": "proved",
   "theorems": [
    "GoTable.C108_horizontal",
    "GoTable.C108_vertical",
    "GoTable.C108_built_in",
    "GoTable.C108_equivalent",
    "GoTable.C108_recoloured"
   ],
   "note": ""
  },
  {
   "property": "C109",
   "status": "proved",
   "theorems": [
    "GoTable.C109_alone",
    "GoTable.C109_readers",
    "GoTable.C109_format_item",
    "GoTable.C109_update_width",
    "GoTable.C109_sequence",
    "GoTable.C109_goroutines",
    "GoTable.C109_race_iff",
    "GoTable.C109_lost_update",
    "GoTable.C109_lost_row"
   ],
   "note": ""
  },
  {
   "property": "C110",
   "status": "proved",
   "theorems": [
    "GoTable.C110_same_table",
    "GoTable.C110_session"
   ],
   "note": ""
  }
 ]
}