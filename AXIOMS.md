# Axioms of the claimed theorems

Generated by `tools/axioms.py`.

| theorem | axioms |
|---|---|
| `Phone.C01_new_accessors` | propext, Classical.choice, Quot.sound |
| `Phone.C01_new_injective` | propext, Classical.choice, Quot.sound |
| `Phone.C02_fromStr_display` | propext, Classical.choice, Quot.sound |
| `Phone.C03_display_fromStr` | propext, Classical.choice, Quot.sound |
| `Phone.C03_display_injective` | propext, Classical.choice, Quot.sound |
| `Phone.C03_zero_rejected` | propext, Classical.choice, Quot.sound |
| `Phone.C04_parse_no_panic` | propext, Classical.choice, Quot.sound |
| `Phone.Builtin.C05_parse_builtin` | propext, Classical.choice, Quot.sound |
| `Phone.C06_national_digits` | propext, Classical.choice, Quot.sound |
| `Phone.Builtin.C06_builtin` | propext, Classical.choice, Quot.sound |
| `Phone.C07_code_known` | propext, Classical.choice, Quot.sound |
| `Phone.C08_digits` | propext, Classical.choice, Quot.sound |
| `Phone.C09_source` | propext, Classical.choice, Quot.sound |
| `Phone.C09_plus_cause` | propext, Classical.choice, Quot.sound |
| `Phone.C18_extension_and_code` | propext, Classical.choice, Quot.sound |
| `Phone.C10_no_guess` | propext, Classical.choice, Quot.sound |
| `Phone.C11_reference_irrelevant` | propext, Classical.choice, Quot.sound |
| `Phone.C12_reference_code` | propext, Classical.choice, Quot.sound |
| `Phone.C13_formatting_ignored` | propext, Classical.choice, Quot.sound |
| `Phone.C14_isViable_iff` | propext, Classical.choice, Quot.sound |
| `Phone.C15_keypad` | propext, Classical.choice, Quot.sound |
| `Phone.C16_digit_value` | propext, Classical.choice, Quot.sound |
| `Phone.C16_normalize` | propext, Classical.choice, Quot.sound |
| `Phone.C17_leading_text_ignored` | propext, Classical.choice, Quot.sound |
| `Phone.C18_parameters_irrelevant` | propext, Classical.choice, Quot.sound |
| `Phone.C19_scheme_optional` | propext, Classical.choice, Quot.sound |
| `Phone.C20_two_digits` | propext, Classical.choice, Quot.sound |
| `Phone.C20_rejected` | propext, Classical.choice, Quot.sound |
| `Phone.C21_valid` | propext, Classical.choice, Quot.sound |
| `Phone.C22_valid_iff_typed` | propext, Quot.sound |
| `Phone.C23_first_category` | propext, Quot.sound |
| `Phone.C23_never` | propext, Quot.sound |
| `Phone.C23_known_iff` | propext, Quot.sound |
| `Phone.C24_partition` | propext |
| `Phone.C25_metadata_code` | propext, Classical.choice, Quot.sound |
| `Phone.Builtin.C25_builtin` | propext, Classical.choice, Quot.sound |
| `Phone.C26_isMatch_iff` | propext, Quot.sound |
| `Phone.C27_indexes` | propext, Classical.choice, Quot.sound |
| `Phone.C27_iter` | propext, Quot.sound |
| `Phone.C28_from_total` | propext, Classical.choice, Quot.sound |
| `Phone.C28_missing_pattern_panics` | propext, Quot.sound |
| `Phone.C29_same_results` | propext, Quot.sound |
| `Phone.C29_layout_irrelevant` | propext, Quot.sound |
| `Phone.Xml.C30_load` | propext, Classical.choice, Quot.sound |
| `Phone.Xml.C30_any_stream` | propext, Classical.choice, Quot.sound |
| `Phone.Xml.C31_lengths` | propext, Classical.choice, Quot.sound |
| `Phone.Xml.C31_empty_item` | propext, Classical.choice, Quot.sound |
| `Phone.Xml.C31_range_overflow` | propext, Classical.choice, Quot.sound |
| `Phone.Xml.C32_inherit` | propext, Classical.choice, Quot.sound |
| `Phone.Xml.C32_no_intl` | propext, Quot.sound |
| `Phone.Xml.C32_intl` | propext, Quot.sound |
| `Phone.Xml.C33_unknown` | propext, Classical.choice, Quot.sound |
| `Phone.C34_e164` | propext, Classical.choice, Quot.sound |
| `Phone.C34_injective` | propext, Classical.choice, Quot.sound |
| `Phone.Builtin.C34_builtin` | propext, Classical.choice, Quot.sound |
| `Phone.C35_error_iff` | propext, Classical.choice, Quot.sound |
| `Phone.C35_panic_iff` | propext, Classical.choice, Quot.sound |
| `Phone.C35_no_panic` | propext, Classical.choice, Quot.sound |
| `Phone.Builtin.C35_builtin` | propext, Classical.choice, Quot.sound |
| `Phone.C36_eq_iff` | propext, Classical.choice, Quot.sound |
| `Phone.C36_equivalence` | propext, Classical.choice, Quot.sound |
| `Phone.C36_hash` | propext, Classical.choice, Quot.sound |
| `Phone.C36_indistinguishable` | propext, Quot.sound |
| `Phone.C37_rfc3966` | propext, Classical.choice, Quot.sound |
| `Phone.C37_hyphenate` | propext, Quot.sound |
| `Phone.C38_digits_kept` | propext, Classical.choice, Quot.sound |
| `Phone.Builtin.C38_builtin` | propext, Classical.choice, Quot.sound |
| `Phone.C39_carrier` | propext, Classical.choice, Quot.sound |
| `Phone.C40_extension` | propext, Quot.sound |
| `Phone.C41_e164_roundtrip` | propext, Classical.choice, Quot.sound |
| `Phone.Builtin.C41_builtin` | propext, Classical.choice, Quot.sound |
| `Phone.Builtin.C41_parsed` | propext, Classical.choice, Quot.sound |
| `Phone.Builtin.untouched_of_no_prefix` | propext, Classical.choice, Quot.sound |
| `Phone.C42_rfc3966_roundtrip` | propext, Classical.choice, Quot.sound |
| `Phone.Builtin.C42_builtin` | propext, Classical.choice, Quot.sound |
| `Phone.C43_id_roundtrip` | propext |
| `Phone.C43_names` | propext |
| `Phone.Builtin.C44_calls` | propext, Classical.choice, Quot.sound |
| `Phone.Builtin.C44_parse` | propext, Classical.choice, Quot.sound |
| `Phone.Lazy.C44_results` | propext, Quot.sound |
| `Phone.Lazy.C44_once` | propext, Classical.choice, Quot.sound |
| `Phone.Lazy.C44_progress` | propext, Classical.choice, Quot.sound |
| `Phone.Lazy.C44_terminates` | propext, Classical.choice, Quot.sound |
| `Phone.Lazy.C44_completes` | propext, Classical.choice, Quot.sound |
| `Phone.Lazy.C44_acyclic` | propext |
| `Phone.Lazy.C44_sequential_unique` | propext |
| `Phone.Lazy.C44_sequential_exists` | propext, Classical.choice, Quot.sound |
| `Phone.C45_removed_twice` | propext, Classical.choice, Quot.sound |
| `Phone.C45_twice` | propext, Classical.choice, Quot.sound |
| `Phone.C45_international` | propext, Classical.choice, Quot.sound |
| `Phone.Builtin.C45_builtin` | propext, Classical.choice, Quot.sound |
| `Phone.C46_national_bare` | propext, Classical.choice, Quot.sound |
| `Phone.Builtin.C46_builtin` | propext, Classical.choice, Quot.sound |
| `Phone.C47_suffix` | propext, Classical.choice, Quot.sound |
| `Phone.Builtin.C47_national` | propext, Classical.choice, Quot.sound |
| `Phone.Builtin.C47_builtin` | propext, Classical.choice, Quot.sound |
| `Phone.Builtin.C48_well_formed` | propext, Classical.choice, Quot.sound |
| `Phone.C49_carrier_origin` | propext, Classical.choice, Quot.sound |
| `Phone.C49_prefix_as_carrier` | propext, Classical.choice, Quot.sound |
| `Phone.Builtin.C49_gb` | propext, Classical.choice, Quot.sound |
| `Phone.C50_never_tooShortAfterIdd` | propext, Classical.choice, Quot.sound |
| `Phone.C50_tooLong` | propext, Classical.choice, Quot.sound |
| `Phone.C50_malformed` | propext, Classical.choice, Quot.sound |
| `Phone.Builtin.C50_tooLong_builtin` | propext, Classical.choice, Quot.sound |
| `Phone.Builtin.C50_malformed_builtin` | propext, Classical.choice, Quot.sound |
| `Phone.C50_invalidCountryCode` | propext, Classical.choice, Quot.sound |
| `Phone.C50_noNumber` | propext, Classical.choice, Quot.sound |
| `Phone.C51_shortest_code` | propext, Classical.choice, Quot.sound |
| `Phone.C52_length` | propext, Quot.sound |
| `Phone.C52_kind` | propext, Quot.sound |
| `Phone.C52_described` | none |
| `Phone.C52_kind_ignored` | propext, Quot.sound |
| `Phone.Builtin.C52_builtin` | propext, Classical.choice, Quot.sound |
| `Phone.C53_unknown_code` | propext, Classical.choice, Quot.sound |
| `Phone.C54_queries_no_panic` | propext, Classical.choice, Quot.sound |
| `Phone.Builtin.C54_builtin` | propext, Classical.choice, Quot.sound |
| `Phone.C55_first_applicable` | propext, Classical.choice, Quot.sound |
| `Phone.C64_international` | propext, Classical.choice, Quot.sound |
| `Phone.C64_national` | propext, Classical.choice, Quot.sound |
| `Phone.C56_rule` | propext, Classical.choice, Quot.sound |
| `Phone.Builtin.C57_parsed_formats` | propext, Classical.choice, Quot.sound |
| `Phone.C58_own_code` | propext, Classical.choice, Quot.sound |
| `Phone.Builtin.C58_builtin` | propext, Classical.choice, Quot.sound |
| `Phone.Xml.C59_declaration` | propext, Quot.sound |
| `Phone.Xml.C59_misc` | propext, Classical.choice, Quot.sound |
| `Phone.C60_entries` | propext, Classical.choice, Quot.sound |
| `Phone.C60_by_id` | propext, Classical.choice, Quot.sound |
| `Phone.C61_dialled` | propext, Classical.choice, Quot.sound |
| `Phone.C61_plus_dialled` | propext, Classical.choice, Quot.sound |
| `Phone.C61_too_short` | propext, Classical.choice, Quot.sound |
| `Phone.C61_zero_after` | propext, Classical.choice, Quot.sound |
| `Phone.C62_national` | propext, Classical.choice, Quot.sound |
| `Phone.C62_national_total` | propext, Classical.choice, Quot.sound |
| `Phone.C62_international` | propext, Classical.choice, Quot.sound |
| `Phone.C62_own_code` | propext, Classical.choice, Quot.sound |
| `Phone.C62_international_total` | propext, Classical.choice, Quot.sound |
| `Phone.C63_metadata` | propext, Classical.choice, Quot.sound |
| `Phone.C63_valid` | propext, Classical.choice, Quot.sound |
| `Phone.C63_number_type` | propext, Classical.choice, Quot.sound |
| `Phone.C65_no_candidate` | propext, Classical.choice, Quot.sound |
| `Phone.C65_candidate` | propext, Classical.choice, Quot.sound |
| `Phone.C65_bad_extension` | propext, Classical.choice, Quot.sound |
| `Phone.C65_extension` | propext, Classical.choice, Quot.sound |
| `Phone.C65_written` | propext, Classical.choice, Quot.sound |
| `Phone.C66_sound` | propext, Classical.choice, Quot.sound |
| `Phone.C66_total` | propext, Classical.choice, Quot.sound |
| `Phone.C66_exact` | propext, Classical.choice, Quot.sound |
| `Phone.Builtin.C66_builtin` | propext, Classical.choice, Quot.sound |
| `Phone.Shipped.C67_read` | propext, Quot.sound |
| `Phone.Shipped.C67_no_references` | propext, Quot.sound |
| `Phone.Shipped.C67_load` | propext, Classical.choice, Quot.sound |
| `Phone.Shipped.C67_builtin` | propext, Classical.choice, Quot.sound |
| `Phone.C68_default` | propext, Classical.choice, Quot.sound |
| `Phone.Shipped.C68_builtin` | propext, Classical.choice, Quot.sound |
| `Phone.XmlReader.C69_read` | propext, Classical.choice, Quot.sound |
| `Phone.Xml.C69_load` | propext, Classical.choice, Quot.sound |
| `Phone.Xml.C69_parse` | propext, Classical.choice, Quot.sound |
| `Phone.Xml.C69_layout` | propext, Classical.choice, Quot.sound |
| `Phone.Xml.C69_declaration` | propext, Classical.choice, Quot.sound |
| `Phone.C70_international` | propext, Classical.choice, Quot.sound |
| `Phone.Builtin.C70_builtin` | propext, Classical.choice, Quot.sound |
| `Phone.Builtin.C70_parsed` | propext, Classical.choice, Quot.sound |
| `Phone.C71_sole` | propext, Classical.choice, Quot.sound |
| `Phone.C71_sole_iff` | propext, Classical.choice, Quot.sound |
| `Phone.Builtin.C71_builtin` | propext, Classical.choice, Quot.sound |
| `Phone.Builtin.C71_belgian` | propext, Classical.choice, Quot.sound |
| `Phone.Builtin.C71_new_caledonia` | propext, Classical.choice, Quot.sound |
| `Phone.C72_national` | propext, Classical.choice, Quot.sound |
| `Phone.Builtin.C72_builtin` | propext, Classical.choice, Quot.sound |
| `Phone.Builtin.C72_simple` | propext, Classical.choice, Quot.sound |
| `Phone.Builtin.C72_sole` | propext, Classical.choice, Quot.sound |
| `Phone.Builtin.C72_belgian` | propext, Classical.choice, Quot.sound |
| `Phone.C73_international` | propext, Classical.choice, Quot.sound |
| `Phone.C73_rfc3966` | propext, Classical.choice, Quot.sound |
| `Phone.Builtin.C73_builtin_international` | propext, Classical.choice, Quot.sound |
| `Phone.Builtin.C73_builtin_rfc3966` | propext, Classical.choice, Quot.sound |
| `Phone.Builtin.C73_parsed` | propext, Classical.choice, Quot.sound |
| `Phone.C74_read_back` | propext, Classical.choice, Quot.sound |
| `Phone.C74_read_back_plain` | propext, Classical.choice, Quot.sound |
| `Phone.Builtin.C74_builtin` | propext, Classical.choice, Quot.sound |
| `Phone.Builtin.C74_russia` | propext, Classical.choice, Quot.sound |
| `Phone.Builtin.C74_russian_eights` | propext, Classical.choice, Quot.sound |
| `Phone.C75_format` | propext, Quot.sound |
| `Phone.C75_format_with` | propext, Quot.sound |
| `Phone.C75_order` | propext, Quot.sound |
| `Phone.C76_number` | propext, Classical.choice, Quot.sound |
| `Phone.C76_parse` | propext, Classical.choice, Quot.sound |
| `Phone.C76_order` | propext, Classical.choice, Quot.sound |
| `Phone.Builtin.C76_builtin` | propext, Classical.choice, Quot.sound |
| `Phone.Builtin.C76_builtin_number` | propext, Classical.choice, Quot.sound |
| `Phone.C76_some` | propext, Classical.choice, Quot.sound |
| `Phone.C77_alike` | propext, Classical.choice, Quot.sound |
| `Phone.C77_first_group` | propext, Classical.choice, Quot.sound |
| `Phone.C77_short` | propext, Classical.choice, Quot.sound |
| `Phone.C77_written` | propext, Classical.choice, Quot.sound |
| `Phone.Builtin.C77_builtin` | propext, Classical.choice, Quot.sound |
| `Phone.Builtin.C77_us` | propext, Classical.choice, Quot.sound |
| `Phone.Serde.C78_read` | propext, Classical.choice, Quot.sound |
| `Phone.Serde.C78_round_trip` | propext, Classical.choice, Quot.sound |
| `Phone.Serde.C78_order` | propext, Classical.choice, Quot.sound |
| `Phone.Serde.C78_unknown_fields` | propext, Quot.sound |
| `Phone.Serde.C78_types` | propext, Quot.sound |
| `Phone.Serde.C78_countries` | propext, Quot.sound |
| `Phone.Serde.C78_unchecked` | propext, Classical.choice, Quot.sound |
| `Phone.Postcard.C78_postcard` | propext, Classical.choice, Quot.sound |
| `Phone.Postcard.C78_parsed` | propext, Classical.choice, Quot.sound |
| `Phone.C79_parser` | propext, Quot.sound |
| `Phone.C79_formatter` | propext, Quot.sound |
| `Phone.C79_compile` | propext, Quot.sound |
| `Phone.Nom.C80_valid` | propext, Classical.choice, Quot.sound |
| `Phone.Nom.C80_rfc3966` | propext, Classical.choice, Quot.sound |
| `Phone.Nom.C80_ignore_plus` | propext, Classical.choice, Quot.sound |
| `Phone.Nom.C80_read` | propext, Classical.choice, Quot.sound |
| `Phone.Builtin.C81_length` | propext, Classical.choice, Quot.sound |
| `Phone.Builtin.C81_e164` | propext, Classical.choice, Quot.sound |
| `Phone.Builtin.C81_international` | propext, Classical.choice, Quot.sound |
| `Phone.Builtin.C81_rfc3966` | propext, Classical.choice, Quot.sound |
| `Phone.Builtin.C81_exceptions` | propext, Classical.choice, Quot.sound |
| `Phone.Builtin.C81_exact` | propext, Classical.choice, Quot.sound |
| `Phone.Builtin.C81_zeros` | propext, Classical.choice, Quot.sound |
| `Phone.Builtin.C82_accepted` | propext, Classical.choice, Quot.sound |
| `Phone.Builtin.C82_valid` | propext, Classical.choice, Quot.sound |
| `Phone.Builtin.C82_own_country` | propext, Classical.choice, Quot.sound |
| `Phone.Builtin.C82_exceptions` | propext, Classical.choice, Quot.sound |
| `Phone.Builtin.C82_own_code` | propext, Classical.choice, Quot.sound |
| `Phone.Builtin.C83_accepted` | propext, Classical.choice, Quot.sound |
| `Phone.Builtin.C83_valid` | propext, Classical.choice, Quot.sound |
| `Phone.Builtin.C83_e164` | propext, Classical.choice, Quot.sound |
| `Phone.Builtin.C83_zeros` | propext, Classical.choice, Quot.sound |
| `Phone.Builtin.C84_accepted` | propext, Classical.choice, Quot.sound |
| `Phone.Builtin.C84_own_code` | propext, Classical.choice, Quot.sound |
| `Phone.Builtin.C84_valid` | propext, Classical.choice, Quot.sound |
| `Phone.Builtin.C84_exceptions` | propext, Classical.choice, Quot.sound |
| `Phone.Builtin.C84_own_country` | propext, Classical.choice, Quot.sound |
| `Phone.Builtin.C85_e164` | propext, Classical.choice, Quot.sound |
| `Phone.Builtin.C85_international` | propext, Classical.choice, Quot.sound |
| `Phone.Builtin.C85_exceptions` | propext, Classical.choice, Quot.sound |
| `Phone.Builtin.C85_chad` | propext, Classical.choice, Quot.sound |
| `Phone.Builtin.C86_dialled` | propext, Classical.choice, Quot.sound |
| `Phone.Builtin.C86_valid` | propext, Classical.choice, Quot.sound |
| `Phone.Builtin.C86_ambiguous` | propext, Classical.choice, Quot.sound |
| `Phone.Builtin.C86_misread` | propext, Classical.choice, Quot.sound |
| `Phone.Builtin.C87_full` | propext, Classical.choice, Quot.sound |
| `Phone.Builtin.C87_loose` | propext, Classical.choice, Quot.sound |
| `Phone.Builtin.C87_poland` | propext, Classical.choice, Quot.sound |
| `Phone.Builtin.C88_some` | propext, Classical.choice, Quot.sound |
| `Phone.Builtin.C88_none` | propext, Classical.choice, Quot.sound |
| `Phone.Builtin.C89_zeros` | propext, Classical.choice, Quot.sound |
| `Phone.Builtin.C89_unknown` | propext, Classical.choice, Quot.sound |
| `Phone.Builtin.C89_typed` | propext, Classical.choice, Quot.sound |
| `Phone.Builtin.C89_india` | propext, Classical.choice, Quot.sound |
| `Phone.Builtin.C90_national` | propext, Classical.choice, Quot.sound |
| `Phone.Builtin.C90_international` | propext, Classical.choice, Quot.sound |
| `Phone.Builtin.C90_plain` | propext, Classical.choice, Quot.sound |
| `Phone.Builtin.C90_plain_abroad` | propext, Classical.choice, Quot.sound |
| `Phone.Builtin.C91_international` | propext, Classical.choice, Quot.sound |
| `Phone.Builtin.C91_rfc3966` | propext, Classical.choice, Quot.sound |
| `Phone.Builtin.C91_national` | propext, Classical.choice, Quot.sound |
| `Phone.Builtin.C91_gabon` | propext, Classical.choice, Quot.sound |
| `Phone.Builtin.C91_national_codes` | propext, Classical.choice, Quot.sound |
| `Phone.Builtin.C92_digits` | propext, Classical.choice, Quot.sound |
| `Phone.Builtin.C92_overlong` | propext, Classical.choice, Quot.sound |
| `Phone.Builtin.C92_reached` | propext, Classical.choice, Quot.sound |
| `Phone.Builtin.C93_builtin` | propext, Classical.choice, Quot.sound |
| `Phone.Builtin.C93_national` | propext, Classical.choice, Quot.sound |
| `Phone.Builtin.C93_codes` | propext, Classical.choice, Quot.sound |
| `Phone.Builtin.C93_trunk` | propext, Classical.choice, Quot.sound |
| `Phone.Builtin.C93_local` | propext, Classical.choice, Quot.sound |
| `Phone.C94_distinct` | none |
| `Phone.C94_texts` | propext, Classical.choice, Quot.sound |
| `Phone.Builtin.C94_builtin` | propext, Classical.choice, Quot.sound |
| `Phone.C95_exact` | propext, Classical.choice, Quot.sound |
| `Phone.C95_sound` | propext, Classical.choice, Quot.sound |
| `Phone.C95_total` | propext, Classical.choice, Quot.sound |
| `Phone.C95_display` | propext, Classical.choice, Quot.sound |
| `Phone.C96_ok` | propext |
| `Phone.C96_fault` | propext |
| `Phone.C96_errors` | propext, Quot.sound |
| `Phone.Xml.C97_ok` | propext, Quot.sound |
| `Phone.Xml.C97_first` | propext, Quot.sound |
| `Phone.Xml.C97_cut_off` | propext, Classical.choice, Quot.sound |
| `Phone.Xml.C98_lengths` | propext, Classical.choice, Quot.sound |
| `Phone.Xml.C98_item` | propext, Quot.sound |
| `Phone.C99_quoted` | propext, Classical.choice, Quot.sound |
| `Phone.C99_told` | propext, Classical.choice, Quot.sound |
| `Phone.C99_line` | propext, Classical.choice, Quot.sound |
| `Phone.Loader.C99_load` | propext |
| `Phone.C99_from` | propext, Quot.sound |
| `Phone.Builtin.C100_apart` | propext, Classical.choice, Quot.sound |
| `Phone.Builtin.C100_type` | propext, Classical.choice, Quot.sound |
| `Phone.Builtin.C100_overlaps` | propext, Classical.choice, Quot.sound |
| `Phone.Builtin.C101_apart` | propext, Classical.choice, Quot.sound |
| `Phone.Builtin.C101_region` | propext, Classical.choice, Quot.sound |
| `Phone.Builtin.C101_rivals` | propext, Classical.choice, Quot.sound |
| `Phone.C102_number` | propext, Classical.choice, Quot.sound |
| `Phone.C102_elsewhere` | propext, Classical.choice, Quot.sound |
| `Phone.Builtin.C102_builtin` | propext, Classical.choice, Quot.sound |
| `Phone.C103_unused` | propext, Quot.sound |
| `Phone.C103_document` | propext, Quot.sound |
| `Phone.C103_used` | propext, Quot.sound |
| `Phone.Builtin.C103_builtin` | propext, Quot.sound |
| `Phone.C104_parse` | propext, Classical.choice, Quot.sound |
| `Phone.C104_questions` | propext, Classical.choice, Quot.sound |
| `Phone.C104_format` | propext, Classical.choice, Quot.sound |
| `Phone.Builtin.C104_builtin` | propext, Classical.choice, Quot.sound |
| `Phone.C105_whence` | propext, Classical.choice, Quot.sound |
| `Phone.C105_long` | propext, Classical.choice, Quot.sound |
| `Phone.C105_bare` | propext, Classical.choice, Quot.sound |
| `Phone.C105_hash` | propext, Classical.choice, Quot.sound |
| `Phone.C105_international` | propext, Classical.choice, Quot.sound |
| `Phone.Builtin.C105_builtin` | propext, Classical.choice, Quot.sound |
| `Phone.C106_case` | propext, Classical.choice, Quot.sound |
| `Phone.C107_punctuation` | propext, Classical.choice, Quot.sound |
| `Phone.C108_words` | propext, Classical.choice, Quot.sound |
| `Phone.C108_few` | propext, Classical.choice, Quot.sound |
| `Phone.C108_hex` | propext, Classical.choice, Quot.sound |
| `Phone.C109_second_plus` | propext, Classical.choice, Quot.sound |
| `Phone.C110_misplaced` | propext, Classical.choice, Quot.sound |
| `Phone.C111_rest` | propext, Classical.choice, Quot.sound |
| `Phone.C111_first` | propext, Classical.choice, Quot.sound |
