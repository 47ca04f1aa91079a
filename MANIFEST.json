{
 "claims": [
  {
   "property": "C01",
   "status": "proved",
   "theorems": [
    "Phone.C01_new_accessors",
    "Phone.C01_new_injective"
   ],
   "note": "all u64 x u8"
  },
  {
   "property": "C02",
   "status": "proved",
   "theorems": [
    "Phone.C02_fromStr_display"
   ],
   "note": "digit strings written as k zeros followed by a digit string not starting with 0"
  },
  {
   "property": "C03",
   "status": "proved",
   "theorems": [
    "Phone.C03_display_fromStr",
    "Phone.C03_display_injective",
    "Phone.C03_zero_rejected"
   ],
   "note": ""
  },
  {
   "property": "C04",
   "status": "proved",
   "theorems": [
    "Phone.C04_parse_no_panic"
   ],
   "note": "any regex compiler, any territory list, any Unicode tables"
  },
  {
   "property": "C05",
   "status": "proved",
   "theorems": [
    "Phone.Builtin.C05_parse_builtin"
   ],
   "note": "database built from the shipped table, for any Unicode tables"
  },
  {
   "property": "C06",
   "status": "proved",
   "theorems": [
    "Phone.C06_national_digits",
    "Phone.Builtin.C06_builtin"
   ],
   "note": ""
  },
  {
   "property": "C07",
   "status": "proved",
   "theorems": [
    "Phone.C07_code_known"
   ],
   "note": ""
  },
  {
   "property": "C08",
   "status": "proved",
   "theorems": [
    "Phone.C08_digits"
   ],
   "note": ""
  },
  {
   "property": "C09",
   "status": "proved",
   "theorems": [
    "Phone.C09_source",
    "Phone.C09_plus_cause",
    "Phone.C18_extension_and_code"
   ],
   "note": "C18_extension_and_code covers the RFC 3966 clause"
  },
  {
   "property": "C10",
   "status": "proved",
   "theorems": [
    "Phone.C10_no_guess"
   ],
   "note": "exact error given"
  },
  {
   "property": "C11",
   "status": "proved",
   "theorems": [
    "Phone.C11_reference_irrelevant"
   ],
   "note": "counterexample without the side condition beside the theorem"
  },
  {
   "property": "C12",
   "status": "proved",
   "theorems": [
    "Phone.C12_reference_code"
   ],
   "note": ""
  },
  {
   "property": "C13",
   "status": "proved",
   "theorems": [
    "Phone.C13_formatting_ignored"
   ],
   "note": "counterexample without a space beside the theorem"
  },
  {
   "property": "C14",
   "status": "proved",
   "theorems": [
    "Phone.C14_isViable_iff"
   ],
   "note": "for every string"
  },
  {
   "property": "C15",
   "status": "proved",
   "theorems": [
    "Phone.C15_keypad"
   ],
   "note": "for the national part and the extension, as computed by international_prefix"
  },
  {
   "property": "C16",
   "status": "proved",
   "theorems": [
    "Phone.C16_digit_value",
    "Phone.C16_normalize"
   ],
   "note": ""
  },
  {
   "property": "C17",
   "status": "proved",
   "theorems": [
    "Phone.C17_leading_text_ignored"
   ],
   "note": ""
  },
  {
   "property": "C18",
   "status": "proved",
   "theorems": [
    "Phone.C18_parameters_irrelevant",
    "Phone.C18_extension_and_code"
   ],
   "note": ""
  },
  {
   "property": "C19",
   "status": "proved",
   "theorems": [
    "Phone.C19_scheme_optional"
   ],
   "note": "for every text that does not itself start with tel:"
  },
  {
   "property": "C20",
   "status": "proved",
   "theorems": [
    "Phone.C20_two_digits",
    "Phone.C20_rejected"
   ],
   "note": ""
  },
  {
   "property": "C21",
   "status": "proved",
   "theorems": [
    "Phone.C21_valid"
   ],
   "note": ""
  },
  {
   "property": "C22",
   "status": "proved",
   "theorems": [
    "Phone.C22_valid_iff_typed"
   ],
   "note": "disagreement with leading zeros shown beside the theorem"
  },
  {
   "property": "C23",
   "status": "proved",
   "theorems": [
    "Phone.C23_first_category",
    "Phone.C23_never",
    "Phone.C23_known_iff"
   ],
   "note": ""
  },
  {
   "property": "C24",
   "status": "proved",
   "theorems": [
    "Phone.C24_partition"
   ],
   "note": ""
  },
  {
   "property": "C25",
   "status": "proved",
   "theorems": [
    "Phone.C25_metadata_code",
    "Phone.Builtin.C25_builtin"
   ],
   "note": ""
  },
  {
   "property": "C26",
   "status": "proved",
   "theorems": [
    "Phone.C26_isMatch_iff"
   ],
   "note": ""
  },
  {
   "property": "C27",
   "status": "proved",
   "theorems": [
    "Phone.C27_indexes",
    "Phone.C27_iter"
   ],
   "note": "for every regex compiler"
  },
  {
   "property": "C28",
   "status": "proved",
   "theorems": [
    "Phone.C28_from_total",
    "Phone.C28_missing_pattern_panics"
   ],
   "note": "the panic on a missing pattern is proved as a finding"
  },
  {
   "property": "C29",
   "status": "proved",
   "theorems": [
    "Phone.C29_same_results",
    "Phone.C29_layout_irrelevant"
   ],
   "note": ""
  },
  {
   "property": "C30",
   "status": "proved",
   "theorems": [
    "Phone.Xml.C30_load",
    "Phone.Xml.C30_any_stream"
   ],
   "note": "Documents are trees; the loader's result is characterised exactly (if and only if). C30_any_stream covers arbitrary event streams: no fuel exhaustion, panics only because of a possibleLengths attribute. Depth of the native stack in ignore is not modelled."
  },
  {
   "property": "C31",
   "status": "proved",
   "theorems": [
    "Phone.Xml.C31_lengths",
    "Phone.Xml.C31_empty_item",
    "Phone.Xml.C31_range_overflow"
   ],
   "note": "Items may have white space around them; an upper end of 65535 and an empty item panic."
  },
  {
   "property": "C32",
   "status": "proved",
   "theorems": [
    "Phone.Xml.C32_inherit",
    "Phone.Xml.C32_no_intl",
    "Phone.Xml.C32_intl",
    "Phone.Xml.C30_load"
   ],
   "note": "The last of the format and intlFormat elements decides the international format."
  },
  {
   "property": "C33",
   "status": "proved",
   "theorems": [
    "Phone.Xml.C33_unknown"
   ],
   "note": "Unknown attributes and elements in territory, descriptor, availableFormats, numberFormat and possibleLengths."
  },
  {
   "property": "C34",
   "status": "proved",
   "theorems": [
    "Phone.C34_e164",
    "Phone.C34_injective",
    "Phone.Builtin.C34_builtin"
   ],
   "note": ""
  },
  {
   "property": "C35",
   "status": "proved",
   "theorems": [
    "Phone.C35_error_iff",
    "Phone.C35_panic_iff",
    "Phone.C35_no_panic",
    "Phone.Builtin.C35_builtin"
   ],
   "note": ""
  },
  {
   "property": "C36",
   "status": "proved",
   "theorems": [
    "Phone.C36_eq_iff",
    "Phone.C36_equivalence",
    "Phone.C36_hash",
    "Phone.C36_indistinguishable"
   ],
   "note": ""
  },
  {
   "property": "C37",
   "status": "proved",
   "theorems": [
    "Phone.C37_rfc3966",
    "Phone.C37_hyphenate"
   ],
   "note": ""
  },
  {
   "property": "C38",
   "status": "proved",
   "theorems": [
    "Phone.C38_digits_kept",
    "Phone.Builtin.C38_builtin"
   ],
   "note": ""
  },
  {
   "property": "C39",
   "status": "proved",
   "theorems": [
    "Phone.C39_carrier"
   ],
   "note": ""
  },
  {
   "property": "C40",
   "status": "proved",
   "theorems": [
    "Phone.C40_extension"
   ],
   "note": ""
  },
  {
   "property": "C41",
   "status": "proved",
   "theorems": [
    "Phone.C41_e164_roundtrip",
    "Phone.Builtin.C41_builtin",
    "Phone.Builtin.C41_parsed",
    "Phone.Builtin.untouched_of_no_prefix"
   ],
   "note": "General databases with prefix-free codes and the shipped database; the failing Russian freephone number is shown beside the theorem."
  },
  {
   "property": "C42",
   "status": "proved",
   "theorems": [
    "Phone.C42_rfc3966_roundtrip",
    "Phone.Builtin.C42_builtin",
    "Phone.Builtin.C41_parsed"
   ],
   "note": "With every reference country. Needs at least three national digits: tel:+7-12 is rejected (example)."
  },
  {
   "property": "C43",
   "status": "proved",
   "theorems": [
    "Phone.C43_id_roundtrip",
    "Phone.C43_names"
   ],
   "note": ""
  },
  {
   "property": "C44",
   "status": "proved",
   "theorems": [
    "Phone.Builtin.C44_calls",
    "Phone.Builtin.C44_parse",
    "Phone.Lazy.C44_results",
    "Phone.Lazy.C44_once",
    "Phone.Lazy.C44_progress",
    "Phone.Lazy.C44_terminates",
    "Phone.Lazy.C44_completes",
    "Phone.Lazy.C44_acyclic",
    "Phone.Lazy.C44_sequential_unique",
    "Phone.Lazy.C44_sequential_exists"
   ],
   "note": "Transition system over any number of threads and all 27 lazily initialised statics with their dependencies; poisoning included. The synchronisation inside once_cell (atomicity of each step) and the internal cache pools of the regex crate are assumed."
  },
  {
   "property": "C45",
   "status": "proved",
   "theorems": [
    "Phone.C45_removed_twice",
    "Phone.C45_twice",
    "Phone.C45_international",
    "Phone.Builtin.C45_builtin"
   ],
   "note": "For every region with a national prefix and no parsing pattern: what is removed is determined exactly (twice at most, and twice does happen), so 'at most once' is false for every such region."
  },
  {
   "property": "C46",
   "status": "proved",
   "theorems": [
    "Phone.C46_national_bare",
    "Phone.Builtin.C46_builtin"
   ],
   "note": "For regions without parsing pattern."
  },
  {
   "property": "C47",
   "status": "proved",
   "theorems": [
    "Phone.C47_suffix",
    "Phone.Builtin.C47_national",
    "Phone.Builtin.C47_builtin"
   ],
   "note": ""
  },
  {
   "property": "C48",
   "status": "proved",
   "theorems": [
    "Phone.Builtin.C48_well_formed"
   ],
   "note": "from kernel-checked facts about all 254 territories"
  },
  {
   "property": "C49",
   "status": "proved",
   "theorems": [
    "Phone.C49_carrier_origin",
    "Phone.C49_prefix_as_carrier",
    "Phone.Builtin.C49_gb"
   ],
   "note": "Says where a reported carrier comes from; the intuitive reading is refuted for every group-less parsing pattern and for every British number."
  },
  {
   "property": "C50",
   "status": "proved",
   "theorems": [
    "Phone.C50_never_tooShortAfterIdd",
    "Phone.C50_tooLong",
    "Phone.C50_malformed",
    "Phone.Builtin.C50_tooLong_builtin",
    "Phone.Builtin.C50_malformed_builtin",
    "Phone.C50_invalidCountryCode",
    "Phone.C50_noNumber"
   ],
   "note": ""
  },
  {
   "property": "C51",
   "status": "proved",
   "theorems": [
    "Phone.C51_shortest_code"
   ],
   "note": ""
  },
  {
   "property": "C52",
   "status": "proved",
   "theorems": [
    "Phone.C52_length",
    "Phone.C52_kind",
    "Phone.C52_described",
    "Phone.C52_kind_ignored",
    "Phone.Builtin.C52_builtin"
   ],
   "note": ""
  },
  {
   "property": "C53",
   "status": "proved",
   "theorems": [
    "Phone.C53_unknown_code"
   ],
   "note": ""
  },
  {
   "property": "C54",
   "status": "proved",
   "theorems": [
    "Phone.C54_queries_no_panic",
    "Phone.Builtin.C54_builtin"
   ],
   "note": ""
  },
  {
   "property": "C55",
   "status": "proved",
   "theorems": [
    "Phone.C55_first_applicable",
    "Phone.C64_international",
    "Phone.C64_national"
   ],
   "note": "C55_first_applicable is about a list of formats; C64 says which list is consulted and what is written."
  },
  {
   "property": "C56",
   "status": "proved",
   "theorems": [
    "Phone.C56_rule"
   ],
   "note": ""
  },
  {
   "property": "C57",
   "status": "proved",
   "theorems": [
    "Phone.Builtin.C57_parsed_formats"
   ],
   "note": ""
  },
  {
   "property": "C58",
   "status": "proved",
   "theorems": [
    "Phone.C58_own_code",
    "Phone.Builtin.C58_builtin"
   ],
   "note": "All reference countries of the shipped database."
  },
  {
   "property": "C59",
   "status": "proved",
   "theorems": [
    "Phone.Xml.C59_declaration",
    "Phone.Xml.C59_misc"
   ],
   "note": ""
  },
  {
   "property": "C60",
   "status": "proved",
   "theorems": [
    "Phone.C60_entries",
    "Phone.C60_by_id"
   ],
   "note": "for every pattern compiler; the parsed regular expression is what the compiler returns for the text"
  },
  {
   "property": "C61",
   "status": "proved",
   "theorems": [
    "Phone.C61_dialled",
    "Phone.C61_plus_dialled",
    "Phone.C61_too_short",
    "Phone.C61_zero_after"
   ],
   "note": "for plain ASCII digits; C13 reduces other spellings to them"
  },
  {
   "property": "C62",
   "status": "proved",
   "theorems": [
    "Phone.C62_national",
    "Phone.C62_national_total",
    "Phone.C62_international",
    "Phone.C62_own_code",
    "Phone.C62_international_total"
   ],
   "note": "for plain ASCII digits; C13 reduces other spellings to them, C61 dialling prefixes"
  },
  {
   "property": "C63",
   "status": "proved",
   "theorems": [
    "Phone.C63_metadata",
    "Phone.C63_valid",
    "Phone.C63_number_type"
   ],
   "note": ""
  },
  {
   "property": "C64",
   "status": "proved",
   "theorems": [
    "Phone.C64_international",
    "Phone.C64_national"
   ],
   "note": ""
  },
  {
   "property": "C65",
   "status": "proved",
   "theorems": [
    "Phone.C65_no_candidate",
    "Phone.C65_candidate",
    "Phone.C65_bad_extension",
    "Phone.C65_extension",
    "Phone.C65_written"
   ],
   "note": "Spec/Natural.lean defines the part taken for the number, the ways to write an extension and the first one a text ends in. C65_candidate and C65_extension compare with the parse of another text with a space, so that the RFC 3966 reader does not apply to it; C65_written compares with the plus and digits. The Unicode tables are a parameter: extension letters outside ASCII must not be classed as decimal digits (MarksNotDigits, true of Unicode and of every ASCII text)."
  },
  {
   "property": "C66",
   "status": "proved",
   "theorems": [
    "Phone.C66_sound",
    "Phone.C66_total",
    "Phone.C66_exact",
    "Phone.Builtin.C66_builtin"
   ],
   "note": "Spec.Parses is a declarative relation (Verif/Spec/Whole.lean); C66_exact: parseWith db country s = o iff Spec.Parses db country s o. Hypothesis MarksNotDigits on the text: characters that may introduce an extension are not classed as digits by the Unicode tables, which are a parameter of the model (true in Unicode; every ASCII text has it)."
  },
  {
   "property": "C67",
   "status": "proved",
   "theorems": [
    "Phone.Shipped.C67_read",
    "Phone.Shipped.C67_no_references",
    "Phone.Shipped.C67_load",
    "Phone.Shipped.C67_builtin"
   ],
   "note": "the text is in Verif/Data/S*.lean (tools/gen_xml.py check compares it with the asset character by character); the XML reader is a model of quick_xml"
  },
  {
   "property": "C68",
   "status": "proved",
   "theorems": [
    "Phone.C68_default",
    "Phone.Shipped.C68_builtin"
   ],
   "note": "postcard is modelled with its varints, UTF-8 strings and option tags; bytes are naturals below 256"
  },
  {
   "property": "C69",
   "status": "proved",
   "theorems": [
    "Phone.XmlReader.C69_read",
    "Phone.Xml.C69_load",
    "Phone.Xml.C69_parse",
    "Phone.Xml.C69_layout",
    "Phone.Xml.C69_declaration"
   ],
   "note": "Spec/Document.lean defines which texts write a tree; entities in values and namespaces are outside the grammar."
  },
  {
   "property": "C70",
   "status": "proved",
   "theorems": [
    "Phone.C70_international",
    "Phone.Builtin.C70_builtin",
    "Phone.Builtin.C70_parsed"
   ],
   "note": "The condition on national prefixes is the one of C41; RFC 3966 and E.164 output are C42 and C41."
  },
  {
   "property": "C71",
   "status": "proved",
   "theorems": [
    "Phone.C71_sole",
    "Phone.C71_sole_iff",
    "Phone.Builtin.C71_builtin",
    "Phone.Builtin.C71_belgian",
    "Phone.Builtin.C71_new_caledonia"
   ],
   "note": "Countries that share a calling code or have a parsing pattern are covered by C62 and C66."
  },
  {
   "property": "C72",
   "status": "proved",
   "theorems": [
    "Phone.C72_national",
    "Phone.Builtin.C72_builtin",
    "Phone.Builtin.C72_simple",
    "Phone.Builtin.C72_sole",
    "Phone.Builtin.C72_belgian"
   ],
   "note": "For every number, database, format and reference country: national output, whatever digits the national prefix rule puts in front, is read back as the number if national prefix handling of those digits gives the national number; extensions of one to seven digits survive. For the shipped metadata the conditions on formats and rules are checked entry by entry (Argentina, Belarus and Gabon excepted) and, for countries without a parsing pattern, reduced to conditions on the first digits."
  },
  {
   "property": "C73",
   "status": "proved",
   "theorems": [
    "Phone.C73_international",
    "Phone.C73_rfc3966",
    "Phone.Builtin.C73_builtin_international",
    "Phone.Builtin.C73_builtin_rfc3966",
    "Phone.Builtin.C73_parsed"
   ],
   "note": "For every database without calling codes that are prefixes of each other: parsing international or RFC 3966 output equals parsing E.164 output with the extension added, as an equation between outcomes, errors included. The conditions on formats and extension texts hold for every shipped territory."
  },
  {
   "property": "C74",
   "status": "proved",
   "theorems": [
    "Phone.C74_read_back",
    "Phone.C74_read_back_plain",
    "Phone.Builtin.C74_builtin",
    "Phone.Builtin.C74_russia",
    "Phone.Builtin.C74_russian_eights"
   ],
   "note": "The round trip of E.164 output as an equivalence, so both where it holds and where it fails; the failure for Russian numbers beginning with 8 is proved for all of them with the shipped metadata."
  },
  {
   "property": "C75",
   "status": "proved",
   "theorems": [
    "Phone.C75_format",
    "Phone.C75_format_with",
    "Phone.C75_order"
   ],
   "note": "For every list of calls. The lazily built default database is a parameter here; that it is the built-in one and is built once is C44 and C68."
  },
  {
   "property": "C76",
   "status": "proved",
   "theorems": [
    "Phone.C76_number",
    "Phone.C76_parse",
    "Phone.C76_order",
    "Phone.Builtin.C76_builtin",
    "Phone.Builtin.C76_builtin_number",
    "Phone.C76_some"
   ],
   "note": "Both databases must be made from territories with distinct ids (other than 001) and countries where a code is shared; for a rearrangement this follows from one of them."
  },
  {
   "property": "C77",
   "status": "proved",
   "theorems": [
    "Phone.C77_alike",
    "Phone.C77_first_group",
    "Phone.C77_short",
    "Phone.C77_written",
    "Phone.Builtin.C77_builtin",
    "Phone.Builtin.C77_us"
   ],
   "note": "Texts of a plus, digits and the separators - . ( ) that have a separator after at least one digit. C13 covers texts with a space; C77_written joins the two."
  },
  {
   "property": "C78",
   "status": "proved",
   "theorems": [
    "Phone.Serde.C78_read",
    "Phone.Serde.C78_round_trip",
    "Phone.Serde.C78_order",
    "Phone.Serde.C78_unknown_fields",
    "Phone.Serde.C78_types",
    "Phone.Serde.C78_countries",
    "Phone.Serde.C78_unchecked",
    "Phone.Postcard.C78_postcard",
    "Phone.Postcard.C78_parsed"
   ],
   "note": "The code derived by serde_derive is modelled after its documentation, for documents of self-describing formats and for postcard; the kinds of error are simplified. That a number survives needs a calling code of 16 bits, which is the type of the field."
  },
  {
   "property": "C79",
   "status": "proved",
   "theorems": [
    "Phone.C79_parser",
    "Phone.C79_formatter",
    "Phone.C79_compile"
   ],
   "note": "The pattern texts are in Model/ConstsText (compared with /repo/src/consts.rs by tools/check_consts.py). The reader Regex/Full models the syntax of the regex crate that occurs there; it is part of the trusted base. Case folding is known for the characters that occur."
  },
  {
   "property": "C80",
   "status": "proved",
   "theorems": [
    "Phone.Nom.C80_valid",
    "Phone.Nom.C80_rfc3966",
    "Phone.Nom.C80_ignore_plus",
    "Phone.Nom.C80_read"
   ],
   "note": "The combinators of nom 7 that occur are in Model/Nom; the errors they return are reduced to recoverable or not. tag_no_case lowers ASCII letters only."
  },
  {
   "property": "C81",
   "status": "proved",
   "theorems": [
    "Phone.Builtin.C81_length",
    "Phone.Builtin.C81_e164",
    "Phone.Builtin.C81_international",
    "Phone.Builtin.C81_rfc3966",
    "Phone.Builtin.C81_exceptions",
    "Phone.Builtin.C81_exact",
    "Phone.Builtin.C81_zeros"
   ],
   "note": "C81_e164, C81_international and C81_rfc3966 assert reading back for every valid number outside the exceptions; C81_exact says that the exceptions are exactly the twelve codes; C81_zeros is the number of zeros."
  },
  {
   "property": "C82",
   "status": "proved",
   "theorems": [
    "Phone.Builtin.C82_accepted",
    "Phone.Builtin.C82_valid",
    "Phone.Builtin.C82_own_country",
    "Phone.Builtin.C82_exceptions",
    "Phone.Builtin.C82_own_code"
   ],
   "note": "C82_accepted is about a country whose descriptions accept the number, C82_valid and C82_own_country about a valid number and its own country; C82_exceptions and C82_own_code give valid numbers that are read as others."
  },
  {
   "property": "C83",
   "status": "proved",
   "theorems": [
    "Phone.Builtin.C83_accepted",
    "Phone.Builtin.C83_valid",
    "Phone.Builtin.C83_e164",
    "Phone.Builtin.C83_zeros"
   ],
   "note": "The examples are checked by kernel evaluation with the territories of their calling code, over all territories and types of the shipped metadata; C76 carries the result over to the whole database."
  },
  {
   "property": "C84",
   "status": "proved",
   "theorems": [
    "Phone.Builtin.C84_accepted",
    "Phone.Builtin.C84_own_code",
    "Phone.Builtin.C84_valid",
    "Phone.Builtin.C84_exceptions",
    "Phone.Builtin.C84_own_country"
   ],
   "note": "C84_accepted and C84_own_code are about a country whose descriptions accept the number, C84_valid and C84_own_country are the equivalence for a valid number and its own country; C84_exceptions gives a valid number of each excepted code that is read as another one."
  },
  {
   "property": "C85",
   "status": "proved",
   "theorems": [
    "Phone.Builtin.C85_e164",
    "Phone.Builtin.C85_international",
    "Phone.Builtin.C85_exceptions",
    "Phone.Builtin.C85_chad"
   ],
   "note": "C85_e164 and C85_international assert reading back; C85_exceptions gives a misread valid number for each of the sixteen pairs, C85_chad the example of the statement."
  },
  {
   "property": "C86",
   "status": "proved",
   "theorems": [
    "Phone.Builtin.C86_dialled",
    "Phone.Builtin.C86_valid",
    "Phone.Builtin.C86_ambiguous",
    "Phone.Builtin.C86_misread"
   ],
   "note": "C86_dialled is the general equality, C86_valid its consequence for valid numbers, C86_ambiguous the three countries where one dialling prefix continues another, C86_misread the two misreadings of the statement."
  },
  {
   "property": "C87",
   "status": "proved",
   "theorems": [
    "Phone.Builtin.C87_full",
    "Phone.Builtin.C87_loose",
    "Phone.Builtin.C87_poland"
   ],
   "note": "C87_full is the equivalence outside the 87 listed calling codes, C87_loose the existence of a valid number that no type matches in full for each of them, C87_poland the example of the statement."
  },
  {
   "property": "C88",
   "status": "proved",
   "theorems": [
    "Phone.Builtin.C88_some",
    "Phone.Builtin.C88_none"
   ],
   "note": "C88_some gives a valid number of each of the other countries, C88_none says that EH and VA are the country of no number."
  },
  {
   "property": "C89",
   "status": "proved",
   "theorems": [
    "Phone.Builtin.C89_zeros",
    "Phone.Builtin.C89_unknown",
    "Phone.Builtin.C89_typed",
    "Phone.Builtin.C89_india"
   ],
   "note": "C89_zeros: no leading zeros outside the 31 calling codes; C89_unknown: a valid number with leading zeros and of unknown type for 30 of them; C89_typed: a type outside those 30; C89_india: the example of the statement."
  },
  {
   "property": "C90",
   "status": "proved",
   "theorems": [
    "Phone.Builtin.C90_national",
    "Phone.Builtin.C90_international",
    "Phone.Builtin.C90_plain",
    "Phone.Builtin.C90_plain_abroad"
   ],
   "note": "C90_national and C90_international give the format outside the listed codes; C90_plain and C90_plain_abroad give a valid number written as bare digits for each listed code. What is written with a format is C64, C37 and C56."
  },
  {
   "property": "C91",
   "status": "proved",
   "theorems": [
    "Phone.Builtin.C91_international",
    "Phone.Builtin.C91_rfc3966",
    "Phone.Builtin.C91_national",
    "Phone.Builtin.C91_gabon",
    "Phone.Builtin.C91_national_codes"
   ],
   "note": "C91_gabon and C91_national_codes are the pairs written alike. For E.164 see C34."
  },
  {
   "property": "C92",
   "status": "proved",
   "theorems": [
    "Phone.Builtin.C92_digits",
    "Phone.Builtin.C92_overlong",
    "Phone.Builtin.C92_reached"
   ],
   "note": "C92_overlong gives a valid number with more than 15 digits for each of the six calling codes."
  },
  {
   "property": "C93",
   "status": "proved",
   "theorems": [
    "Phone.Builtin.C93_builtin",
    "Phone.Builtin.C93_national",
    "Phone.Builtin.C93_codes",
    "Phone.Builtin.C93_trunk",
    "Phone.Builtin.C93_local"
   ],
   "note": "The lists are in Spec/Carrier and Spec/Area; C93_codes, C93_trunk and C93_local show that their entries occur. For any database see C49."
  },
  {
   "property": "C94",
   "status": "proved",
   "theorems": [
    "Phone.C94_distinct",
    "Phone.C94_texts",
    "Phone.Builtin.C94_builtin"
   ],
   "note": "An example shows that all six texts occur."
  },
  {
   "property": "C95",
   "status": "proved",
   "theorems": [
    "Phone.C95_exact",
    "Phone.C95_sound",
    "Phone.C95_total",
    "Phone.C95_display"
   ],
   "note": "The specification is Spec/FromStr."
  },
  {
   "property": "C96",
   "status": "proved",
   "theorems": [
    "Phone.C96_ok",
    "Phone.C96_fault",
    "Phone.C96_errors"
   ],
   "note": "The specification is Spec/Faults; the compiler of regular expressions is a parameter."
  },
  {
   "property": "C97",
   "status": "proved",
   "theorems": [
    "Phone.Xml.C97_ok",
    "Phone.Xml.C97_first",
    "Phone.Xml.C97_cut_off"
   ],
   "note": "The specification is Spec/Troubles. What is wrong with a possibleLengths text is taken from the model of lengths, which C98 describes for all texts."
  },
  {
   "property": "C98",
   "status": "proved",
   "theorems": [
    "Phone.Xml.C98_lengths",
    "Phone.Xml.C98_item"
   ],
   "note": "An equivalence: the relation of Spec/LengthText holds of a text and an outcome exactly if the loader comes to that outcome."
  },
  {
   "property": "C99",
   "status": "proved",
   "theorems": [
    "Phone.C99_quoted",
    "Phone.C99_told",
    "Phone.C99_line",
    "Phone.Loader.C99_load",
    "Phone.C99_from"
   ],
   "note": "Which characters outside ASCII are printable is a parameter whose only law is that control characters, line and paragraph separators are not. The debug rendering of an unhandled event is an arbitrary text."
  },
  {
   "property": "C100",
   "status": "proved",
   "theorems": [
    "Phone.Builtin.C100_apart",
    "Phone.Builtin.C100_type",
    "Phone.Builtin.C100_overlaps"
   ],
   "note": "About the metadata shipped in the repository."
  },
  {
   "property": "C101",
   "status": "proved",
   "theorems": [
    "Phone.Builtin.C101_apart",
    "Phone.Builtin.C101_region",
    "Phone.Builtin.C101_rivals"
   ],
   "note": "About the metadata shipped in the repository."
  },
  {
   "property": "C102",
   "status": "proved",
   "theorems": [
    "Phone.C102_number",
    "Phone.C102_elsewhere",
    "Phone.Builtin.C102_builtin"
   ],
   "note": "What is read as what is said by Spec.Reads, as in C66; it depends on the Unicode tables, which are parameters."
  },
  {
   "property": "C103",
   "status": "proved",
   "theorems": [
    "Phone.C103_unused",
    "Phone.C103_document",
    "Phone.C103_used",
    "Phone.Builtin.C103_builtin"
   ],
   "note": "Fields without which no database is built (C96) are not repeated in C103_used. The accessors of metadata are not results in this sense."
  },
  {
   "property": "C104",
   "status": "proved",
   "theorems": [
    "Phone.C104_parse",
    "Phone.C104_questions",
    "Phone.C104_format",
    "Phone.Builtin.C104_builtin"
   ],
   "note": "An example beside the theorem shows a text ending in \u00e9 for which the version does matter."
  },
  {
   "property": "C105",
   "status": "proved",
   "theorems": [
    "Phone.C105_whence",
    "Phone.C105_long",
    "Phone.C105_bare",
    "Phone.C105_hash",
    "Phone.C105_international",
    "Phone.Builtin.C105_builtin"
   ],
   "note": "Examples beside the theorems show an empty extension written and read, and # after a short and a long last group."
  },
  {
   "property": "C106",
   "status": "proved",
   "theorems": [
    "Phone.C106_case"
   ],
   "note": "Unicode tables are a parameter, with the hypothesis that the marks of extensions are not digits."
  },
  {
   "property": "C107",
   "status": "proved",
   "theorems": [
    "Phone.C107_punctuation"
   ],
   "note": "Texts without space and with an ASCII plus are read as tel: texts, which C66 covers."
  },
  {
   "property": "C108",
   "status": "proved",
   "theorems": [
    "Phone.C108_words",
    "Phone.C108_few",
    "Phone.C108_hex"
   ],
   "note": "Words that end in the announcement of an extension, such as fax or next, are covered by C105."
  },
  {
   "property": "C109",
   "status": "proved",
   "theorems": [
    "Phone.C109_second_plus"
   ],
   "note": "Hypotheses on the Unicode tables: the plus sign and the marks of extensions are not decimal digits. Examples beside the theorem show texts where a second plus sign is harmless."
  },
  {
   "property": "C110",
   "status": "proved",
   "theorems": [
    "Phone.C110_misplaced"
   ],
   "note": "Hypothesis on the Unicode tables: the marks of extensions are not decimal digits."
  },
  {
   "property": "C111",
   "status": "proved",
   "theorems": [
    "Phone.C111_rest",
    "Phone.C111_first"
   ],
   "note": "An example shows that a space before the slash hides an extension."
  }
 ]
}
