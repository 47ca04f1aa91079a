#!/usr/bin/env python3
"""Writes /verif/properties.jsonl. One entry per property: (id, title, statement, quantifier, why_tests_cant, anchors)."""
import json, os
P = []
def p(id, title, statement, quantifier, why, *anchors):
    P.append(dict(id=id, title=title, statement=statement, quantifier=quantifier,
                  why_tests_cant=why, anchors=list(anchors)))

p("C01", "NationalNumber packs value and zero count without loss",
  "NationalNumber::new(v, z) succeeds exactly when v < 2^56, and then value() returns v and zeros() returns z; two successful results are equal (also as u64) only if both v and z are equal. It fails with TooLong exactly when v >= 2^56.",
  "every u64 value v and every u8 zero count z",
  "2^64 * 2^8 inputs; an off-by-one in the shift or mask only shows at the edge of the 56-bit field",
  "src/national_number.rs: NationalNumber::new, value, zeros, From<NationalNumber> for u64")
p("C02", "A national digit string survives FromStr followed by Display",
  "For every string of ASCII digits with at least one non-zero digit, fewer than 256 leading zeros and a numeric value below 2^56, NationalNumber::from_str succeeds, zeros() is the number of leading zeros, value() is the decimal value, and Display prints the original string again.",
  "every such digit string, of any length",
  "infinitely many strings; leading-zero handling and the 56-bit edge interact",
  "src/national_number.rs: FromStr, Display")
p("C03", "Display followed by FromStr gives the same NationalNumber",
  "For every NationalNumber with a non-zero value, parsing its Display form gives the same number back, and two numbers with non-zero values and the same Display form are equal. For value 0 the Display form is always rejected by FromStr.",
  "every (value, zeros) pair",
  "2^64 numbers",
  "src/national_number.rs: FromStr, Display")
p("C04", "parse_with never panics on a well-formed database",
  "For every database produced by Database::from / Database::parse that satisfies an explicit well-formedness condition (regions sharing a calling code all have ids that are country ids; a transform rule's first capture group takes part whenever its last does) and every reference country that is absent or present in the database, parse_with returns Ok or Err and never panics, whatever the input string.",
  "every input string (any Unicode, any length), every such database, every optional reference country",
  "byte-index slicing, unwraps and u16 truncation over arbitrary Unicode input; two published advisories were panics that tests and proptest had missed",
  "src/parser/mod.rs: parse_with", "src/parser/helper.rs: country_code, international_prefix, national_number, trim, extract", "src/validator.rs: source_for", "tests/advisories.rs", "tests/prop.rs")
p("C05", "parse never panics with the built-in database",
  "For every input string and every Option<country::Id>, phonenumber::parse returns Ok or Err and never panics.",
  "every input string, every optional country id, the shipped metadata",
  "unbounded input space times 246 reference countries",
  "src/parser/mod.rs: parse", "src/metadata/database.rs: DEFAULT", "assets/PhoneNumberMetadata.xml")
p("C06", "A parsed number has a national number of 2 to 17 digits that is not all zeros",
  "If parse_with succeeds and the database's transform rules emit only digits and group references, the Display form of the national number has between 2 and 17 characters, all ASCII digits, its value() is between 1 and 2^56-1 and its zeros() is at most 16.",
  "every input string, every database, every optional reference country",
  "the bound must hold after every combination of prefix stripping, transformation and zero packing",
  "src/parser/mod.rs: parse_with", "src/consts.rs: MIN_LENGTH_FOR_NSN, MAX_LENGTH_FOR_NSN")
p("C07", "A parsed number's calling code is known to the database, so it can always be formatted",
  "If parse_with succeeds with a database made by Database::from, by_code of the resulting calling code is Some non-empty list in that database, and Display of format_with(that database) never returns fmt::Error in any mode.",
  "every input string, every database built by Database::from, every optional reference country, every formatting mode",
  "to_string panics when Display returns an error, so a single unsupported code accepted by the parser would crash the caller",
  "src/parser/helper.rs: country_code", "src/formatter.rs: fmt", "src/metadata/database.rs: from, by_code")
p("C08", "Parsed extension and carrier contain only ASCII digits",
  "If parse_with succeeds, extension() if present consists only of ASCII digits and so does carrier() if present.",
  "every input string, every database, every optional reference country",
  "extensions may be written with any Unicode digits or RFC 3966 parameter characters",
  "src/parser/helper.rs: normalize, national_number", "src/parser/natural.rs", "src/parser/rfc3966.rs")
p("C09", "Country source reports where the calling code came from",
  "After a successful parse_with: without a reference country the source is Plus or Idd; Default and Number occur only when a reference country was supplied; a text starting with + and an RFC 3966 number with a prefix or phone-context have source Plus; source Plus occurs only if the text contains a plus sign or a semicolon.",
  "every input string, every database, every optional reference country",
  "depends on the combination of plus signs, IDD matches and RFC 3966 parameters",
  "src/parser/helper.rs: international_prefix, country_code", "src/country.rs: Source")
p("C10", "Without a reference country the calling code is never guessed",
  "parse_with(db, None, s) fails with InvalidCountryCode or another error for every s consisting only of ASCII digits that does not start with 00.",
  "every digit string not starting with 00, every database",
  "infinitely many strings",
  "src/parser/helper.rs: country_code, international_prefix", "src/consts.rs: DEFAULT_IDD")
p("C11", "An international number parses the same whatever the reference country",
  "For a string that is a plus sign followed by ASCII digits, parse_with gives the same result (including errors) for any two reference countries (or none) whose international dialling prefix does not match at the start of the digits after the plus. Without that side condition it is false: with reference country FI, +994... loses its country code.",
  "every digit string after the plus, every database, every pair of reference countries",
  "quadratically many country pairs times unbounded strings",
  "src/parser/mod.rs: parse_with", "src/parser/helper.rs: international_prefix", "src/parser/mod.rs: test issue_30")
p("C12", "A nationally written number gets the reference country's calling code",
  "If parse_with succeeds with reference country c and source Default or Number, the resulting calling code equals the calling code of c's metadata.",
  "every input string, every database, every reference country",
  "unbounded input space",
  "src/parser/helper.rs: country_code")
p("C13", "Formatting characters do not change the parse result",
  "For strings made of an optional plus, at least three ASCII digits and formatting characters (space, hyphen, dot, parentheses, slash) that, if there is a plus, contain a space, the parse result depends only on the presence of the plus and on the digit sequence. Without a space it is false: +1650-253-0000 is rejected although +1650 253 0000 parses.",
  "every pair of such strings with the same digits, every database, every reference country",
  "exponentially many placements of separators",
  "src/parser/mod.rs: parse_with", "src/parser/rfc3966.rs: phone_number, prefix", "src/parser/helper.rs: normalize", "tests/prop.rs: parse_mixed_spaces_and_dashes")
p("C14", "is_viable accepts exactly the documented shape",
  "is_viable(s) is true exactly when s is two ASCII digits, or s is some plus signs followed by at least three digits each optionally preceded by punctuation or stars, followed by any mix of punctuation, stars, digits and ASCII letters, and nothing else.",
  "every string",
  "a language equality over all strings",
  "src/validator.rs: is_viable", "src/parser/valid.rs: phone_number, short, long", "src/parser/helper.rs: punctuation, alpha, digit, plus, star")
p("C15", "Letters become keypad digits only in vanity numbers",
  "In the normalised national number every ASCII letter of the input is replaced by its keypad digit (ABC=2 ... WXYZ=9, case-insensitively) if the number part contains at least three ASCII letters, and dropped otherwise; every other non-digit is dropped and the order is kept.",
  "every viable number string",
  "all letter positions and counts",
  "src/parser/helper.rs: international_prefix, normalize", "src/consts.rs: VALID_ALPHA_PHONE, ALPHA_PHONE_MAPPINGS, ASCII_MAPPINGS")
p("C16", "Unicode decimal digits are converted to the ASCII digit of the same value",
  "For each of the 15 supported non-ASCII decimal digit blocks the i-th digit is converted to ASCII digit i; ASCII digits are kept; normalisation leaves all-digit strings unchanged and is idempotent and its result is always all ASCII digits.",
  "every character and every string",
  "Char has 1.1 million values; strings unbounded",
  "src/parser/helper.rs: AsCharExt::as_dec_digit, normalize")
p("C17", "Leading junk is ignored",
  "Prefixing a text that contains a space with text that contains no decimal digit and no plus sign does not change the parse result.",
  "every junk text, every input containing a space, every database and country",
  "unbounded junk text",
  "src/parser/helper.rs: extract", "src/consts.rs: VALID_START_CHAR")
p("C18", "RFC 3966 parameters are honoured",
  "Parsing digits;k1=v1;...;kn=vn takes the extension from the last ext parameter (its digits) and, when the number has no + prefix, the calling code from the last phone-context parameter (optional + stripped); other parameters have no effect; the order of ext and phone-context does not matter.",
  "every digit string, every parameter list",
  "unbounded parameter lists",
  "src/parser/rfc3966.rs: phone_number, parameters, parameter")
p("C19", "The tel: scheme is optional and case-insensitive",
  "For every s that does not itself start with tel: (in any letter case), parsing tel:s in any letter case gives the same result as parsing s.",
  "every such string, every case variant, every database and country",
  "unbounded strings",
  "src/parser/rfc3966.rs: phone_number")
p("C20", "Nothing without at least two ASCII digits is accepted",
  "If parse_with succeeds, the input contains at least two ASCII decimal digits. Any other text - the empty string, words, e-mail addresses - is rejected with NoNumber.",
  "every input string, every database, every optional reference country",
  "unbounded strings over all of Unicode",
  "src/validator.rs: is_viable", "src/parser/mod.rs: parse_with")
p("C21", "A valid number has a supported code and matches its region's general pattern",
  "If is_valid_with(db, n) holds then db.by_code(n.code) is Some, and there is a metadata entry of db whose general descriptor matches the national number (pattern at its start, length among the listed lengths if any are listed) and at least one typed descriptor also matches.",
  "every number, every database",
  "unbounded",
  "src/validator.rs: is_valid_with, number_type, source_for", "src/metadata/descriptor.rs: is_match")
p("C22", "is_valid agrees with number_type when there are no leading zeros",
  "For every number with zeros() = 0, is_valid_with(db, n) holds exactly when number_type_with(db) is not Unknown. With leading zeros the two can disagree, because number_type drops the zeros.",
  "every number, every database",
  "unbounded",
  "src/validator.rs: is_valid_with", "src/phone_number.rs: number_type_with, metadata")
p("C23", "The number type is the first matching category in a fixed order",
  "number_type returns Unknown if the general pattern does not match; otherwise the first of PremiumRate, TollFree, SharedCost, Voip, PersonalNumber, Pager, Uan, Voicemail whose descriptor matches; otherwise FixedLineOrMobile, FixedLine, Mobile or Unknown by the fixed line / mobile descriptors. It never returns Emergency, ShortCode, StandardRate, Carrier or NoInternational.",
  "every metadata and every string",
  "2^10 match combinations times unbounded strings",
  "src/validator.rs: number_type")
p("C24", "Validation outcomes partition into possible and invalid",
  "For every Validation value exactly one of is_possible and is_invalid holds and is_invalid_length implies is_invalid.",
  "every Validation value",
  "finite, but a new variant would silently break it",
  "src/validator.rs: Validation")
p("C25", "Metadata found for a number has the number's calling code",
  "For a database made by Database::from whose territories have distinct ids except for the non-geographic entries (id 001), if n.metadata(db) is Some(m) then m.country_code() equals n.code().value().",
  "every number, every such database",
  "unbounded",
  "src/phone_number.rs: metadata", "src/validator.rs: source_for", "src/metadata/database.rs: from")
p("C26", "A descriptor only matches strings of a listed length whose pattern matches at the start",
  "Descriptor::is_match(v) holds exactly when (no length is listed or the byte length of v modulo 65536 is listed) and the leftmost match of the pattern in v starts at 0. It does not require a match up to the end of v.",
  "every descriptor and every string",
  "unbounded strings; the length comparison truncates to u16",
  "src/metadata/descriptor.rs: is_match")
p("C27", "The database indexes are consistent with each other and with the territory list",
  "For every list of territories accepted by Database::from: by_code(c) is Some exactly if a territory has code c, lists exactly the territories with code c with the main country (the last one flagged) first and the unflagged ones in document order; region(c) lists their ids in the same order; by_id(i) is the last territory with id i; iter() yields exactly one entry per distinct id.",
  "every list of territories, every code and id",
  "unbounded lists",
  "src/metadata/database.rs: from, by_id, by_code, region, iter")
p("C28", "Database::from rejects incomplete territories with an error instead of crashing",
  "A territory without id, country code or general descriptor, a format without pattern or format, or a bad regular expression makes Database::from return Err. A descriptor without nationalNumberPattern should also give Err but panics.",
  "every list of loaded territories",
  "every field may be missing in any position",
  "src/metadata/database.rs: from")
p("C29", "Clone-equal and rebuilt databases answer identically",
  "All query functions depend only on the territory list from which the database was built: two databases built from the same list give the same answers to by_id, by_code, region, parse_with, is_valid_with, format_with.",
  "every territory list and query", "universally quantified determinism",
  "src/metadata/database.rs")
p("C30", "The metadata loader terminates and returns one entry per territory in document order",
  "For every XML event stream load returns Ok or Err (or the documented panic in possibleLengths) after consuming the stream at most once; for a well-formed stream of n territory elements it returns n entries in document order with their id and countryCode attributes.",
  "every finite event stream", "unbounded nesting and length",
  "src/metadata/loader.rs: load, metadata, territories, territory, ignore")
p("C31", "possibleLengths lists and ranges expand to exactly the listed lengths",
  "For every comma separated list of numbers a and ranges [a-b] with 0 <= a <= b < 65535, the loaded list is the concatenation, in order, of a resp. a, a+1, ..., b. An empty item panics.",
  "every such list", "unbounded lists and all u16 ranges",
  "src/metadata/loader.rs: descriptor::lengths")
p("C32", "Formats inherit territory defaults unless they override them",
  "A loaded numberFormat has its own nationalPrefixFormattingRule / carrierCodeFormattingRule / nationalPrefixOptionalWhenFormatting if it has the attribute, else the territory's; its international format is the national one, but with the text of the last intlFormat if that comes after every format element, and absent if that text is NA (the loader takes the last of the format and intlFormat elements in document order).",
  "every numberFormat element", "all attribute and child combinations",
  "src/metadata/loader.rs: format, formats, territory")
p("C33", "The loader rejects unknown attributes and elements",
  "Any attribute name outside the known set on territory, numberFormat or possibleLengths and any unexpected element inside territory, descriptor, availableFormats or numberFormat makes load fail with an error.",
  "every attribute and element name outside the fixed sets", "infinitely many names",
  "src/metadata/loader.rs")
p("C34", "E.164 output is plus, calling code, national digits and is injective",
  "Display in E164 mode is + followed by the decimal code and the national digits, so it matches \\+[0-9]+; for two numbers with non-zero values whose codes are both codes of a database in which no code is a prefix of another, equal E164 strings imply equal codes and equal national numbers. Extension and carrier do not appear.",
  "every pair of numbers", "2^160 pairs",
  "src/formatter.rs: fmt", "src/phone_number.rs: Display")
p("C35", "Formatting never panics with the built-in database and fails only for unknown codes",
  "fmt returns fmt::Error exactly if the code has no metadata; with the built-in database no mode panics for any number.",
  "every number (also deserialised ones), every mode", "unbounded",
  "src/formatter.rs: fmt, replace")
p("C36", "Equal numbers are indistinguishable",
  "PhoneNumber equality ignores only the country source; it is an equivalence; equal numbers hash equally, format equally in every mode, have equal validity, type, metadata and country id.",
  "every pair of numbers, database, mode", "unbounded",
  "src/country.rs: PartialEq for Code, Hash for Code", "src/phone_number.rs: PhoneNumber")
p("C37", "RFC 3966 output has the right shape",
  "Display in Rfc3966 mode starts with tel:+<code>-, contains the grouped national number in which every run of separator characters is a single hyphen, and ends with ;ext=<extension> exactly if the number has an extension.",
  "every number and database", "unbounded",
  "src/formatter.rs: fmt", "src/consts.rs: SEPARATOR_PATTERN")
p("C38", "Formatting keeps exactly the digits of the number",
  "If the chosen format's pattern is a sequence of capture groups covering it and its template mentions each group once in order with no other digits, the digits of the International output are the code followed by the national digits (followed by the extension's); the same holds when no format applies. Which formats of the built-in database satisfy the condition is decided for the whole table.",
  "every number, every such format", "unbounded",
  "src/formatter.rs: fmt, formatter, replace")
p("C39", "The carrier code only shows in national format when the format has a carrier rule",
  "Output in E164, International and Rfc3966 mode does not depend on the carrier; National output depends on it only if the selected format has a domestic carrier rule.",
  "every number, database, carrier", "unbounded",
  "src/formatter.rs: fmt")
p("C40", "The extension is appended with the region's preferred prefix",
  "International and National output of a number with extension e is the output without extension followed by the region's preferred extension prefix (default ' ext. ') and e; Rfc3966 appends ;ext=e; E164 ignores it.",
  "every number, database, mode, extension", "unbounded",
  "src/formatter.rs: fmt")
p("C41", "E.164 round trip",
  "For a number obtained from parse_with(db, _, _), with prefix-free codes in db and not starting with the default IDD, formatting as E164 and parsing again without reference country gives an equal number without extension and carrier, provided the region's metadata leaves the national number unchanged when stripping national prefixes. Without the proviso it is false (e.g. +7 800...).",
  "every such number and database", "unbounded",
  "src/formatter.rs", "src/parser/mod.rs", "src/phone_number.rs: test round_trip_parsing (ignored)")
p("C42", "RFC 3966 round trip",
  "For every number of three to seventeen national digits, not all zeros, whose format template only has group references and separators, parsing the RFC 3966 rendering with any reference country gives the same code, the same extension and, when national prefix handling leaves it unchanged, the same national number, with source Plus. With two national digits it is false (tel:+7-12 is rejected).",
  "every such number and database", "unbounded",
  "src/formatter.rs", "src/parser/rfc3966.rs")
p("C43", "Country ids round trip through strings",
  "Id::from_str(id.as_ref()) = Ok(id) for every id and from_str succeeds only on the listed two-letter names.",
  "every string and id", "from_str ranges over all strings",
  "src/country.rs: Id")
p("C44", "Shared built-in database gives schedule-independent results",
  "Under every interleaving of any number of threads using the lazily initialised database, every call returns what a sequential call returns and the initialiser runs once.",
  "every schedule", "schedules cannot be enumerated by tests",
  "src/metadata/database.rs: DEFAULT", "tests/concurrency.rs")
p("C45", "The national prefix is removed up to twice",
  "In a region with national prefix np, no parsing pattern and no general lengths, the national number of a nationally written digit string is the string without np at its start, without it a second time if it is still there, but never a third time; so np+np+r and r are the same number, and an international number code+np+r is the same number as code+r. The expected 'at most once' is false: 8 800 555 35 35 (RU) and even +7 800 555 35 35 lose a significant digit.",
  "every such region and digit string", "needs a universally quantified claim to see the corner",
  "src/parser/mod.rs: parse_with", "src/parser/helper.rs: national_number")
p("C46", "National and bare forms of a number parse to the same number",
  "For a region with national prefix np, no parsing regex and no general lengths (no shipped region has any), and a digit string n not starting with np such that neither n nor np+n starts with the calling code or the IDD, parsing np+n and parsing n with that reference country give the same result.",
  "every region and digit string", "unbounded",
  "src/parser/mod.rs: parse_with", "src/parser/helper.rs: national_number")
p("C47", "The parser never invents or reorders digits",
  "For databases without transform rules, if parse_with succeeds the national digits are a suffix of the digits obtained by normalising the number part of the input, so no digit is invented, reordered or taken from the middle. With the shipped database there are two exceptions: in 28 territories the area code, which is listed with them, is put before a local number of the listed number of digits; and in Argentina 15 after the area code of a mobile number is replaced by 9 before it. The territory has the calling code of the number and is the reference country if the text has no calling code.",
  "every input string, database without transform rules or the shipped one, reference country", "unbounded",
  "src/parser/helper.rs", "src/parser/mod.rs")
p("C48", "The built-in database is well formed",
  "Every country::Id has an entry; every calling code has 1 to 3 digits, does not start with 0 and is not a prefix of another; every region sharing a code is a country id; exactly the 001 entries are non-geographic; every format template references at least one group.",
  "every entry of the shipped metadata", "data-dependent, must hold for the whole table",
  "assets/PhoneNumberMetadata.xml", "src/country.rs: Id", "src/metadata/database.rs")
p("C49", "Where a reported carrier comes from",
  "carrier() is Some(x) only if the parsing pattern of a region fits at the start of the digits after the calling code, and x is then the text of its last group (of its first group when a transform rule applies). With a pattern without groups x is the national prefix itself: every nationally written British number with its leading 0 is reported to have carrier 0.",
  "every input and database; every British number", "needs the full quantifier",
  "src/parser/helper.rs: national_number")
p("C50", "Parse errors mean what they say",
  "TooLong is returned only if the number part of the text has more than 17 digits or 17 digits forming a number of at least 2^56; MalformedInteger only if the text has a plus or a parameter or the remaining national digits are all zero; a nationally written digit string with a reference country whose dialling prefix it does not begin with never gives InvalidCountryCode; a plainly written number with at least three digits never gives NoNumber; TooShortAfterIdd is never returned. (TooLong, MalformedInteger: databases without transform rules, and the shipped database.)",
  "every input string, database, country", "unbounded strings; error paths of several stages",
  "src/parser/mod.rs: parse_with", "src/parser/helper.rs: country_code", "src/error.rs")
p("C51", "The calling code of an international number is the shortest known code",
  "For a plus sign followed by digits that do not begin with the reference country's dialling prefix: NoNumber is returned exactly if there are fewer than three digits; InvalidCountryCode exactly if there are at least three and the first is 0 or none of the first one, two or three digits form a known calling code; if parsing succeeds the calling code is the shortest such prefix and the source is Plus.",
  "every digit string, database, optional reference country", "unbounded strings, arbitrary code tables",
  "src/parser/helper.rs: country_code", "src/parser/mod.rs: parse_with")
p("C52", "The length judgement compares the digit count with the region's general lengths",
  "For ascending lists, length(meta, number, Unknown) is IsPossible, IsPossibleLocalOnly, TooShort, TooLong or InvalidLength by comparing the digit count with the general descriptor's lengths. For any other kind the kind's own lengths are not used: a kind without a description or whose description lists no lengths gives InvalidLength, and for any other the digit count is compared with the general lengths and the kind's local lengths. Numbers that may be fixed lines or mobiles use the description of fixed lines.",
  "every metadata and digit string", "unbounded lists and strings; the defect is in the selection of the list",
  "src/validator.rs: length")
p("C53", "A number with an unknown calling code has no metadata, country or type and is not valid",
  "If no territory has the number's code then metadata is None, country().id() is None, number_type is Unknown and is_valid is false.",
  "every number, every database made by Database::from", "all numbers and databases",
  "src/validator.rs: source_for", "src/phone_number.rs")
p("C54", "Queries about a number never panic and agree on the country",
  "If all regions sharing a calling code are country ids, metadata, number_type, is_valid and country().id() never panic for any number, and country().id() is the id of the metadata found.",
  "every number, every such database", "all numbers and databases",
  "src/validator.rs: source_for", "src/phone_number.rs", "src/country.rs: Code")
p("C55", "The format used is the first one meant for the number",
  "Without a caller-supplied format, the formatter uses the first format in the consulted list (national formats in National mode or if there are no international ones, else the international ones) that has no leading digits or whose last leading digits pattern matches at the start and whose pattern matches the whole number; if there is none the digits are written plainly.",
  "every number, every list of formats", "all format lists; priority of alternatives",
  "src/formatter.rs: formatter")
p("C56", "National rules are put around the first group",
  "In National mode, a formatting rule made of text, $NP, $CC, $FG and $1 replaces the first group reference of the template, with $NP, $CC, $FG (or $1) standing for the national prefix, the carrier code and that group reference. The carrier rule is used exactly if the number has a carrier and the format has such a rule.",
  "every rule, template, number, national prefix and carrier", "three nested template languages, unbounded texts",
  "src/formatter.rs: replace")
p("C57", "Every parsed number can be formatted",
  "With the built-in database, a number returned by parse formats without error or panic in every mode, so to_string() on it does not panic.",
  "every text, every reference country, every mode", "unbounded texts; needs the agreement of parser, formatter and all 254 territories",
  "src/parser/mod.rs: parse; src/formatter.rs: fmt; src/phone_number.rs: Display")
p("C58", "Digits that begin with the reference country's calling code are read as an international number",
  "For every reference country of the shipped database and every digit string that begins with its calling code (three digits at least, not beginning with the dialling prefix), parsing gives the same result as with a plus in front, except that the source is Number. The check that the number is not already a valid national number has no effect, because the general description lists no lengths: 4941 5678 (Aurich, DE) becomes 41 5678.",
  "every country and digit string", "unbounded; the dead condition is invisible to tests with unambiguous numbers",
  "src/parser/helper.rs: country_code", "src/validator.rs: length")
p("C59", "An XML declaration, processing instruction, CDATA section or entity reference makes loading fail",
  "A document with an XML declaration or processing instruction before the root is refused with UnhandledEvent; a document with a processing instruction, CDATA section or entity reference anywhere inside the root is not loaded, even inside content that is otherwise skipped.",
  "every document", "unbounded documents and nesting depth; the shipped file has none of these, so no test meets them",
  "src/metadata/loader.rs: metadata, ignore, text")
p("C60", "The database keeps every field of every territory",
  "Whatever list of territories Database::from accepts, the entry found by id is the last territory with that id and the entries found by calling code are the territories with that code, main countries first; in each entry all texts, lengths, flags, descriptors and formats are those of the territory, each in its own field, and every pattern is the compiled form of its text.",
  "every pattern compiler, every list of territories", "over 30 fields per territory; a swapped or dropped field shows only for inputs that depend on it",
  "src/metadata/database.rs: From<Vec<loader::Metadata>>, by_id, by_code")
p("C61", "An international dialling prefix stands for a plus sign",
  "Digits that begin with the reference country's international dialling prefix (00 without a reference country) parse exactly like the remaining digits written after a plus sign, except that the code's source is Idd; after a plus sign the dialling prefix is skipped; fewer than three remaining digits give TooShortNsn; a 0 after the prefix means it is not taken for one.",
  "every database, reference country and digit string", "every region has its own prefix pattern; unbounded digit strings",
  "src/parser/helper.rs: international_prefix, country_code", "src/parser/mod.rs: parse_with")
p("C62", "What becomes of the digits after the calling code, for any region",
  "For a nationally written number with a reference country, and for an international number with the region chosen for it, the national digits are: the digits without what the region's parsing pattern matches at their start, or with the match replaced by the transform rule when the pattern's last group takes part (unless that turns digits the general description accepts into ones it does not); without a parsing pattern, without the national prefix; then once more without the national prefix; all this is undone when the result would be too short. The carrier is the first group when rewriting, otherwise the last group. The result is a number exactly when 2 to 17 digits remain that are not all zero and form a number below 2^56; otherwise the error is TooShortNsn, TooLong or MalformedInteger respectively. Digits that begin with the reference country's own calling code are read without it unless the general description accepts them at a possible length.",
  "every database, region and digit string", "national prefix rules differ between all regions and interact (pattern, rule, prefix, length check)",
  "src/parser/mod.rs: parse_with", "src/parser/helper.rs: national_number, country_code")
p("C63", "The region of a number is the only one of its calling code or the first that suits its digits",
  "The metadata, validity and type of a number are those of the region chosen for it: the only region of the calling code whatever the digits, otherwise the first listed region whose leading digits the number begins with or, for a region without leading digits, whose descriptors give the number a type; none if no region suits.",
  "every database built from territories with distinct ids whose shared calling codes belong to countries; every number", "shared calling codes have up to 25 regions; the order and both tests matter",
  "src/validator.rs: source_for, is_valid_with, number_type", "src/phone_number.rs: metadata, number_type_with")
p("C64", "International and national output are exactly plus, code and the number grouped by the chosen format",
  "International output is a plus sign, the calling code, a space, the national number with the pattern of the format used replaced by its template, and the extension text; national output is the grouped national number, with the rule of the format put around the first group of the template, and the extension text. The caller's format is used if there is one, otherwise the first applicable format of the region; without one the digits are written as they are.",
  "every database, number, optional caller format", "formats, rules, carriers and extensions combine freely",
  "src/formatter.rs: fmt, formatter, replace")
p("C65", "Which part of a text is the number and which is its extension",
  "In a text that contains a space, the number begins at the first decimal digit or plus sign and reaches to the last letter, number character or '#', but not past a slash or backslash that is followed by spaces and 'x'; without any such part the parse fails with NoNumber, and otherwise the text parses like that part. If the part ends in an extension (blanks or commas, one of the words ext, extn, extension, int, anexo, x, '#', ... in any letter case, an optional colon or stop, blanks, commas or hyphens, and up to seven digits with an optional '#'), it parses like the part before the first such ending, with the digits as its extension; if it ends in ';ext=123' or '- 123#' the parse fails with NoNumber. For plainly written numbers followed by an extension with at least one digit the result is that of the plus and digits alone, with the extension set.",
  "every database, reference country and text", "the reader combines four regular expressions with alternatives and case folding, on arbitrary Unicode text",
  "src/parser/natural.rs: phone_number", "src/parser/helper.rs: extract", "src/consts.rs: EXTN_PATTERN, SECOND_NUMBER_START, UNWANTED_END_CHARS")
p("C66", "Complete description of the parser",
  "For every text and reference country (or none), parse gives exactly what the text means. Reading: a text without spaces is an RFC 3966 number if, after 'tel:' in any case, it has hexadecimal digits and separators and then nothing or ';'; a plus sign introduces a calling code that reaches to the first separator, otherwise it is that of the last phone-context parameter; the extension is that of the last ext parameter. Any other text is read as in C65. What is not viable (C14) is NoNumber. Digits: letters count as keypad digits if the number has at least three. Calling code: with one written apart the number needs three digits (TooShortNsn), and the code needs digits below 65536 (MalformedInteger) and must be known (InvalidCountryCode). Otherwise a number with a plus, or with the dialling prefix of the reference country (00 without one) not followed by zero, is international: after that prefix it needs three digits (TooShortNsn) and must begin with a known calling code (InvalidCountryCode), the shortest of which is taken. Otherwise a reference country is needed (InvalidCountryCode), whose own calling code is removed unless its general description accepts the digits. The rest is treated as in C62 by the reference country's or the calling code's region and judged by length and size.",
  "every text, reference country and database that meets the conditions (the shipped one does)", "the description is exact: it determines number, error, source, extension and carrier for every text, including those no test contains",
  "src/parser/mod.rs: parse, parse_with", "src/parser/rfc3966.rs", "src/parser/natural.rs", "src/parser/helper.rs")
p("C67", "The shipped metadata file becomes the built-in table",
  "Reading the text of assets/PhoneNumberMetadata.xml (all 980956 characters) with the XML reader and the loader succeeds, and the territories are exactly those of the table all theorems about the built-in database speak of; no text of the file contains an '&', so entity references play no role. Database::parse of that text is the built-in database.",
  "the whole shipped file", "the suite looks at a handful of entries of the database; this connects every attribute and every pattern of every territory with the text of the file",
  "assets/PhoneNumberMetadata.xml", "src/metadata/loader.rs: load", "src/metadata/database.rs: Database::parse, Database::from")
p("C68", "The default database is the parsed asset",
  "For every metadata file: if build.rs can write database.bin (of fewer than 2^64 bytes), then the default database made from those bytes is exactly what Database::parse makes of the file itself: the same database, and a panic where Database::parse reports an error. Writing with postcard and reading back changes nothing, whatever strings and numbers the file contains. For the shipped file build.rs succeeds and the default database is the built-in one.",
  "every metadata file and every way of compiling patterns; the shipped file", "build-time and run-time halves are never compared by the suite, and only for one file",
  "build.rs: main", "src/metadata/database.rs: DEFAULT", "src/metadata/loader.rs: Metadata, Descriptor, Format, Defaults")
p("C69", "Loading does not depend on how the XML is laid out",
  "Reading a well-formed document (elements with any blanks between attributes, either kind of quotes, self-closing tags, comments, CDATA sections, processing instructions and a document type in any place) gives exactly the events of its tree, for every tree and every way of writing it. So two texts of the same tree load to the same database or the same error, and a document whose root holds only what the loader understands loads to the records of its territories. One thing before the root does matter: an XML declaration (or any processing instruction) there makes loading fail with an unhandled event, while comments and a document type are fine.",
  "every tree of elements and every text of it", "the suite reads one file laid out one way; there are unboundedly many layouts",
  "src/metadata/loader.rs: load", "src/metadata/loader.rs: attributes", "src/metadata/loader.rs: text", "src/metadata/loader.rs: ignore")
p("C70", "International output reads back as the same number",
  "For every number with a known calling code and a national number of two to seventeen digits, not all zero, whose national digits national prefix handling leaves alone: its international output parses back to the number itself (source Plus, carrier dropped), including an extension of one to seven digits, with no reference country or any whose dialling prefix the digits do not begin with. This needs the format used to only punctuate, and the text before the extension to be one the reader knows; both hold for every territory of the shipped metadata. So it holds for everything the parser returns under those conditions. With eight extension digits it is false.",
  "every database, number, caller's format and reference country; the shipped database without those conditions", "the suite formats a handful of numbers and never parses the output",
  "src/formatter.rs: Formatter::fmt", "src/parser/mod.rs: parse_with", "src/parser/natural.rs: phone_number", "assets/PhoneNumberMetadata.xml")
p("C71", "International numbers of a country that has its calling code alone",
  "If a calling code belongs to one country only, which has no parsing pattern and no general lengths (as in the shipped file), then any digits after a plus and that code parse to the digits without the national prefix (removed up to twice), judged only by length, value and not being all zero, and the number's country is that country. With national prefix 0 or none, four to sixteen digits parse exactly if they are not all zero. So the project's own property test parse_belgian_phonenumbers (+32 and eight or nine digits) is true exactly for digits that are not all zero - it fails for +3200000000 - and issue82 holds for all digits and all punctuation.",
  "every database, code with one country, digit string and reference country; Belgium and New Caledonia in the shipped database", "the property tests sample a few hundred strings and have missed the counterexample",
  "tests/prop.rs: parse_belgian_phonenumbers", "tests/prop.rs: issue82", "src/parser/mod.rs: parse_with", "src/parser/helper.rs: national_number", "src/phone_number.rs: Country::id")
p("C72", "What is written in national format is read back",
  "National output of a number, parsed with a reference country that has the number's calling code, gives the same code, national number and extension, if the format used only puts punctuation between the groups and national prefix handling turns the digits written (those the national prefix rule puts in front followed by the national number) into the national number, and those digits do not begin with the country's dialling prefix (or a zero follows it) or, unless its general description takes them for a national number, with its own calling code. Extensions of one to seven digits survive if the introducing text is one the reader knows, follows a digit, and there is a space somewhere (so not in Taiwan for ungrouped numbers). In the shipped database the formats of every country but Argentina, Belarus and Gabon are of this kind and put nothing but the national prefix in front; for a country without parsing pattern the remaining condition is that the number does not begin with the national prefix. For Belgium every number of three to seventeen digits that does not begin with 0 or 32 reads back.",
  "every database, number, format set by the caller or taken from the region, reference country and extension; every shipped country", "the tests format a handful of numbers and never parse the result",
  "src/formatter.rs: Display for Formatter", "src/formatter.rs: replace", "src/parser/mod.rs: parse_with", "src/parser/helper.rs: national_number", "src/parser/natural.rs: phone_number")
p("C73", "The international forms of a number are read alike",
  "For every number with a known calling code and a national number of two to seventeen digits, not all zero: parsing its international output, with or without a reference country whose dialling prefix the digits do not begin with, gives exactly the result of parsing its E.164 output - the same error or the same number - with the number's extension (one to seven digits) added; parsing its RFC 3966 output does so whatever the reference country, if there are three national digits or more. No condition on national prefixes: even where a number does not read back, all three forms are read as the same number. In the shipped database this holds for every such number, in particular for every number the parser returns.",
  "every database, number, caller's format, extension and reference country", "the suite never parses formatter output; where round trips fail nothing checks that they fail alike",
  "src/formatter.rs: Formatter::fmt", "src/parser/mod.rs: parse_with", "src/parser/natural.rs: phone_number", "src/parser/rfc3966.rs: phone_number", "src/parser/helper.rs: national_number")
p("C74", "Exactly when E.164 output is read back",
  "The E.164 output of a number (known calling code, two to seventeen national digits, not all zero) parses back to the number if and only if no region is chosen for its digits or the region chosen turns the digits into themselves without a carrier; for a region without parsing pattern: if and only if the digits do not begin with its national prefix or too few would remain without it. In the shipped metadata this fails for every number with calling code 7 whose national digits begin with 8, which includes all Russian toll-free numbers: one or two leading eights are lost, so +78005553535 is read as the national number 005553535.",
  "every database, number and reference country; all Russian numbers beginning with 8 in the shipped database", "an equivalence over all numbers and databases; the tests contain no such Russian number",
  "src/parser/mod.rs: parse_with", "src/parser/helper.rs: national_number", "src/formatter.rs: Formatter::fmt", "assets/PhoneNumberMetadata.xml: RU")
p("C75", "Settings of a formatter",
  "However database(), mode() and with() are chained on a formatter, the output is that of the database, the mode and the format set last; settings of different kinds commute. Without database() the formatter made by format() uses the built-in database, the one made by format_with() the given one and never the built-in one; without mode() it writes E.164; without with() it uses the formats of the metadata.",
  "every chain of calls, number, database and format", "the suite sets a mode once; chains are unbounded",
  "src/formatter.rs: Formatter::database", "src/formatter.rs: Formatter::mode", "src/formatter.rs: Formatter::with", "src/formatter.rs: format", "src/formatter.rs: format_with")
p("C76", "What a result depends on in the metadata",
  "Metadata, validity, type, country and all forms of a number depend only on the territories with its calling code and their order: two databases that agree there agree on these. The number a text is read as depends only on which calling codes exist, on the reference country's territory and on the territories with the number's calling code. Hence rearranging the territories of a file without changing the order of those that share a calling code changes no result of any operation, for every text, number and reference country; this applies to the shipped file.",
  "every pair of metadata files, every text, number, reference country, mode and format", "relates results of all operations under two databases; the suite has one database",
  "src/metadata/database.rs: Database::from", "src/validator.rs: source_for", "src/parser/mod.rs: parse_with", "src/parser/helper.rs: country_code", "src/phone_number.rs: PhoneNumber::metadata", "src/formatter.rs: Formatter::fmt")
p("C77", "International numbers written with separators and no space",
  "A plus, a group of digits, a separator (hyphen, point or parenthesis), then digits and separators: the first group is taken for the calling code, whatever the reference country. If it is no known code the result is InvalidCountryCode, if it does not fit 16 bits a malformed integer, if fewer than three digits follow NoNumber; a number that is returned has the value of the first group as its calling code and source Plus. Which separators are used, where they stand after the first, and zeros in front of the code do not matter. So if the first group is the calling code, the text is read like the bare digits after a plus and like any text of the same digits with formatting characters and a space; if it is more than the calling code (+1650-2530000) it is rejected though the same text with a space is not. In the shipped database every text so written of the number in the property test parse_mixed_spaces_and_dashes is read as that US number.",
  "every database, reference country, digits and placement of separators", "the property test draws eight strings of one number",
  "src/parser/rfc3966.rs: phone_number", "src/parser/mod.rs: parse_with", "src/parser/helper.rs: country_code", "tests/prop.rs: parse_mixed_spaces_and_dashes")
p("C78", "Numbers survive serialisation and are not checked",
  "A number that is serialised and deserialised is the same, including the source of its calling code, which equality ignores; this holds with self-describing formats and with postcard, for every number the parser returns and for every 16-bit code, 64-bit national number and texts. Exactly these documents are read as a number: code and national once each, extension and carrier at most once (missing or null: none), unknown fields skipped, in any order, or a list of the four; sources are plus, idd, number, default, types snake_case, countries their two letters. Nothing else is checked: an unknown calling code is accepted, and then every way to write the number fails and to_string panics.",
  "every document, number, database and order of fields", "no test serialises anything",
  "src/phone_number.rs: PhoneNumber", "src/phone_number.rs: Type", "src/country.rs: Code", "src/country.rs: Source", "src/country.rs: Id", "src/national_number.rs: NationalNumber", "src/extension.rs: Extension", "src/carrier.rs: Carrier")
p("C79", "The constant regular expressions are those of their source texts",
  "The patterns with which the parser finds the start of a number, cuts trailing characters and a second number, recognises words made of letters, reads extensions (case-insensitively) and falls back to 00, and those with which the formatter finds separators and the first group, find in every string exactly the match, with the same captured groups, that the pattern texts of consts.rs describe: punctuation, escapes such as \\x{FF0B}, intersections of classes, lazy and counted repetitions, and case-insensitive letters including the long s. All pattern texts of consts.rs compile, so no use of them panics.",
  "every string", "the patterns contain some forty characters and twenty alternatives; the tests use a few of them",
  "src/consts.rs: DEFAULT_IDD", "src/consts.rs: VALID_START_CHAR", "src/consts.rs: SECOND_NUMBER_START", "src/consts.rs: UNWANTED_END_CHARS", "src/consts.rs: VALID_ALPHA_PHONE", "src/consts.rs: EXTN_PATTERN", "src/consts.rs: SEPARATOR_PATTERN", "src/consts.rs: FIRST_GROUP")
p("C80", "The nom grammars do what their expanded form says",
  "The grammars of possible numbers and of RFC 3966 numbers, written with nom's alt, opt, many0, many1, count, recognize, take_while and tag_no_case as in the code, terminate on every text, never trip nom's guard against repetitions that consume nothing, never fail unrecoverably and never slice a text wrongly. They give the results used everywhere else in this list: a text is possible exactly if it is two digits or three groups followed by the allowed characters, and then all of it is consumed; of an RFC 3966 parameter given twice the last one counts; parameters after one that is not well formed are left unread; a run of plus characters is consumed as a whole.",
  "every text", "repetition and backtracking over unbounded texts; the suite has a dozen of them",
  "src/parser/valid.rs: phone_number", "src/parser/rfc3966.rs: phone_number", "src/parser/helper.rs: ignore_plus", "src/parser/mod.rs: parse_with", "src/validator.rs: is_viable")
p("C81", "Which valid numbers are read back",
  "In the shipped database every valid number has four to seventeen national digits. Unless its calling code is 7, 55, 62, 66, 81, 82, 91, 250, 359, 370, 375 or 598, or all its digits are zero, it is read back from its E.164 form (with no reference country, and with any whose dialling prefix the digits do not begin with), from its international form with an extension of up to seven digits, and from its RFC 3966 form with any extension and reference country. For each of these twelve codes some valid number is read as another one; a valid number of zeros (Tajikistan) is rejected.",
  "every valid number of every calling code, extension and reference country", "there are more than ten billion valid numbers; the exceptions (toll-free numbers in Lithuania, Belarus, Russia, ...) are in no test",
  "src/parser/helper.rs: national_number", "src/parser/mod.rs: parse_with", "src/validator.rs: is_valid_with", "src/formatter.rs: Formatter::fmt", "assets/PhoneNumberMetadata.xml")

p("C82", "The national form of valid numbers is read back",
  "A number without carrier that a country's descriptions in the shipped database accept, or a valid number of that country (without leading zeros if the calling code is 39 or 47), is read back from its national form with that country as reference country, with an extension of up to seven digits (not in Taiwan), unless all its digits are zero, the digits written begin with the calling code, or the calling code is 7, 54, 62, 66, 81, 82, 91, 241, 250, 359, 375, 507, 598 or 974. For each of these fourteen codes some valid number is read as another one, and so is a valid Norwegian number beginning with 47.",
  "every valid number without carrier of every calling code outside the exceptions, and its extension", "the national form adds a national prefix or not depending on the format chosen; whether the parser removes exactly that prefix depends on the country's patterns and on every digit of the number",
  "src/parser/helper.rs: national_number", "src/parser/helper.rs: country_code", "src/formatter.rs: Formatter::fmt", "assets/PhoneNumberMetadata.xml")

p("C83", "The example numbers of the shipped metadata are valid numbers of their type",
  "Every example the shipped metadata gives in the description of a type (1144 of them) is a national number whose digits are accepted by the territory's general description and by the description of the type, and the territory gives it that type, or fixed line or mobile where it does not tell these apart. With the calling code it is a valid number; if it has no leading zeros, its type is that type. Unless the calling code is one of the twelve exceptions of C81, a plus, the code and the example is read as that number. A number with leading zeros need not have the type though it is valid: number_type leaves the zeros out, so the example of an Italian fixed line, 0212345678, is valid with type Unknown.",
  "every territory, type and example of the shipped metadata; every number with those digits", "the suite asks for the type of a handful of numbers and never uses the examples of the metadata",
  "src/metadata/descriptor.rs: Descriptor::example", "src/validator.rs: number_type", "src/validator.rs: is_valid_with", "src/phone_number.rs: number_type_with", "assets/PhoneNumberMetadata.xml")

p("C84", "The digits of a valid number are read in its country",
  "The national digits of a number a country's descriptions in the shipped database accept, or of a valid number of that country (without leading zeros if the calling code is 39 or 47), written with any spaces, hyphens, points, slashes and parentheses, are read as the number with that country as reference country (source Default, no carrier), if they do not begin with the calling code, are not all zero and the calling code is not 7, 55, 62, 66, 81, 82, 91, 250, 359, 370, 375, 507, 598 or 974. If they begin with the calling code they are never read as the number. For each of the fourteen codes some valid number, not beginning with its calling code, is read as another one.",
  "every number the descriptions of a country accept, every way to put separators into its digits", "whether digits are taken for a dialling prefix, a calling code, a national prefix or a carrier code depends on the patterns of the country and on every digit; the suite writes a few numbers of a few countries this way",
  "src/parser/mod.rs: parse_with", "src/parser/helper.rs: country_code", "src/parser/helper.rs: international_prefix", "src/parser/helper.rs: national_number", "assets/PhoneNumberMetadata.xml")

p("C85", "With which reference countries valid international numbers are read",
  "In the shipped database a valid number, not all zeros, whose calling code is not one of the twelve exceptions of C81 is read back from its E.164 form, and from its international form with an extension of up to seven digits, with every reference country or none, except for these reference countries and calling codes: Finland and Aland with 994, 995 and 996, North Korea with 992, 993, 994, 995, 996 and 998, and Chile, China, Papua New Guinea and Chad with 1. For each of these sixteen pairs some valid number is read as a number with another calling code, because the digits after the plus are taken for the country's dialling prefix: with Chad (dialling prefix 00 or 16) as reference country, +16502530000 is read as the number 530000 of Guatemala.",
  "every valid number, every reference country", "about 250 reference countries times more than ten billion numbers; the suite reads international numbers with a few reference countries whose dialling prefixes begin with zero",
  "src/parser/helper.rs: international_prefix", "src/parser/helper.rs: country_code", "src/parser/mod.rs: parse_with", "assets/PhoneNumberMetadata.xml")

p("C86", "Valid numbers dialled from abroad",
  "In the shipped database, with a reference country and any text of digits its dialling prefix pattern matches as a whole (or 00 and no reference country), that prefix followed by at least three digits not beginning with zero, with any spaces, hyphens, points, slashes and parentheses, gives the same result as a plus and these digits without reference country, except that the source is Idd. So every valid number, not all zeros, whose calling code is not one of the twelve exceptions of C81 is read when dialled this way. Where one dialling prefix of a country continues another (Bolivia, Hong Kong, the Seychelles) the longer one is taken: the same holds for all prefixes of the Seychelles, for those of Bolivia and Hong Kong other than 00, for 00 in Bolivia unless a 1 follows and in Hong Kong if a 4 follows. Otherwise numbers are misread: 00 1 650 253 0000 with Bolivia is read as the number 530000 of Guatemala, 00 1 212 736 5000 with Hong Kong as the number 7365000 of Morocco.",
  "every reference country, every dialling prefix its pattern matches, all digits after it, all separators", "the suite dials from two or three countries; whether the pattern takes exactly the prefix or eats into the calling code depends on the pattern and on the digits that follow",
  "src/parser/helper.rs: international_prefix", "src/parser/helper.rs: country_code", "src/parser/mod.rs: parse_with", "assets/PhoneNumberMetadata.xml")

p("C87", "Which valid numbers the metadata describes in full",
  "A number passes is_valid if the beginning of its digits matches the general pattern of its territory and the pattern of a type that lists their count; the patterns need not match the digits to the end. In the shipped database this makes no difference for 128 of the calling codes: there a number is valid just if the general description of its territory accepts it and some type lists its length and matches all its digits. For each of the other 87 codes (7, 20, 31, 36, 39, 43, 46, 47, 48, 49, 53, 54, 55, 56, 57, 60, 61, 62, 63, 64, 65, 66, 81, 82, 84, 86, 90, 92, 95, 98, 213, 230, 231, 241, 243, 250, 252, 263, 264, 352, 353, 354, 358, 359, 372, 375, 376, 377, 381, 382, 383, 385, 387, 420, 421, 423, 503, 507, 508, 593, 597, 598, 677, 678, 683, 685, 686, 688, 850, 852, 855, 856, 870, 880, 881, 882, 883, 886, 961, 963, 964, 967, 968, 971, 972, 974, 976) some number is valid although no type of any territory with the code matches all its digits: +48 300000000 is valid, although Polish numbers beginning with 30 have seven digits.",
  "every number of every calling code", "whether a pattern that matches the beginning of a number of listed length matches all of it depends on all digit strings; the suite checks a few real numbers",
  "src/metadata/descriptor.rs: Descriptor::is_match", "src/validator.rs: number_type", "src/validator.rs: is_valid_with", "assets/PhoneNumberMetadata.xml")

p("C88", "Which countries are the country of a valid number",
  "Every country with an id, except Western Sahara (EH) and the Vatican (VA), is the country of some valid number of the shipped database. These two are the country of no number, valid or not: every number Western Sahara describes begins with the leading digits of Morocco, which comes first in their calling code, and the leading digits of the Vatican begin with a zero, while the country is chosen by the digits without leading zeros.",
  "every country id and every number", "that no number at all has a country is a statement about all numbers; the suite looks up the country of a handful of numbers",
  "src/phone_number.rs: Country::id", "src/phone_number.rs: PhoneNumber::metadata", "src/validator.rs: source_for", "assets/PhoneNumberMetadata.xml")
p("C89", "Leading zeros and the type of valid numbers",
  "number_type looks at the national digits without their leading zeros, is_valid at all of them. In the shipped database valid numbers have leading zeros only in 31 calling codes (39, 47, 62, 66, 81, 82, 91, 225, 226, 227, 229, 241, 242, 247, 250, 267, 268, 359, 378, 501, 507, 598, 676, 679, 687, 800, 853, 881, 888, 974, 992). In each of these except 91 some valid number has unknown type; in all other codes every valid number has a type. In India a freephone number such as +91 0008000000000 is valid and reported as a mobile number.",
  "every number of every calling code", "which of the digit strings a territory accepts begin with a zero depends on all its patterns; the suite checks the type of few numbers with leading zeros",
  "src/phone_number.rs: PhoneNumber::number_type_with", "src/validator.rs: is_valid_with", "src/validator.rs: number_type", "assets/PhoneNumberMetadata.xml")

p("C90", "Which valid numbers are written in groups",
  "In the shipped database every valid number whose calling code is not one of 70 (31, 46, 47, 49, 53, 54, 55, 56, 57, 60, 61, 62, 63, 65, 66, 81, 82, 84, 86, 90, 95, 213, 230, 231, 241, 243, 247, 248, 250, 252, 260, 263, 290, 350, 352, 353, 354, 358, 359, 372, 376, 377, 383, 385, 423, 500, 507, 508, 595, 597, 598, 677, 678, 683, 685, 686, 688, 690, 850, 870, 880, 881, 882, 883, 961, 964, 971, 972, 974, 976) is written in national form with a format of its calling code: the first applicable one, and its pattern matches all the digits. The same holds in international and RFC 3966 form unless the code is one of four more (91, 421, 504, 977). For each of the 70 codes some valid number is written as bare digits in national, international and RFC 3966 form; for each of the four some valid number is in the latter two, though not in national form.",
  "every valid number of every calling code, every mode", "whether some format fits depends on the leading digits and lengths of all formats against all numbers the patterns accept; the suite formats a handful of numbers",
  "src/formatter.rs: formatter", "src/formatter.rs: Formatter::fmt", "src/validator.rs: is_valid_with", "assets/PhoneNumberMetadata.xml")

p("C91", "Numbers written alike are the same number",
  "With the shipped database, two numbers whose national numbers are not all zeros and which have the same international form, or the same RFC 3966 form, have the same calling code, national number and extension, whatever the extensions are. Two valid numbers of the same calling code (other than 241) without carrier that have the same national form have the same national number and extension. For 241 (Gabon) this fails: two different valid numbers are written alike. The national form does not tell the calling code: a valid Danish and a valid Norwegian number are written alike.",
  "all pairs of numbers; all pairs of valid numbers of a calling code", "a collision is a pair of numbers, and whether the national prefix before one number makes another one depends on all numbers the patterns accept; the suite never compares two outputs",
  "src/formatter.rs: Formatter::fmt", "src/formatter.rs: replace", "src/validator.rs: is_valid_with", "assets/PhoneNumberMetadata.xml")

p("C92", "How many digits a valid number has",
  "A valid number of the shipped database has 4 to 17 national digits and 6 to 19 digits with its calling code, and these bounds are reached. It has at most 15 digits with its calling code, the limit of E.164, unless its calling code is 49, 62, 81, 82, 234 or 598; each of these six has a valid number with more than 15 digits.",
  "all numbers that are valid with the shipped database", "the longest valid number is a property of the lengths and patterns of all territories together; the suite checks single numbers of ordinary length",
  "src/validator.rs: is_valid_with", "src/consts.rs: MAX_LENGTH_FOR_NSN", "src/consts.rs: MIN_LENGTH_FOR_NSN", "assets/PhoneNumberMetadata.xml")

p("C93", "What the shipped database reports as carrier",
  "With the shipped database a reported carrier is a carrier code that was dialled only in Australia, Bolivia, Brazil, China, Colombia, Costa Rica, the Faroe Islands, South Korea, Liechtenstein and Luxembourg; there it is a code of one of the listed lengths standing first or after the trunk prefix, and every such length occurs. In Belarus, the United Kingdom and Lithuania it is the trunk prefix itself, and each of their trunk prefixes is reported. Otherwise it is a part of the number: the whole local number in the 28 territories that put an area code before it (each of them reports one), the area code of an Argentinian mobile number, the whole number in Gabon and Japan. Nothing else is ever reported.",
  "all texts and reference countries, shipped database", "which group of a pattern is reported depends on the patterns and transform rules of all territories; the suite has one carrier test",
  "src/parser/helper.rs: national_number", "src/phone_number.rs: carrier", "assets/PhoneNumberMetadata.xml")

p("C94", "The texts of parse errors",
  "Different parse errors have different texts. Whatever the text and the reference country, a failing parse reports one of six texts: not a number; invalid country code; too short after the country code; too long; a malformed integer that is empty or too large. It never reports that a number is too short after the dialling prefix or that a digit is invalid, in any database whose transform rules write digits and refer to groups that can be filled, such as the shipped one.",
  "all texts, reference countries and such databases", "that an error never occurs cannot be seen from examples; the suite checks no error text",
  "src/error.rs: Parse", "src/parser/mod.rs: parse_with", "src/national_number.rs: from_str")

p("C95", "What NationalNumber::from_str makes of any text",
  "Zeros come off first and are counted modulo 256; then a plus sign may follow, then at least one digit and nothing else. A value of 2^56 or more is TooLong, one that passes 2^64 at some digit is an overflow whatever follows, another character before that is an invalid digit, nothing but zeros is an empty integer. This describes the result for every text exactly. What is read is displayed unchanged unless the text has a plus sign or 256 zeros or more.",
  "all texts", "the cases interact (a plus sign after zeros, an overflow before a wrong character, 256 zeros); the suite only reads digits",
  "src/national_number.rs: from_str", "src/national_number.rs: Display")

p("C96", "What Database::from makes of any list of territories",
  "The entries are checked in order, and each in a fixed order: general description, the other descriptions, id, calling code, international prefix, national prefix for parsing, formats, international formats, leading digits. Building succeeds exactly if nothing is wrong with any entry. Otherwise the first fault decides, whatever follows it: a missing value is an error that names it, a pattern that is no regular expression is a regex error, a description without pattern is a panic. The only values named in errors are generalDesc, id and countryCode of a territory and pattern and format of a format; the error for a description without pattern is never returned.",
  "all lists of loaded territories and every regular expression compiler", "no test builds a database from broken territories, and which of several faults is reported depends on the order of evaluation",
  "src/metadata/database.rs: from", "src/error.rs: Metadata, LoadMetadata")

p("C97", "The first trouble in a metadata document decides what loading it comes to",
  "A document tree is loaded exactly if there is no trouble in it. Otherwise loading ends with the error of the first trouble in document order, whatever follows: an unknown element or attribute (named in the error together with the place), a value that is no number or no flag, something other than text where text is expected, an empty element or another kind of node where none may stand, or whatever is wrong with a list of lengths. Unknown attributes of a territory are reported with the place format. A document that breaks off before the end of the root element is never loaded, whatever the events.",
  "all document trees (with a prologue, without a nested root element), all following events; all event streams for broken-off documents", "the loader is only run on the shipped file, which has no trouble",
  "src/metadata/loader.rs: load, metadata, territories, territory, descriptor, formats, format, ignore, text", "src/error.rs: Metadata")

p("C98", "What any text comes to as a list of possible lengths",
  "The text is cut at commas and white space around each item is dropped; the first item that is not read decides, otherwise the lengths of the items follow each other. An empty item crashes. A number below 65536, with or without a plus sign, is that length. A bracket without a hyphen is passed over in silence, whatever comes after it. A range is read from what stands before the first hyphen and what stands between it and the next, without its last character, which may be any ASCII character; it is empty if it runs backwards, crashes if it ends with 65535, has no end or its last character is not ASCII, and is an integer error if one of its ends is no number. Every other text is an integer error.",
  "all texts", "the shipped file only has well-formed lists, so no test meets the silent and the crashing cases",
  "src/metadata/loader.rs: lengths")

p("C99", "The texts of metadata errors",
  "A name or value in the text of a metadata error is quoted so that it can be told where it ends and what it is, whatever it contains and whatever follows. From the text one can tell the error: which kind it is, the part of the metadata it names, and the name and value; this holds for the nine parts that the code names, although one of them has colons in it. Every metadata error of loading, whatever the XML reader delivers, and of building a database names one of these parts. The text is always a single line without control characters, however the document is made.",
  "all metadata errors; all event sequences; all lists of territories", "a clash of two texts or an unescaped line break needs names made for it; no test looks at the texts",
  "src/error.rs: Metadata", "src/metadata/loader.rs: load", "src/metadata/database.rs: Database::from")

p("C100", "Which types overlap in the shipped metadata",
  "In the shipped database, two types of a territory whose descriptions both cover a number that the general description covers are the same type, or fixed line and mobile, or one of 14 pairs listed for Brazil, China, Ireland, Lebanon, Myanmar, Malaysia, New Zealand and Saint Pierre and Miquelon. So apart from these a number gets the type of any description that covers it, whatever the order in which number_type tries the types; for the pairs it gets the first one. Each of the 14 pairs does overlap: some number is covered by both, and it is found to have the type that is tried first.",
  "all entries of the shipped database; all strings of fewer than 65536 digits; all pairs of types", "the patterns cover millions of numbers each, and a match need only reach the end of the pattern, not of the number; whether two of them share a number cannot be seen from examples",
  "src/validator.rs: number_type", "src/metadata/descriptor.rs: Descriptor::is_match", "assets/PhoneNumberMetadata.xml")

p("C101", "Which territories with the same calling code overlap",
  "In the shipped database, two territories with the same calling code that the same national digits suit (they begin with the leading digits of the territory or, if it has none, its descriptions give them a type) are one of 12 pairs: US and CA, AU, CC and CX, GP, BL and MF, MA and EH, GB, GG and JE, RE and YT. So for all other territories the region chosen for a number is the one its digits suit, whatever the order in which the database lists the territories and whichever is the main one. The territories of each pair do share a number.",
  "all calling codes and entries of the shipped database; all strings of fewer than 65536 digits", "whether the patterns of two territories share a number cannot be seen from examples; 25 territories share the code 1",
  "src/validator.rs: source_for", "src/metadata/database.rs: Database::from", "assets/PhoneNumberMetadata.xml")

p("C102", "Where digits of other scripts are understood",
  "If the part of a text that is read as the number has a decimal digit of one of the 15 other scripts the crate converts, parse gives NoNumber, though normalisation would convert it. In an extension and in a calling code written apart from the number (phone-context, or the code before the first separator of an RFC 3966 text) such digits count as the ASCII digits: two texts whose readings differ only in the scripts of these digits give the same outcome. For example +１-6502530000 is a number of the USA while the same number wholly in full-width digits is refused.",
  "all texts, reference countries and scripts; the first part for all databases, the second for all orderly ones, including the shipped one", "the crate's tests use full-width digits with extract and normalize alone, never with parse, and 15 scripts in several places of any text are too many to try",
  "src/parser/mod.rs: parse_with", "src/parser/valid.rs: phone_number", "src/parser/helper.rs: normalize, as_dec_digit")

p("C103", "Which parts of the metadata results depend on",
  "No result of parsing, formatting, validation, type and country depends on the example numbers, on the local lengths of types, on the descriptions of emergency numbers, short codes, standard rate numbers, carriers' numbers and numbers that cannot be dialled from abroad, on the preferred international prefix, on whether mobile numbers are portable and on whether the national prefix is optional in a format: leaving all of these out of a metadata file gives a database with the same results for every text, number and reference country. This applies to the shipped file. Everything else matters: for every other field there are territories and a text or number that get another result without it.",
  "all databases, texts, numbers and reference countries; all other fields", "that a field is never looked at is a statement about all inputs, and a test with a changed field says nothing about the other numbers",
  "src/parser/mod.rs: parse_with", "src/parser/helper.rs: country_code, national_number", "src/validator.rs: length, source_for, number_type", "src/formatter.rs: fmt, formatter, replace", "src/metadata/database.rs: Database::from")

p("C104", "Where the version of Unicode matters",
  "Two versions of the Unicode tables (decimal digits, numbers, letters) that class the non-ASCII characters of a text and of the transform rules of the database alike give the same result of parsing the text, whatever they say of other characters. Validity, type, metadata and country of a number and its E.164 form are the same with all versions; the other forms are the same if the versions class the characters of the format texts alike. The transform rules and format texts of the shipped metadata are ASCII, so with the shipped metadata only the reading of a text with non-ASCII characters can depend on the version, and only through these characters.",
  "all pairs of tables, databases, texts, numbers, modes and formats", "a test runs with the one version of Unicode compiled in",
  "src/consts.rs: VALID_START_CHAR, UNWANTED_END_CHARS, SECOND_NUMBER_START, EXTN_PATTERN, VALID_ALPHA_PHONE, FIRST_GROUP, SEPARATOR_PATTERN", "src/parser/mod.rs: parse_with", "src/validator.rs: is_valid_with", "src/formatter.rs: fmt")

p("C105", "How long extensions are and what becomes of an empty one",
  "A result has an extension exactly if the text has one according to the specification of reading, and then it is made of its digits. An extension of more than seven digits comes from an ext parameter of a text without spaces. A plainly written number that ends with a digit and is followed by a mark for an extension (such as ext. or x, but not #) and nothing else is read like its plus and digits with an extension that is empty, not missing; with # and nothing else there is no number if the last group of one to five digits comes after a space or hyphen. The international form of an ordinary number with an empty extension, which ends with such a mark, is read back as the number with the empty extension. With the shipped database every number read from a text with a space survives being written in international format and read again, with whatever extension was read, if national prefix handling leaves its national number alone; unless the extension is empty and the region introduces extensions with #.",
  "all databases, reference countries, texts, marks and numbers", "texts that break off after the mark for an extension are not among those a test would try, and the round trip is asked of everything that can be read",
  "src/parser/natural.rs", "src/consts.rs: CAPTURING_EXTN_DIGITS, EXTN_PATTERNS_FOR_PARSING, EXTN_PATTERN, DEFAULT_EXTN_PREFIX", "src/parser/rfc3966.rs", "src/formatter.rs: fmt")

p("C106", "The case of letters",
  "Two texts that differ only in the case of ASCII letters give the same result of parsing, number or error, with every database and reference country, if no slash or backslash is followed by an x (or by spaces and an x), the names of parameters, between ; and =, are the same in both unless the text contains a space, and the number has no x before its third digit. Examples show that the case of a letter does matter in these three places: the x that begins a second number, the names of parameters, and the x as punctuation among the first three digits.",
  "all databases, reference countries and pairs of texts", "every letter of every text can be written in two ways",
  "src/parser/natural.rs", "src/parser/rfc3966.rs", "src/parser/valid.rs", "src/consts.rs: ALPHA_MAPPINGS, EXTN_PATTERN, SECOND_NUMBER_START", "src/parser/helper.rs: normalize")

p("C107", "Punctuation of every kind",
  "Take any number of plus signs, ASCII or wide, followed by at least three ASCII digits, among which stand any characters of punctuation or stars, in any number and order, with ASCII or wide forms, other than x and the tildes; the last character is a digit, and so is the first if there is no plus. Such a number, with anything around it that can neither begin nor end a number, is parsed, with every database and reference country, like the digits alone, after one plus if there was a plus. This holds if the text contains a space, or is just the number, without ASCII plus and with a character that has no place in a tel: number.",
  "all databases, reference countries, plus signs, digits, punctuation and surrounding texts", "the ways to put punctuation among digits are unlimited in number",
  "src/consts.rs: VALID_PUNCTUATION, PLUS_CHARS, VALID_START_CHAR, UNWANTED_END_CHARS", "src/parser/natural.rs", "src/parser/valid.rs", "src/parser/helper.rs: normalize, country_code")

p("C108", "Words after a number",
  "Words before a number are skipped (C17), words after it are not. Take a number as in C107, directly followed by ASCII letters, digits and idle punctuation that end in a letter, have no x after a slash, and do not end in one of the words that announce an extension; anything may stand around it that can neither begin nor end a number, and there is a space in the text. It is parsed, with every database and reference country, like the digits of the number followed by those of the words: if the words have at least three letters, every letter counts as its keypad digit; otherwise letters do not count. In particular one or two letters and no digits after a number change nothing. In a text made only of digits, hyphens, dots, parentheses and the letters a to f, with three digits before the first letter, letters are treated in the same way, with no need for a space.",
  "all databases, reference countries, numbers, words and surrounding texts", "the words that may follow a number are unlimited in number, and three letters among them change the number",
  "src/parser/natural.rs", "src/parser/rfc3966.rs: phone_number", "src/consts.rs: UNWANTED_END_CHARS, VALID_ALPHA_PHONE, ALPHA_PHONE_MAPPINGS", "src/parser/valid.rs", "src/parser/helper.rs: normalize, country_code")

p("C109", "Two numbers with a plus sign in one text",
  "A text that contains a space, or begins with a digit and has no semicolon, and that has a plus sign (ASCII or wide) somewhere after an ASCII digit and somewhere before a character that can end a number (a letter, number character or #), and has no x after a slash or backslash, gives NoNumber, with every database and reference country. So a text with two international numbers is refused, not read as one of them.",
  "all databases, reference countries and such texts", "the texts around and between the two numbers are unlimited",
  "src/parser/natural.rs", "src/parser/valid.rs", "src/consts.rs: SECOND_NUMBER_START, UNWANTED_END_CHARS, EXTN_PATTERN", "src/parser/mod.rs: parse_with")

p("C110", "Characters that have no place in a number",
  "A text that contains a space, or begins with a digit and has no semicolon, and that has no x after a slash or backslash gives NoNumber, with every database and reference country, if somewhere between a character that can begin a number (a decimal digit or plus sign) and one that can end a number (a letter, number character or #) it has a character that can be neither in a number nor in an extension: one that is no plus sign, punctuation, star, decimal digit or ASCII letter and none of the signs with which extensions are written. Line feeds, &, @ and ? are such characters, so numbers on two lines are refused.",
  "all databases, reference countries and such texts", "the texts before and after the character are unlimited",
  "src/parser/natural.rs", "src/parser/valid.rs", "src/consts.rs: VALID_PUNCTUATION, EXTN_PATTERN, UNWANTED_END_CHARS", "src/parser/mod.rs: parse_with")

p("C111", "What follows a second number is not read",
  "Let a text consist of a part that contains a decimal digit or plus sign and no second number (a slash or backslash, spaces and an x), then a second number, then any rest, with a space in the text before the x. The result of parsing does not depend on the rest, with every database and reference country. If the part before the slash contains a space and its last character can end a number (a letter, number character or #), the text is parsed like that part alone.",
  "all databases, reference countries and such texts", "the rest of the text is unlimited",
  "src/parser/helper.rs: extract", "src/consts.rs: SECOND_NUMBER_START, UNWANTED_END_CHARS", "src/parser/mod.rs: parse_with")

with open(os.path.join(os.path.dirname(__file__), "..", "properties.jsonl"), "w") as f:
    for x in P: f.write(json.dumps(x, ensure_ascii=False) + "\n")
print(len(P))
