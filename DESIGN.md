# Formal model of rust-phonenumber: design

Source under study: `/repo` (whisperfish/rust-phonenumber at the pinned commit), read as text only.
Proof assistant: Lean 4.33.0. Lake project in `/verif/lean`, modules `Verif.*`. Mathlib is available but no module of it is imported.

## Trusted base

* The Lean 4 kernel. The axioms each claimed theorem depends on are listed in `AXIOMS.md` (generated by `tools/axioms.py`): at
  most `propext`, `Quot.sound` and `Classical.choice`. No added axioms, no `sorry`, no `native_decide`, no `bv_decide`. Facts
  about the shipped table are proved by kernel evaluation (`kernel_rfl`, a tactic that closes a goal `a = b` with the term `Eq.refl`
  and leaves the check to the kernel).
* The transcription of the Rust code into the Lean definitions under `Verif/Model/`. Every definition cites the file and lines it
  models and names its simplifications.
* The model of the libraries the code calls, see "Libraries" below.
* That the literal text in `Verif/Data/S*.lean` is the text of `/repo/assets/PhoneNumberMetadata.xml` (`tools/gen_xml.py check` reads
  the modules back and compares). The generated tables `Verif/Data/T*.lean` and trees `Verif/Data/X*.lean` are not trusted: C67 derives
  them from the text by kernel evaluation of the reader and loader models.

## What is modelled

| source | model | notes |
|---|---|---|
| `src/national_number.rs` | `Model/NationalNumber` | all of it; `UInt64` words |
| `src/country.rs` | `Model/CountryId`, `Model/Types`, `Model/Hash` | `Id` with its strum names, `Code`, `Source`, `PartialEq`, `Hash` |
| `src/phone_number.rs` | `Model/Types`, `Model/Validator`, `Model/Formatter` | `FromStr`, `Display`, `metadata`, `is_valid_with`, `number_type_with`, `Country::id`, equality, hash |
| `src/carrier.rs`, `src/extension.rs` | strings | newtypes |
| `src/parser/*.rs` | `Model/Helper`, `Model/Valid`, `Model/Parse`, `Model/Nom` | all functions; nom combinators are expanded by hand, and C80 proves the expansion right |
| `src/validator.rs` | `Model/Validator` | `is_viable`, `is_valid_with`, `length`, `source_for`, `number_type`, `Validation` |
| `src/formatter.rs` | `Model/Formatter`, `Model/Builder` | `fmt` in all four modes, custom format, `formatter`, `replace`; `format`, `format_with`, `database`, `mode`, `with` |
| `src/consts.rs` | `Model/Consts`, `Model/ConstsText` | every regex used by the parser and formatter, as syntax trees, and all pattern texts (C79); the letter maps |
| `src/metadata/{metadata,descriptor,format}.rs` | `Model/Types` | records, `Descriptors::get`, `Descriptor::is_match` |
| `src/metadata/database.rs` | `Model/Database`, `Builtin/Db` | `from`, `by_id`, `by_code`, `region`, `iter`; the lazily built default database |
| `src/metadata/loader.rs` | `Model/Loader` | whole loader on event streams |
| `src/error.rs` | error types, `Model/ErrorText`, `Model/MetadataErrorText` | `Parse` with the kind of a `ParseIntError` and its texts; `Metadata` and its texts (with core's `Debug` of strings); `LoadMetadata` without the texts of library errors |
| `build.rs` | `Model/Postcard` (`Build.main`) | from the text of the asset to the bytes of `database.bin` |
| `Serialize`/`Deserialize` of `PhoneNumber`, `Code`, `Source`, `Id`, `NationalNumber`, `Extension`, `Carrier`, `Type` | `Model/Serde` | see C78 |
| lazily initialised statics (`once_cell`) | `Model/Lazy` | see C44 |

Not modelled: the derived `Debug` implementations; the texts of library errors (XML, UTF-8, regex, I/O); the accessors that return a field; `Deref`/`AsRef`
conversions; memory consumption and stack depth; running time.

## Libraries

* std strings: `&str`/`String` = `List Char`; lengths and slice indexes are UTF-8 byte counts; slicing off a character boundary or
  out of range is a panic. `parse::<u16>`/`parse::<u64>` are written out (optional plus, digits, overflow).
* Every function that can panic in Rust returns `Outcome ε α = ok a | err e | panic p`.
* `u16`, `u8` are naturals with explicit wrap-around where Rust's `as` wraps; `u64` of `NationalNumber` is `UInt64`.
* `regex` crate: `Verif/Regex` has the syntax, a backtracking matcher that lists all matches in priority order (leftmost-first, greedy
  and lazy repetition, captures), `find`, `captures`, `replace`, `replace_all`, replacement templates. `Regex/Lang` gives the language
  of a syntax tree; soundness and completeness of the matcher against it are proved, so the theorems can speak of languages.
  `Regex/Parser` reads the pattern texts of the metadata (the subset that occurs there, ignoring white space), `Regex/Full` those of
  `consts.rs`. That the crate's
  automata implement leftmost-first semantics is assumed. Size limits of the crate are not modelled.
* Unicode categories `\p{Nd}`, `\p{N}`, `\p{L}` outside ASCII are a parameter (class `UnicodeTables`, only law: decimal digits are
  numbers); the theorems hold for every table. White space in `\s`-like classes is written out in `consts.rs`.
* nom 7: the combinators that occur are defined in `Model/Nom`; the distinction between recoverable errors and failures is kept because `alt` depends on it.
* `quick_xml`: for the theorems about the loader an arbitrary list of events (start, end, empty, text, other, error) with decoded
  attributes; well-formed documents are the events of a tree. From text to events: `Model/XmlReader`, see the simplifications there.
* hash maps: association lists; the order of `iter()` is not modelled.
* `postcard`: `Model/Postcard`, the wire format (varints, length-prefixed UTF-8 strings, tags of options, fields in order) in both
  directions.
* `serde_derive`: the derived implementations of `PhoneNumber` and its parts are written out in `Model/Serde` after its documentation;
  kinds of error are simplified.
* `once_cell::sync::Lazy`: each step of the transition system is atomic; the internal cache pools of `regex` are assumed invisible.

## Layers

1. `Verif/Basic`: outcomes, UTF-8 string operations, integer parsing, Unicode table class.
2. `Verif/Regex`: see above.
3. `Verif/Model`: transcription of `src/**/*.rs`.
4. `Verif/Spec`: small independent specifications used in the statements; they do not use the functions of the model they specify.
5. `Verif/Props`: the theorems, each followed by a concrete non-trivial instance of its hypotheses.
6. `Verif/Data`, `Verif/Builtin`: the shipped metadata, generated, and kernel-checked facts about it.
7. `Verif/Tests`: the crate's own tests (37 functions in `src` and `tests`), stated about the model with the shipped database and
   evaluated by the kernel. They are no proofs of properties but a check of the transcription: where the authors wrote down what the code
   does, the model does the same. Left out: `public_types_are_send_sync` and `parses_concurrently_from_many_threads` (see C44), the
   crash tests (C05 for all texts) and the property tests (C71 for all texts).

## Properties

| id | modelled by | how it is proved |
|----|-------------|------------------|
| C01, C02, C03 | `Model/NationalNumber` (UInt64 packing, FromStr, Display) | bit arithmetic on `UInt64`/`Nat`; decimal printing and reading lemmas |
| C04 | the whole of `parse_with` | each stage is shown not to panic: after normalisation the national part is ASCII digits, so every byte slice is on a character boundary; match offsets are boundaries because the matcher consumes characters; the remaining `unwrap`s are covered by the well-formedness conditions |
| C05 | C04 with the shipped table | the conditions of C04 are checked for all 254 territories by kernel evaluation of a boolean checker, plus a soundness proof of the checker (`Builtin/`) |
| C06, C07, C08, C09, C12, C20 | `Model/Helper`, `Model/Parse` | postcondition of every stage, composed |
| C10, C11, C51, C53 | country code detection | reduction of `parse_with` on digits (with or without plus) to the code loop |
| C13, C17 | natural reader, normalisation | `extract` on plain text; the digits are all that survives |
| C14 | `Model/Valid` | the nom parser is a PEG; shown to accept exactly the words of a declarative grammar |
| C15, C16 | `normalize` | declarative relation `Digitised`; the vanity regex is shown to count letters |
| C18, C19 | `Model/Parse.Rfc3966` | parser inversion for the grammar `Spec.Tel` |
| C21, C22, C23, C24, C25, C26, C52, C53, C54, C63 | `Model/Validator`, `Model/Types` | case analysis; database index lemmas; regex soundness and completeness for `is_match` |
| C27, C28, C29, C60 | `Model/Database` | induction over the territory list, for every pattern compiler |
| C30, C31, C32, C33, C59 | `Model/Loader` | documents are trees; the event stream of a tree is consumed exactly; arbitrary event streams: fuel suffices, panics only from `possibleLengths` |
| C34, C35, C37, C38, C39, C40, C55, C56, C57, C64 | `Model/Formatter`, `Regex/Replace`, `Regex/Template` | templates are parsed into pieces; replacement of a full match is the filled-in template |
| C36 | `Model/Hash`, `PhoneNumber.eq` | fieldwise; the hash is the list of words written to the hasher |
| C41, C42 | parser after formatter | E.164/RFC 3966 output is fed to the characterisation of the parser on such texts |
| C43 | `Model/CountryId` | finite enumeration with names, all cases |
| C44 | `Model/Lazy` | transition system of threads and lazily initialised statics; invariant over all schedules |
| C45, C46, C47, C49, C58, C61, C62 | national prefix and dialling prefix handling | exact relation between the digits read and the digits kept, total and functional |
| C48 | `Data/`, `Builtin/` | kernel evaluation over the whole table, lifted to the database by the index lemmas |
| C50 | all error paths | contrapositive of the stage characterisations |
| C47, C50, shipped database | `Props/Reshaped`, `Regex/Around` | for every transform rule of the shipped database: what precedes, is in and follows the group its template refers to, computed from the pattern; the rule keeps a final part of the digits, or puts a listed area code before a whole local number, or is Argentina's |
| C65 | natural reader | declarative grammar of candidates and extensions; the regexes of `consts.rs` are shown to have exactly these languages with leftmost-first choice |
| C66 | whole parser | declarative relation `Spec.Parses` from text to outcome; soundness and totality, hence equivalence with `parse_with`; instance for the shipped database |
| C67 | `Model/XmlReader`, `Model/Loader`, `Data/S*` | the text is followed tag by tag by kernel evaluation, per territory; lemmas that reading and loading can be done piecewise put the pieces together |
| C68 | `Model/Postcard` | a lawful-encoding class (decode after encode is the identity on typed values) by induction over types; an invariant of the loader shows that its numbers fit in 16 bits |
| C69 | `Model/XmlReader`, `Spec/Document` | induction over the grammar of texts: each construct is read as one event whatever follows; then the loader's theorems on trees apply |
| C70 | `Model/Formatter`, `Model/Parse`, `Spec/International` | C64 gives the shape of the output, C13 and C65 reduce it to plus and digits with an extension, then as C41; that shipped formats only punctuate and end in a group that is never empty is checked per territory by kernel evaluation |
| C71 | `Model/Parse`, `Spec/Sole` | C62 with the only region of the code; shipped territories by kernel evaluation |
| C72 | `Model/Formatter`, `Model/Parse`, `Spec/NationalText` | C64 gives the output, C13 and C65 reduce it to digits, C62 reads them; shipped formats by kernel evaluation |
| C73 | `Model/Formatter`, `Model/Parse`, `Spec/Natural`, `Spec/International` | all three forms reach the stages after `country_code` with the same fields, and those stages do not look at the extension |
| C74 | `Model/Formatter`, `Model/Parse`, `Spec/Trunk`, `Spec/Region` | C62 in both directions; Russia from the shipped entries of calling code 7 |
| C75 | `Model/Builder`, `Spec/Builder` | induction over the calls |
| C76 | `Model/Database`, `Model/Validator`, `Model/Parse`, `Model/Formatter` | `by_code` of a code is a function of its territories; C63 makes the choice of region one of `by_code`; congruence of the parser's stages |
| C77 | `Model/Parse` (rfc3966), `Model/Helper` | `tel_read` gives the parts read; the later stages do not look at how the code is written; `C13`, `parse_plus_code` for the other spellings; the US number by evaluating the territories of code 1 only (C76) |
| C78 | `Model/Serde` (derived `Serialize`/`Deserialize`), `Model/Postcard` | reading the fields is described by the list of values given for each name (induction on the fields); round trip, order and unknown fields follow; bytes as in C68 |
| C79 | `Model/ConstsText` (the texts), `Regex/Full` (reader) | each text is read by kernel evaluation; the tree and the model's tree have the same right-nested form, and bringing a tree into that form keeps its matches (induction) |
| C80 | `Model/Nom` (combinators and the grammars written with them) | one-character parsers are described by their sets, `many0` of them by `dropWhile` (induction); parameters shorten the input, so the loop ends; the map gives the last value of a key |
| C81 | `Props/ValidBack`, `Props/ValidBackExceptions`, `Regex/Clash` (may digits begin with matches of several patterns at once?) | `clash` follows all digit strings with derivatives and is proved sound; kernel evaluation for every territory shows that no number accepted by its general and a typed description begins with its national prefix or parsing pattern (Argentina: that rewriting gives digits the general description rejects). Witnesses for the exceptions are evaluated with the territories of their code alone and carried over with C76 |
| C82 | `Props/ValidNational`, `Props/ValidNationalExceptions`, `Props/LocalMore` (some territories are enough to read a text), `Regex/Using` (a pattern some group of which takes part) | C72 reduces reading back to conditions on the digits written, which are the national number or the national prefix and the national number; `clash` (C81) decides these per territory for every number it accepts. In Brazil and Lithuania digits the parsing pattern would take away are accepted, but `begun` (C90) shows that such numbers are always written with the national prefix. Witnesses for all the exceptions are evaluated with the territories of their code and of 800, and carried over with C76 |
| C83 | `Props/Examples` | all examples are evaluated in the kernel, each with the territories of its calling code only, and C76 carries the result over to the whole database; reading back is C81 |
| C84 | `Props/BareBack` | the digits of C82 without national prefix: `clash` decides per territory that no accepted digits begin with a dialling prefix that would be removed; C81's facts say that national prefix handling leaves them alone; digits beginning with the calling code are read without it and, as no digits are added, not as the number; witnesses as for C82 |
| C85 | `Props/ValidFrom` | a dialling prefix that begins with zero cannot begin an international number; for the twelve others `clash` decides per territory whether an accepted number with its calling code can begin with them; witnesses are evaluated with the territories concerned and carried over with C76 |
| C86 | `Props/ValidDialled` | `clash` decides per territory that no word of the dialling pattern continues another one, so the leftmost match of a word and more digits is the word; for the three other territories the matcher is evaluated by the kernel on each word followed by an arbitrary rest; then C61 without the condition on the reference country, and C81 |
| C87 | `Regex/Cover`, `Props/ValidFull` | a type whose pattern has no word shorter than every listed length matches in full what it matches in part; for the 29 other descriptions of the 128 codes a decision procedure following partial derivatives over all digit strings of listed length (`tight`, `covered`; proved sound, evaluated by the kernel); for the 87 codes a number each, evaluated with the territories of its code, and `whole`, proved to accept every string a pattern matches in full |
| C88 | `Props/Countries` | for countries that have their calling code alone the example of a fixed line (C83); for the others a number each, evaluated with the territories of its code; for the two exceptions a decision procedure over all digit strings (`covered`, `clash`, proved sound) shows that the first territory suits whenever the second does, or that the second never suits |
| C89 | `Props/ValidZeros` | `clash` on the general pattern, the pattern of each type and a zero, evaluated for every territory outside the 31 codes; a number each for the 30 codes; for India `covered` shows that the numbers with leading zeros are 000800 and seven digits, and that 800 and seven digits have a type |
| C90 | `Props/Grouped`, `Regex/Ladder` | a pattern made of groups of `\d{n,m}` matches a string of digits whole if their number is within its bounds (`ladder_whole`); a decision procedure over all digit strings (`begun`, proved sound) shows for every length a territory lists that what its patterns accept begins with the leading digits of such a format; it is evaluated for every territory outside the listed codes; a number each for these |
| C91 | `Props/Distinct`, `Props/DistinctOthers` | the shapes of C64 and C37: the calling code ends at the first character that is no digit, and what introduces an extension has a character that the number cannot have; in national form the digits are those of the number or the national prefix and those of the number, and `clash` (C81) with the lengths listed decides for all territories of a code that no accepted digits are the national prefix and other accepted digits; Belarus (some formats write a further zero) and Argentina (mobile numbers lose a nine and get `15`) are proved apart from the shape of their formats and the lengths of their numbers |
| C92 | `Props/ValidLength` | by C63 a valid number has a length its type lists in its region; the lists of all territories are evaluated by the kernel; the long and short numbers are valid by the checked validation of C90 (`validOk`) |
| C93 | `Props/Carriers`, `Spec/Carrier` | what surrounds a group in a match (`Regex/Around`: texts before it, lengths of what is in it, texts after it, end of text) is computed for the reported group of every parsing pattern of the shipped metadata and compared with the lists of the specification by the kernel; the occurrences are texts the kernel reads with the territories of one calling code (`readCheck`) |
| C94 | `Model/ErrorText`, `Props/ErrorText`, `Props/ErrorTextBuiltin` | every stage of the parser hands only digits to the integer parsers, which then fail only on no digits or too many (`intErr`); errors of the stages as in C50 |
| C95 | `Model/NationalNumber`, `Spec/FromStr`, `Props/FromStr` | the declarative relation is total and the function agrees with it; induction over the digits for the place where reading stops |
| C96 | `Model/Database`, `Spec/Faults`, `Props/Faults` | every step fails with the first of its faults, and sequencing steps appends their lists of faults (`FirstFault.bind`) |
| C97 | `Model/Loader`, `Spec/Troubles`, `Props/Troubles` | as C96, by induction over the document tree for each of the reading loops; for broken-off documents by the fact that every loop leaves a suffix of the events |
| C98 | `Model/Loader`, `Spec/LengthText`, `Props/LengthText` | the relation is total and agrees with the model, so it is the graph of the model |
| C99 | `Model/MetadataErrorText`, `Model/Loader`, `Props/MetadataTexts` | escapes form a prefix code in which no word begins with a quote; the part ends at the first colon that is followed by a space; the parts by induction over every function of the loader |
| C100 | `Model/Validator`, `Builtin/Data`, `Props/Overlaps` | kernel evaluation of a sound search for a digit string that begins with matches of the general and both patterns, for every pair of types with a common length; witnesses for the exceptions |
| C101 | `Model/Validator`, `Builtin/Data`, `Props/Rivals` | the same search for every pair of territories with a common calling code and every way of suiting them; witnesses for the pairs |
| C102 | `Spec/Whole`, `Spec/Normalize`, `Props/Scripts` | viable numbers have no such digits; the meaning of a text (C66) uses code and extension only through their digits |
| C103 | `Spec/Used`, `Props/Unused` | every function gives the same for an entry reduced to what is used; building commutes with leaving the rest out; witnesses for the other fields |
| C104 | `Spec/Tables`, `Props/Tables` | the matcher asks the tables only about characters of the text and classes of the expression; carried through every function |
| C105 | `Spec/BareExtension`, `Props/BareExtension` | through the specification of reading (C66): what the word forms of an extension allow, that no longer end of the text is one, and the shape of international output |
| C106 | `Spec/LetterCase`, `Props/LetterCase` | every class of characters in the specification of reading (C66) and of viability (C14) is the same for both forms of a letter, except the `x` in the places named |
| C107 | `Spec/Punctuation`, `Props/Punctuation` | the number found is the whole dressed number (C66), no mark of an extension occurs in it, it is viable (C14), and normalization drops every character that is not a digit |
| C108 | `Spec/Words`, `Props/Words` | as C107; the text ends in a letter, so only a bare word could be an extension, and the three letters of the words alone decide which digits letters give; without a space, the text is a `tel:` number as a whole |
| C109 | `Spec/LetterCase`, `Props/TwoNumbers` | the plus sign is in the part taken for the number (C65), not in its extension, and comes after a digit, which no viable number has (C14) |
| C110 | `Spec/Misplaced`, `Props/Misplaced` | as C109: the character is in the part taken for the number, not in its extension, and no viable number has it |
| C111 | `Spec/Natural`, `Props/SecondNumber` | the part taken for the number (C65) ends at the first second number, whatever comes after its x |

`properties.jsonl` has the statements, `MANIFEST.json` the theorem names. No property is partial at present; where the intuitive claim is
false the exact true statement is proved and the failing case shown beside the theorem (C11, C13, C22, C28, C41, C42, C45, C49, C52,
C58).

## Seeded faults

`seeded/LOG.jsonl` lists edits of the model like realistic bugs, tried in a scratch copy: the definition and edit, the claim it breaks,
the claimed theorems whose proofs failed (`failed`; this includes theorems that only depend on a failed lemma), the lemmas and
theorems that failed themselves (`failed_directly`), and the theorems added or tightened because of it. Later attempts built
only the modules of the properties named in `claim` (and what those import), so `failed` may leave out theorems elsewhere that
would fail too. An attempt whose build stopped at something other than a replaceable proof is kept with a `note` that it is
inconclusive; where it was repeated, the repetition has its own line.
