import Verif.Model.Consts
import Verif.Regex.Full
/-! # The pattern texts of `/repo/src/consts.rs`

`Verif/Model/Consts.lean` has the regular expressions of `/repo/src/consts.rs` as syntax trees. This file has their source
texts, put together the way `format!` does it, and reads them. (`{{` and `}}` in a `format!` string stand for `{` and
`}`.) `Verif/Props/Consts.lean` proves that the trees match what the texts match. -/

namespace Phone.ConstsText

/-- `RFC3966_EXTN_PREFIX`, `/repo/src/consts.rs:43` -/
def rfc3966ExtnPrefix : Str := str% ";ext="

/-- `VALID_PUNCTUATION`, `/repo/src/consts.rs:242` -/
def validPunctuation : Str :=
  str% "-x\\x{2010}-\\x{2015}\\x{2212}\\x{30FC}\\x{FF0D}-\\x{FF0F} \\x{00A0}\\x{00AD}\\x{200B}\\x{2060}\\x{3000}()\\x{FF08}\\x{FF09}\\x{FF3B}\\x{FF3D}.\\[\\]/~\\x{2053}\\x{223C}\\x{FF5E}"

/-- `DIGITS`, `/repo/src/consts.rs:245` -/
def digits : Str := str% "\\p{Nd}"

/-- `PLUS_CHARS`, `/repo/src/consts.rs:248` -/
def plusChars : Str := str% "\\+\\x{FF0B}"

/-- `DEFAULT_IDD`, `/repo/src/consts.rs:53` -/
def defaultIdd : Str := str% "00"

/-- `UNIQUE_INTERNATIONAL_PREFIX` (not used by the crate), `/repo/src/consts.rs:232-233` -/
def uniqueInternationalPrefix : Str := str% "[\\d]+(?:[~\\x{2053}\\x{223C}\\x{FF5E}][\\d]+)?"

/-- `PLUS_CHARS_PATTERN` (not used by the crate), `/repo/src/consts.rs:263-264` -/
def plusCharsPattern : Str := str% "[" ++ plusChars ++ str% "]+"

/-- `SEPARATOR_PATTERN`, `/repo/src/consts.rs:266-267` -/
def separatorPattern : Str := str% "[" ++ validPunctuation ++ str% "]+"

/-- `CAPTURING_DIGIT` (not used by the crate), `/repo/src/consts.rs:269-270` -/
def capturingDigit : Str := str% "(" ++ digits ++ str% ")"

/-- `VALID_START_CHAR`, `/repo/src/consts.rs:280-281` -/
def validStartChar : Str := str% "[" ++ plusChars ++ digits ++ str% "]"

/-- `SECOND_NUMBER_START`, `/repo/src/consts.rs:290` -/
def secondNumberStart : Str := str% "[\\\\/] *x"

/-- `UNWANTED_END_CHARS`, `/repo/src/consts.rs:296-297` -/
def unwantedEndChars : Str := str% "[[\\P{N}&&\\P{L}]&&[^#]]+$"

/-- `VALID_ALPHA_PHONE`, `/repo/src/consts.rs:302-303` -/
def validAlphaPhone : Str := str% "(?:.*?[A-Za-z]){3}.*"

/-- `CAPTURING_EXTN_DIGITS`, `/repo/src/consts.rs:315` -/
def capturingExtnDigits : Str := str% "(" ++ digits ++ str% "{0,7})"

/-- The common text of `EXTN_PATTERNS_FOR_PARSING` and `EXTN_PATTERNS_FOR_MATCHING`, `/repo/src/consts.rs:324-349` -/
def extnPatterns (symbols : Str) : Str :=
  rfc3966ExtnPrefix ++ capturingExtnDigits ++
  str% "|[ \\x{00A0}\\t,]*(?:e?xt(?:ensi(?:o\\x{0301}?|\\x{00F3}))?n?|\\x{FF45}?\\x{FF58}\\x{FF54}\\x{FF4E}?|[" ++
  symbols ++
  str% "]|int|anexo|\\x{FF49}\\x{FF4E}\\x{FF54})[:\\.\\x{FF0E}]?[ \\x{00A0}\\t,-]*" ++
  capturingExtnDigits ++ str% "#?|[- ]+(" ++ digits ++ str% "{1,5})#"

/-- `EXTN_PATTERNS_FOR_PARSING`, `/repo/src/consts.rs:324-332` -/
def extnPatternsForParsing : Str := extnPatterns (str% ",;x\\x{FF58}#\\x{FF03}~\\x{FF5E}")

/-- `EXTN_PATTERN`, `/repo/src/consts.rs:351-356`, built case-insensitively -/
def extnPattern : Str := str% "(?:" ++ extnPatternsForParsing ++ str% ")$"

/-- `VALID_PHONE_NUMBER` (not used by the crate), `/repo/src/consts.rs:361-366`, built case-insensitively -/
def validPhoneNumber : Str := str% "(?:" ++ extnPatternsForParsing ++ str% ")?"

/-- `NON_DIGITS` (not used by the crate), `/repo/src/consts.rs:368` -/
def nonDigits : Str := str% "(\\D+)"

/-- `FIRST_GROUP`, `/repo/src/consts.rs:375` -/
def firstGroup : Str := str% "(\\$\\d)"

/-- `FIRST_GROUP_ONLY_PREFIX` (not used by the crate), `/repo/src/consts.rs:385` -/
def firstGroupOnlyPrefix : Str := str% "\\(?\\$1\\)?"

end Phone.ConstsText
