import Verif.Model.Database
import Verif.Regex.Parser
import Verif.Basic.KernelRfl
/-! # A small sample database

Six shortened territories, used only to show that the hypotheses of the theorems can be met. The built-in metadata is in
`Verif/Data`. -/

namespace Phone.Sample

/-- United States: main country for +1. -/
def us : Loader.Metadata :=
  { general := some { nationalNumber := some (str% "[2-9]\\d{9}") },
    fixedLine := some { nationalNumber := some (str% "(?:20[1-3]|65[01])[2-9]\\d{6}"), possibleLength := [10], possibleLocalLength := [7] },
    tollFree := some { nationalNumber := some (str% "8(?:00|33)[2-9]\\d{6}"), possibleLength := [10] },
    id := some (str% "US"),
    countryCode := some 1,
    internationalPrefix := some (str% "011"),
    nationalPrefix := some (str% "1"),
    formats := [{ pattern := some (str% "(\\d{3})(\\d{3})(\\d{4})"), format := some (str% "($1) $2-$3"), leadingDigits := [str% "[2-9]"] }],
    internationalFormats := [{ pattern := some (str% "(\\d{3})(\\d{3})(\\d{4})"), format := some (str% "$1-$2-$3"), leadingDigits := [str% "[2-9]"] }],
    mainCountryForCode := true }

/-- Canada: also +1. -/
def ca : Loader.Metadata :=
  { general := some { nationalNumber := some (str% "[2-8]\\d{9}") },
    fixedLine := some { nationalNumber := some (str% "(?:204|613)[2-9]\\d{6}"), possibleLength := [10] },
    mobile := some { nationalNumber := some (str% "(?:204|613)[2-9]\\d{6}"), possibleLength := [10] },
    id := some (str% "CA"),
    countryCode := some 1,
    internationalPrefix := some (str% "011"),
    nationalPrefix := some (str% "1") }

/-- Russia: national prefix 8, also as parsing pattern. -/
def ru : Loader.Metadata :=
  { general := some { nationalNumber := some (str% "8\\d{13}|[347-9]\\d{9}") },
    mobile := some { nationalNumber := some (str% "9\\d{9}"), possibleLength := [10] },
    tollFree := some { nationalNumber := some (str% "8(?:0[04]|108\\d{3})\\d{7}"), possibleLength := [10, 14] },
    id := some (str% "RU"),
    countryCode := some 7,
    internationalPrefix := some (str% "810"),
    nationalPrefix := some (str% "8"),
    mainCountryForCode := true,
    formats := [{ pattern := some (str% "(\\d{3})(\\d{3})(\\d{2})(\\d{2})"), format := some (str% "$1 $2-$3-$4"), leadingDigits := [str% "[3489]"], nationalPrefixFormattingRule := some (str% "8 ($FG)"), nationalPrefixOptionalWhenFormatting := true }] }

/-- Argentina: a parsing pattern with a capture group and a transform rule. -/
def ar : Loader.Metadata :=
  { general := some { nationalNumber := some (str% "(?:11|[89]\\d\\d)\\d{8}|[2368]\\d{9}") },
    fixedLine := some { nationalNumber := some (str% "11\\d{8}"), possibleLength := [10] },
    mobile := some { nationalNumber := some (str% "911\\d{8}"), possibleLength := [11] },
    id := some (str% "AR"),
    countryCode := some 54,
    internationalPrefix := some (str% "00"),
    nationalPrefix := some (str% "0"),
    nationalPrefixForParsing := some (str% "0?(?:(11)15)?"),
    nationalPrefixTransformRule := some (str% "9$1"),
    formats := [{ pattern := some (str% "(\\d)(\\d{2})(\\d{4})(\\d{4})"), format := some (str% "$2 15-$3-$4"), leadingDigits := [str% "911"], nationalPrefixFormattingRule := some (str% "0$1"), domesticCarrier := some (str% "$NP$CC ($FG)") }],
    internationalFormats := [{ pattern := some (str% "(\\d)(\\d{2})(\\d{4})(\\d{4})"), format := some (str% "$1 $2 $3-$4"), leadingDigits := [str% "911"] }] }

/-- Finland: an international prefix pattern with several alternatives. -/
def fi : Loader.Metadata :=
  { general := some { nationalNumber := some (str% "[1-35689]\\d{4}|[1-9]\\d{6,11}") },
    fixedLine := some { nationalNumber := some (str% "[1-3]\\d{4,7}"), possibleLength := [5, 6, 7, 8] },
    id := some (str% "FI"),
    countryCode := some 358,
    internationalPrefix := some (str% "00|99(?:[01469]|5(?:[14]1|3[23]|5[59]|77|88|99))"),
    nationalPrefix := some (str% "0"),
    mainCountryForCode := true }

/-- International freephone: a non-geographic entry. -/
def freephone : Loader.Metadata :=
  { general := some { nationalNumber := some (str% "(?:00|[1-9]\\d)\\d{6}"), possibleLength := [8] },
    tollFree := some { nationalNumber := some (str% "(?:00|[1-9]\\d)\\d{6}"), possibleLength := [8] },
    id := some (str% "001"),
    countryCode := some 800,
    preferredExtensionPrefix := some (str% " x") }

/-- The sample territories; Canada comes before the main country of its code. -/
def territories : List Loader.Metadata := [ar, ca, fi, ru, us, freephone]

/-- The compiler of regex source text used for the sample and the built-in database. -/
abbrev compile : Str → Option Regex := RegexParser.compile true

/-- The sample database. -/
def db : Database :=
  match Database.from compile territories with
  | .ok d => d
  | _ => Database.empty

/-- The sample territories are accepted. -/
theorem from_territories : Database.from compile territories = .ok db := by kernel_rfl

end Phone.Sample
