import Verif.Props.Format
import Verif.Props.Entries
import Verif.Regex.Captures
import Verif.Regex.Stars
import Verif.Regex.Filled
/-! # Checks on the entries of the shipped metadata -/

namespace Phone.Builtin

/-- The compiler of regex source text: `RegexBuilder::new(..).ignore_whitespace(true).build()`. -/
abbrev compile : Str → Option Regex := RegexParser.compile true

/-- The template mentions a group. -/
def mentionsGroup : Str → Bool
  | '$' :: d :: s => isDigit d || mentionsGroup (d :: s)
  | _ :: s => mentionsGroup s
  | [] => false

/-- All patterns of an entry. -/
def patterns (md : Metadata) : List Regex :=
  ([some md.descriptors.general, md.descriptors.fixedLine, md.descriptors.mobile, md.descriptors.tollFree, md.descriptors.premiumRate,
    md.descriptors.sharedCost, md.descriptors.personalNumber, md.descriptors.voip, md.descriptors.pager, md.descriptors.uan,
    md.descriptors.emergency, md.descriptors.voicemail, md.descriptors.shortCode, md.descriptors.standardRate, md.descriptors.carrier,
    md.descriptors.noInternational].filterMap fun o => o.map Descriptor.nationalNumber) ++
  ([md.internationalPrefix, md.nationalPrefixForParsing, md.leadingDigits].filterMap fun o => o) ++
  (md.formats ++ md.internationalFormats).flatMap fun f => f.pattern :: f.leadingDigits

/-- The transform rule is made of digits and group references, and the parsing pattern has groups the first of which takes part in
every match in which the last one does. -/
def transformOk (md : Metadata) : Bool :=
  match md.nationalPrefixTransformRule, md.nationalPrefixForParsing with
  | none, _ => true
  | some t, none => digitTemplate t
  | some t, some re => digitTemplate t && re.ngroups != 0 && re.re.implies 1 re.ngroups

/-- Everything checked for one entry. -/
def good (md : Metadata) : Bool :=
  decide (1 ≤ md.countryCode) && decide (md.countryCode ≤ 999) && ((Id.fromStr md.id).isSome || md.id == worldId) && transformOk md &&
  md.formats.all (fun f => mentionsGroup f.format) && md.internationalFormats.all (fun f => faithful f && mentionsGroup f.format && f.format.all fun c => c == '$' || isDigit c || Spec.isSep c) &&
  (md.id == (str% "AR") || md.formats.all (fun f => faithful f)) && (md.formats.isEmpty || !md.internationalFormats.isEmpty) &&
  md.descriptors.general.possibleLength.isEmpty && (patterns md).all (fun r => r.re.starsOk) &&
  ((md.preferredExtensionPrefix.map fun e => e.all fun c => !isDigit c).getD true) &&
  ((md.nationalPrefix.map fun e => e.all isDigit).getD true)

/-- The template ends with a group reference. -/
def endsInRef (t : Str) : Bool :=
  match t.reverse with
  | d :: '$' :: _ => isDigit d && decide (digitVal d ≠ 0)
  | _ => false

/-- The formats used for international output put punctuation between groups that are never empty and end with a group; extensions
are introduced by one of a few texts. -/
def readable (md : Metadata) : Bool :=
  md.internationalFormats.all (fun f => f.format.all (fun c => c == '$' || isDigit c || (str% " -.()/").contains c) && endsInRef f.format &&
    f.pattern.re.filled) &&
  [str% " ext. ", str% " x", str% " Anexo ", str% " int ", str% "#", str% " int. "].contains
    (md.preferredExtensionPrefix.getD (str% " ext. "))

/-- The rules by which the shipped formats put the national prefix before the number. -/
def knownRules : List Str :=
  [str% "$NP$FG", str% "($NP$FG)", str% "$NP $FG", str% "($FG)", str% "$NP ($FG)", str% "($NP $FG)", str% "($NP-$FG)"]

/-- The formats used for national output put punctuation between groups that are never empty, end with a group and write no digits but
the national prefix before the number. Their pattern must fit the whole number if they have a rule. -/
def readableNational (md : Metadata) : Bool :=
  [str% "AR", str% "BY", str% "GA"].contains md.id ||
  md.formats.all (fun f => f.format.all (fun c => c == '$' || isDigit c || (str% " -.()/").contains c) && endsInRef f.format &&
    f.pattern.re.filled && ((f.nationalPrefix.map fun r => knownRules.contains r && !f.leadingDigits.isEmpty &&
      (decide (2 ≤ f.format.count '$') || r == (str% "$NP$FG"))).getD true))

/-- The territory is accepted and its entry passes the checks. -/
def goodTerritory (m : Loader.Metadata) : Bool :=
  match Database.metadata compile m with
  | .ok md => good md && readable md && readableNational md
  | _ => false

end Phone.Builtin
