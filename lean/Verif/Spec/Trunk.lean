import Verif.Spec.NationalPrefix
import Verif.Spec.Region
import Verif.Regex.Replace
/-! # Specification of what becomes of national digits -/

namespace Phone.Spec
variable [UnicodeTables]

/-- The digits without the national prefix of the region, if they begin with it. -/
def dropPrefix (md : Metadata) (ds : Str) : Str :=
  match md.nationalPrefix with
  | some np => dropOnce np ds
  | none => ds

/-- The template by which a region rewrites digits for which its parsing pattern has the match `m`: its transform rule, provided the
last group of the pattern takes part in the match. -/
def Rewrites (md : Metadata) (re : Regex) (m : Match) (t : Str) : Prop :=
  md.nationalPrefixTransformRule = some t ∧ (m.get re.ngroups).isSome

/-- The digits and the carrier after the parsing pattern of the region has been applied to the digits `ds`. -/
inductive Trunk (md : Metadata) (ds : Str) : Str → Option Str → Prop where
  /-- Without a pattern the national prefix is removed. -/
  | plain : md.nationalPrefixForParsing = none → Trunk md ds (dropPrefix md ds) none
  /-- Digits that do not begin with a match of the pattern are kept. -/
  | noMatch {re : Regex} : md.nationalPrefixForParsing = some re → (∀ m, re.find ds = some m → m.pre ≠ []) → Trunk md ds ds none
  /-- A match without rewriting is removed; the carrier is the last group, the whole match if there is none. -/
  | removed {re : Regex} {m : Match} : md.nationalPrefixForParsing = some re → re.find ds = some m → m.pre = [] →
      (∀ t, ¬ Rewrites md re m t) → Trunk md ds m.post (m.get re.ngroups)
  /-- The match is replaced by the expanded template; the carrier is the first group. -/
  | rewritten {re : Regex} {m : Match} {t car : Str} : md.nationalPrefixForParsing = some re → re.find ds = some m → m.pre = [] →
      Rewrites md re m t → (Accepts md.descriptors.general ds → Accepts md.descriptors.general (expand m t ++ m.post)) →
      m.get 1 = some car →
      Trunk md ds (expand m t ++ m.post) (some car)
  /-- Rewriting must not turn digits the region's general description accepts into ones it does not. -/
  | kept {re : Regex} {m : Match} {t : Str} : md.nationalPrefixForParsing = some re → re.find ds = some m → m.pre = [] →
      Rewrites md re m t → Accepts md.descriptors.general ds → ¬ Accepts md.descriptors.general (expand m t ++ m.post) → Trunk md ds ds none

/-- The national digits and the carrier a region makes of the digits `ds`: after the pattern the national prefix is removed, unless
what remains would be too short for the region. -/
inductive NationalPart (md : Metadata) (ds : Str) : Str → Option Str → Prop where
  | used {out : Str} {car : Option Str} : Trunk md ds out car →
      ¬ TooFew md.descriptors.general.possibleLength md.descriptors.general.possibleLocalLength (dropPrefix md out) →
      NationalPart md ds (dropPrefix md out) car
  | unused {out : Str} {car : Option Str} : Trunk md ds out car →
      TooFew md.descriptors.general.possibleLength md.descriptors.general.possibleLocalLength (dropPrefix md out) →
      NationalPart md ds ds none

/-- The verdict on national digits: at least 2 and at most 17, not all zero, forming a number below 2^56. -/
inductive Verdict (ds : Str) (mk : NationalNumber → PhoneNumber) : Outcome ParseErr PhoneNumber → Prop where
  | short : ds.length < 2 → Verdict ds mk (.err .tooShortNsn)
  | long : 17 < ds.length ∨ 2 ^ 56 ≤ decVal ds ∧ 2 ≤ ds.length → Verdict ds mk (.err .tooLong)
  | zero : 2 ≤ ds.length → ds.length ≤ 17 → (∀ c ∈ ds, c = '0') → Verdict ds mk (.err (.malformedInteger .empty))
  | ok {n : NationalNumber} : 2 ≤ ds.length → ds.length ≤ 17 → (∃ c ∈ ds, c ≠ '0') → n.display = ds → Verdict ds mk (.ok (mk n))

/-- The digits begin with the calling code of the region and are not taken for a national number: the region's general description
does not accept them, or not their number. -/
def OwnCode (md : Metadata) (ds : Str) : Prop :=
  decStr md.countryCode <+: ds ∧ ¬ (Accepts md.descriptors.general ds ∧
    PossibleCount md.descriptors.general.possibleLength md.descriptors.general.possibleLocalLength ds)

/-- The national digits and the carrier of an international number with calling code `c` followed by the digits `r`: the region is
chosen by the digits without leading zeros; without one the digits are kept. -/
def InternationalPart (db : Database) (c : Nat) (r out : Str) (car : Option Str) : Prop :=
  (RegionOf db c (r.dropWhile (· == '0')) none ∧ out = r ∧ car = none) ∨
  ∃ md, RegionOf db c (r.dropWhile (· == '0')) (some md) ∧ NationalPart md r out car

end Phone.Spec
