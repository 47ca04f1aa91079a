import Verif.Spec.Dialling
import Verif.Spec.Natural
import Verif.Spec.Rfc3966
import Verif.Spec.Trunk
/-! # Specification of the whole parser

What a text means, from the text to the number or the error: which part of it is read as what, what its digits are, where the
calling code comes from, and what is left as the national number. -/

namespace Phone.Spec

/-- What is taken out of a text: the number, a calling code written apart from it, and an extension. -/
structure Reading where
  number : Str
  code : Option Str := none
  extension : Option Str := none

/-- The parameters of a `tel:` text, as far as they are well formed: `;name=value` as long as possible, again and again. -/
inductive Params : Str → List (Str × Str) → Prop where
  | stop {s : Str} : (∀ k r, (∀ c ∈ k, isNameCharacter c = true) → s ≠ ';' :: (k ++ '=' :: r)) → Params s []
  | param {k v r : Str} {ps : List (Str × Str)} : (∀ c ∈ k, isNameCharacter c = true) → (∀ c ∈ v, isValueCharacter c = true) →
      (∀ c, r.head? = some c → isValueCharacter c = false) → Params r ps → Params (';' :: (k ++ '=' :: (v ++ r))) ((k, v) :: ps)

/-- The value of the last parameter with the given name. -/
def lastParam (ps : List (Str × Str)) (name : Str) : Option Str := ((ps.filter fun p => p.1 == name).getLast?).map Prod.snd

/-- `t` is the text `s` without the `tel:` it may begin with. -/
def WithoutScheme (s t : Str) : Prop :=
  (∃ sch, telScheme sch ∧ s = sch ++ t) ∨ (s = t ∧ ∀ sch r, telScheme sch → s ≠ sch ++ r)

/-- The text is read as an RFC 3966 number: it has no space; after `tel:`, if any, it has a number of hexadecimal digits and
separators and after that nothing or parameters. A plus sign introduces a calling code that reaches to the first separator. -/
inductive TelReading (s : Str) : Reading → Prop where
  | global {p number rest : Str} {ps : List (Str × Str)} : ' ' ∉ s → WithoutScheme s ('+' :: (p ++ (number ++ rest))) →
      p ≠ [] → (∀ c ∈ p, isSeparator c = false) → (∃ c, number.head? = some c ∧ isSeparator c = true) →
      (∀ c ∈ number, isPhoneDigit c = true) → (rest = [] ∨ rest.head? = some ';') → Params rest ps →
      TelReading s ⟨number, some p, lastParam ps (str% "ext")⟩
  | local {number rest : Str} {ps : List (Str × Str)} : ' ' ∉ s → WithoutScheme s (number ++ rest) →
      number ≠ [] → (∀ c ∈ number, isPhoneDigit c = true) → (rest = [] ∨ rest.head? = some ';') → Params rest ps →
      TelReading s ⟨number, (lastParam ps (str% "phone-context")).map dropPlus, lastParam ps (str% "ext")⟩

/-- The international part of the origin: the digits `ds` of a number, written `number`, are those of an international number, of
which `rest` remain after an international dialling prefix, or all if there is none; a dialling prefix does not count if a zero
follows it. -/
inductive International [UnicodeTables] (db : Database) (country : Option Id) (number ds : Str) : Source → Str → Prop where
  | plus : (∃ c, number.head? = some c ∧ isPlus c = true) → (∀ rest, Dialled db country ds rest → ['0'] <+: rest) →
      International db country number ds .plus ds
  | plusDialled {rest : Str} : (∃ c, number.head? = some c ∧ isPlus c = true) → Dialled db country ds rest → ¬ ['0'] <+: rest →
      International db country number ds .plus rest
  | dialled {rest : Str} : (∀ c, number.head? = some c → isPlus c = false) → Dialled db country ds rest → ¬ ['0'] <+: rest →
      International db country number ds .idd rest

section
variable [UnicodeTables]

/-- What is read from a text. -/
inductive Reads (s : Str) : Option Reading → Prop where
  | tel {r : Reading} : TelReading s r → Reads s (some r)
  | nothing : (∀ r, ¬ TelReading s r) → (∀ x, ¬ Candidate s x) → Reads s none
  | plain {x : Str} : (∀ r, ¬ TelReading s r) → Candidate s x → NoExtension x → Reads s (some ⟨x, none, none⟩)
  | extended {x a e : Str} : (∀ r, ¬ TelReading s r) → Candidate s x → Extension x a (some e) → Reads s (some ⟨a, none, some e⟩)
  | refused {x a : Str} : (∀ r, ¬ TelReading s r) → Candidate s x → Extension x a none → Reads s none

/-- The digits of the reading are those of no international number. -/
def Domestic (db : Database) (country : Option Id) (number ds : Str) : Prop :=
  (∀ c, number.head? = some c → isPlus c = false) ∧ ∀ rest, Dialled db country ds rest → ['0'] <+: rest

/-- The calling code of a reading whose digits are `ds`, where it comes from, and the digits that remain. -/
inductive Coded (db : Database) (country : Option Id) (r : Reading) (ds : Str) : Outcome ParseErr (Nat × Source × Str) → Prop where
  /-- With a calling code written apart, the number must have three digits. -/
  | apartShort {t : Str} : r.code = some t → ds.length ≤ 2 → Coded db country r ds (.err .tooShortNsn)
  /-- The calling code must have a digit. -/
  | apartEmpty {t : Str} : r.code = some t → 3 ≤ ds.length → Digitised (vanity r.number) t [] →
      Coded db country r ds (.err (.malformedInteger .empty))
  /-- It must fit into 16 bits. -/
  | apartLarge {t cs : Str} : r.code = some t → 3 ≤ ds.length → Digitised (vanity r.number) t cs → 65536 ≤ decVal cs →
      Coded db country r ds (.err (.malformedInteger .posOverflow))
  /-- It must be known. -/
  | apartUnknown {t cs : Str} : r.code = some t → 3 ≤ ds.length → Digitised (vanity r.number) t cs → cs ≠ [] → decVal cs < 65536 →
      db.byCode (decVal cs) = none → Coded db country r ds (.err .invalidCountryCode)
  | apart {t cs : Str} : r.code = some t → 3 ≤ ds.length → Digitised (vanity r.number) t cs → cs ≠ [] → decVal cs < 65536 →
      (db.byCode (decVal cs)).isSome → Coded db country r ds (.ok (decVal cs, .plus, ds))
  /-- An international number must have three digits. -/
  | short {src : Source} {rest : Str} : r.code = none → International db country r.number ds src rest → rest.length ≤ 2 →
      Coded db country r ds (.err .tooShortNsn)
  /-- It must begin with a known calling code. -/
  | unknown {src : Source} {rest : Str} : r.code = none → International db country r.number ds src rest → 3 ≤ rest.length →
      (['0'] <+: rest ∨ ∀ l, ¬ ShortestCode db rest l) → Coded db country r ds (.err .invalidCountryCode)
  | known {src : Source} {rest : Str} {l : Nat} : r.code = none → International db country r.number ds src rest → 3 ≤ rest.length →
      ¬ ['0'] <+: rest → ShortestCode db rest l → Coded db country r ds (.ok (decVal (rest.take l), src, rest.drop l))
  /-- A domestic number needs a reference country. -/
  | nowhere : r.code = none → Domestic db country r.number ds → country = none → Coded db country r ds (.err .invalidCountryCode)
  /-- It may begin with the calling code of that country. -/
  | own {c : Id} {md : Metadata} {rest : Str} : r.code = none → Domestic db country r.number ds → country = some c →
      db.byId c.asRef = some md → OwnCode md ds → ds = decStr md.countryCode ++ rest →
      Coded db country r ds (.ok (md.countryCode, .number, rest))
  | national {c : Id} {md : Metadata} : r.code = none → Domestic db country r.number ds → country = some c →
      db.byId c.asRef = some md → ¬ OwnCode md ds → Coded db country r ds (.ok (md.countryCode, .default, ds))

/-- The digits of an optional text. -/
inductive DigitisedOpt (v : Bool) : Option Str → Option Str → Prop where
  | none : DigitisedOpt v none none
  | some {t ds : Str} : Digitised v t ds → DigitisedOpt v (some t) (some ds)

/-- The national digits and the carrier: a number without any calling code belongs to the reference country, any other to the
region of its calling code. -/
inductive Remaining (db : Database) (country : Option Id) (code : Nat) (ds : Str) : Source → Str → Option Str → Prop where
  | national {c : Id} {md : Metadata} {out : Str} {car : Option Str} : country = some c → db.byId c.asRef = some md →
      NationalPart md ds out car → Remaining db country code ds .default out car
  | international {src : Source} {out : Str} {car : Option Str} : src ≠ .default → InternationalPart db code ds out car →
      Remaining db country code ds src out car

/-- What a text means with a reference country. -/
inductive Parses (db : Database) (country : Option Id) (s : Str) : Outcome ParseErr PhoneNumber → Prop where
  | nothing : Reads s none → Parses db country s (.err .noNumber)
  | notViable {r : Reading} : Reads s (some r) → ¬ Viable r.number → Parses db country s (.err .noNumber)
  | noCode {r : Reading} {ds : Str} {e : ParseErr} : Reads s (some r) → Viable r.number →
      Digitised (vanity r.number) r.number ds → Coded db country r ds (.err e) → Parses db country s (.err e)
  | judged {r : Reading} {ds rest out : Str} {code : Nat} {src : Source} {ext car : Option Str} {o : Outcome ParseErr PhoneNumber} :
      Reads s (some r) → Viable r.number → Digitised (vanity r.number) r.number ds → Coded db country r ds (.ok (code, src, rest)) →
      DigitisedOpt (vanity r.number) r.extension ext → Remaining db country code rest src out car →
      Verdict out (fun n => ⟨⟨code, src⟩, n, ext, car⟩) o → Parses db country s o

/-- What the description of the parser needs of a database (the shipped one has it, `Builtin.db_orderly`): it is made from territories
with distinct names; shared calling codes belong to countries; calling codes have 16 bits; transform rules use groups of their pattern
that take part in the match, and have only digits besides. -/
structure Orderly (compile : Str → Option Regex) (ms : List Loader.Metadata) (db : Database) : Prop where
  made : Database.from compile ms = .ok db
  ids : ((ms.filterMap (·.id)).filter (· ≠ worldId)).Nodup
  shared : SharedAreCountries db
  codes : ∀ md, Entry db md → md.countryCode < 65536
  groups : ∀ md, Entry db md → FirstWithLast md
  templates : ∀ md, Entry db md → ∀ t, md.nationalPrefixTransformRule = some t → DigitTemplate t

end
end Phone.Spec
