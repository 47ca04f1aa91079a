import Verif.Model.Validator
import Verif.Regex.Lemmas
/-! # Specification of number types and lengths -/

namespace Phone.Spec

section
variable [UnicodeTables]

/-- The descriptor covers the digits `v`: their count is listed (if any count is listed) and some initial part of `v` is a
word of the pattern. Counts are taken modulo 65536. -/
def Accepts (d : Descriptor) (v : Str) : Prop :=
  (d.possibleLength = [] ∨ byteLen v % 65536 ∈ d.possibleLength) ∧ ∃ w q, v = w ++ q ∧ Lang d.nationalNumber.re 0 w q

/-- A descriptor that may be missing covers `v`. -/
def AcceptsOpt (o : Option Descriptor) (v : Str) : Prop := ∃ d, o = some d ∧ Accepts d v

/-- The special categories, most important first. -/
def categories (d : Descriptors) : List (PType × Option Descriptor) :=
  [(.premiumRate, d.premiumRate), (.tollFree, d.tollFree), (.sharedCost, d.sharedCost), (.voip, d.voip),
   (.personalNumber, d.personalNumber), (.pager, d.pager), (.uan, d.uan), (.voicemail, d.voicemail)]

/-- The descriptors that give a number a type. -/
def typed (d : Descriptors) : List (Option Descriptor) := (categories d).map Prod.snd ++ [d.fixedLine, d.mobile]

/-- Fixed lines and mobiles are present and have the same pattern text. -/
def SamePattern (d : Descriptors) : Prop :=
  ∃ f m, d.fixedLine = some f ∧ d.mobile = some m ∧ f.nationalNumber.src = m.nationalNumber.src

end

/-- Judgement of a digit count `n` against the listed counts and the counts of local numbers. -/
inductive LengthIs (possible loc : List Nat) (n : Nat) : Validation → Prop where
  | nothing : possible = [] → LengthIs possible loc n .invalidLength
  | loc : possible ≠ [] → n ∈ loc → LengthIs possible loc n .isPossibleLocalOnly
  | listed : n ∉ loc → n ∈ possible → LengthIs possible loc n .isPossible
  | short : possible ≠ [] → n ∉ loc → (∀ k ∈ possible, n < k) → LengthIs possible loc n .tooShort
  | long : possible ≠ [] → n ∉ loc → (∀ k ∈ possible, k < n) → LengthIs possible loc n .tooLong
  | between : n ∉ loc → n ∉ possible → (∃ k ∈ possible, k < n) → (∃ k ∈ possible, n < k) →
      LengthIs possible loc n .invalidLength

/-- There are fewer digits than the first listed length, and local numbers do not have that many. (Counts are taken modulo 65536.) -/
def TooFew (possible loc : List Nat) (v : Str) : Prop :=
  ∃ k ks, possible = k :: ks ∧ byteLen v % 65536 < k ∧ byteLen v % 65536 ∉ loc

/-- Some length is listed, and local numbers have that many digits, or the count is listed and lies between the first and the last
listed length. -/
def PossibleCount (possible loc : List Nat) (v : Str) : Prop :=
  ∃ k l, possible.head? = some k ∧ possible.getLast? = some l ∧
    (byteLen v % 65536 ∈ loc ∨ byteLen v % 65536 = k ∨ byteLen v % 65536 ∈ possible ∧ k ≤ byteLen v % 65536 ∧ byteLen v % 65536 ≤ l)

/-- Where the description of each kind of number is kept: no description of its own exists for numbers that may be fixed lines or
mobiles, they use the one of fixed lines; a number of unknown kind uses the general one. -/
inductive Describes (d : Descriptors) : PType → Option Descriptor → Prop where
  | unknown : Describes d .unknown (some d.general)
  | fixedLine : Describes d .fixedLine d.fixedLine
  | fixedLineOrMobile : Describes d .fixedLineOrMobile d.fixedLine
  | mobile : Describes d .mobile d.mobile
  | tollFree : Describes d .tollFree d.tollFree
  | premiumRate : Describes d .premiumRate d.premiumRate
  | sharedCost : Describes d .sharedCost d.sharedCost
  | personalNumber : Describes d .personalNumber d.personalNumber
  | voip : Describes d .voip d.voip
  | pager : Describes d .pager d.pager
  | uan : Describes d .uan d.uan
  | emergency : Describes d .emergency d.emergency
  | voicemail : Describes d .voicemail d.voicemail
  | shortCode : Describes d .shortCode d.shortCode
  | standardRate : Describes d .standardRate d.standardRate
  | carrier : Describes d .carrier d.carrier
  | noInternational : Describes d .noInternational d.noInternational

end Phone.Spec
