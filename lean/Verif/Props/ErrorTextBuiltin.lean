import Verif.Props.ErrorText
import Verif.Props.Reads
/-! # C94 for the shipped database -/

namespace Phone.Builtin
variable [UnicodeTables]

/-- C94: with the shipped database `parse` fails with one of six texts. -/
theorem C94_builtin (country : Option Id) (s : Str) (e : ParseErr) (h : parse country s = .err e) :
    e.text ∈ [str% "not a number", str% "invalid country code", str% "the number is too short after the country code",
      str% "the number is too long", str% "malformed integer part in phone number: cannot parse integer from empty string",
      str% "malformed integer part in phone number: number too large to fit in target type"] :=
  C94_texts db (fun _ => firstWithLast) (fun _ => digitTemplates) country s e h

end Phone.Builtin
