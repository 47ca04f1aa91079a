import Verif.Builtin.Examples
import Verif.Props.ParseErrors
import Verif.Props.Scripts
import Verif.Props.WholeBuiltin
/-! # C102 for the shipped metadata -/

namespace Phone.Builtin
variable [UnicodeTables]

/-- C102 for the shipped database. -/
theorem C102_builtin (country : Option Id) (s s' : Str) (hs : Spec.MarksNotDigits s)
    (hs' : Spec.MarksNotDigits s') (r r' : Spec.Reading) (hr : Spec.Reads s (some r)) (hr' : Spec.Reads s' (some r'))
    (hn : r'.number = r.number) (hc : Spec.SameDigitsOpt r.code r'.code) (he : Spec.SameDigitsOpt r.extension r'.extension) :
    parse country s' = parse country s ∧ ((∃ c ∈ r.number, Spec.ForeignDigit c) → parse country s = .err .noNumber) :=
  ⟨C102_elsewhere db_orderly country (fun c _ => id_present c) s s' hs hs' r r' hr hr' hn hc he,
    C102_number db country s hs r hr⟩

/-- A calling code in full-width digits is understood if a hyphen follows it (the text is read by RFC 3966), in the rest it is not. -/
theorem wide_code : parse none (str% "+１-6502530000") = .ok ⟨⟨1, .plus⟩, ⟨6502530000⟩, none, none⟩ ∧
    parse none (str% "+１６５０２５３００００") = .err .noNumber :=
  ⟨locally_builtin none _ ⟨⟨1, .plus⟩, ⟨6502530000⟩, none, none⟩ (by kernel_rfl), C20_rejected db none _ (by decide)⟩

end Phone.Builtin
