import Verif.Props.Builtin
import Verif.Props.Whole
/-! # C66 for the shipped database -/

namespace Phone.Builtin
open Database
variable [UnicodeTables]

/-- The shipped database meets the conditions of C66. -/
theorem db_orderly : Spec.Orderly compile Data.territories db where
  made := from_builtin
  ids := ids_nodup
  shared := shared
  codes := fun _ h => by have := (good_iff h).1; omega
  groups := fun _ => firstWithLast
  templates := fun _ => digitTemplates

/-- C66 for the shipped database: `parse` gives an outcome exactly if it is what the text means. -/
theorem C66_builtin (country : Option Id) (s : Str) (hs : Spec.MarksNotDigits s) (o : Outcome ParseErr PhoneNumber) :
    parse country s = o ↔ Spec.Parses db country s o :=
  C66_exact db_orderly country (fun c _ => id_present c) s hs o

end Phone.Builtin
