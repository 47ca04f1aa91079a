import Verif.Model.Formatter
/-! # Specification of chained settings -/

namespace Phone.Spec

/-- A call on a formatter. -/
inductive Setting where
  | database (db : Database)
  | mode (m : Formatter.Mode)
  | format (f : Format)

/-- The database set last. -/
def lastDatabase (l : List Setting) : Option Database := (l.filterMap fun | .database d => some d | _ => none).getLast?
/-- The mode set last. -/
def lastMode (l : List Setting) : Option Formatter.Mode := (l.filterMap fun | .mode m => some m | _ => none).getLast?
/-- The format set last. -/
def lastFormat (l : List Setting) : Option Format := (l.filterMap fun | .format f => some f | _ => none).getLast?

end Phone.Spec
