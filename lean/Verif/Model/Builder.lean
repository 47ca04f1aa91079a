import Verif.Model.Formatter
/-! # The builder of `/repo/src/formatter.rs` -/

namespace Phone

/-- `Formatter`, `/repo/src/formatter.rs:40-46`. References are values. -/
structure Builder where
  number : PhoneNumber
  database : Option Database
  mode : Formatter.Mode
  format : Option Format

namespace Builder

/-- `Formatter::database`, `/repo/src/formatter.rs:50-57`. -/
def setDatabase (b : Builder) (db : Database) : Builder := ⟨b.number, some db, b.mode, b.format⟩

/-- `Formatter::mode`, `/repo/src/formatter.rs:60-63`. -/
def setMode (b : Builder) (m : Formatter.Mode) : Builder := { b with mode := m }

/-- `Formatter::with`, `/repo/src/formatter.rs:66-73`. -/
def setFormat (b : Builder) (f : Format) : Builder := ⟨b.number, b.database, b.mode, some f⟩

/-- `format`, `/repo/src/formatter.rs:77-84`, and `PhoneNumber::format`, `/repo/src/phone_number.rs:194-196`. -/
def format_ (n : PhoneNumber) : Builder := ⟨n, none, .e164, none⟩

/-- `format_with`, `/repo/src/formatter.rs:88-98`, and `PhoneNumber::format_with`, `/repo/src/phone_number.rs:199-204`. -/
def formatWith (db : Database) (n : PhoneNumber) : Builder := ⟨n, some db, .e164, none⟩

/-- `Display for Formatter`, `/repo/src/formatter.rs:100-206`; `dflt` is the built-in database `DATABASE`. -/
def fmt [UnicodeTables] (dflt : Database) (b : Builder) : Outcome Formatter.FmtErr Str :=
  Formatter.fmt (b.database.getD dflt) b.number b.mode b.format

/-- `Display for PhoneNumber`, `/repo/src/phone_number.rs:150-154`. -/
def toText [UnicodeTables] (dflt : Database) (n : PhoneNumber) : Outcome Formatter.FmtErr Str := (format_ n).fmt dflt

end Builder
end Phone
