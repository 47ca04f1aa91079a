import Verif.Basic.Str
/-! # Unicode general categories

The `regex` crate classes `\p{Nd}`, `\p{N}`, `\p{L}` depend on the Unicode version compiled into the crate. The model
takes the non-ASCII part of these tables as a parameter, so every theorem holds for every Unicode version; the ASCII part
is fixed. -/

namespace Phone

/-- The non-ASCII part of the Unicode tables used by the regexes of the crate. -/
class UnicodeTables where
  /-- `\p{Nd}` on non-ASCII characters -/
  nd : Char → Bool
  /-- `\p{N}` on non-ASCII characters -/
  n : Char → Bool
  /-- `\p{L}` on non-ASCII characters -/
  l : Char → Bool
  /-- decimal digits are numbers -/
  nd_n : ∀ c, nd c = true → n c = true

/-- `\p{Nd}` (also `\d` in the `regex` crate). -/
def isNd [T : UnicodeTables] (c : Char) : Bool := if c.toNat < 128 then isDigit c else T.nd c

/-- `\p{N}`. -/
def isN [T : UnicodeTables] (c : Char) : Bool := if c.toNat < 128 then isDigit c else T.n c

/-- `\p{L}`. -/
def isL [T : UnicodeTables] (c : Char) : Bool := if c.toNat < 128 then isAlpha c else T.l c

theorem isN_of_isNd [T : UnicodeTables] {c : Char} (h : isNd c = true) : isN c = true := by
  unfold isNd at h
  unfold isN
  split at h <;> simp_all [UnicodeTables.nd_n]

theorem isNd_of_isDigit [UnicodeTables] {c : Char} (h : isDigit c = true) : isNd c = true := by
  unfold isNd
  have h2 : c.toNat < 128 := by
    simp only [isDigit, Bool.and_eq_true, decide_eq_true_eq] at h
    omega
  simp [h2, h]

end Phone
