import Verif.Spec.Parse
/-! # Specification of when two versions of Unicode agree -/

namespace Phone.Spec

/-- Two versions of the Unicode tables class the non-ASCII characters of a text alike as digits, numbers and letters. -/
def SameTables (T T' : UnicodeTables) (s : Str) : Prop :=
  ∀ c ∈ s, 128 ≤ c.toNat → T.nd c = T'.nd c ∧ T.n c = T'.n c ∧ T.l c = T'.l c

/-- The two versions class the characters of the transform rules and format texts of the database alike. -/
structure SameForDatabase (T T' : UnicodeTables) (db : Database) : Prop where
  rules : ∀ md, Entry db md → ∀ t, md.nationalPrefixTransformRule = some t → SameTables T T' t
  formats : ∀ md, Entry db md → ∀ f, f ∈ md.formats ∨ f ∈ md.internationalFormats → SameTables T T' f.format

end Phone.Spec
