import Verif.Model.Types
/-! # Databases that answer alike -/

namespace Phone.Spec

/-- Two databases give the same answers to `by_id`, `by_code` and `region`. -/
structure SameAnswers (a b : Database) : Prop where
  byId : ∀ i, a.byId i = b.byId i
  byCode : ∀ c, a.byCode c = b.byCode c
  region : ∀ c, a.region c = b.region c

end Phone.Spec
