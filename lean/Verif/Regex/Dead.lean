import Verif.Regex.Lang
/-! # Regular expressions that need a character outside a given set -/

namespace Phone
variable [UnicodeTables]

omit [UnicodeTables] in
/-- Every match of the expression has a character in a class for which `ok` is false. -/
def dead (ok : Cls → Bool) : Re → Bool
  | .eps | .bos | .eos | .star _ _ => false
  | .cls k => !ok k
  | .cat a b => dead ok a || dead ok b
  | .alt a b => dead ok a && dead ok b
  | .grp _ a => dead ok a

theorem not_dead_of_lang {ok : Cls → Bool} {r : Re} {p : Nat} {w q : Str} (h : Lang r p w q)
    (hok : ∀ k, ok k = false → ∀ c ∈ w, k.mem c = false) : dead ok r = false := by
  induction h with
  | eps => rfl
  | @cls k c p q hk =>
    simp only [dead]
    cases ho : ok k with
    | true => rfl
    | false => have := hok k ho c (by simp); rw [hk] at this; cases this
  | cat _ _ ih1 ih2 =>
    simp only [dead, Bool.or_eq_false_iff]
    exact ⟨ih1 fun k hk c hc => hok k hk c (by simp [hc]), ih2 fun k hk c hc => hok k hk c (by simp [hc])⟩
  | altL _ ih => simp only [dead, ih hok, Bool.false_and]
  | altR _ ih => simp only [dead, ih hok, Bool.and_false]
  | starNil => rfl
  | starCons _ _ _ _ _ => rfl
  | grp _ ih => exact ih hok
  | bos => rfl
  | eos => rfl

/-- If every match needs a character outside `S`, nothing is found in a string over `S`. -/
theorem find_none_of_dead {r : Regex} {S s : Str} (h : dead (fun k => S.any k.mem) r.re = true) (hs : ∀ c ∈ s, c ∈ S) :
    r.find s = none := by
  rw [find_eq_none]
  rintro a b rfl ⟨w, q, rfl, hl⟩
  have := not_dead_of_lang (ok := fun k => S.any k.mem) hl ?_
  · rw [h] at this; cases this
  · intro k hk c hc
    simp only [List.any_eq_false] at hk
    simpa using hk c (hs c (by simp [hc]))

end Phone
