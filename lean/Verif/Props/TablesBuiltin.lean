import Verif.Builtin.Db
import Verif.Props.Fields
import Verif.Props.Tables
/-! # C104 for the shipped metadata -/

namespace Phone.Builtin
variable {T T' : UnicodeTables}

theorem listRel_from {α β : Type} {R : α → β → Prop} {l : List α} {r : List β} (h : Spec.ListRel R l r) {b : β} (hb : b ∈ r) :
    ∃ a ∈ l, R a b := by
  induction h with
  | nil => cases hb
  | cons h _ ih =>
    rcases List.mem_cons.1 hb with rfl | hb
    · exact ⟨_, by simp, h⟩
    · obtain ⟨a, ha, h⟩ := ih hb
      exact ⟨a, by simp [ha], h⟩

/-- The transform rules and format texts of the shipped metadata are written in ASCII. -/
theorem ascii_texts : ∀ m ∈ Data.territories, ∀ t, (m.nationalPrefixTransformRule = some t ∨
    ∃ f, (f ∈ m.formats ∨ f ∈ m.internationalFormats) ∧ f.format = some t) → ∀ c ∈ t, c.toNat < 128 := by
  have key : Data.territories.all (fun m => (m.nationalPrefixTransformRule.toList ++
      (m.formats ++ m.internationalFormats).flatMap (·.format.toList)).all fun t => t.all fun c => decide (c.toNat < 128)) = true := by
    kernel_rfl
  simp only [List.all_eq_true, List.mem_append, List.mem_flatMap, Option.mem_toList, decide_eq_true_eq] at key
  intro m hm t ht c hc
  refine key m hm t ?_ c hc
  exact ht

theorem sameForDatabase : Spec.SameForDatabase T T' db := by
  refine ⟨fun md h t ht c hc h' => ?_, fun md h f hf c hc h' => ?_⟩
  all_goals
    obtain ⟨m, hm, he⟩ := entry_of_territory from_builtin h
    have hr := metadata_rel m md he
    have key := ascii_texts m hm
  · have := key t (.inl (by rw [← hr.nationalPrefixTransformRule]; exact ht)) c hc
    omega
  · have : ∃ g, (g ∈ m.formats ∨ g ∈ m.internationalFormats) ∧ g.format = some f.format := by
      rcases hf with hf | hf
      · obtain ⟨g, hg, hr⟩ := listRel_from hr.formats hf
        exact ⟨g, .inl hg, hr.format⟩
      · obtain ⟨g, hg, hr⟩ := listRel_from hr.internationalFormats hf
        exact ⟨g, .inr hg, hr.format⟩
    have := key f.format (.inr this) c hc
    omega

/-- C104 for the shipped metadata: the version of Unicode matters only for reading, and there only for the non-ASCII characters of
the text. -/
theorem C104_builtin :
    (∀ country s, Spec.SameTables T T' s → @parse T country s = @parse T' country s) ∧
    (∀ country s, (∀ c ∈ s, c.toNat < 128) → @parse T country s = @parse T' country s) ∧
    (∀ p mode, @format T p mode = @format T' p mode) ∧
    (∀ ε p, @isValid T ε p = @isValid T' ε p) ∧ (∀ ε p, @numberType T ε p = @numberType T' ε p) ∧
    ∀ p, @countryId T p = @countryId T' p := by
  refine ⟨fun c s h => C104_parse db sameForDatabase c s h, fun c s h => C104_parse db sameForDatabase c s fun d hd h' => ?_,
    fun p mode => C104_format db p mode none (.inr ⟨sameForDatabase, by simp⟩), fun ε p => (C104_questions db p).1,
    fun ε p => (C104_questions db p).2.2.1, fun p => (C104_questions (ε := ParseErr) db p).2.2.2⟩
  have := h d hd
  omega

end Phone.Builtin
