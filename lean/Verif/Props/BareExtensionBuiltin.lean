import Verif.Props.BareExtension
import Verif.Props.InternationalBuiltin
/-! # C105 for the shipped database -/

namespace Phone.Builtin
variable [UnicodeTables]

theorem announces_entry {md : Metadata} (h : Spec.Entry db md) (hh : Spec.extensionPrefix md ≠ ['#']) :
    Spec.Announces (Spec.extensionPrefix md) ∧ Spec.MarksNotDigits (Spec.extensionPrefix md) := by
  refine ⟨?_, (readable_iff h).2.2⟩
  have hr := entry_readable h
  simp only [readable, Bool.and_eq_true, List.contains_iff_mem] at hr
  apply announces_known
  have := hr.2
  simp only [List.mem_cons, List.not_mem_nil, or_false] at this ⊢
  rcases this with h | h | h | h | h | h
  · exact .inl h
  · exact .inr (.inl h)
  · exact .inr (.inr (.inl h))
  · exact .inr (.inr (.inr (.inl h)))
  · exact absurd h hh
  · exact .inr (.inr (.inr (.inr h)))

/-- C105 for the shipped database: a number read from a text with a space survives being written in international format and read
again, with its extension, of whatever length, if national prefix handling leaves its national number alone; unless its extension is
empty and its region introduces extensions with `#`. -/
theorem C105_builtin (country : Option Id) (s : Str) (p : PhoneNumber) (hsp : ' ' ∈ s) (hs : Spec.MarksNotDigits s)
    (h : parse country s = .ok p) (hu : Spec.Untouched db p.code.value p.national.display)
    (hh : p.extension = some [] → ∀ md, Spec.MetadataFor db p md → Spec.extensionPrefix md ≠ ['#']) :
    ∃ t, format p .international = .ok t ∧ parse none t = .ok { p with code := ⟨p.code.value, .plus⟩, carrier := none } := by
  by_cases he : p.extension = some []
  · obtain ⟨h1, h2, _, h3, _⟩ := C06_builtin country s p h
    have hv : p.national.value ≠ 0 := by intro e; rw [e] at h3; exact absurd h3 (by decide)
    obtain ⟨t, ht⟩ := C57_parsed_formats country s p h .international
    refine ⟨t, ht, C105_international compile Data.territories db from_builtin ids_nodup shared prefixFree p
      (ordinary ht ⟨h1, h2⟩ hv) hu none he (fun md hmd => ⟨announces_entry ?_ (hh he md hmd), fun f hf => chosen_international hmd hf⟩)
      t ht none (fun _ h => by cases h)⟩
    obtain ⟨l, hl⟩ := hmd
    exact .inr ⟨_, _, hl, by simp⟩
  · refine C70_parsed country s p h (fun e hx => ⟨fun h0 => he (by rw [hx, h0]), ?_⟩) hu
    apply Nat.le_of_not_lt
    intro h8
    exact (C105_long db country s p hs h e hx h8).1 hsp

/-- Danish numbers read from text meet the hypotheses: the extension of any number of digits that was read is kept. -/
example (country : Option Id) (s : Str) (v : NationalNumber) (e : Str) (h : parse country (s ++ [' ']) = .ok ⟨⟨45, .number⟩, v, some e, none⟩)
    (hs : Spec.MarksNotDigits (s ++ [' '])) (hne : e ≠ []) :
    ∃ t, format ⟨⟨45, .number⟩, v, some e, none⟩ .international = .ok t ∧ parse none t = .ok ⟨⟨45, .plus⟩, v, some e, none⟩ :=
  C105_builtin country _ _ (by simp) hs h (dk_untouched _) (fun h => absurd (by simpa using h) hne)

end Phone.Builtin
