import Verif.Props.ParseErrors
import Verif.Props.Trunk
import Verif.Model.ErrorText
/-! # C94: the texts of parse errors -/

namespace Phone
open Helper
variable [UnicodeTables]

omit [UnicodeTables] in
/-- C94: different errors have different texts. -/
theorem C94_distinct (e e' : ParseErr) (h : e.text = e'.text) : e = e' := by
  cases e with
  | malformedInteger k => cases e' with
    | malformedInteger k' =>
      have := List.append_cancel_left h
      cases k <;> cases k' <;> first | rfl | (exact absurd this (by decide))
    | _ => cases k <;> exact absurd h (by decide)
  | _ => cases e' with
    | malformedInteger k => cases k <;> exact absurd h (by decide)
    | _ => first | rfl | (exact absurd h (by decide))

/-- C94: `parse` fails with one of six texts: the number is never said to be too short after the dialling prefix, and digits are never
said to be invalid (in a database whose transform rules write digits and refer to groups that can be filled). -/
theorem C94_texts (db : Database) (hf : ∀ md, Spec.Entry db md → Spec.FirstWithLast md)
    (ht : ∀ md, Spec.Entry db md → ∀ t, md.nationalPrefixTransformRule = some t → Spec.DigitTemplate t)
    (country : Option Id) (s : Str) (e : ParseErr) (h : parseWith db country s = .err e) :
    e.text ∈ [str% "not a number", str% "invalid country code", str% "the number is too short after the country code",
      str% "the number is too long", str% "malformed integer part in phone number: cannot parse integer from empty string",
      str% "malformed integer part in phone number: number too large to fit in target type"] := by
  have key : e ≠ .tooShortAfterIdd ∧ e ≠ .malformedInteger .invalidDigit := by
    refine ⟨fun he => C50_never_tooShortAfterIdd db country s (he ▸ h), ?_⟩
    have digits : ∀ {p : Str}, Digits p → parseUInt u16Bound p = none → intErr u16Bound p ≠ .invalidDigit := by
      intro p hp hu
      rcases intErr_digits (by decide) hp hu with ⟨_, h⟩ | ⟨_, _, h⟩ <;> rw [h] <;> simp
    rintro rfl
    rcases parseWith_err h with ⟨h, _⟩ | ⟨n0, h0, hv, ⟨_, h⟩ | ⟨n1, h1, post, ⟨_, p, hp, hu, h⟩ | ⟨md, n2, h2, h3, h4⟩⟩⟩
    · cases h
    · exact (h.malformed _ rfl).2 rfl
    · simp only [ParseErr.malformedInteger.injEq] at h
      exact digits (post.norm.pref p hp) hu h.symm
    · have hc : n1.carrier = none := by rw [post.carrier]; exact (readNumber_ok h0).1
      have hd : Digits n2.national := by
        cases md with
        | none =>
          simp only [stripNational, Outcome.ok.injEq] at h3
          rw [← h3]; exact post.norm.national
        | some md =>
          have he := parseMeta_entry h2
          obtain ⟨out, car, hp⟩ := nationalPart_total md (hf md he) n1.national
          rw [stripNational_of hc hp, Outcome.ok.injEq] at h3
          rw [← h3]
          exact nationalPart_digits (ht md he) post.norm.national hp
      rcases finishParse_err hd h4 with ⟨h, _⟩ | ⟨h, _⟩ | ⟨_, ⟨p, hp, hu, h⟩ | ⟨_, _, h⟩⟩
      · cases h
      · cases h
      · simp only [ParseErr.malformedInteger.injEq] at h
        rw [(stripNational_ok post.norm.national hc h3).2.1] at hp
        exact digits (post.norm.pref p hp) hu h.symm
      · cases h
  cases e with
  | malformedInteger k => cases k <;> first | decide | exact absurd rfl key.2
  | tooShortAfterIdd => exact absurd rfl key.1
  | _ => decide

/-- All six occur. -/
example : parseWith Sample.plainDb none (str% "x") = .err .noNumber ∧
    parseWith Sample.plainDb none (str% "6502530000") = .err .invalidCountryCode ∧
    parseWith Sample.plainDb (some .US) (str% "12") = .err .tooShortNsn ∧
    parseWith Sample.plainDb none (str% "+7 1234567 1234567 1234") = .err .tooLong ∧
    parseWith Sample.plainDb none (str% "+abc-1234") = .err (.malformedInteger .empty) ∧
    parseWith Sample.plainDb none (str% "+99999-1234") = .err (.malformedInteger .posOverflow) :=
  ⟨by kernel_rfl, by kernel_rfl, by kernel_rfl, by kernel_rfl, by kernel_rfl, by kernel_rfl⟩

end Phone
