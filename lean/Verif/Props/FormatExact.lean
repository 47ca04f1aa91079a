import Verif.Props.Format
/-! # C64: what is written in international and national format -/

namespace Phone
open Formatter
variable [UnicodeTables]

/-- C64: international output consists of a plus sign, the calling code, a space, the national number grouped by the format used (the
caller's, or else the first applicable one of the region; the bare digits if there is none), and the extension if there is one. -/
theorem C64_international (db : Database) (n : PhoneNumber) (custom : Option Format) (s : Str)
    (h : fmt db n .international custom = .ok s) :
    ∃ md nat, Spec.MetadataFor db n md ∧
      s = ['+'] ++ decStr n.code.value ++ [' '] ++ nat ++ Spec.extensionText md .international n.extension ∧
      ((Spec.NoneChosen md n.national.display .international custom ∧ nat = n.national.display) ∨
        ∃ f, Spec.Chosen md n.national.display .international custom f ∧ nat = f.pattern.replace n.national.display f.format) := by
  unfold fmt at h
  cases hm : (db.byCode n.code.value).bind List.head? with
  | none => rw [hm] at h; cases h
  | some md =>
    rw [hm] at h
    simp only [body, Outcome.bind_eq_ok, Outcome.ok.injEq] at h
    obtain ⟨nat, h1, h2⟩ := h
    have hch := formatter_chosen (md := md) (v := n.national.display) (mode := .international) (custom := custom)
    refine ⟨md, nat, metadataFor_iff.1 hm, ?_, ?_⟩
    · rw [← h2]; unfold extSuffix Consts.defaultExtnPrefix; cases n.extension <;> simp [Spec.extensionText]
    · unfold internationalPart at h1
      split at h1
      · rename_i f hf
        refine .inr ⟨f, (hch.1 f).1 hf, ?_⟩
        simp only [replace, template, Outcome.bind_ok, Outcome.pure_eq, Outcome.ok.injEq] at h1
        exact h1.symm
      · rename_i hf
        exact .inl ⟨hch.2.1 hf, by simpa using h1.symm⟩

/-- C64: national output consists of the national number grouped by the format used and the extension if there is one. The template of
the format is used as it is if no rule applies; otherwise its first group reference is replaced by the rule, in which `$NP`, `$CC` and
`$FG` stand for the national prefix, the carrier code and that group reference. -/
theorem C64_national (db : Database) (n : PhoneNumber) (custom : Option Format) (s : Str)
    (h : fmt db n .national custom = .ok s) :
    ∃ md nat, Spec.MetadataFor db n md ∧ s = nat ++ Spec.extensionText md .national n.extension ∧
      ((Spec.NoneChosen md n.national.display .national custom ∧ nat = n.national.display) ∨
        ∃ f, Spec.Chosen md n.national.display .national custom f ∧
          (Spec.ruleFor f n.carrier = none → nat = f.pattern.replace n.national.display f.format) ∧
          ∀ (rule : List Spec.RulePart) (a b : Str) (d : Char), Spec.ruleFor f n.carrier = some (Spec.ruleSource rule) →
            f.format = a ++ '$' :: d :: b → isDigit d = true → ¬ Spec.MentionsGroup a →
            '$' ∉ md.nationalPrefix.getD [] → '$' ∉ n.carrier.getD [] →
            Spec.PlainRule (md.nationalPrefix.getD []) (if f.domesticCarrier = none then [] else n.carrier.getD []) rule →
            nat = f.pattern.replace n.national.display (a ++ Spec.ruleMeaning (md.nationalPrefix.getD [])
              (if f.domesticCarrier = none then [] else n.carrier.getD []) ['$', d] rule ++ b)) := by
  unfold fmt at h
  cases hm : (db.byCode n.code.value).bind List.head? with
  | none => rw [hm] at h; cases h
  | some md =>
    rw [hm] at h
    simp only [body, Outcome.bind_eq_ok, Outcome.ok.injEq] at h
    obtain ⟨nat, h1, h2⟩ := h
    have hch := formatter_chosen (md := md) (v := n.national.display) (mode := .national) (custom := custom)
    refine ⟨md, nat, metadataFor_iff.1 hm, ?_, ?_⟩
    · rw [← h2]; unfold extSuffix Consts.defaultExtnPrefix; cases n.extension <;> simp [Spec.extensionText]
    · unfold nationalPart at h1
      split at h1
      · rename_i f hf
        refine .inr ⟨f, (hch.1 f).1 hf, ?_, ?_⟩
        · intro hr
          rw [nationalWith_eq, hr] at h1
          simp only [replace, template, Outcome.bind_ok, Outcome.pure_eq, Outcome.ok.injEq] at h1
          exact h1.symm
        · intro rule a b d hr hfmt hd ha hnp hcc hp
          rw [C56_rule md _ _ f rule a b d hr hfmt hd ha hnp hcc hp, Outcome.ok.injEq] at h1
          exact h1.symm
      · rename_i hf
        exact .inl ⟨hch.2.1 hf, by simpa using h1.symm⟩

/-- A format of the caller with dots, used although the region has one of its own; and what the region's own gives. -/
example : fmt Sample.db ⟨⟨1, .plus⟩, ⟨6502530000⟩, some (str% "12"), none⟩ .international
      (some ⟨((Sample.db.byId (str% "US")).bind (·.formats.head?)).get (by kernel_rfl) |>.pattern, str% "$1.$2.$3", [], none, false, none⟩) =
        .ok (str% "+1 650.253.0000 ext. 12") ∧
    fmt Sample.db ⟨⟨1, .plus⟩, ⟨6502530000⟩, some (str% "12"), none⟩ .international = .ok (str% "+1 650-253-0000 ext. 12") ∧
    fmt Sample.db ⟨⟨1, .plus⟩, ⟨6502530000⟩, none, none⟩ .national = .ok (str% "(650) 253-0000") :=
  ⟨by kernel_rfl, by kernel_rfl, by kernel_rfl⟩

end Phone
