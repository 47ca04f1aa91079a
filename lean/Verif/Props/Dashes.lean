import Verif.Props.RoundTrip
import Verif.Props.Dialling
import Verif.Props.Entries
/-! # C77: numbers written with a plus, separators and no space

A text that begins with a plus and has no space is read as in RFC 3966: everything up to the first separator is the calling code.
With a space it is read as an ordinary number, and the calling code is found among the digits. -/

namespace Phone
namespace Spec

/-- A plus, a group of digits, a separator, and then digits and separators. -/
structure Grouped (first rest text : Str) : Prop where
  digits : Digits first
  nonempty : first ≠ []
  text : ∃ sep b, text = '+' :: (first ++ sep :: b) ∧ isSeparator sep = true ∧
    (∀ c ∈ b, isDigit c = true ∨ isSeparator c = true) ∧ b.filter isDigit = rest

/-- An international number with calling code `c` and national digits `r`, written out in one of three ways: without any
formatting, with formatting characters among which there is a space, or with separators, the first right after the code. -/
inductive Written (c : Nat) (r : Str) : Str → Prop
  | bare : Written c r ('+' :: (decStr c ++ r))
  | spaced (b : Str) : Plain b → ' ' ∈ b → b.filter isDigit = decStr c ++ r → Written c r ('+' :: b)
  | grouped (t : Str) : Grouped (decStr c) r t → Written c r t

end Spec

open Helper
variable [UnicodeTables]

omit [UnicodeTables] in
theorem separator_plain {c : Char} (h : Spec.isSeparator c = true) : c ∈ plainChars ∧ c ≠ '+' ∧ isDigit c = false := by
  have h : c ∈ (str% "-.()") := by simpa [Spec.isSeparator] using h
  exact (by decide : ∀ c ∈ (str% "-.()"), c ∈ plainChars ∧ c ≠ '+' ∧ isDigit c = false) c h

/-- What is read from a grouped text. -/
theorem grouped_read {first rest text : Str} (h : Spec.Grouped first rest text) :
    ∃ nat, readNumber text = .ok { national := nat, pref := some first } ∧ (∀ c ∈ nat, c ∈ plainChars ∧ c ≠ '+') ∧
      nat.filter isDigit = rest ∧ ∀ c s, nat = c :: s → isDigit c = false := by
  obtain ⟨hd, hne, sep, b, rfl, hsep, hb, hr⟩ := h
  obtain ⟨s1, s2, s3⟩ := separator_plain hsep
  refine ⟨sep :: b, ?_, ?_, ?_, by rintro c s ⟨⟩; exact s3⟩
  · have := tel_read (t := ⟨some first, sep :: b, []⟩) ⟨?_, ⟨by simp, ?_⟩, by simp⟩
    · simpa [Spec.Tel.text, Spec.Tel.context, Spec.Tel.last] using this
    · rintro p ⟨⟩
      exact ⟨hd, hne, sep, b, rfl, hsep⟩
    · intro c hc
      rcases List.mem_cons.1 hc with rfl | hc
      · simp [Spec.isPhoneDigit, hsep]
      · rcases hb c hc with h | h <;> simp [Spec.isPhoneDigit, h]
  · intro c hc
    rcases List.mem_cons.1 hc with rfl | hc
    · exact ⟨s1, s2⟩
    · rcases hb c hc with h | h
      · exact ⟨mem_plain_of_digit h, by rintro rfl; revert h; decide⟩
      · exact ⟨(separator_plain h).1, (separator_plain h).2.1⟩
  · rw [List.filter_cons_of_neg (by simp [s3]), hr]

/-- A grouped text with at least three digits after the first group, in full. -/
theorem parse_grouped (db : Database) (country : Option Id) {first rest text : Str} (h : Spec.Grouped first rest text) (h3 : 3 ≤ rest.length) :
    parseWith db country text =
      (Outcome.okOr (.malformedInteger (intErr u16Bound first)) (parseUInt u16Bound first) >>= fun code =>
        if (db.byCode code).isNone then .err .invalidCountryCode
        else
          (parseMeta db country { national := rest, country := .plus, pref := some first } >>= fun md =>
            stripNational md { national := rest, country := .plus, pref := some first } >>= finishParse)) := by
  obtain ⟨nat, hread, hplain, hfilter, -⟩ := grouped_read h
  rw [parseWith_eq, hread]
  simp only [Outcome.bind_ok, afterRead]
  have hv : isViable nat = true := viable_plain (pl := []) (.inl rfl) hplain (by rw [hfilter]; exact h3)
  have hact : ∀ d : Str, Digits d → act (mapFor false) d = d := by
    intro d hd
    rw [act_plain (fun c hc => mem_plain_of_digit (hd c hc)) false, filter_digits hd]
  have hrest : Digits rest := by rw [← hfilter]; exact digits_filter _
  have hm : Consts.asciiMappings = mapFor false := rfl
  rw [hv]
  simp only [Bool.not_true, Bool.false_eq_true, if_false]
  unfold countryCode internationalPrefix
  simp only [alphaPhone_plain (fun c hc => (hplain c hc).1), Bool.false_eq_true, if_false, Option.isSome_some, if_true, Outcome.bind_ok]
  rw [hm]
  simp only [normalize, act_plain (fun c hc => (hplain c hc).1), hfilter, Option.map_some, hact _ h.digits, Option.map_none, hrest.byteLen,
    Consts.minLengthForNsn]
  rw [if_neg (by omega)]
  cases parseUInt u16Bound first with
  | none => rfl
  | some code =>
    simp only [Outcome.okOr_some, Outcome.bind_ok]
    split <;> rfl

/-! ## How the calling code is written does not matter to the later stages -/

theorem nationalNumber_withPref (md : Metadata) (n : Number) (x : Option Str) :
    nationalNumber (ε := ParseErr) md { n with pref := x } = nationalNumber md n >>= fun r => .ok { r with pref := x } := by
  unfold nationalNumber
  cases hre : md.nationalPrefixForParsing with
  | none =>
    cases md.nationalPrefix with
    | none => rfl
    | some pre => simp only [ite_bind, Outcome.bind_assoc, Outcome.bind_ok]
  | some re =>
    cases hm : re.find n.national with
    | none => simp only [hm]; rfl
    | some m =>
      simp only [hm, ite_bind, Outcome.bind_ok]
      split
      · rfl
      · cases md.nationalPrefixTransformRule with
        | none => simp only [Outcome.bind_assoc, ite_bind, Outcome.bind_ok]
        | some t =>
          cases m.get re.ngroups with
          | none => simp only [Outcome.bind_assoc, ite_bind, Outcome.bind_ok]
          | some l => simp only [Outcome.bind_assoc, ite_bind, Outcome.bind_ok]

theorem stripNational_withPref (md : Option Metadata) (n : Number) (x : Option Str) :
    stripNational md { n with pref := x } = stripNational md n >>= fun r => .ok { r with pref := x } := by
  unfold stripNational
  split
  · rfl
  · rename_i md
    simp only [nationalNumber_withPref, Outcome.bind_assoc, Outcome.bind_ok]
    congr 1
    funext r
    have : dropNationalPrefix md { r with pref := x } = dropNationalPrefix md r >>= fun r => .ok { r with pref := x } := by
      unfold dropNationalPrefix
      split
      · split
        · simp [Outcome.bind_assoc]
        · rfl
      · rfl
    rw [this]
    simp only [Outcome.bind_assoc, Outcome.bind_ok, Outcome.pure_eq]
    congr 1
    funext q
    split <;> rfl

theorem tail_withPref (db : Database) (country : Option Id) (n : Number) {x y : Str}
    (h : Outcome.okOr (ParseErr.malformedInteger (intErr u16Bound x)) (parseUInt u16Bound x) =
      Outcome.okOr (ParseErr.malformedInteger (intErr u16Bound y)) (parseUInt u16Bound y)) :
    (parseMeta db country { n with pref := some x } >>= fun md => stripNational md { n with pref := some x } >>= finishParse) =
      (parseMeta db country { n with pref := some y } >>= fun md => stripNational md { n with pref := some y } >>= finishParse) := by
  have hm : parseMeta db country { n with pref := some x } = parseMeta db country { n with pref := some y } := by
    unfold parseMeta prefixCode
    simp only [h]
  have hf : ∀ r : Number, finishParse { r with pref := some x } = finishParse { r with pref := some y } := by
    intro r
    unfold finishParse prefixCode
    simp only [h]
  rw [hm]
  refine Outcome.bind_congr fun md => ?_
  simp only [stripNational_withPref, Outcome.bind_assoc, Outcome.bind_ok, hf]

/-! ## The claims -/

/-- C77: two grouped texts whose first groups are the same number and whose other digits agree are read alike. The separators, their
places after the first and zeros in front of the calling code do not matter. -/
theorem C77_alike (db : Database) (country : Option Id) (first first' rest text text' : Str) (h : Spec.Grouped first rest text)
    (h' : Spec.Grouped first' rest text') (heq : decVal first = decVal first') (h3 : 3 ≤ rest.length) :
    parseWith db country text = parseWith db country text' := by
  have hu : Outcome.okOr (ParseErr.malformedInteger (intErr u16Bound first)) (parseUInt u16Bound first) =
      Outcome.okOr (ParseErr.malformedInteger (intErr u16Bound first')) (parseUInt u16Bound first') := by
    have hp : parseUInt u16Bound first = parseUInt u16Bound first' := by
      rw [parseUInt_digits h.digits h.nonempty, parseUInt_digits h'.digits h'.nonempty, heq]
    cases hn : parseUInt u16Bound first with
    | some v => rw [← hp, hn]; rfl
    | none =>
      have h1 := (intErr_digits (by decide) h.digits hn).resolve_left fun e => h.nonempty e.1
      have h2 := (intErr_digits (by decide) h'.digits (hp ▸ hn)).resolve_left fun e => h'.nonempty e.1
      rw [← hp, hn, h1.2.2, h2.2.2]
  rw [parse_grouped db country h h3, parse_grouped db country h' h3, hu]
  refine Outcome.bind_congr fun code => ?_
  rw [tail_withPref db country { national := rest, country := .plus } hu]

/-- C77: the first group alone decides the calling code, whatever the reference country. -/
theorem C77_first_group (db : Database) (country : Option Id) (first rest text : Str) (h : Spec.Grouped first rest text) (h3 : 3 ≤ rest.length) :
    (65536 ≤ decVal first → parseWith db country text = .err (.malformedInteger .posOverflow)) ∧
    (decVal first < 65536 → db.byCode (decVal first) = none → parseWith db country text = .err .invalidCountryCode) ∧
    ∀ p, parseWith db country text = .ok p →
      p.code = ⟨decVal first, .plus⟩ ∧ (db.byCode (decVal first)).isSome ∧ p.extension = none := by
  have hu := parseUInt_digits (b := u16Bound) h.digits h.nonempty
  rw [parse_grouped db country h h3, hu]
  unfold u16Bound
  refine ⟨fun hv => ?_, fun hv hn => ?_, fun p hp => ?_⟩
  · rw [if_neg (by omega)]
    rw [if_neg (by unfold u16Bound; omega)] at hu
    have h1 := (intErr_digits (by decide) h.digits hu).resolve_left fun e => h.nonempty e.1
    unfold u16Bound at h1
    rw [h1.2.2]; rfl
  · rw [if_pos hv]
    simp [hn]
  · split at hp
    · simp only [Outcome.okOr_some, Outcome.bind_ok] at hp
      rename_i hlt
      split at hp
      · cases hp
      · rename_i hk
        simp only [Outcome.bind_eq_ok] at hp
        obtain ⟨md, _, r, hr, hp⟩ := hp
        have hd : Digits rest := by
          obtain ⟨_, _, _, b, _, _, _, rfl⟩ := h
          exact digits_filter _
        obtain ⟨k1, k2, k3, _⟩ := stripNational_ok hd rfl hr
        obtain ⟨_, _, g1, g2, _, g3, _⟩ := finishParse_ok hp
        refine ⟨?_, ?_, by rw [g3, k3]⟩
        · have hc : p.code.value = decVal first := by
            unfold prefixCode at g1
            rw [k2] at g1
            simp only at g1
            rw [hu, if_pos (show decVal first < u16Bound from hlt)] at g1
            exact (Outcome.ok.inj g1).symm
          have hs : p.code.source = .plus := by rw [g2, k1]
          rw [← hc, ← hs]
        · cases hb : db.byCode (decVal first) with
          | none => rw [hb] at hk; simp at hk
          | some _ => rfl
    · cases hp

/-- C77: with fewer than three digits after the first group there is no number. -/
theorem C77_short (db : Database) (country : Option Id) (first rest text : Str) (h : Spec.Grouped first rest text) (h3 : rest.length < 3) :
    parseWith db country text = .err .noNumber := by
  obtain ⟨nat, hread, hplain, hfilter, hhead⟩ := grouped_read h
  have hv : isViable nat = false := by
    rw [← Bool.not_eq_true, C14_isViable_iff]
    rintro (⟨a, b, rfl, ha, hb⟩ | ⟨p, f1, d1, f2, d2, f3, d3, more, rfl, _, _, _, _, hd1, hd2, hd3, _⟩)
    · rw [hhead a _ rfl] at ha; cases ha
    · rw [← hfilter, ← List.countP_eq_length_filter] at h3
      simp [List.countP_append, hd1, hd2, hd3] at h3
      omega
  rw [parseWith_eq, hread]
  simp only [Outcome.bind_ok, afterRead, hv]
  rfl

/-- C77: an international number with a known calling code and at least three national digits is read alike whether it is written
without formatting, with formatting characters and a space, or with separators. -/
theorem C77_written (db : Database) (hp : Spec.PrefixFree db) (country : Option Id) (c : Nat) (hk : (db.byCode c).isSome)
    (hc : 1 ≤ c ∧ c ≤ 999) (r : Str) (hr : Digits r) (h3 : 3 ≤ r.length)
    (hidd : ∀ x, country = some x → ¬ Spec.BeginsWithIdd db country (decStr c ++ r)) (t : Str) (ht : Spec.Written c r t) :
    parseWith db country t = parseWith db country ('+' :: (decStr c ++ r)) := by
  cases ht with
  | bare => rfl
  | spaced b h1 h2 h4 =>
    have := C13_formatting_ignored db country ['+'] b (.inr rfl) h1 (fun _ => h2) (by rw [h4]; simp; omega)
    rw [h4] at this
    exact this
  | grouped _ h =>
    rw [parse_plus_code hp hk hc hr (by simp; omega) hidd, parse_grouped db country h h3,
      parseUInt_decStr (b := u16Bound) (by unfold u16Bound; omega)]
    simp only [Outcome.okOr_some, Outcome.bind_ok]
    rw [if_neg]
    cases hb : db.byCode c with
    | none => rw [hb] at hk; cases hk
    | some _ => simp

/-- The hypotheses of `C77_alike` and `C77_first_group`. -/
example : Spec.Grouped (str% "007") (str% "9123456789") (str% "+007-(912)345.67-89") ∧
    Spec.Grouped (str% "7") (str% "9123456789") (str% "+7(912345)-6789") ∧ decVal (str% "007") = decVal (str% "7") ∧
    parseWith Sample.db none (str% "+007-(912)345.67-89") = .ok ⟨⟨7, .plus⟩, ⟨9123456789⟩, none, none⟩ :=
  ⟨⟨by decide, by decide, '-', str% "(912)345.67-89", rfl, by decide, by decide, by decide⟩,
    ⟨by decide, by decide, '(', str% "912345)-6789", rfl, by decide, by decide, by decide⟩, by decide, by kernel_rfl⟩

/-- A first group that is more than the calling code. -/
example : Spec.Grouped (str% "7912") (str% "3456789") (str% "+7912-345-67-89") ∧
    parseWith Sample.db none (str% "+7912-345-67-89") = .err .invalidCountryCode ∧
    parseWith Sample.db none (str% "+7912 345-67-89") = .ok ⟨⟨7, .plus⟩, ⟨9123456789⟩, none, none⟩ :=
  ⟨⟨by decide, by decide, '-', str% "345-67-89", rfl, by decide, by decide, by decide⟩, by kernel_rfl, by kernel_rfl⟩

/-- A number too short for this form but not with a space. -/
example : Spec.Grouped (str% "358") (str% "12") (str% "+358-12") ∧
    parseWith Sample.db none (str% "+358-12") = .err .noNumber ∧
    parseWith Sample.db none (str% "+358 12") = .ok ⟨⟨358, .plus⟩, ⟨12⟩, none, none⟩ :=
  ⟨⟨by decide, by decide, '-', str% "12", rfl, by decide, by decide, by decide⟩, by kernel_rfl, by kernel_rfl⟩

/-- The hypotheses of `C77_written`. -/
example : (Sample.db.byCode 7).isSome ∧ Digits (str% "9123456789") ∧
    Spec.Written 7 (str% "9123456789") (str% "+7-912-345-67-89") ∧ Spec.Written 7 (str% "9123456789") (str% "+7912 345-67-89") :=
  ⟨by kernel_rfl, by decide, .grouped _ ⟨by decide, by decide, '-', str% "912-345-67-89", rfl, by decide, by decide, by decide⟩,
    .spaced (str% "7912 345-67-89") (by unfold Spec.Plain; decide) (by decide) (by decide)⟩

end Phone
