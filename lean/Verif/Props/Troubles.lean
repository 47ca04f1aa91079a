import Verif.Spec.Troubles
import Verif.Props.Loader
/-! # C97: the first trouble in a document decides what loading it comes to -/

namespace Phone.Xml
open Loader

/-- Without trouble the outcome is a result with the property, otherwise the first trouble decides. -/
def Ends {α : Type} (o : Outcome LoadErr α) (P : α → Prop) : List Trouble → Prop
  | [] => ∃ a, o = .ok a ∧ P a
  | t :: _ => o = t.effect

theorem Ends.pure {α : Type} {P : α → Prop} (a : α) (h : P a) : Ends (.ok a) P [] := ⟨a, rfl, h⟩

theorem Ends.bind {α β : Type} {o : Outcome LoadErr α} {P : α → Prop} {Q : β → Prop} {g : α → Outcome LoadErr β}
    {ts us : List Trouble} (h : Ends o P ts) (hg : ∀ a, P a → Ends (g a) Q us) : Ends (o >>= g) Q (ts ++ us) := by
  cases ts with
  | nil =>
    obtain ⟨a, rfl, ha⟩ := h
    exact hg a ha
  | cons t ts =>
    have h : o = t.effect := h
    subst h
    cases t <;> rfl

theorem Ends.map {α β : Type} {o : Outcome LoadErr α} {P : α → Prop} {Q : β → Prop} {g : α → β}
    {ts : List Trouble} (h : Ends o P ts) (hg : ∀ a, P a → Q (g a)) : Ends (o >>= fun a => .ok (g a)) Q ts := by
  have := h.bind (Q := Q) (g := fun a => .ok (g a)) (us := []) fun a ha => .pure _ (hg a ha)
  rwa [List.append_nil] at this

/-- Nothing left but `rest`. -/
abbrev To {α : Type} (rest : List Event) : α × List Event → Prop := fun x => x.2 = rest

theorem ignore_ends : ∀ (cs : List Node) (f : Nat) (n : Str) (rest : List Event), (events cs).length < f →
    Ends (ignore f (.utf8 n) (events cs ++ .stop (.utf8 n) :: rest)) (To rest) (ignoredTroubles cs)
  | [], f + 1, n, rest, _ => by
    simp only [events, List.nil_append, ignore, if_true]
    exact .pure _ rfl
  | .text s :: cs, f + 1, n, rest, hf => by
    simp only [events, Node.events, List.cons_append, List.nil_append, ignore, ignoredTroubles, Node.ignoredTroubles] at hf ⊢
    exact ignore_ends cs f n rest (by simpa using hf)
  | .comment :: cs, f + 1, n, rest, hf => by
    simp only [events, Node.events, List.cons_append, List.nil_append, ignore, ignoredTroubles, Node.ignoredTroubles] at hf ⊢
    exact ignore_ends cs f n rest (by simpa using hf)
  | .empty m as :: cs, f + 1, n, rest, hf => by
    simp only [events, Node.events, List.cons_append, List.nil_append, ignore, ignoredTroubles, Node.ignoredTroubles] at hf ⊢
    exact ignore_ends cs f n rest (by simpa using hf)
  | .docType :: cs, f + 1, n, rest, hf => rfl
  | .misc :: cs, f + 1, n, rest, hf => rfl
  | .elem m as cs' :: cs, f + 1, n, rest, hf => by
    simp only [events, Node.events, List.cons_append, List.nil_append, List.append_assoc, ignore, ignoredTroubles,
      Node.ignoredTroubles] at hf ⊢
    simp only [List.length_cons, List.length_append] at hf
    refine (ignore_ends cs' f m _ (by omega)).bind ?_
    rintro ⟨_, _⟩ rfl
    exact ignore_ends cs f n rest (by omega)

theorem text_ends (n : Str) (rest : List Event) : ∀ (cs : List Node) (acc : Str),
    Ends (Loader.text (.utf8 n) acc (events cs ++ .stop (.utf8 n) :: rest)) (To rest) (textTroubles cs)
  | [], acc => by
    simp only [events, List.nil_append, Loader.text, if_true]
    exact .pure _ rfl
  | c :: cs, acc => by
    cases c with
    | text s =>
      simp only [events, Node.events, List.cons_append, List.nil_append, Loader.text, fromUtf8, Outcome.bind_ok]
      exact text_ends n rest cs (acc ++ s)
    | _ => rfl

/-- What is wrong with a `possibleLengths` text: the error or panic that reading it gives (see C31 for what the texts mean). -/
def lengthTroubles (v : Str) : List Trouble :=
  match lengths v with
  | .ok _ => []
  | .err e => [.error e]
  | .panic p => [.crash p]

theorem lengths_ends (v : Str) : Ends (lengths v) (fun _ => True) (lengthTroubles v) := by
  unfold lengthTroubles
  cases h : lengths v with
  | ok a => exact .pure _ trivial
  | err e => rfl
  | panic p => rfl

theorem bool_ends (v : Str) : Ends (parseBool v) (fun _ => True) (Kind.troubles lengthTroubles .flag v) := by
  unfold parseBool Kind.troubles
  by_cases h1 : v = str% "true"
  · simp only [h1, if_true, true_or]; exact .pure _ trivial
  · by_cases h2 : v = str% "false"
    · simp only [h2, if_true, or_true]
      rw [if_neg (by decide)]
      exact .pure _ trivial
    · simp only [h1, h2, if_false, or_self]; rfl

theorem number_ends (v : Str) :
    Ends (Outcome.okOr LoadErr.integer (parseUInt u16Bound v)) (fun _ => True) (Kind.troubles lengthTroubles .number v) := by
  simp only [Kind.troubles]
  cases parseUInt u16Bound v with
  | none => rfl
  | some n => exact .pure _ trivial

theorem find_none {known : List (Str × Kind)} {k : Str} (h : ∀ x ∈ known, x.1 ≠ k) :
    known.find? (fun x => x.1 == k) = none := by
  simpa using h

theorem lengthAttrs_ends : ∀ (as : List (Str × Str)) (d : Loader.Descriptor),
    Ends (Loader.lengthAttrs d (attrEvents as)) (fun _ => True)
      (as.flatMap (attrTroubles lengthTroubles (str% "descriptor::possibleLength") lengthKeys))
  | [], d => .pure _ trivial
  | (k, v) :: as, d => by
    simp only [attrEvents, List.map_cons, Loader.lengthAttrs, attrStr, fromUtf8, Outcome.bind_ok, List.flatMap_cons]
    by_cases h1 : k = str% "national"
    · rw [if_pos h1]; subst h1
      exact (lengths_ends v).bind fun _ _ => lengthAttrs_ends as _
    · rw [if_neg h1]
      by_cases h2 : k = str% "localOnly"
      · rw [if_pos h2]; subst h2
        exact (lengths_ends v).bind fun _ _ => lengthAttrs_ends as _
      · rw [if_neg h2]
        have : attrTroubles lengthTroubles (str% "descriptor::possibleLength") lengthKeys (k, v) =
            [.attr (str% "descriptor::possibleLength") k v] := by
          unfold attrTroubles
          rw [find_none]
          simp only [lengthKeys, List.mem_cons, List.not_mem_nil, or_false]
          rintro x (rfl | rfl)
          · exact fun h => h1 h.symm
          · exact fun h => h2 h.symm
        rw [this]
        rfl

theorem descriptor_ends (n : Str) (rest : List Event) : ∀ (cs : List Node) (f : Nat) (d : Loader.Descriptor),
    (events cs).length < f →
    Ends (Loader.descriptor f (.utf8 n) d (events cs ++ .stop (.utf8 n) :: rest)) (To rest)
      (cs.flatMap (descriptorTroubles lengthTroubles))
  | [], f + 1, d, _ => by
    simp only [events, List.nil_append, Loader.descriptor, if_true]
    exact .pure _ rfl
  | c :: cs, f + 1, d, hf => by
    rw [List.flatMap_cons]
    cases c with
    | text s =>
      simp only [events, Node.events, List.cons_append, List.nil_append, Loader.descriptor, descriptorTroubles] at hf ⊢
      exact descriptor_ends n rest cs f d (by simpa using hf)
    | comment =>
      simp only [events, Node.events, List.cons_append, List.nil_append, Loader.descriptor, descriptorTroubles] at hf ⊢
      exact descriptor_ends n rest cs f d (by simpa using hf)
    | docType => rfl
    | misc => rfl
    | empty m as =>
      simp only [events, Node.events, List.cons_append, List.nil_append, Loader.descriptor, isName_utf8, decide_eq_true_eq,
        descriptorTroubles] at hf ⊢
      by_cases hm : m = str% "possibleLengths"
      · rw [if_pos hm, if_pos hm]
        exact (lengthAttrs_ends as d).bind fun _ _ => descriptor_ends n rest cs f _ (by simpa using hf)
      · rw [if_neg hm, if_neg hm]; rfl
    | elem m as cs' =>
      simp only [events, Node.events, List.cons_append, List.append_assoc, List.nil_append, Loader.descriptor,
        isName_utf8, decide_eq_true_eq, descriptorTroubles] at hf ⊢
      simp only [List.length_cons, List.length_append] at hf
      by_cases h1 : m = str% "nationalNumberPattern"
      · rw [if_pos h1, if_pos (.inl h1)]
        refine (text_ends _ _ cs' []).bind ?_
        rintro ⟨_, _⟩ rfl
        exact descriptor_ends n rest cs f _ (by omega)
      · rw [if_neg h1]
        by_cases h2 : m = str% "exampleNumber"
        · rw [if_pos h2, if_pos (.inr h2)]
          refine (text_ends _ _ cs' []).bind ?_
          rintro ⟨_, _⟩ rfl
          exact descriptor_ends n rest cs f _ (by omega)
        · rw [if_neg h2, if_neg (not_or.2 ⟨h1, h2⟩)]; rfl

theorem formatAttrs_ends : ∀ (as : List (Str × Str)) (fm : Loader.Format),
    Ends (formatAttrs fm (attrEvents as)) (fun _ => True)
      (as.flatMap (attrTroubles lengthTroubles (str% "format") formatKeys))
  | [], fm => .pure _ trivial
  | (k, v) :: as, fm => by
    simp only [attrEvents, List.map_cons, formatAttrs, attrStr, fromUtf8, Outcome.bind_ok, List.flatMap_cons]
    by_cases h1 : k = str% "pattern"
    · rw [if_pos h1]; subst h1
      exact formatAttrs_ends as _
    rw [if_neg h1]
    by_cases h2 : k = str% "nationalPrefixFormattingRule"
    · rw [if_pos h2]; subst h2
      exact formatAttrs_ends as _
    rw [if_neg h2]
    by_cases h3 : k = str% "nationalPrefixOptionalWhenFormatting"
    · rw [if_pos h3]; subst h3
      exact (bool_ends v).bind fun _ _ => formatAttrs_ends as _
    rw [if_neg h3]
    by_cases h4 : k = str% "carrierCodeFormattingRule"
    · rw [if_pos h4]; subst h4
      exact formatAttrs_ends as _
    rw [if_neg h4]
    have : attrTroubles lengthTroubles (str% "format") formatKeys (k, v) = [.attr (str% "format") k v] := by
      unfold attrTroubles
      rw [find_none]
      simp only [formatKeys, List.mem_cons, List.not_mem_nil, or_false]
      rintro x (rfl | rfl | rfl | rfl) h <;> exact absurd h.symm (by assumption)
    rw [this]
    rfl

theorem formatLoop_ends (n : Str) (rest : List Event) : ∀ (cs : List Node) (f : Nat) (fm : Loader.Format) (intl : Option Str),
    (events cs).length < f →
    Ends (formatLoop f (.utf8 n) fm intl (events cs ++ .stop (.utf8 n) :: rest)) (To rest) (cs.flatMap formatTroubles)
  | [], f + 1, fm, intl, _ => by
    simp only [events, List.nil_append, formatLoop, if_true]
    exact .pure _ rfl
  | c :: cs, f + 1, fm, intl, hf => by
    rw [List.flatMap_cons]
    cases c with
    | text s =>
      simp only [events, Node.events, List.cons_append, List.nil_append, formatLoop, formatTroubles] at hf ⊢
      exact formatLoop_ends n rest cs f fm intl (by simpa using hf)
    | comment =>
      simp only [events, Node.events, List.cons_append, List.nil_append, formatLoop, formatTroubles] at hf ⊢
      exact formatLoop_ends n rest cs f fm intl (by simpa using hf)
    | docType => rfl
    | misc => rfl
    | empty m as => rfl
    | elem m as cs' =>
      simp only [events, Node.events, List.cons_append, List.append_assoc, List.nil_append, formatLoop,
        isName_utf8, decide_eq_true_eq, formatTroubles] at hf ⊢
      simp only [List.length_cons, List.length_append] at hf
      by_cases h1 : m = str% "leadingDigits"
      · rw [if_pos h1, if_pos (.inl h1)]
        refine (text_ends _ _ cs' []).bind ?_
        rintro ⟨_, _⟩ rfl
        exact formatLoop_ends n rest cs f _ _ (by omega)
      rw [if_neg h1]
      by_cases h2 : m = str% "format"
      · rw [if_pos h2, if_pos (.inr (.inl h2))]
        refine (text_ends _ _ cs' []).bind ?_
        rintro ⟨_, _⟩ rfl
        exact formatLoop_ends n rest cs f _ _ (by omega)
      rw [if_neg h2]
      by_cases h3 : m = str% "intlFormat"
      · rw [if_pos h3, if_pos (.inr (.inr h3))]
        refine (text_ends _ _ cs' []).bind ?_
        rintro ⟨_, _⟩ rfl
        exact formatLoop_ends n rest cs f _ _ (by omega)
      rw [if_neg h3, if_neg (not_or.2 ⟨h1, not_or.2 ⟨h2, h3⟩⟩)]; rfl

theorem formats_ends (n : Str) (rest : List Event) (md : Loader.Metadata) : ∀ (cs : List Node) (f : Nat) (a b : List Loader.Format),
    (events cs).length < f →
    Ends (formats f md (.utf8 n) a b (events cs ++ .stop (.utf8 n) :: rest)) (To rest)
      (cs.flatMap (formatsTroubles lengthTroubles))
  | [], f + 1, a, b, _ => by
    simp only [events, List.nil_append, formats, if_true]
    exact .pure _ rfl
  | c :: cs, f + 1, a, b, hf => by
    rw [List.flatMap_cons]
    cases c with
    | text s =>
      simp only [events, Node.events, List.cons_append, List.nil_append, formats, formatsTroubles] at hf ⊢
      exact formats_ends n rest md cs f a b (by simpa using hf)
    | comment =>
      simp only [events, Node.events, List.cons_append, List.nil_append, formats, formatsTroubles] at hf ⊢
      exact formats_ends n rest md cs f a b (by simpa using hf)
    | docType => rfl
    | misc => rfl
    | empty m as => rfl
    | elem m as cs' =>
      simp only [events, Node.events, List.cons_append, List.append_assoc, List.nil_append, formats,
        isName_utf8, decide_eq_true_eq, formatsTroubles] at hf ⊢
      simp only [List.length_cons, List.length_append] at hf
      by_cases h1 : m = str% "numberFormat"
      · rw [if_pos h1, if_pos h1]
        refine ((formatAttrs_ends as _).bind fun fm _ => formatLoop_ends m _ cs' f fm none (by omega)).bind ?_
        rintro ⟨⟨_, _⟩, _⟩ rfl
        exact formats_ends n rest md cs f _ _ (by omega)
      · rw [if_neg h1, if_neg h1]; rfl

theorem territoryAttr_ends (m : Loader.Metadata) (k v : Str) :
    Ends (territoryAttr m k v) (fun _ => True) (attrTroubles lengthTroubles (str% "format") territoryKeys (k, v)) := by
  unfold territoryAttr
  by_cases h1 : k = str% "id"
  · rw [if_pos h1]; subst h1; exact .pure _ trivial
  rw [if_neg h1]
  by_cases h2 : k = str% "countryCode"
  · rw [if_pos h2]; subst h2; exact (number_ends v).map fun _ _ => trivial
  rw [if_neg h2]
  by_cases h3 : k = str% "internationalPrefix"
  · rw [if_pos h3]; subst h3; exact .pure _ trivial
  rw [if_neg h3]
  by_cases h4 : k = str% "preferredInternationalPrefix"
  · rw [if_pos h4]; subst h4; exact .pure _ trivial
  rw [if_neg h4]
  by_cases h5 : k = str% "nationalPrefix"
  · rw [if_pos h5]; subst h5; exact .pure _ trivial
  rw [if_neg h5]
  by_cases h6 : k = str% "preferredExtnPrefix"
  · rw [if_pos h6]; subst h6; exact .pure _ trivial
  rw [if_neg h6]
  by_cases h7 : k = str% "nationalPrefixForParsing"
  · rw [if_pos h7]; subst h7; exact .pure _ trivial
  rw [if_neg h7]
  by_cases h8 : k = str% "nationalPrefixTransformRule"
  · rw [if_pos h8]; subst h8; exact .pure _ trivial
  rw [if_neg h8]
  by_cases h9 : k = str% "mainCountryForCode"
  · rw [if_pos h9]; subst h9; exact (bool_ends v).map fun _ _ => trivial
  rw [if_neg h9]
  by_cases h10 : k = str% "leadingDigits"
  · rw [if_pos h10]; subst h10; exact .pure _ trivial
  rw [if_neg h10]
  by_cases h11 : k = str% "mobileNumberPortableRegion"
  · rw [if_pos h11]; subst h11; exact (bool_ends v).map fun _ _ => trivial
  rw [if_neg h11]
  by_cases h12 : k = str% "nationalPrefixFormattingRule"
  · rw [if_pos h12]; subst h12; exact .pure _ trivial
  rw [if_neg h12]
  by_cases h13 : k = str% "nationalPrefixOptionalWhenFormatting"
  · rw [if_pos h13]; subst h13; exact (bool_ends v).map fun _ _ => trivial
  rw [if_neg h13]
  by_cases h14 : k = str% "carrierCodeFormattingRule"
  · rw [if_pos h14]; subst h14; exact .pure _ trivial
  rw [if_neg h14]
  have : attrTroubles lengthTroubles (str% "format") territoryKeys (k, v) = [.attr (str% "format") k v] := by
    unfold attrTroubles
    rw [find_none]
    simp only [territoryKeys, List.mem_cons, List.not_mem_nil, or_false]
    rintro x (rfl | rfl | rfl | rfl | rfl | rfl | rfl | rfl | rfl | rfl | rfl | rfl | rfl | rfl) h <;>
      exact absurd h.symm (by assumption)
  rw [this]
  rfl

theorem territoryAttrs_ends : ∀ (as : List (Str × Str)) (m : Loader.Metadata),
    Ends (territoryAttrs m (attrEvents as)) (fun _ => True)
      (as.flatMap (attrTroubles lengthTroubles (str% "format") territoryKeys))
  | [], m => .pure _ trivial
  | (k, v) :: as, m => by
    simp only [attrEvents, List.map_cons, territoryAttrs, attrStr, fromUtf8, Outcome.bind_ok, List.flatMap_cons]
    exact (territoryAttr_ends m k v).bind fun _ _ => territoryAttrs_ends as _

theorem territoryLoop_ends (rest : List Event) (cs : List Node) : ∀ (f : Nat) (m : Loader.Metadata), (events cs).length < f →
    Ends (territoryLoop f m (events cs ++ .stop (.utf8 (str% "territory")) :: rest)) (To rest)
      (cs.flatMap (territoryTroubles lengthTroubles)) := by
  induction cs with
  | nil =>
    intro f m hf
    obtain ⟨f, rfl⟩ : ∃ g, f = g + 1 := ⟨f - 1, by omega⟩
    simp only [events, List.nil_append, territoryLoop, isName_utf8, decide_true, if_true]
    exact .pure _ rfl
  | cons c cs ih =>
    intro f m hf
    obtain ⟨f, rfl⟩ : ∃ g, f = g + 1 := ⟨f - 1, by omega⟩
    rw [List.flatMap_cons]
    cases c with
    | text s =>
      simp only [events, Node.events, List.cons_append, List.nil_append, territoryLoop, territoryTroubles] at hf ⊢
      exact ih f m (by simpa using hf)
    | comment =>
      simp only [events, Node.events, List.cons_append, List.nil_append, territoryLoop, territoryTroubles] at hf ⊢
      exact ih f m (by simpa using hf)
    | docType => rfl
    | misc => rfl
    | empty n as => rfl
    | elem n as cs' =>
      simp only [events, Node.events, List.cons_append, List.append_assoc, List.nil_append, territoryLoop, isName_utf8,
        territoryTroubles] at hf ⊢
      simp only [List.length_cons, List.length_append] at hf
      by_cases h1 : n = str% "references" ∨ n = str% "areaCodeOptional"
      · have h1' : (decide (n = str% "references") || decide (n = str% "areaCodeOptional")) = true := by simpa using h1
        rw [if_pos h1', if_pos h1]
        refine (ignore_ends cs' f n _ (by omega)).bind ?_
        rintro ⟨_, _⟩ rfl
        exact ih f m (by omega)
      have h1' : ¬ (decide (n = str% "references") || decide (n = str% "areaCodeOptional")) = true := by simpa using h1
      rw [if_neg h1', if_neg h1]
      by_cases h2 : n ∈ descriptorNames
      · rw [if_pos (by rw [setDescriptor_some m n {} h2]; rfl), if_pos h2]
        refine (descriptor_ends n _ cs' f m.defaults.descriptor (by omega)).bind ?_
        rintro ⟨_, _⟩ rfl
        exact ih f _ (by omega)
      rw [if_neg (by rw [setDescriptor_none m n {} h2]; simp), if_neg h2]
      by_cases h3 : n = str% "availableFormats"
      · rw [if_pos (by simpa using h3), if_pos h3]
        refine (formats_ends n _ m cs' f [] [] (by omega)).bind ?_
        rintro ⟨⟨_, _⟩, _⟩ rfl
        exact ih f _ (by omega)
      · rw [if_neg (by simpa using h3), if_neg h3]; rfl

theorem territories_ends (rest : List Event) : ∀ (cs : List Node) (f : Nat) (acc : List Loader.Metadata),
    (events cs).length < f →
    Ends (territories f acc (events cs ++ .stop (.utf8 (str% "territories")) :: rest)) (To rest)
      (cs.flatMap (territoriesTroubles lengthTroubles))
  | [], f + 1, acc, _ => by
    simp only [events, List.nil_append, territories, isName_utf8, decide_true, if_true]
    exact .pure _ rfl
  | c :: cs, f + 1, acc, hf => by
    rw [List.flatMap_cons]
    cases c with
    | text s =>
      simp only [events, Node.events, List.cons_append, List.nil_append, territories, territoriesTroubles] at hf ⊢
      exact territories_ends rest cs f acc (by simpa using hf)
    | comment =>
      simp only [events, Node.events, List.cons_append, List.nil_append, territories, territoriesTroubles] at hf ⊢
      exact territories_ends rest cs f acc (by simpa using hf)
    | docType => rfl
    | misc => rfl
    | empty n as => rfl
    | elem n as cs' =>
      simp only [events, Node.events, List.cons_append, List.append_assoc, List.nil_append, territories, isName_utf8,
        decide_eq_true_eq, territoriesTroubles] at hf ⊢
      simp only [List.length_cons, List.length_append] at hf
      by_cases h1 : n = str% "territory"
      · rw [if_pos h1, if_pos h1]; subst h1
        refine ((territoryAttrs_ends as {}).bind fun m _ => territoryLoop_ends _ cs' f m (by omega)).bind ?_
        rintro ⟨_, _⟩ rfl
        exact territories_ends rest cs f _ (by omega)
      · rw [if_neg h1, if_neg h1]
        refine (ignore_ends cs' f n _ (by omega)).bind ?_
        rintro ⟨_, _⟩ rfl
        exact territories_ends rest cs f _ (by omega)

theorem metadata_ends (rest : List Event) : ∀ (cs : List Node) (f : Nat) (acc : List Loader.Metadata),
    (∀ as cs', .elem (str% "phoneNumberMetadata") as cs' ∉ cs) → (events cs).length < f →
    Ends (Loader.metadata f acc (events cs ++ .stop (.utf8 (str% "phoneNumberMetadata")) :: rest)) (fun _ => True)
      (cs.flatMap (rootTroubles lengthTroubles))
  | [], f + 1, acc, _, _ => by
    simp only [events, List.nil_append, Loader.metadata, isName_utf8, decide_true, if_true]
    exact .pure _ trivial
  | c :: cs, f + 1, acc, hn, hf => by
    rw [List.flatMap_cons]
    have hn' : ∀ as cs', .elem (str% "phoneNumberMetadata") as cs' ∉ cs := fun as cs' h => hn as cs' (List.mem_cons_of_mem _ h)
    cases c with
    | text s =>
      simp only [events, Node.events, List.cons_append, List.nil_append, Loader.metadata, rootTroubles] at hf ⊢
      exact metadata_ends rest cs f acc hn' (by simpa using hf)
    | comment =>
      simp only [events, Node.events, List.cons_append, List.nil_append, Loader.metadata, rootTroubles] at hf ⊢
      exact metadata_ends rest cs f acc hn' (by simpa using hf)
    | docType =>
      simp only [events, Node.events, List.cons_append, List.nil_append, Loader.metadata, rootTroubles] at hf ⊢
      exact metadata_ends rest cs f acc hn' (by simpa using hf)
    | misc => rfl
    | empty n as => rfl
    | elem n as cs' =>
      have h0 : n ≠ str% "phoneNumberMetadata" := by rintro rfl; exact hn as cs' (List.mem_cons_self ..)
      simp only [events, Node.events, List.cons_append, List.append_assoc, List.nil_append, Loader.metadata, isName_utf8,
        h0, decide_false, Bool.false_eq_true, if_false, decide_eq_true_eq, rootTroubles] at hf ⊢
      simp only [List.length_cons, List.length_append] at hf
      by_cases h1 : n = str% "territories"
      · rw [if_pos h1, if_pos h1]; subst h1
        refine (territories_ends _ cs' f [] (by omega)).bind ?_
        rintro ⟨_, _⟩ rfl
        exact metadata_ends rest cs f _ hn' (by omega)
      · rw [if_neg h1, if_neg h1]
        refine (ignore_ends cs' f n _ (by omega)).bind ?_
        rintro ⟨_, _⟩ rfl
        exact metadata_ends rest cs f _ hn' (by omega)

theorem load_ends (pre : List Node) (as : List (Str × Str)) (cs : List Node) (rest : List Event)
    (hpre : ∀ c ∈ pre, Prolog c) (hn : ∀ as' cs', .elem (str% "phoneNumberMetadata") as' cs' ∉ cs) :
    Ends (load (events pre ++ (Node.elem (str% "phoneNumberMetadata") as cs).events ++ rest)) (fun _ => True)
      (cs.flatMap (rootTroubles lengthTroubles)) := by
  have key : ∀ (pre : List Node) (f : Nat), (∀ c ∈ pre, Prolog c) →
      (events pre).length + (events cs).length + 1 < f →
      Ends (Loader.metadata f [] (events pre ++ (Node.elem (str% "phoneNumberMetadata") as cs).events ++ rest)) (fun _ => True)
        (cs.flatMap (rootTroubles lengthTroubles)) := by
    intro pre
    induction pre with
    | nil =>
      intro f _ hf
      obtain ⟨f, rfl⟩ : ∃ g, f = g + 1 := ⟨f - 1, by omega⟩
      simp only [events, Node.events, List.nil_append, List.cons_append, List.append_assoc, Loader.metadata, isName_utf8,
        decide_true, if_true]
      exact metadata_ends rest cs f [] hn (by simp only [events, List.length_nil] at hf; omega)
    | cons c pre ih =>
      intro f hp hf
      obtain ⟨f, rfl⟩ : ∃ g, f = g + 1 := ⟨f - 1, by omega⟩
      have hc := hp c (List.mem_cons_self ..)
      have ih := ih f (fun c h => hp c (List.mem_cons_of_mem _ h))
      simp only [events, List.length_append] at hf
      cases c with
      | text s =>
        simp only [Node.events, List.length_cons, List.length_nil] at hf
        simpa only [events, Node.events, List.cons_append, List.nil_append, Loader.metadata] using ih (by omega)
      | comment =>
        simp only [Node.events, List.length_cons, List.length_nil] at hf
        simpa only [events, Node.events, List.cons_append, List.nil_append, Loader.metadata] using ih (by omega)
      | docType =>
        simp only [Node.events, List.length_cons, List.length_nil] at hf
        simpa only [events, Node.events, List.cons_append, List.nil_append, Loader.metadata] using ih (by omega)
      | _ => exact absurd hc (by simp [Prolog])
  refine key pre _ hpre ?_
  simp only [List.length_append, Node.events, List.length_cons, List.length_nil]
  omega

/-- C97: a document without trouble is loaded, and only such a document. -/
theorem C97_ok (pre : List Node) (as : List (Str × Str)) (cs : List Node) (rest : List Event)
    (hpre : ∀ c ∈ pre, Prolog c) (hn : ∀ as' cs', .elem (str% "phoneNumberMetadata") as' cs' ∉ cs) :
    (∃ ms, load (events pre ++ (Node.elem (str% "phoneNumberMetadata") as cs).events ++ rest) = .ok ms) ↔
      cs.flatMap (rootTroubles lengthTroubles) = [] := by
  have h := load_ends pre as cs rest hpre hn
  cases ht : cs.flatMap (rootTroubles lengthTroubles) with
  | nil =>
    rw [ht] at h
    obtain ⟨ms, h, _⟩ := h
    exact ⟨fun _ => rfl, fun _ => ⟨ms, h⟩⟩
  | cons t ts =>
    rw [ht] at h
    have h : load (events pre ++ (Node.elem (str% "phoneNumberMetadata") as cs).events ++ rest) = t.effect := h
    refine ⟨fun ⟨ms, hm⟩ => ?_, fun h => by cases h⟩
    rw [h] at hm
    cases t <;> cases hm

/-- C97: otherwise loading ends with the error (or panic) of the first trouble in the document, whatever follows it. -/
theorem C97_first (pre : List Node) (as : List (Str × Str)) (cs : List Node) (rest : List Event)
    (hpre : ∀ c ∈ pre, Prolog c) (hn : ∀ as' cs', .elem (str% "phoneNumberMetadata") as' cs' ∉ cs)
    (t : Trouble) (later : List Trouble) (h : cs.flatMap (rootTroubles lengthTroubles) = t :: later) :
    load (events pre ++ (Node.elem (str% "phoneNumberMetadata") as cs).events ++ rest) = t.effect := by
  have := load_ends pre as cs rest hpre hn
  rwa [h] at this

theorem metadata_stop : ∀ (f : Nat) (acc : List Loader.Metadata) (es : List Event) (ms : List Loader.Metadata), es.length < f →
    Loader.metadata f acc es = .ok ms → .stop (.utf8 (str% "phoneNumberMetadata")) ∈ es
  | f + 1, _, [], ms, _, h => by simp [Loader.metadata] at h
  | f + 1, acc, e :: es, ms, h0, h => by
    have hl : es.length < f := by simpa using h0
    clear h0
    unfold Loader.metadata at h
    have tame : ∀ {α : Type} {o : Outcome LoadErr (α × List Event)} {g : α → List Loader.Metadata}, Tame es o →
        (o >>= fun x => Loader.metadata f (g x.1) x.2) = .ok ms → .stop (.utf8 (str% "phoneNumberMetadata")) ∈ es := by
      intro α o g ht hb
      obtain ⟨⟨a, rest⟩, rfl, hb⟩ := Outcome.bind_eq_ok.mp hb
      obtain ⟨used, hu, rfl⟩ := ht
      refine List.mem_append_right _ (metadata_stop f _ rest ms ?_ hb)
      rw [List.length_append] at hl; omega
    cases e <;> dsimp only at h
    case start n as =>
      refine List.mem_cons_of_mem _ ?_
      split at h
      · exact metadata_stop f acc es ms hl h
      split at h
      · exact tame (g := fun ms => acc ++ ms) (territories_tame f [] es hl) h
      · exact tame (g := fun _ => acc) (ignore_tame f n es hl) h
    case stop m =>
      split at h
      · rename_i hm
        rw [show m = .utf8 (str% "phoneNumberMetadata") by simpa [isName] using hm]
        exact List.mem_cons_self ..
      · exact absurd h (mismatched_ne_ok _ _)
    case text => exact List.mem_cons_of_mem _ (metadata_stop f _ es ms hl h)
    case comment => exact List.mem_cons_of_mem _ (metadata_stop f _ es ms hl h)
    case docType => exact List.mem_cons_of_mem _ (metadata_stop f _ es ms hl h)
    all_goals cases h

/-- C97: a document that breaks off before the end of the root element is not loaded, not even in part, whatever events there are. -/
theorem C97_cut_off (es : List Event) (h : .stop (.utf8 (str% "phoneNumberMetadata")) ∉ es) (ms : List Loader.Metadata) :
    load es ≠ .ok ms :=
  fun hl => h (metadata_stop _ _ es ms (by omega) hl)

/-- A document with three troubles: an unknown element, an unknown attribute, a bad flag; the first is reported. -/
example :
    let cs := sampleRoot [.elem (str% "mobile") [] [.elem (str% "pattern") [] []]] ++
      [.elem (str% "territories") [] [.elem (str% "territory")
        [(str% "name", str% "Ascension"), (str% "mainCountryForCode", str% "yes")] []]]
    cs.flatMap (rootTroubles lengthTroubles) = [.element (str% "descriptor") (str% "pattern"),
      .attr (str% "format") (str% "name") (str% "Ascension"), .error .bool] ∧
    load (events samplePrologue ++ (Node.elem (str% "phoneNumberMetadata") [] cs).events) =
      .err (.metadata (.unhandledElement (str% "descriptor") (str% "pattern"))) ∧
    (sampleRoot []).flatMap (rootTroubles lengthTroubles) = [] :=
  ⟨by kernel_rfl, by kernel_rfl, by kernel_rfl⟩

/-- The sample document cut off after its 20th event meets the hypothesis of `C97_cut_off`; it ends inside a territory. -/
example : Event.stop (.utf8 (str% "phoneNumberMetadata")) ∉ (sampleStream []).take 20 ∧
    load ((sampleStream []).take 20) = .err (.metadata .unexpectedEof) := ⟨by decide, by kernel_rfl⟩

end Phone.Xml
