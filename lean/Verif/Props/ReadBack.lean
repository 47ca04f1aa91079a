import Verif.Props.International
import Verif.Props.Sole
/-! # C73, C74: the international forms of a number are read alike, and exactly when they are read back -/

namespace Phone
open Helper Formatter
variable [UnicodeTables]

theorem tail_ext (db : Database) (country : Option Id) (n : Number) (x : Option Str) :
    tail db country (n.ext x) = tail db country n >>= fun p => .ok { p with extension := x } := by
  unfold tail
  rw [show parseMeta db country (n.ext x) = parseMeta db country n from rfl, Outcome.bind_assoc]
  refine Outcome.bind_congr fun md => ?_
  simp only [stripNational_ext, Outcome.bind_assoc, Outcome.bind_ok, finishParse_ext]

theorem tail_country (db : Database) (country : Option Id) {n : Number} (h : n.country ≠ .default) : tail db country n = tail db none n := by
  have : parseMeta db country n = parseMeta db none n := by
    unfold parseMeta
    cases country with
    | none => rfl
    | some c =>
      split
      · rename_i h'; exact absurd h' h
      · rfl
  unfold tail
  rw [this]

theorem e164_text {db : Database} {n : PhoneNumber} {mode : Mode} {custom : Option Format} {s : Str} (h : fmt db n mode custom = .ok s) :
    fmt db n .e164 = .ok ('+' :: (decStr n.code.value ++ n.national.display)) := by
  unfold fmt at h ⊢
  split at h
  · cases h
  · simp [body]

/-- The E.164 form: the stages after `country_code` get the national digits and the calling code. -/
theorem parse_e164_form {db : Database} (hp : Spec.PrefixFree db) {n : PhoneNumber} (hn : Spec.Ordinary db n) {country : Option Id}
    (hidd : ∀ c, country = some c → ¬ Spec.BeginsWithIdd db country (decStr n.code.value ++ n.national.display)) :
    parseWith db country ('+' :: (decStr n.code.value ++ n.national.display)) =
      tail db none ⟨.plus, n.national.display, some (decStr n.code.value), none, none⟩ := by
  have hlen1 : 1 ≤ (decStr n.code.value).length := List.length_pos_iff.2 (decStr_ne_nil _)
  rw [← tail_country db country (by simp)]
  exact parse_plus_code hp hn.known hn.code (digits_display _) (by have := hn.length; rw [List.length_append]; omega) hidd

/-- C73: what is written in international format is read exactly as the E.164 form of the number is, with its extension: same errors,
same national number, whatever national prefix handling makes of it. -/
theorem C73_international (db : Database) (hp : Spec.PrefixFree db) (n : PhoneNumber) (hn : Spec.Ordinary db n) (custom : Option Format)
    (hf : ∀ md f, Spec.MetadataFor db n md → Spec.Chosen md n.national.display .international custom f → Spec.Punctuates f)
    (hext : ∀ e, n.extension = some e → (e ≠ [] ∧ e.length ≤ 7 ∧ ∀ c ∈ e, isDigit c = true) ∧ ∀ md, Spec.MetadataFor db n md →
      (Spec.Introduces (Spec.extensionPrefix md) ∧ Spec.MarksNotDigits (Spec.extensionPrefix md)) ∧
      ∀ f, Spec.Chosen md n.national.display .international custom f → Spec.EndsInGroup f)
    (s : Str) (h : fmt db n .international custom = .ok s) (country : Option Id)
    (hidd : ∀ c, country = some c → ¬ Spec.BeginsWithIdd db country (decStr n.code.value ++ n.national.display)) :
    ∃ t, fmt db n .e164 = .ok t ∧
      parseWith db country s = parseWith db none t >>= fun p => .ok { p with extension := n.extension } := by
  refine ⟨_, e164_text h, ?_⟩
  rw [parse_international_form hn hf hext h, parse_e164_form hp hn hidd, parse_e164_form hp hn (by simp)]
  cases n.extension with
  | none => exact tail_ext db none ⟨.plus, n.national.display, some (decStr n.code.value), none, none⟩ none
  | some e => rfl

/-- C73: what is written as RFC 3966 is read exactly as the E.164 form of the number is, with its extension, whatever the reference
country. -/
theorem C73_rfc3966 (db : Database) (hp : Spec.PrefixFree db) (n : PhoneNumber) (hn : Spec.Ordinary db n)
    (h3 : 3 ≤ n.national.display.length) (hext : ∀ e, n.extension = some e → ∀ c ∈ e, isDigit c = true)
    (hf : ∀ md f, Spec.MetadataFor db n md → Spec.Chosen md n.national.display .rfc3966 none f →
      Spec.Faithful f ∧ ∀ c ∈ f.format, c = '$' ∨ isDigit c = true ∨ Spec.isSep c = true)
    (s : Str) (h : fmt db n .rfc3966 = .ok s) (country : Option Id) :
    ∃ t, fmt db n .e164 = .ok t ∧
      parseWith db country s = parseWith db none t >>= fun p => .ok { p with extension := n.extension } := by
  refine ⟨_, e164_text h, ?_⟩
  rw [parse_e164_form hp hn (by simp), ← tail_ext, ← tail_country db country (by simp [Number.ext])]
  exact parse_rfc3966_form hn h3 hext hf h country

omit [UnicodeTables] in
theorem display_nonzero {n : NationalNumber} (h : n.value ≠ 0) : ∃ c ∈ n.display, c ≠ '0' := by
  have hv : n.value.toNat ≠ 0 := fun h0 => h (UInt64.toNat_inj.1 h0)
  have := decStr_head_ne_zero hv
  have := decStr_ne_nil n.value.toNat
  unfold NationalNumber.display
  cases hd : decStr n.value.toNat with
  | nil => contradiction
  | cons c t => exact ⟨c, by simp, by simp_all⟩

section
variable (compile : Str → Option Regex) (ms : List Loader.Metadata) (db : Database)
  (hdb : Database.from compile ms = .ok db) (hid : ((ms.filterMap (·.id)).filter (· ≠ worldId)).Nodup)
  (hs : Spec.SharedAreCountries db)

include hdb hid hs in
/-- C74: the E.164 form of an ordinary number is read back as the number exactly if the region chosen for its digits, should there be
one, leaves them alone. -/
theorem C74_read_back (hp : Spec.PrefixFree db) (hfl : ∀ md, Spec.Entry db md → Spec.FirstWithLast md)
    (ht : ∀ md, Spec.Entry db md → ∀ t, md.nationalPrefixTransformRule = some t → Spec.DigitTemplate t)
    (n : PhoneNumber) (hn : Spec.Ordinary db n) (country : Option Id)
    (hidd : ∀ c, country = some c → ¬ Spec.BeginsWithIdd db country (decStr n.code.value ++ n.national.display)) (s : Str)
    (h : fmt db n .e164 = .ok s) :
    parseWith db country s = .ok { n with code := ⟨n.code.value, .plus⟩, extension := none, carrier := none } ↔
      Spec.InternationalPart db n.code.value n.national.display n.national.display none := by
  have hlen1 : 1 ≤ (decStr n.code.value).length := List.length_pos_iff.2 (decStr_ne_nil _)
  have h3 : 3 ≤ (decStr n.code.value ++ n.national.display).length := by have := hn.length; rw [List.length_append]; omega
  rw [e164_text h, Outcome.ok.injEq] at h
  subst h
  have key := C62_international compile ms db hdb hid hs hp ht country n.code.value hn.known hn.code _ (digits_display n.national) h3 hidd
  constructor
  · intro hparse
    obtain ⟨out, car, o, hpart, hv⟩ := C62_international_total compile ms db hdb hid hs hfl ht n.code.value _ (digits_display n.national)
      (fun car x => ⟨⟨n.code.value, .plus⟩, x, none, car⟩)
    have := key out car hpart o hv
    rw [hparse] at this
    subst this
    generalize hp' : PhoneNumber.mk _ _ _ _ = p at hv
    cases hv with
    | ok _ _ _ hd =>
      simp only [PhoneNumber.mk.injEq, true_and] at hp'
      obtain ⟨rfl, rfl⟩ := hp'
      rw [← hd] at hpart
      exact hpart
  · intro hpart
    exact key _ _ hpart _ (.ok hn.length.1 hn.length.2 (display_nonzero hn.value) rfl)

theorem nationalPart_kept {md : Metadata} {np ds : Str} (h : md.nationalPrefixForParsing = none) (hnp : md.nationalPrefix = some np)
    (h0 : np ≠ []) :
    Spec.NationalPart md ds ds none ↔ ¬ np <+: ds ∨ Spec.TooFew md.descriptors.general.possibleLength
      md.descriptors.general.possibleLocalLength (Spec.dropOnce np (Spec.dropOnce np ds)) := by
  have htr : ∀ out car, Spec.Trunk md ds out car → out = Spec.dropOnce np ds := by
    intro out car ht
    cases ht with
    | plain => simp [Spec.dropPrefix, hnp]
    | _ h' => rw [h] at h'; cases h'
  have hdp : ∀ s, Spec.dropPrefix md s = Spec.dropOnce np s := fun s => by simp [Spec.dropPrefix, hnp]
  constructor
  · have key : ∀ out car, Spec.NationalPart md ds out car → out = ds → ¬ np <+: ds ∨ Spec.TooFew
        md.descriptors.general.possibleLength md.descriptors.general.possibleLocalLength (Spec.dropOnce np (Spec.dropOnce np ds)) := by
      intro out car hpart hout
      cases hpart with
      | used ht _ =>
        left
        rintro ⟨t, rfl⟩
        rw [htr _ _ ht, hdp] at hout
        have e : Spec.dropOnce np (np ++ t) = t := by simp [Spec.dropOnce]
        rw [e] at hout
        obtain ⟨a, ha, _⟩ := dropOnce_suffix np t
        have := congrArg List.length ha
        rw [hout] at this
        simp only [List.length_append] at this
        have := List.length_pos_iff.2 h0
        omega
      | unused ht h3 =>
        right
        rwa [htr _ _ ht, hdp] at h3
    exact fun hpart => key _ _ hpart rfl
  · intro hx
    by_cases htf : Spec.TooFew md.descriptors.general.possibleLength
      md.descriptors.general.possibleLocalLength (Spec.dropOnce np (Spec.dropOnce np ds))
    · have := Spec.NationalPart.unused (md := md) (ds := ds) (.plain h) (by rwa [hdp, hdp])
      exact this
    · have hn := hx.resolve_right htf
      have e : Spec.dropOnce np ds = ds := by
        unfold Spec.dropOnce
        rw [if_neg (by rwa [List.isPrefixOf_iff_prefix])]
      have := Spec.NationalPart.used (md := md) (ds := ds) (.plain h) (by rwa [hdp, hdp])
      rwa [hdp, hdp, e, e] at this

include hdb hid hs in
/-- C74, regions without a parsing pattern: the E.164 form of a number is read back exactly if its digits do not begin with the national
prefix of the region, or too few would remain without it. -/
theorem C74_read_back_plain (hp : Spec.PrefixFree db) (hfl : ∀ md, Spec.Entry db md → Spec.FirstWithLast md)
    (ht : ∀ md, Spec.Entry db md → ∀ t, md.nationalPrefixTransformRule = some t → Spec.DigitTemplate t)
    (n : PhoneNumber) (hn : Spec.Ordinary db n) (country : Option Id)
    (hidd : ∀ c, country = some c → ¬ Spec.BeginsWithIdd db country (decStr n.code.value ++ n.national.display)) (s : Str)
    (h : fmt db n .e164 = .ok s) (md : Metadata) (np : Str)
    (hr : Spec.RegionOf db n.code.value (n.national.display.dropWhile (· == '0')) (some md))
    (hpat : md.nationalPrefixForParsing = none) (hnp : md.nationalPrefix = some np) (h0 : np ≠ []) :
    parseWith db country s = .ok { n with code := ⟨n.code.value, .plus⟩, extension := none, carrier := none } ↔
      ¬ np <+: n.national.display ∨ Spec.TooFew md.descriptors.general.possibleLength
        md.descriptors.general.possibleLocalLength (Spec.dropOnce np (Spec.dropOnce np n.national.display)) := by
  rw [C74_read_back compile ms db hdb hid hs hp hfl ht n hn country hidd s h, ← nationalPart_kept hpat hnp h0]
  constructor
  · rintro (⟨hx, _⟩ | ⟨md', hx, hpart⟩)
    · cases hx.unique hr
    · cases hx.unique hr; exact hpart
  · exact fun hx => .inr ⟨md, hr, hx⟩

end
end Phone
