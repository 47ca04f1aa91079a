import Verif.Builtin.Db
import Verif.Props.Parse
import Verif.Props.ParseText
import Verif.Props.Validator
import Verif.Props.Format
import Verif.Props.RoundTrip
/-! # The functions that use the shipped database

Instances of the general theorems for the database built from the shipped territories, for all inputs. -/

namespace Phone.Builtin
open Database

/-! ## C48 -/

theorem codes_iff (c : Nat) : (db.byCode c).isSome ↔ c ∈ brief.filterMap (·.2.1) := by
  obtain ⟨_, _, _, h, _⟩ := C27_indexes _ _ from_builtin
  rw [h c]
  simp [brief]

theorem mem_all (i : Id) : i ∈ Id.all := by cases i <;> decide

theorem id_present (i : Id) : (db.byId i.asRef).isSome := by
  obtain ⟨mds, hmap, hid, _⟩ := C27_indexes _ _ from_builtin
  rw [hid]
  have h := List.all_eq_true.1 brief_ids i (mem_all i)
  rw [List.contains_iff_mem] at h
  simp only [brief, ← hmap, List.mem_filterMap, List.mem_map, Prod.exists] at h
  obtain ⟨_, _, _, ⟨md, hm, he⟩, hi⟩ := h
  cases he
  simp only [Option.some.injEq] at hi
  cases hf : (mds.filter (·.id == i.asRef)).getLast? with
  | some _ => rfl
  | none =>
    rw [List.getLast?_eq_none_iff] at hf
    have : md ∈ mds.filter (·.id == i.asRef) := List.mem_filter.2 ⟨hm, by simp [hi]⟩
    rw [hf] at this; cases this

theorem shared : Spec.SharedAreCountries db := by
  obtain ⟨mds, hmap, hid, hc, hl, hr⟩ := C27_indexes _ _ from_builtin
  intro c rs hrs hlen r hm
  have hsome : (db.region c).isSome := by simp [hrs]
  have := (hl c ((hc c).1 ((hr c).1 hsome))).2
  rw [hrs] at this
  cases this
  have hlen' : (mds.filter (·.countryCode == c)).length ≠ 1 := by
    intro h; apply hlen
    simp only [Spec.listed, List.length_map, List.length_append, List.length_reverse]
    rw [← h, ← List.length_append]
    exact (List.filter_append_perm _ _).length_eq
  simp only [List.mem_map, Spec.listed, List.mem_append, List.mem_reverse, List.mem_filter] at hm
  have : ∃ md ∈ mds, md.countryCode = c ∧ md.id = r := by
    rcases hm with ⟨md, ⟨⟨h1, h2⟩, _⟩ | ⟨⟨h1, h2⟩, _⟩, rfl⟩ <;> exact ⟨md, h1, by simpa using h2, rfl⟩
  obtain ⟨md, h1, h2, h3⟩ := this
  have hb := List.all_eq_true.1 brief_shared (some md.id, some md.countryCode, md.mainCountryForCode)
    (by rw [brief, ← hmap]; exact List.mem_map.2 ⟨md, h1, rfl⟩)
  simp only [Bool.or_eq_true, beq_iff_eq, Option.bind_some] at hb
  rcases hb with hb | hb
  · exfalso; apply hlen'
    rw [brief, ← hmap, List.filter_map, List.length_map] at hb
    rw [← hb, h2]
    congr 1
  · rw [h3, Bool.and_eq_true] at hb; exact hb.1

theorem prefixFree : Spec.PrefixFree db := by
  intro c d hc hd hp
  exact brief_prefix ((codes_iff c).1 hc) ((codes_iff d).1 hd) hp

theorem ids_nodup : ((Data.territories.filterMap (·.id)).filter (· ≠ worldId)).Nodup := by
  have := of_decide_eq_true brief_nodup
  rw [brief, List.filterMap_map] at this
  have e : ∀ l : List Str, (l.filter (· != worldId)) = l.filter (· ≠ worldId) := fun l => List.filter_congr fun x _ => by
    by_cases h : x = worldId <;> simp [h]
  rw [e] at this
  exact this

theorem mentionsGroup_sound [UnicodeTables] : ∀ {t : Str}, mentionsGroup t = true → Spec.MentionsGroup t := by
  intro t
  fun_induction mentionsGroup t with
  | case1 d s ih =>
    intro h
    rw [Bool.or_eq_true] at h
    rcases h with h | h
    · exact ⟨[], d, s, rfl, isNd_of_isDigit h⟩
    · obtain ⟨a, e, b, he, hd⟩ := ih h
      exact ⟨'$' :: a, e, b, by rw [he]; rfl, hd⟩
  | case2 c s _ ih =>
    intro h
    obtain ⟨a, e, b, he, hd⟩ := ih h
    exact ⟨c :: a, e, b, by rw [he]; rfl, hd⟩
  | case3 => intro h; cases h

/-- What `good` says, piece by piece. -/
theorem good_iff {md : Metadata} (h : Spec.Entry db md) :
    (1 ≤ md.countryCode ∧ md.countryCode ≤ 999) ∧ ((Id.fromStr md.id).isSome ∨ md.id = worldId) ∧ transformOk md = true ∧
    (∀ f ∈ md.formats, mentionsGroup f.format = true) ∧
    (∀ f ∈ md.internationalFormats, (faithful f = true ∧ mentionsGroup f.format = true) ∧
      ∀ c ∈ f.format, (c = '$' ∨ isDigit c = true) ∨ Spec.isSep c = true) ∧
    (md.id = (str% "AR") ∨ ∀ f ∈ md.formats, faithful f = true) ∧ (md.formats = [] ∨ md.internationalFormats ≠ []) ∧
    md.descriptors.general.possibleLength = [] ∧ (∀ r ∈ patterns md, r.re.starsOk = true) ∧
    (∀ e, md.preferredExtensionPrefix = some e → ∀ c ∈ e, isDigit c = false) ∧
    (∀ e, md.nationalPrefix = some e → ∀ c ∈ e, isDigit c = true) := by
  have := entry_good h
  simp only [good, Bool.and_eq_true, decide_eq_true_eq, List.all_eq_true, Bool.or_eq_true, beq_iff_eq, List.isEmpty_iff, Bool.not_eq_true',
    List.isEmpty_eq_false_iff] at this
  obtain ⟨⟨⟨⟨⟨⟨⟨⟨⟨⟨⟨h1, h2⟩, h3⟩, h4⟩, h5⟩, h6⟩, h7⟩, h8⟩, h9⟩, h10⟩, h11⟩, h12⟩ := this
  refine ⟨⟨h1, h2⟩, h3, h4, h5, h6, h7, h8, h9, h10, ?_, ?_⟩
  · intro e he
    rw [he] at h11
    simpa using h11
  · intro e he
    rw [he] at h12
    simpa using h12

theorem firstWithLast [UnicodeTables] {md : Metadata} (h : Spec.Entry db md) : Spec.FirstWithLast md := by
  have ht := (good_iff h).2.2.1
  intro h1 re hre s m hm hg
  obtain ⟨t, h1⟩ := Option.isSome_iff_exists.1 h1
  simp only [transformOk, h1, hre, Bool.and_eq_true, bne_iff_ne] at ht
  exact find_implies hm (by decide) ht.1.2 ht.2 hg

theorem digitTemplates {md : Metadata} (h : Spec.Entry db md) (t : Str) (h1 : md.nationalPrefixTransformRule = some t) : Spec.DigitTemplate t := by
  have ht := (good_iff h).2.2.1
  apply digitTemplate_sound
  unfold transformOk at ht
  rw [h1] at ht
  cases hre : md.nationalPrefixForParsing with
  | none => simpa [hre] using ht
  | some re => simp only [hre, Bool.and_eq_true] at ht; exact ht.1.1

/-- C48: in the shipped database every country has an entry; calling codes have one to three digits and none is an initial part of
another; regions sharing a code are countries; an entry's id is that of a country or 001; ids other than 001 occur once; and every
format template mentions a group. -/
theorem C48_well_formed [UnicodeTables] :
    (∀ i : Id, (db.byId i.asRef).isSome) ∧
    (∀ c, (db.byCode c).isSome → 1 ≤ c ∧ c ≤ 999) ∧ Spec.PrefixFree db ∧ Spec.SharedAreCountries db ∧
    ((Data.territories.filterMap (·.id)).filter (· ≠ worldId)).Nodup ∧
    (∀ md, Spec.Entry db md → ((∃ i : Id, md.id = i.asRef) ∨ md.id = worldId) ∧
      (∀ f ∈ md.formats, Spec.MentionsGroup f.format) ∧ (∀ f ∈ md.internationalFormats, Spec.MentionsGroup f.format)) := by
  refine ⟨id_present, ?_, prefixFree, shared, ids_nodup, ?_⟩
  · intro c hc
    obtain ⟨l, hl⟩ := Option.isSome_iff_exists.1 hc
    obtain ⟨hne, hcode⟩ := (from_consistent from_builtin).2.1 c l hl
    obtain ⟨md, hm⟩ := List.exists_mem_of_ne_nil l hne
    have := (good_iff (.inr ⟨c, l, hl, hm⟩)).1
    rwa [hcode md hm] at this
  · intro md h
    have g := good_iff h
    refine ⟨?_, fun f hf => mentionsGroup_sound (g.2.2.2.1 f hf), fun f hf => mentionsGroup_sound (g.2.2.2.2.1 f hf).1.2⟩
    rcases g.2.1 with h | h
    · obtain ⟨i, hi⟩ := Option.isSome_iff_exists.1 h
      exact .inl ⟨i, ((C43_id_roundtrip _ _).1 hi).symm⟩
    · exact .inr h

section
variable [UnicodeTables]

/-! ## C05 -/

/-- C05: whatever the text and the reference country, parsing with the shipped database never panics. -/
theorem C05_parse_builtin (country : Option Id) (s : Str) : ¬ (parse country s).IsPanic :=
  C04_parse_no_panic compile Data.territories db from_builtin shared (fun _ => firstWithLast) country (fun c _ => id_present c) s

/-- C06 for the shipped database: no hypothesis on transform rules. -/
theorem C06_builtin (country : Option Id) (s : Str) (p : PhoneNumber) (h : parse country s = .ok p) :
    2 ≤ p.national.display.length ∧ p.national.display.length ≤ 17 ∧ (∀ c ∈ p.national.display, isDigit c = true) ∧
    1 ≤ p.national.value.toNat ∧ p.national.value.toNat ≤ 2 ^ 56 - 1 ∧ p.national.zeros.toNat ≤ 16 :=
  C06_national_digits db (fun _ => digitTemplates) country s p h

/-! ## C25, C54 -/

/-- C25 for the shipped database: the metadata found for a number is an entry for its calling code. -/
theorem C25_builtin (ε : Type) (n : PhoneNumber) (md : Metadata) (h : n.metadata (ε := ε) db = .ok (some md)) :
    md.countryCode = n.code.value ∧ ∃ l, db.byCode n.code.value = some l ∧ md ∈ l :=
  C25_metadata_code ε compile Data.territories db from_builtin ids_nodup n md h

/-- C54 for the shipped database: validity, type and country of a number never panic, whatever the number. -/
theorem C54_builtin (ε : Type) (n : PhoneNumber) :
    (∃ o, n.metadata (ε := ε) db = .ok o) ∧ (∃ t, numberType (ε := ε) n = .ok t) ∧ (∃ b, isValid (ε := ε) n = .ok b) ∧
      ¬ (countryId n).IsPanic := by
  obtain ⟨h1, h2, h3, h4, _⟩ := C54_queries_no_panic ε compile Data.territories db from_builtin shared n
  exact ⟨h1, h2, h3, h4⟩

/-! ## C35 -/

/-- C35 for the shipped database: no mode panics for any number, and `fmt::Error` means that no territory has the code. -/
theorem C35_builtin (n : PhoneNumber) (mode : Formatter.Mode) :
    ¬ (format n mode).IsPanic ∧
      ((∃ e, format n mode = .err e) ↔ ∀ m ∈ Data.territories, m.countryCode ≠ some n.code.value) :=
  ⟨C35_no_panic db (fun _ _ _ hl hm f hf => .inr (mentionsGroup_sound ((good_iff (.inr ⟨_, _, hl, hm⟩)).2.2.2.1 f hf))) n mode,
    C35_error_iff compile Data.territories db from_builtin n mode none⟩

/-- C57: a number obtained by parsing with the shipped database can be formatted in every mode: `to_string()` does not panic. -/
theorem C57_parsed_formats (country : Option Id) (s : Str) (p : PhoneNumber) (h : parse country s = .ok p) (mode : Formatter.Mode) :
    ∃ t, format p mode = .ok t := by
  have h1 := (C35_builtin p mode).1
  have h2 := (C07_code_known compile Data.territories db from_builtin country s p h).2.2 mode none
  unfold format at h1 ⊢
  cases hf : Formatter.fmt db p mode with
  | ok t => exact ⟨t, rfl⟩
  | err e => exact absurd hf (h2 e)
  | panic q => rw [hf] at h1; exact absurd trivial h1

/-! ## C34, C38 -/

/-- C34 for the shipped database: E.164 output determines the calling code and the national number. -/
theorem C34_builtin (a b : PhoneNumber) (ha : a.national.value ≠ 0) (hb : b.national.value ≠ 0) (s : Str)
    (h : format a .e164 = .ok s) (h' : format b .e164 = .ok s) : a.code.value = b.code.value ∧ a.national = b.national :=
  C34_injective db prefixFree a b ha hb s h h'

omit [UnicodeTables] in
theorem exists_metadataFor [UnicodeTables] {db : Database} {n : PhoneNumber} {mode : Formatter.Mode} {custom : Option Format} {s : Str}
    (h : Formatter.fmt db n mode custom = .ok s) : ∃ md, Spec.MetadataFor db n md := by
  unfold Formatter.fmt at h
  cases hm : (db.byCode n.code.value).bind List.head? with
  | none => rw [hm] at h; cases h
  | some md => exact ⟨md, metadataFor_iff.1 hm⟩

/-- C38 for the shipped database: for every number, the digits of the international and of the RFC 3966 output are the calling code,
the national number and the extension's digits. -/
theorem C38_builtin (n : PhoneNumber) (mode : Formatter.Mode) (hmode : mode ≠ .national) (s : Str) (h : format n mode = .ok s) :
    Spec.digitsOf s = decStr n.code.value ++ n.national.display ++
      (if mode = .e164 then [] else Spec.digitsOf (n.extension.getD [])) := by
  obtain ⟨md, hmd⟩ := exists_metadataFor h
  have he : Spec.Entry db md := by
    obtain ⟨l, hl⟩ := hmd
    exact .inr ⟨_, _, hl, by simp⟩
  obtain ⟨_, _, _, _, g1, _, g2, _, _, g3, _⟩ := good_iff he
  rw [C38_digits_kept db n none mode s h md hmd ?_, if_neg hmode]
  · congr 1
    cases mode with
    | e164 => rfl
    | national => exact absurd rfl hmode
    | international =>
      cases n.extension with
      | none => rfl
      | some e =>
        have : Spec.digitsOf (md.preferredExtensionPrefix.getD (str% " ext. ")) = [] := by
          cases hp : md.preferredExtensionPrefix with
          | none => decide
          | some p => simpa [Spec.digitsOf] using g3 p hp
        simp [Spec.extensionText, this]
    | rfc3966 =>
      cases n.extension with
      | none => rfl
      | some e =>
        have : Spec.digitsOf (str% ";ext=") = [] := by decide
        simp only [Spec.extensionText, digitsOf_append, this]
        rfl
  · rintro f (hf | ⟨_, b, a, hf, _⟩)
    · cases hf
    · refine ⟨?_, fun hn => absurd hn hmode⟩
      have hmem : f ∈ Spec.formatsFor md mode := by rw [hf]; simp
      unfold Spec.formatsFor at hmem
      split at hmem
      · rename_i hc
        rcases hc with hc | hc
        · rcases g2 with g | g
          · rw [g] at hmem; cases hmem
          · exact absurd hc g
        · exact absurd hc hmode
      · exact faithful_sound (g1 f hmem).1.1

/-! ## C41, C42 -/

omit [UnicodeTables] in
theorem code_range {c : Nat} (hc : (db.byCode c).isSome) : 1 ≤ c ∧ c ≤ 999 := by
  obtain ⟨l, hl⟩ := Option.isSome_iff_exists.1 hc
  obtain ⟨hne, hcode⟩ := (from_consistent from_builtin).2.1 c l hl
  obtain ⟨md, hm⟩ := List.exists_mem_of_ne_nil l hne
  have := (good_iff (.inr ⟨c, l, hl, hm⟩)).1
  rwa [hcode md hm] at this

omit [UnicodeTables] in
theorem formatted_known [UnicodeTables] {db : Database} {n : PhoneNumber} {mode : Formatter.Mode} {s : Str}
    (h : Formatter.fmt db n mode = .ok s) : (db.byCode n.code.value).isSome := by
  obtain ⟨md, l, hl⟩ := exists_metadataFor h
  rw [hl]; rfl

theorem ordinary {n : PhoneNumber} {mode : Formatter.Mode} {s : Str} (h : format n mode = .ok s)
    (hlen : 2 ≤ n.national.display.length ∧ n.national.display.length ≤ 17) (hv : n.national.value ≠ 0) : Spec.Ordinary db n :=
  ⟨formatted_known h, code_range (formatted_known h), hlen, hv⟩

/-- C41 for the shipped database: the E.164 form of a number with a national number of two to seventeen digits, not all zero, parses
back without reference country, if national prefix handling leaves the national number alone. -/
theorem C41_builtin (n : PhoneNumber) (hlen : 2 ≤ n.national.display.length ∧ n.national.display.length ≤ 17)
    (hv : n.national.value ≠ 0) (hu : Spec.Untouched db n.code.value n.national.display) (s : Str) (h : format n .e164 = .ok s) :
    parse none s = .ok { n with code := ⟨n.code.value, .plus⟩, extension := none, carrier := none } :=
  C41_e164_roundtrip compile Data.territories db from_builtin ids_nodup shared prefixFree n (ordinary h hlen hv) hu s h none
    (fun _ h => by cases h)

omit [UnicodeTables] in
theorem formats_separate [UnicodeTables] {n : PhoneNumber} {md : Metadata} {f : Format} (hmd : Spec.MetadataFor db n md)
    (hf : Spec.Chosen md n.national.display .rfc3966 none f) :
    Spec.Faithful f ∧ ∀ c ∈ f.format, c = '$' ∨ isDigit c = true ∨ Spec.isSep c = true := by
  have he : Spec.Entry db md := by
    obtain ⟨l, hl⟩ := hmd
    exact .inr ⟨_, _, hl, by simp⟩
  obtain ⟨_, _, _, _, g1, _, g2, _⟩ := good_iff he
  rcases hf with hf | ⟨_, b, a, hf, _⟩
  · cases hf
  · have hmem : f ∈ Spec.formatsFor md .rfc3966 := by rw [hf]; simp
    unfold Spec.formatsFor at hmem
    split at hmem
    · rename_i hc
      rcases hc with hc | hc
      · rcases g2 with g | g
        · rw [g] at hmem; cases hmem
        · exact absurd hc g
      · cases hc
    · exact ⟨faithful_sound (g1 f hmem).1.1, fun c hc => by
        rcases (g1 f hmem).2 c hc with (h | h) | h
        · exact .inl h
        · exact .inr (.inl h)
        · exact .inr (.inr h)⟩

/-- C42 for the shipped database: the RFC 3966 form of a number with a national number of three to seventeen digits, not all zero,
parses back with every reference country, keeping the extension, if national prefix handling leaves the national number alone. -/
theorem C42_builtin (n : PhoneNumber) (hlen : 3 ≤ n.national.display.length ∧ n.national.display.length ≤ 17)
    (hv : n.national.value ≠ 0) (hext : ∀ e, n.extension = some e → ∀ c ∈ e, isDigit c = true)
    (hu : Spec.Untouched db n.code.value n.national.display) (s : Str) (h : format n .rfc3966 = .ok s) (country : Option Id) :
    parse country s = .ok { n with code := ⟨n.code.value, .plus⟩, carrier := none } :=
  C42_rfc3966_roundtrip compile Data.territories db from_builtin ids_nodup shared n (ordinary h ⟨by omega, hlen.2⟩ hv) hlen.1 hext
    (fun _ _ => formats_separate) hu s h country

/-- C41, C42 for the shipped database: what the parser returns survives being written and read again, if national prefix handling
leaves its national number alone. -/
theorem C41_parsed (country : Option Id) (s : Str) (p : PhoneNumber) (h : parse country s = .ok p)
    (hu : Spec.Untouched db p.code.value p.national.display) :
    (∃ t, format p .e164 = .ok t ∧ parse none t = .ok { p with code := ⟨p.code.value, .plus⟩, extension := none, carrier := none }) ∧
    (p.national.display.length ≠ 2 →
      ∃ t, format p .rfc3966 = .ok t ∧ ∀ c, parse c t = .ok { p with code := ⟨p.code.value, .plus⟩, carrier := none }) := by
  obtain ⟨h1, h2, _, h3, _⟩ := C06_builtin country s p h
  have hv : p.national.value ≠ 0 := by intro e; rw [e] at h3; exact absurd h3 (by decide)
  constructor
  · obtain ⟨t, ht⟩ := C57_parsed_formats country s p h .e164
    exact ⟨t, ht, C41_builtin p ⟨h1, h2⟩ hv hu t ht⟩
  · intro h4
    obtain ⟨t, ht⟩ := C57_parsed_formats country s p h .rfc3966
    exact ⟨t, ht, fun c => C42_builtin p ⟨by omega, h2⟩ hv (C08_digits db country s p h).1 hu t ht c⟩

/-- The condition on national prefixes holds for every number of a calling code none of whose territories has a national prefix or a
parsing pattern. -/
theorem untouched_of_no_prefix (c : Nat) (h : ∀ m ∈ Data.territories, m.countryCode = some c →
    m.nationalPrefix = none ∧ m.nationalPrefixForParsing = none) (ds : Str) : Spec.Untouched db c ds := by
  intro l md hl hm
  obtain ⟨m, hmem, hmd⟩ := entry_of_territory from_builtin (.inr ⟨c, l, hl, hm⟩)
  obtain ⟨_, f1, _, f2, _, _, f3, _⟩ := metadata_fields hmd
  have hcode := ((from_consistent from_builtin).2.1 c l hl).2 md hm
  obtain ⟨h1, h2⟩ := h m hmem (by rw [f1, hcode])
  rw [h1] at f2
  rw [h2] at f3
  refine ⟨fun np hnp => ?_, fun re m hre => ?_⟩
  · rw [f2] at hnp; cases hnp
  · rw [f3] at hre; cases hre

omit [UnicodeTables] in
/-- Denmark has neither. -/
example : ∀ m ∈ Data.territories, m.countryCode = some 45 → m.nationalPrefix = none ∧ m.nationalPrefixForParsing = none := by
  have h : Data.territories.all (fun m => m.countryCode != some 45 || (m.nationalPrefix.isNone && m.nationalPrefixForParsing.isNone)) = true := by
    kernel_rfl
  intro m hm hc
  simpa [hc] using List.all_eq_true.1 h m hm

/-! ## C52 -/

omit [UnicodeTables] in
/-- C52 for the shipped database: the general length check calls every number of every region invalid, because no territory lists
lengths for its general description; so the two places in the parser that use it never see a too short or a possible number. -/
theorem C52_builtin (md : Metadata) (h : Spec.Entry db md) (national : Str) : length md national .unknown = .invalidLength := by
  have := (good_iff h).2.2.2.2.2.2.2.1
  exact (C52_kind_ignored md .unknown national md.descriptors.general rfl).1 (.inr this)

/-! ## Fidelity of the matcher -/

/-- For every pattern of the shipped database the matcher agrees with one that has no special rule for empty iterations. -/
theorem matcher_exact (md : Metadata) (h : Spec.Entry db md) (r : Regex) (hr : r ∈ patterns md) : run r.re = runFull r.re :=
  run_eq_runFull ((good_iff h).2.2.2.2.2.2.2.2.1 r hr)

end

end Phone.Builtin
