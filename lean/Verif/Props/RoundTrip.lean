import Verif.Spec.RoundTrip
import Verif.Props.ParseErrors
import Verif.Props.Rfc3966
import Verif.Props.Validator
import Verif.Props.Format
/-! # Parsing what the formatter wrote -/

namespace Phone
open Helper Formatter

variable [UnicodeTables]

theorem stripNational_keep {md : Metadata} {n : Number} (h1 : ∀ np, md.nationalPrefix = some np → ¬ np <+: n.national)
    (h2 : ∀ re m, md.nationalPrefixForParsing = some re → re.find n.national = some m → m.start ≠ 0) :
    stripNational (some md) n = .ok n := by
  have hs : ∀ np, md.nationalPrefix = some np → startsWith n.national np = false := by
    intro np hnp
    rw [Bool.eq_false_iff, ne_eq, startsWith_iff]
    rintro ⟨r, hr⟩
    exact h1 np hnp ⟨r, hr.symm⟩
  have hn : nationalNumber (ε := ParseErr) md n = .ok n := by
    unfold nationalNumber
    split
    · split
      · rename_i pre hp
        rw [hs pre hp]; rfl
      · rfl
    · rename_i re hre
      split
      · rfl
      · rename_i m hm
        rw [if_pos (h2 re m hre hm)]
  have hd : dropNationalPrefix md n = .ok n := by
    unfold dropNationalPrefix
    split
    · rename_i pre hp
      rw [hs pre hp]; rfl
    · rfl
  simp only [stripNational, hn, Outcome.bind_ok, hd, Outcome.pure_eq]
  split <;> rfl

/-- The stages after `country_code` for a number with its own calling code that needs no national prefix handling. -/
theorem tail_untouched {compile : Str → Option Regex} {ms : List Loader.Metadata} {db : Database}
    (hdb : Database.from compile ms = .ok db) (hid : ((ms.filterMap (·.id)).filter (· ≠ worldId)).Nodup)
    (hs : Spec.SharedAreCountries db) {country : Option Id} {n : Number} {c : Nat} (hc : c < 65536) (hp : n.pref = some (decStr c))
    (hsrc : n.country ≠ .default) (hu : Spec.Untouched db c n.national) :
    (parseMeta db country n >>= fun md => stripNational md n >>= finishParse) = finishParse n := by
  have hcode : prefixCode n = .ok c := by
    unfold prefixCode
    rw [hp]
    simp only [parseUInt_decStr (b := u16Bound) hc, Outcome.okOr_some]
  have hm : ∃ md, parseMeta db country n = .ok md ∧ ∀ m, md = some m → ∃ l, db.byCode c = some l ∧ m ∈ l := by
    obtain ⟨o, ho⟩ := sourceFor_ok (ε := ParseErr) (from_consistent hdb).1 hs c (n.national.dropWhile (· == '0'))
    refine ⟨o.bind (sourceMeta db), ?_, ?_⟩
    · unfold parseMeta
      split
      · rename_i h; exact absurd h hsrc
      · simp [hcode, ho]
    · intro m h
      obtain ⟨src, rfl, hsm⟩ := Option.bind_eq_some_iff.1 h
      exact (source_mem hdb hid ho hsm).2
  obtain ⟨md, h1, h2⟩ := hm
  rw [h1]
  simp only [Outcome.bind_ok]
  cases md with
  | none => rfl
  | some m =>
    obtain ⟨l, hl, hml⟩ := h2 m rfl
    obtain ⟨u1, u2⟩ := hu l m hl hml
    rw [stripNational_keep u1 u2]; rfl

omit [UnicodeTables] in
/-- With prefix-free codes, the digits that start with a known code have that code as shortest one. -/
theorem shortest_of_prefixFree {db : Database} (hp : Spec.PrefixFree db) {c : Nat} (hc : (db.byCode c).isSome) (h1 : 1 ≤ c) (h2 : c ≤ 999)
    (ds : Str) : Spec.ShortestCode db (decStr c ++ ds) (decStr c).length := by
  have hd := digits_decStr c
  have hlen : 1 ≤ (decStr c).length := List.length_pos_iff.2 (decStr_ne_nil c)
  refine ⟨hlen, length_decStr_lt (k := 3) (by omega) (by omega), ?_, ?_⟩
  · simpa using hc
  · intro k hk hkl
    have ht : (decStr c ++ ds).take k = (decStr c).take k := by rw [List.take_append_of_le_length (by omega)]
    rw [ht, ← Option.not_isSome_iff_eq_none]
    intro hs
    have hne : (decStr c).take k ≠ [] := by
      intro h; have := congrArg List.length h; simp [decStr_ne_nil] at this; omega
    have hh : ((decStr c).take k).head? ≠ some '0' := by
      rw [List.head?_take, if_neg (by omega)]
      exact decStr_head_ne_zero (by omega)
    have he := decStr_decVal (hd.take k) hne hh
    have := hp _ _ hs hc (by rw [he]; exact List.take_prefix _ _)
    rw [this] at he
    have := congrArg List.length he
    simp at this; omega

omit [UnicodeTables] in
theorem finishParse_ordinary {db : Database} {n : PhoneNumber} (h : Spec.Ordinary db n) {src : Source} {ext : Option Str} :
    finishParse { national := n.national.display, country := src, pref := some (decStr n.code.value), extension := ext } =
      .ok ⟨⟨n.code.value, src⟩, n.national, ext, none⟩ := by
  have hd := digits_display n.national
  have := h.length
  have := h.code
  unfold finishParse
  simp only [hd.byteLen, Consts.minLengthForNsn, Consts.maxLengthForNsn]
  rw [if_neg (by omega), if_neg (by omega)]
  simp [prefixCode, parseUInt_decStr (b := u16Bound) (n := n.code.value) (by unfold u16Bound; omega), C03_display_fromStr _ h.value]

/-- A plus, a known calling code and further digits: the stages after `country_code` get the digits and the code. -/
theorem parse_plus_code {db : Database} (hp : Spec.PrefixFree db) {c : Nat} (hk : (db.byCode c).isSome) (hc : 1 ≤ c ∧ c ≤ 999)
    {r : Str} (hr : Digits r) (hlen : 3 ≤ (decStr c ++ r).length) {country : Option Id}
    (hidd : ∀ x, country = some x → ¬ Spec.BeginsWithIdd db country (decStr c ++ r)) :
    parseWith db country ('+' :: (decStr c ++ r)) =
      (parseMeta db country { national := r, country := .plus, pref := some (decStr c) } >>= fun md =>
        stripNational md { national := r, country := .plus, pref := some (decStr c) } >>= finishParse) := by
  generalize hds : decStr c ++ r = ds at hidd hlen
  have hd : Digits ds := by rw [← hds]; exact digits_append.2 ⟨digits_decStr _, hr⟩
  have hlen1 : 1 ≤ (decStr c).length := List.length_pos_iff.2 (decStr_ne_nil _)
  have hhead : ds.head? ≠ some '0' := by
    have := decStr_head_ne_zero (n := c) (by omega)
    obtain ⟨x, xs, hx⟩ := List.exists_cons_of_ne_nil (decStr_ne_nil c)
    rw [hx] at this
    rw [← hds, hx]
    exact this
  have hidd' : ¬ Spec.BeginsWithIdd db country ds := by
    cases hcn : country with
    | some c => rw [← hcn]; exact hidd c hcn
    | none =>
      rintro ⟨r, hr⟩
      rw [← hr] at hhead; exact hhead rfl
  have hplain : ∀ c ∈ ds, c ∈ plainChars ∧ c ≠ '+' := plain_iff.1 fun c hc => .inl (hd c hc)
  have hv := viable_plain (pl := ['+']) (x := ds) (.inr rfl) hplain (by rw [filter_digits hd]; omega)
  have hne : ds ≠ [] := by intro h; rw [h] at hlen; simp at hlen
  have hcc := countryCode_plus_digits db country hd hidd'
  rw [hd.byteLen, if_neg (by unfold Consts.minLengthForNsn; omega), if_neg] at hcc
  · obtain ⟨l1, l3, hk, hlt⟩ := shortest_of_prefixFree hp hk hc.1 hc.2 r
    rw [hds] at hk hlt
    have hloop := codeLoop_spec db { national := ds, country := .plus } hd [1, 2, 3] (by simp; omega)
    have : codeLoop db { national := ds, country := .plus } [1, 2, 3] =
        .ok { national := r, country := .plus, pref := some (decStr c) } := by
      rcases hloop with ⟨_, h1⟩ | ⟨before, len, after, hsp, hb, hk', he⟩
      · have := h1 (decStr c).length (by simp; omega)
        simp only at this
        rw [this] at hk; cases hk
      · simp only at hb hk' he
        have hlen : len = (decStr c).length := by
          have hmem : len ∈ [1, 2, 3] := by rw [hsp]; simp
          rcases Nat.lt_trichotomy len (decStr c).length with hlt' | heq | hgt
          · rw [hlt len (by simp at hmem; omega) hlt'] at hk'; cases hk'
          · exact heq
          · exfalso
            have hin : (decStr c).length ∈ before := by
              generalize (decStr c).length = j at *
              match before, hsp with
              | [], hsp => simp at hsp; omega
              | [a], hsp => simp at hsp; obtain ⟨rfl, rfl, _⟩ := hsp; simp; omega
              | [a, b], hsp => simp at hsp; obtain ⟨rfl, rfl, rfl, _⟩ := hsp; simp; omega
              | a :: b :: c :: t, hsp => simp at hsp
            rw [hb _ hin] at hk; cases hk
        rw [he, hlen, ← hds]
        simp
    rw [this] at hcc
    rw [parseWith_eq, readNumber_of_plus_digits hd hne]
    simp only [Outcome.bind_ok, afterRead, hcc]
    have hv' : isViable ('+' :: ds) = true := hv
    rw [hv']
    simp only [Bool.not_true, Bool.false_eq_true, if_false]
  · rw [startsWith_iff]
    rintro ⟨r, hr⟩
    rw [hr] at hhead; exact hhead rfl

/-- C41: the E.164 form of an ordinary number parses back to the number with source `Plus` and without extension and carrier, if
national prefix handling leaves the national number alone, with any reference country whose dialling prefix the digits do not
begin with (in particular without reference country). -/
theorem C41_e164_roundtrip (compile : Str → Option Regex) (ms : List Loader.Metadata) (db : Database)
    (hdb : Database.from compile ms = .ok db) (hid : ((ms.filterMap (·.id)).filter (· ≠ worldId)).Nodup)
    (hs : Spec.SharedAreCountries db) (hp : Spec.PrefixFree db) (n : PhoneNumber) (hn : Spec.Ordinary db n)
    (hu : Spec.Untouched db n.code.value n.national.display) (s : Str) (h : fmt db n .e164 = .ok s) (country : Option Id)
    (hidd : ∀ c, country = some c → ¬ Spec.BeginsWithIdd db country (decStr n.code.value ++ n.national.display)) :
    parseWith db country s = .ok { n with code := ⟨n.code.value, .plus⟩, extension := none, carrier := none } := by
  have hs' : s = '+' :: (decStr n.code.value ++ n.national.display) := by
    unfold fmt at h
    split at h
    · cases h
    · simp only [body, Outcome.ok.injEq] at h; rw [← h]; simp
  subst hs'
  have hlen1 : 1 ≤ (decStr n.code.value).length := List.length_pos_iff.2 (decStr_ne_nil _)
  rw [parse_plus_code hp hn.known hn.code (digits_display _) (by have := hn.length; rw [List.length_append]; omega) hidd,
    tail_untouched hdb hid hs (c := n.code.value) (by have := hn.code; omega) rfl (by simp) hu, finishParse_ordinary hn]

/-! ## RFC 3966 -/

omit [UnicodeTables] in
/-- The characters of an expanded template: captured ones and literal ones. -/
theorem expand_chars {m : Match} {k n : Nat} {t : Str} (h : Spec.RefsInOrder k t n) {c : Char} (hc : c ∈ expand m t) :
    (c ∈ t ∧ c ≠ '$' ∧ isDigit c = false) ∨ ∃ i g, m.get i = some g ∧ c ∈ g := by
  induction h with
  | nil => cases hc
  | text h1 h2 _ ih =>
    rw [expand_cons h2] at hc
    rcases List.mem_cons.1 hc with rfl | hc
    · exact .inl ⟨by simp, h2, h1⟩
    · rcases ih hc with ⟨h, h'⟩ | h
      · exact .inl ⟨by simp [h], h'⟩
      · exact .inr h
  | @ref k d s n h1 h2 h3 hr ih =>
    rw [expand_ref h1 h3] at hc
    rcases List.mem_append.1 hc with hc | hc
    · cases hg : m.get (digitVal d) with
      | none => rw [hg] at hc; cases hc
      | some g => rw [hg] at hc; exact .inr ⟨_, g, hg, hc⟩
    · rcases ih hc with ⟨h, h'⟩ | h
      · exact .inl ⟨by simp [h], h'⟩
      · exact .inr h

theorem digits_get {r : Regex} {v : Str} {m : Match} (hv : Digits v) (hm : r.find v = some m) {k : Nat} {t : Str} (hk : m.get k = some t) :
    Digits t := by
  have f := find_eq_some hm
  obtain ⟨x, y, hxy⟩ := f.get hk
  have := hv
  rw [f.split, hxy] at this
  simp only [digits_append] at this
  exact this.1.2.1.2

theorem replace_chars {f : Format} (hf : Spec.Faithful f) (ht : ∀ c ∈ f.format, c = '$' ∨ isDigit c = true ∨ Spec.isSep c = true) {v : Str}
    (hv : Digits v) {c : Char} (hc : c ∈ f.pattern.replace v f.format) : isDigit c = true ∨ Spec.isSep c = true := by
  unfold Regex.replace at hc
  split at hc
  · exact .inl (hv c hc)
  · rename_i m hm
    have hfound := find_eq_some hm
    have hsplit := hfound.split
    have hsub : ∀ x, (x ∈ m.pre ∨ x ∈ m.text ∨ x ∈ m.post) → isDigit x = true := by
      intro x hx
      apply hv
      rw [hsplit]
      rcases hx with h | h | h <;> simp [h]
    rcases List.mem_append.1 hc with hc | hc
    · rcases List.mem_append.1 hc with hc | hc
      · exact .inl (hsub c (.inl hc))
      · obtain ⟨n, _, h2⟩ := hf
        rcases expand_chars h2 hc with ⟨h, h', h''⟩ | ⟨i, g, hg, hcg⟩
        · rcases ht c h with h1 | h1 | h1
          · exact absurd h1 h'
          · exact .inl h1
          · exact .inr h1
        · exact .inl (digits_get hv hm hg c hcg)
    · exact .inl (hsub c (.inr (.inr hc)))

/-- What the RFC 3966 form looks like: calling code, then digits and hyphens which carry the national number. -/
theorem rfc3966_shape {db : Database} {n : PhoneNumber} {s : Str} (h : fmt db n .rfc3966 = .ok s)
    (hf : ∀ md f, Spec.MetadataFor db n md → Spec.Chosen md n.national.display .rfc3966 none f →
      Spec.Faithful f ∧ ∀ c ∈ f.format, c = '$' ∨ isDigit c = true ∨ Spec.isSep c = true) :
    ∃ nat, s = (str% "tel:+") ++ decStr n.code.value ++ ['-'] ++ nat ++ (match n.extension with | none => [] | some e => (str% ";ext=") ++ e) ∧
      Spec.digitsOf nat = n.national.display ∧ ∀ c ∈ nat, isDigit c = true ∨ c = '-' := by
  obtain ⟨md, nat, hmd, hs, hn⟩ := C37_rfc3966 db n none s h
  refine ⟨nat, ?_, ?_⟩
  · rw [hs]; cases n.extension <;> rfl
  · rcases hn with ⟨_, rfl⟩ | ⟨f, hch, rfl⟩
    · exact ⟨digitsOf_digits (digits_display _), fun c hc => .inl (digits_display _ c hc)⟩
    · obtain ⟨h1, h2⟩ := hf md f hmd hch
      refine ⟨by rw [digitsOf_hyphenate, digitsOf_replace h1 (digits_display _)], ?_⟩
      intro c hc
      obtain ⟨k1, _, k2⟩ := C37_hyphenate (f.pattern.replace n.national.display f.format)
      cases hsep : Spec.isSep c with
      | true => exact .inr (k1 c hc hsep)
      | false =>
        have : c ∈ (Spec.hyphenate (f.pattern.replace n.national.display f.format)).filter (fun c => !Spec.isSep c) := by simp [hc, hsep]
        rw [k2] at this
        rcases replace_chars h1 h2 (digits_display _) (List.mem_filter.1 this).1 with h | h
        · exact .inl h
        · rw [hsep] at h; cases h

/-- The RFC 3966 form of an ordinary number with at least three national digits: the stages after `country_code` get the national digits,
the calling code and the extension. -/
theorem parse_rfc3966_form {db : Database} {n : PhoneNumber} (hn : Spec.Ordinary db n) (h3 : 3 ≤ n.national.display.length)
    (hext : ∀ e, n.extension = some e → ∀ c ∈ e, isDigit c = true)
    (hf : ∀ md f, Spec.MetadataFor db n md → Spec.Chosen md n.national.display .rfc3966 none f →
      Spec.Faithful f ∧ ∀ c ∈ f.format, c = '$' ∨ isDigit c = true ∨ Spec.isSep c = true)
    {s : Str} (h : fmt db n .rfc3966 = .ok s) (country : Option Id) :
    parseWith db country s =
      (parseMeta db country ⟨.plus, n.national.display, some (decStr n.code.value), n.extension, none⟩ >>= fun md =>
        stripNational md ⟨.plus, n.national.display, some (decStr n.code.value), n.extension, none⟩ >>= finishParse) := by
  obtain ⟨nat, rfl, hnat, hchars⟩ := rfc3966_shape h hf
  have hplain : ∀ c ∈ '-' :: nat, c ∈ plainChars ∧ c ≠ '+' := by
    intro c hc
    rcases List.mem_cons.1 hc with rfl | hc
    · decide
    · rcases hchars c hc with h | rfl
      · exact ⟨mem_plain_of_digit h, by rintro rfl; revert h; decide⟩
      · decide
  have hfilter : ('-' :: nat).filter isDigit = n.national.display := by
    have : isDigit '-' = false := by decide
    rw [List.filter_cons_of_neg (by simp [this])]; exact hnat
  let t : Spec.Tel := ⟨some (decStr n.code.value), '-' :: nat, match n.extension with | none => [] | some e => [(str% "ext", e)]⟩
  have htext : (str% "tel:+") ++ decStr n.code.value ++ ['-'] ++ nat ++ (match n.extension with | none => [] | some e => (str% ";ext=") ++ e) =
      (str% "tel:") ++ t.text := by
    simp only [t, Spec.Tel.text]
    cases n.extension <;> simp [Spec.paramText]
  have hwf : t.WellFormed := by
    refine ⟨?_, ⟨by simp [t], ?_⟩, ?_⟩
    · intro p hp
      cases hp
      exact ⟨digits_decStr _, decStr_ne_nil _, '-', nat, rfl, by decide⟩
    · intro c hc
      rcases List.mem_cons.1 hc with rfl | hc
      · decide
      · rcases hchars c hc with h | rfl
        · simp [Spec.isPhoneDigit, h]
        · decide
    · intro p hp
      cases he : n.extension with
      | none => simp [t, he] at hp
      | some e =>
        simp only [t, he, List.mem_singleton] at hp
        subst hp
        refine ⟨show ∀ c ∈ (str% "ext"), Spec.isNameCharacter c = true by decide, fun c hc => ?_⟩
        simp [Spec.isValueCharacter, hext e he c hc]
  have hlast : t.last (str% "ext") = n.extension := by
    cases he : n.extension <;> simp [t, he, Spec.Tel.last]
  rw [htext, C19_scheme_optional db country (str% "tel:") t.text ⟨'t', 'e', 'l', rfl, .inl rfl, .inl rfl, .inl rfl⟩ ?_, parseWith_eq, tel_read hwf,
    hlast]
  · simp only [Outcome.bind_ok, afterRead]
    have hv : isViable ('-' :: nat) = true := viable_plain (pl := []) (.inl rfl) hplain (by rw [hfilter]; exact h3)
    have hcode := hn.code
    have hparse : parseUInt u16Bound (decStr n.code.value) = some n.code.value := parseUInt_decStr (b := u16Bound) (by unfold u16Bound; omega)
    have hact : ∀ d : Str, Digits d → act (mapFor false) d = d := by
      intro d hd
      rw [act_plain (fun c hc => mem_plain_of_digit (hd c hc)) false, filter_digits hd]
    have hcc : countryCode db country { national := t.number, pref := t.context, extension := n.extension } =
        .ok { national := n.national.display, country := .plus, pref := some (decStr n.code.value), extension := n.extension } := by
      unfold countryCode internationalPrefix
      simp only [t, Spec.Tel.context, alphaPhone_plain (fun c hc => (hplain c hc).1), Bool.false_eq_true, if_false, Option.isSome_some, if_true,
        Outcome.bind_ok]
      have hm : Consts.asciiMappings = mapFor false := rfl
      have hext' : n.extension.map (act (mapFor false)) = n.extension := by
        cases he : n.extension with
        | none => rfl
        | some e => simp [hact e (hext e he)]
      rw [hm]
      simp only [normalize, act_plain (fun c hc => (hplain c hc).1), hfilter, Option.map_some, hact _ (digits_decStr _), hext',
        (digits_display _).byteLen, Consts.minLengthForNsn]
      rw [if_neg (by omega), hparse]
      simp only [Outcome.okOr_some, Outcome.bind_ok]
      rw [if_neg]
      have := hn.known
      cases hb : db.byCode n.code.value with
      | none => rw [hb] at this; cases this
      | some l => simp
    have hv' : isViable t.number = true := hv
    rw [hv', hcc]
    simp only [Bool.not_true, Bool.false_eq_true, if_false, Outcome.bind_ok]
  · rintro sch' r ⟨a, b, c, rfl, h1, _⟩ he
    have := congrArg List.head? he
    simp only [t, Spec.Tel.text, List.cons_append, List.head?_cons, Option.some.injEq] at this
    rcases h1 with rfl | rfl <;> cases this

/-- C42: the RFC 3966 form of an ordinary number with at least three national digits parses back, with every reference country, to the
number with source `Plus` and without carrier, extension included, if the format used only groups the digits and national prefix
handling leaves the national number alone. -/
theorem C42_rfc3966_roundtrip (compile : Str → Option Regex) (ms : List Loader.Metadata) (db : Database)
    (hdb : Database.from compile ms = .ok db) (hid : ((ms.filterMap (·.id)).filter (· ≠ worldId)).Nodup)
    (hs : Spec.SharedAreCountries db) (n : PhoneNumber) (hn : Spec.Ordinary db n) (h3 : 3 ≤ n.national.display.length)
    (hext : ∀ e, n.extension = some e → ∀ c ∈ e, isDigit c = true)
    (hf : ∀ md f, Spec.MetadataFor db n md → Spec.Chosen md n.national.display .rfc3966 none f →
      Spec.Faithful f ∧ ∀ c ∈ f.format, c = '$' ∨ isDigit c = true ∨ Spec.isSep c = true)
    (hu : Spec.Untouched db n.code.value n.national.display) (s : Str) (h : fmt db n .rfc3966 = .ok s) (country : Option Id) :
    parseWith db country s = .ok { n with code := ⟨n.code.value, .plus⟩, carrier := none } := by
  rw [parse_rfc3966_form hn h3 hext hf h, tail_untouched hdb hid hs (country := country)
    (n := { national := n.national.display, country := .plus, pref := some (decStr n.code.value), extension := n.extension })
    (c := n.code.value) (by have := hn.code; omega) rfl (by simp) hu, finishParse_ordinary hn]

/-- Numbers meeting the hypotheses of C41 and C42 with the sample database. -/
example : let n : PhoneNumber := ⟨⟨1, .default⟩, ⟨6502530000⟩, some (str% "12"), none⟩
    Spec.Ordinary Sample.db n ∧ fmt Sample.db n .e164 = .ok (str% "+16502530000") ∧
    fmt Sample.db n .rfc3966 = .ok (str% "tel:+1-650-253-0000;ext=12") ∧
    parseWith Sample.db (some .RU) (str% "tel:+1-650-253-0000;ext=12") = .ok ⟨⟨1, .plus⟩, ⟨6502530000⟩, some (str% "12"), none⟩ :=
  ⟨⟨by kernel_rfl, by decide, by decide, by decide⟩, by kernel_rfl, by kernel_rfl, by kernel_rfl⟩

example : Spec.Untouched Sample.db 1 (str% "6502530000") := by
  have h : (Sample.db.byCode 1).map (fun l => l.all fun md => ((md.nationalPrefix.map fun np => !np.isPrefixOf (str% "6502530000")).getD true) &&
      ((md.nationalPrefixForParsing.map fun re => !matchesAtStart re (str% "6502530000")).getD true)) = some true := by kernel_rfl
  intro l md hl hm
  rw [hl] at h
  simp only [Option.map_some, Option.some.injEq, List.all_eq_true, Bool.and_eq_true] at h
  obtain ⟨h1, h2⟩ := h md hm
  refine ⟨fun np hnp hp => ?_, fun re m hre hm h0 => ?_⟩
  · rw [hnp] at h1
    simp only [Option.map_some, Option.getD_some, Bool.not_eq_true', ← Bool.not_eq_true, List.isPrefixOf_iff_prefix] at h1
    exact h1 hp
  · rw [hre] at h2
    simp only [Option.map_some, Option.getD_some, Bool.not_eq_true', ← Bool.not_eq_true] at h2
    exact h2 (matchesAtStart_iff.2 ⟨m, hm, h0⟩)

/-- Without the condition on national prefixes the round trip fails: a Russian freephone number loses its first digit. -/
example : fmt Sample.db ⟨⟨7, .plus⟩, ⟨8005553535⟩, none, none⟩ .e164 = .ok (str% "+78005553535") ∧
    (parseWith Sample.db none (str% "+78005553535") >>= fun n => .ok n.national.display) = .ok (str% "005553535") :=
  ⟨by kernel_rfl, by kernel_rfl⟩

/-- With two national digits the RFC 3966 form is not accepted. -/
example : fmt Sample.db ⟨⟨7, .plus⟩, ⟨12⟩, none, none⟩ .rfc3966 = .ok (str% "tel:+7-12") ∧
    parseWith Sample.db none (str% "tel:+7-12") = .err .noNumber ∧
    parseWith Sample.db none (str% "+712") = .ok ⟨⟨7, .plus⟩, ⟨12⟩, none, none⟩ := ⟨by kernel_rfl, by kernel_rfl, by kernel_rfl⟩

end Phone
