import Verif.Props.ReadBack
import Verif.Props.InternationalBuiltin
import Verif.Props.BuiltinPrefix
/-! # C73, C74 for the shipped database -/

namespace Phone
open Database

theorem collect_mem {α β : Type} {f : α → Outcome LoadErr β} {l : List α} {r : List β} (h : collect f l = .ok r) {a : α} (ha : a ∈ l) :
    ∃ b ∈ r, f a = .ok b := by
  induction l generalizing r with
  | nil => cases ha
  | cons x l ih =>
    simp only [collect, Outcome.bind_eq_ok, Outcome.ok.injEq] at h
    obtain ⟨b, hb, bs, hbs, rfl⟩ := h
    rcases List.mem_cons.1 ha with rfl | ha
    · exact ⟨b, by simp, hb⟩
    · obtain ⟨b', h1, h2⟩ := ih hbs ha
      exact ⟨b', by simp [h1], h2⟩

/-- A territory is among those of its calling code. -/
theorem territory_listed {compile : Str → Option Regex} {ms : List Loader.Metadata} {db : Database} (h : Database.from compile ms = .ok db)
    {m : Loader.Metadata} (hm : m ∈ ms) {c : Nat} (hc : m.countryCode = some c) :
    ∃ l md, db.byCode c = some l ∧ md ∈ l ∧ Database.metadata compile m = .ok md := by
  obtain ⟨mds, h1, rfl⟩ := from_eq_ok.1 h
  obtain ⟨md, h2, h3⟩ := collect_mem h1 hm
  have hcc := (metadata_fields h3).2.1
  rw [hc, Option.some.injEq] at hcc
  have hf : md ∈ mds.filter (·.countryCode == c) := List.mem_filter.2 ⟨h2, by simp [hcc]⟩
  refine ⟨_, md, (foldl_byCode mds c).1.trans (if_neg (List.ne_nil_of_mem hf)), ?_, h3⟩
  exact (List.filter_append_perm (fun x => x.mainCountryForCode) _).mem_iff.2 hf |> fun hx => by
    simp only [Spec.listed, List.mem_append, List.mem_reverse] at hx ⊢
    exact hx

variable [UnicodeTables]

/-- Among the territories of a calling code those that do not suit the digits are passed over. -/
theorem region_among {db : Database} {c : Nat} {ds : Str} {l : List Metadata} {P : Metadata → Prop} (hl : db.byCode c = some l)
    (h : ∀ m ∈ l, Spec.Suits m ds → P m) {md : Metadata} (hmd : md ∈ l) (hsuit : Spec.Suits md ds) (hid : ∃ i : Id, md.id = i.asRef)
    {o : Option Metadata} (ho : Spec.RegionOf db c ds o) : ∃ m, o = some m ∧ P m := by
  cases ho with
  | unknown h' => rw [hl] at h'; cases h'
  | only h' _ =>
    rw [hl, Option.some.injEq] at h'; subst h'
    simp only [List.mem_singleton] at hmd
    subst hmd
    exact ⟨_, rfl, h _ (by simp) hsuit⟩
  | other h' _ h2 =>
    rw [hl, Option.some.injEq] at h'; subst h'
    simp only [List.mem_singleton] at hmd
    subst hmd
    obtain ⟨i, hi⟩ := hid
    exact absurd hi (h2 i)
  | first h' _ h2 _ =>
    rw [hl, Option.some.injEq] at h'; subst h'
    exact ⟨_, rfl, h _ (by simp) h2⟩
  | nobody h' _ h2 =>
    rw [hl, Option.some.injEq] at h'; subst h'
    exact absurd hsuit (h2 _ hmd)

namespace Builtin

/-- C73 for the shipped database: the international form of a number with a national number of two to seventeen digits, not all zero,
and no extension or one of one to seven digits, is read as its E.164 form is, with the extension. -/
theorem C73_builtin_international (n : PhoneNumber) (hlen : 2 ≤ n.national.display.length ∧ n.national.display.length ≤ 17)
    (hv : n.national.value ≠ 0) (hext : ∀ e, n.extension = some e → e ≠ [] ∧ e.length ≤ 7 ∧ ∀ c ∈ e, isDigit c = true)
    (s : Str) (h : format n .international = .ok s) (country : Option Id)
    (hidd : ∀ c, country = some c → ¬ Spec.BeginsWithIdd db country (decStr n.code.value ++ n.national.display)) :
    ∃ t, format n .e164 = .ok t ∧ parse country s = parse none t >>= fun p => .ok { p with extension := n.extension } :=
  C73_international db prefixFree n (ordinary h hlen hv) none
    (fun _ _ hmd hf => (chosen_international hmd hf).1)
    (fun e he => ⟨hext e he, fun md hmd => ⟨(readable_iff (by obtain ⟨l, hl⟩ := hmd; exact .inr ⟨_, _, hl, by simp⟩)).2,
      fun f hf => (chosen_international hmd hf).2⟩⟩) s h country hidd

/-- C73 for the shipped database: the RFC 3966 form of a number with a national number of three to seventeen digits, not all zero, is
read as its E.164 form is, with the extension, whatever the reference country. -/
theorem C73_builtin_rfc3966 (n : PhoneNumber) (hlen : 3 ≤ n.national.display.length ∧ n.national.display.length ≤ 17)
    (hv : n.national.value ≠ 0) (hext : ∀ e, n.extension = some e → ∀ c ∈ e, isDigit c = true)
    (s : Str) (h : format n .rfc3966 = .ok s) (country : Option Id) :
    ∃ t, format n .e164 = .ok t ∧ parse country s = parse none t >>= fun p => .ok { p with extension := n.extension } :=
  C73_rfc3966 db prefixFree n (ordinary h ⟨by omega, hlen.2⟩ hv) hlen.1 hext (fun _ _ => formats_separate) s h country

/-- C73: for a number the parser returned whose extension has one to seven digits, or none, the three forms are read alike. -/
theorem C73_parsed (country : Option Id) (s : Str) (p : PhoneNumber) (h : parse country s = .ok p) (h3 : 3 ≤ p.national.display.length)
    (hext : ∀ e, p.extension = some e → e ≠ [] ∧ e.length ≤ 7) :
    ∃ t u v, format p .e164 = .ok t ∧ format p .international = .ok u ∧ format p .rfc3966 = .ok v ∧
      parse none u = (parse none t >>= fun q => .ok { q with extension := p.extension }) ∧ parse none v = parse none u := by
  obtain ⟨h1, h2, _, h4, _⟩ := C06_builtin country s p h
  have hv : p.national.value ≠ 0 := by intro e; rw [e] at h4; exact absurd h4 (by decide)
  obtain ⟨u, hu⟩ := C57_parsed_formats country s p h .international
  obtain ⟨v, hv'⟩ := C57_parsed_formats country s p h .rfc3966
  have hd := (C08_digits db country s p h).1
  obtain ⟨t, ht, e1⟩ := C73_builtin_international p ⟨h1, h2⟩ hv (fun e he => ⟨(hext e he).1, (hext e he).2, hd e he⟩) u hu none
    (fun _ h => by cases h)
  obtain ⟨t', ht', e2⟩ := C73_builtin_rfc3966 p ⟨h3, h2⟩ hv hd v hv' none
  rw [ht, Outcome.ok.injEq] at ht'
  subst ht'
  exact ⟨t, u, v, ht, hu, hv', e1, e2.trans e1.symm⟩

/-- C74 for the shipped database: the E.164 form of a number with a national number of two to seventeen digits, not all zero, is read
back exactly if the region chosen for its digits, should there be one, leaves them alone. -/
theorem C74_builtin (n : PhoneNumber) (hlen : 2 ≤ n.national.display.length ∧ n.national.display.length ≤ 17)
    (hv : n.national.value ≠ 0) (s : Str) (h : format n .e164 = .ok s) (country : Option Id)
    (hidd : ∀ c, country = some c → ¬ Spec.BeginsWithIdd db country (decStr n.code.value ++ n.national.display)) :
    parse country s = .ok { n with code := ⟨n.code.value, .plus⟩, extension := none, carrier := none } ↔
      Spec.InternationalPart db n.code.value n.national.display n.national.display none :=
  C74_read_back compile Data.territories db from_builtin ids_nodup shared prefixFree (fun _ h => firstWithLast h) (fun _ => digitTemplates) n (ordinary h hlen hv)
    country hidd s h

/-! ## Russia -/

/-- What the shipped territories say about calling code 7: one is for numbers that begin with 7; the others are for numbers that begin
with 3, 4, 8 or 9 and have the national prefix 8 and no parsing pattern. -/
def sevenCheck (ts : List Loader.Metadata) : Bool :=
  (ts.any fun m => m.countryCode == some 7 && m.id == some (str% "RU") && m.leadingDigits == some (str% "[3489]")) &&
  ts.all fun m => m.countryCode != some 7 || m.leadingDigits == some ['7'] ||
    (m.id == some (str% "RU") && m.nationalPrefix == some ['8'] && m.nationalPrefixForParsing.isNone)

omit [UnicodeTables] in
theorem seven : sevenCheck Data.territories = true := by kernel_rfl

omit [UnicodeTables] in
theorem compile_seven : compile ['7'] = some ⟨['7'], Re.chr '7', 0⟩ := by kernel_rfl
omit [UnicodeTables] in
theorem compile_ru : compile (str% "[3489]") =
    some ⟨str% "[3489]", Re.set [.range '3' '3', .range '4' '4', .range '8' '8', .range '9' '9'], 0⟩ := by kernel_rfl

/-- Digits that begin with 8 are Russian. -/
theorem eight_region (r : Str) : ∃ md, Spec.RegionOf db 7 ('8' :: r) (some md) ∧ md.id = (str% "RU") ∧ md.nationalPrefix = some ['8'] ∧
    md.nationalPrefixForParsing = none ∧ md.descriptors.general.possibleLength = [] := by
  have hs := seven
  simp only [sevenCheck, Bool.and_eq_true, List.any_eq_true, List.all_eq_true, Bool.or_eq_true, bne_iff_ne, beq_iff_eq,
    Option.isNone_iff_eq_none] at hs
  obtain ⟨⟨m, hm, ⟨hc, hi⟩, hld⟩, hall⟩ := hs
  obtain ⟨l, md, hl, hmd, hmeta⟩ := territory_listed from_builtin hm hc
  obtain ⟨src, _, ho⟩ := sourceFor_chosen ParseErr from_builtin ids_nodup shared 7 ('8' :: r)
  have f := metadata_fields hmeta
  have hsuit : Spec.Suits md ('8' :: r) := by
    have e := f.2.2.2.2.2.2.2.2
    rw [hld, Option.bind_some, compile_ru] at e
    simp only [Spec.Suits, e]
    exact ⟨['8'], r, rfl, .cls rfl⟩
  have hP : ∀ md' ∈ l, Spec.Suits md' ('8' :: r) → md'.id = (str% "RU") ∧ md'.nationalPrefix = some ['8'] ∧
      md'.nationalPrefixForParsing = none ∧ md'.descriptors.general.possibleLength = [] := by
    intro md' hmd' hsu
    have he : Spec.Entry db md' := .inr ⟨7, l, hl, hmd'⟩
    obtain ⟨m', hm', hmeta'⟩ := entry_of_territory from_builtin he
    have g := metadata_fields hmeta'
    have hcode := ((from_consistent from_builtin).2.1 7 l hl).2 md' hmd'
    rcases hall m' hm' with (h | h) | ⟨⟨h1, h2⟩, h3⟩
    · rw [g.2.1, hcode] at h; exact absurd rfl h
    · have e := g.2.2.2.2.2.2.2.2
      rw [h, Option.bind_some, compile_seven] at e
      simp only [Spec.Suits, e] at hsu
      obtain ⟨w, q, h1, h2⟩ := hsu
      rw [lang_chr] at h2
      subst h2
      simp at h1
    · refine ⟨?_, by rw [g.2.2.2.1, h2], ?_, (good_iff he).2.2.2.2.2.2.2.1⟩
      · have := g.1; rw [h1, Option.some.injEq] at this; exact this.symm
      · rw [g.2.2.2.2.2.2.1, h3]; rfl
  obtain ⟨x, hx, hP⟩ := region_among hl hP hmd hsuit ⟨.RU, by rw [hi, Option.some.injEq] at f; exact f.1.symm⟩ ho
  rw [hx] at ho
  exact ⟨x, ho, hP⟩

/-- C74, Russia: after `+78` one or two eights are lost. The result is determined by the remaining digits. -/
theorem C74_russia (r : Str) (hr : ∀ x ∈ r, isDigit x = true) (h1 : 1 ≤ r.length) (o : Outcome ParseErr PhoneNumber)
    (ho : Spec.Verdict (Spec.dropOnce ['8'] r) (fun n => ⟨⟨7, .plus⟩, n, none, none⟩) o) : parse none ((str% "+78") ++ r) = o := by
  obtain ⟨md, hreg, _, hnp, hpat, hlen⟩ := eight_region r
  have hk : (db.byCode 7).isSome := by
    cases hreg with
    | only h => simp [h]
    | first h => simp [h]
  refine C62_international compile Data.territories db from_builtin ids_nodup shared prefixFree (fun _ => digitTemplates) none 7 hk
    (by decide) ('8' :: r) (by simpa using ⟨by decide, hr⟩) (by show 3 ≤ ('7' :: '8' :: r).length; simp only [List.length_cons]; omega) (fun _ h => by cases h) (Spec.dropOnce ['8'] r) none
    (.inr ⟨md, hreg, ?_⟩) o ho
  have := Spec.NationalPart.used (md := md) (ds := '8' :: r) (.plain hpat) (by rw [hlen]; rintro ⟨_, _, h, _⟩; cases h)
  simpa [Spec.dropPrefix, hnp, Spec.dropOnce] using this

/-- C74, Russia: no number with calling code 7 whose national digits begin with 8 – every toll-free number – is read back from its E.164
form. -/
theorem C74_russian_eights (n : PhoneNumber) (hc : n.code.value = 7) (r : Str) (h8 : n.national.display = '8' :: r)
    (hlen : 2 ≤ n.national.display.length ∧ n.national.display.length ≤ 17) :
    ∃ s, format n .e164 = .ok s ∧ ∀ p, parse none s = .ok p → p.national ≠ n.national := by
  obtain ⟨m, hm, hm'⟩ := present (c := 7) (l := Data.territories) (by
    have hs := seven
    simp only [sevenCheck, Bool.and_eq_true, List.any_eq_true] at hs ⊢
    obtain ⟨⟨m, hm, ⟨hc, _⟩, _⟩, _⟩ := hs
    exact ⟨m, hm, hc⟩)
  obtain ⟨f1, f2⟩ := C35_builtin n .e164
  cases hf : format n .e164 with
  | err e => exact absurd hm' (by rw [← hc]; exact f2.1 ⟨e, hf⟩ m hm)
  | panic p => rw [hf] at f1; exact absurd trivial f1
  | ok s =>
    refine ⟨s, rfl, fun p hp he => ?_⟩
    have ht : s = (str% "+78") ++ r := by
      have h1 : format n .e164 = .ok ('+' :: (decStr n.code.value ++ n.national.display)) := e164_text hf
      rw [hf, hc, h8, Outcome.ok.injEq] at h1
      exact h1
    have hd := digits_display n.national
    rw [h8] at hd hlen
    have hr : Digits r := fun x hx => hd x (by simp [hx])
    obtain ⟨a, ha, _⟩ := dropOnce_suffix ['8'] r
    have hdd : Digits (Spec.dropOnce ['8'] r) := fun x hx => hr x (by rw [ha]; simp [hx])
    obtain ⟨o, ho⟩ := verdict_total hdd (fun n => (⟨⟨7, .plus⟩, n, none, none⟩ : PhoneNumber))
    have h1 := C74_russia r hr (by simp only [List.length_cons] at hlen; omega) o ho
    rw [← ht, hp] at h1
    subst h1
    cases ho with
    | ok _ _ _ hx =>
      simp only at he
      rw [← he, hx] at h8
      have h2 := congrArg List.length h8
      have h3 := congrArg List.length ha
      simp only [List.length_append, List.length_cons] at h2 h3
      omega

/-- Numbers meeting the hypotheses of `C74_read_back_plain`: Russian ones. -/
example (n : PhoneNumber) (hc : n.code.value = 7) (r : Str) (h8 : n.national.display = '8' :: r)
    (hlen : 2 ≤ n.national.display.length ∧ n.national.display.length ≤ 17) (hv : n.national.value ≠ 0) (s : Str)
    (h : format n .e164 = .ok s) : parse none s ≠ .ok { n with code := ⟨n.code.value, .plus⟩, extension := none, carrier := none } := by
  obtain ⟨md, hreg, _, hnp, hpat, hl⟩ := eight_region r
  refine fun hp => ((C74_read_back_plain compile Data.territories db from_builtin ids_nodup shared prefixFree (fun _ h => firstWithLast h)
    (fun _ => digitTemplates) n (ordinary h hlen hv) none (fun _ h => by cases h) s h md ['8'] (by rw [hc, h8]; exact hreg) hpat hnp
    (by simp)).1 hp).elim (fun hx => hx (by rw [h8]; exact ⟨r, rfl⟩)) (fun hx => ?_)
  rw [hl] at hx
  obtain ⟨_, _, h, _⟩ := hx
  cases h

/-- The toll-free number 800 555 35 35 is read as 005553535. -/
example (v : NationalNumber) (hv : v.display = (str% "005553535")) : parse none (str% "+78005553535") = .ok ⟨⟨7, .plus⟩, v, none, none⟩ :=
  C74_russia (str% "005553535") (by decide) (by decide) _ (.ok (by decide) (by decide) (by decide) hv)

/-- Such a national number, and one beginning with 8, exist. -/
example : (∃ v : NationalNumber, v.display = (str% "005553535")) ∧ ∃ v : NationalNumber, v.display = (str% "8005553535") :=
  ⟨⟨⟨(5553535 : UInt64) ||| (2 : UInt64) <<< 56⟩, by decide⟩, ⟨⟨8005553535⟩, by decide⟩⟩

end Builtin
end Phone
