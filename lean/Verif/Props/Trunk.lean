import Verif.Props.NationalPrefix
import Verif.Props.Region
import Verif.Spec.Trunk
/-! # C62: what becomes of national digits -/

namespace Phone
open Helper

variable [UnicodeTables]

omit [UnicodeTables] in
theorem dropNationalPrefix_eq (md : Metadata) (n : Number) :
    dropNationalPrefix md n = .ok { n with national := Spec.dropPrefix md n.national } := by
  unfold dropNationalPrefix Spec.dropPrefix
  cases md.nationalPrefix with
  | none => rfl
  | some np => exact drop_trim np n.national fun nat => .ok { n with national := nat }

theorem isMatch_false {d : Descriptor} {s : Str} : d.isMatch s = false ↔ ¬ Spec.Accepts d s := by
  rw [← Bool.not_eq_true, C26_isMatch_iff]

theorem nationalNumber_of {md : Metadata} {n : Number} {out : Str} {car : Option Str} (hc : n.carrier = none)
    (h : Spec.Trunk md n.national out car) :
    nationalNumber (ε := ParseErr) md n = .ok { n with national := out, carrier := car } := by
  obtain ⟨c, nat, p, e, k⟩ := n
  simp only at hc h
  subst hc
  unfold nationalNumber
  cases h with
  | plain hre =>
    simp only [hre, Spec.dropPrefix]
    cases md.nationalPrefix with
    | none => rfl
    | some np => exact drop_trim np nat fun x => .ok (⟨c, x, p, e, none⟩ : Number)
  | @noMatch re hre hm =>
    simp only [hre]
    cases hf : re.find out with
    | none => rfl
    | some m =>
      have : m.start ≠ 0 := fun h => hm m hf (Match.start_eq_zero.1 h)
      simp only [if_pos this]
  | @removed re m hre hf hp hr =>
    have f := find_eq_some hf
    have h0 : ¬ m.start ≠ 0 := by simp [Match.start_eq_zero, hp]
    have hd : dropBytes nat m.start = some nat := by
      rw [f.stop_eq.2.2.1]
      have := f.split
      rw [hp] at this
      simpa using this.symm
    have hx : ∀ b : Bool, (b && !b) = false := by decide
    simp only [hre, hf, if_neg h0]
    split
    · rename_i t' l' h1 h2
      exact absurd ⟨h1, by simp [h2]⟩ (hr t')
    · simp only [hd, Outcome.slice_some, Outcome.bind_ok, hx, Bool.false_eq_true, if_false, trim, f.stop_eq.1]
      simp
  | @rewritten re m t car hre hf hp hr ha hg =>
    have h0 : ¬ m.start ≠ 0 := by simp [Match.start_eq_zero, hp]
    obtain ⟨l, hl⟩ := Option.isSome_iff_exists.1 hr.2
    simp only [hre, hf, if_neg h0, hr.1, hl, hg]
    have hrep : re.replace nat t = expand m t ++ m.post := by simp [Regex.replace, hf, hp]
    rw [hrep]
    have : (md.descriptors.general.isMatch nat && !md.descriptors.general.isMatch (expand m t ++ m.post)) = false := by
      cases h1 : md.descriptors.general.isMatch nat with
      | false => rfl
      | true => simp [(C26_isMatch_iff _ _).2 (ha ((C26_isMatch_iff _ _).1 h1))]
    simp [this]
  | @kept re m t hre hf hp hr ha hn =>
    have h0 : ¬ m.start ≠ 0 := by simp [Match.start_eq_zero, hp]
    obtain ⟨l, hl⟩ := Option.isSome_iff_exists.1 hr.2
    have hrep : re.replace out t = expand m t ++ m.post := by simp [Regex.replace, hf, hp]
    simp only [hre, hf, if_neg h0, hr.1, hl, hrep, (C26_isMatch_iff _ _).2 ha, isMatch_false.2 hn]
    rfl

theorem stripNational_of {md : Metadata} {n : Number} {out : Str} {car : Option Str} (hc : n.carrier = none)
    (h : Spec.NationalPart md n.national out car) : stripNational (some md) n = .ok { n with national := out, carrier := car } := by
  unfold stripNational
  cases h with
  | used ht hl =>
    rw [← length_tooShort] at hl
    simp only [nationalNumber_of hc ht, Outcome.bind_ok, dropNationalPrefix_eq, Outcome.pure_eq, if_pos hl]
  | unused ht hl =>
    rw [← length_tooShort] at hl
    simp only [nationalNumber_of hc ht, Outcome.bind_ok, dropNationalPrefix_eq, Outcome.pure_eq, hl]
    cases n; simp_all

/-- Something becomes of every digit string. -/
theorem trunk_total (md : Metadata) (hf : Spec.FirstWithLast md) (ds : Str) : ∃ out car, Spec.Trunk md ds out car := by
  cases hre : md.nationalPrefixForParsing with
  | none => exact ⟨_, _, .plain hre⟩
  | some re =>
    by_cases hm : ∀ m, re.find ds = some m → m.pre ≠ []
    · exact ⟨_, _, .noMatch hre hm⟩
    · simp only [ne_eq, Classical.not_forall, Classical.not_not] at hm
      obtain ⟨m, h1, h2⟩ := hm
      by_cases hr : ∃ t, Spec.Rewrites md re m t
      · obtain ⟨t, hr⟩ := hr
        obtain ⟨x, hx⟩ := Option.isSome_iff_exists.1 (hf (by simp [hr.1]) re hre ds m h1 hr.2)
        by_cases ha : Spec.Accepts md.descriptors.general ds → Spec.Accepts md.descriptors.general (expand m t ++ m.post)
        · exact ⟨_, _, .rewritten hre h1 h2 hr ha hx⟩
        · simp only [Classical.not_imp] at ha
          exact ⟨_, _, .kept hre h1 h2 hr ha.1 ha.2⟩
      · exact ⟨_, _, .removed hre h1 h2 fun t ht => hr ⟨t, ht⟩⟩

theorem nationalPart_total (md : Metadata) (hf : Spec.FirstWithLast md) (ds : Str) : ∃ out car, Spec.NationalPart md ds out car := by
  obtain ⟨out, car, h⟩ := trunk_total md hf ds
  by_cases hl : Spec.TooFew md.descriptors.general.possibleLength md.descriptors.general.possibleLocalLength (Spec.dropPrefix md out)
  · exact ⟨_, _, .unused h hl⟩
  · exact ⟨_, _, .used h hl⟩

omit [UnicodeTables] in
/-- Leading zeros and the rest. -/
theorem zeros_split (s : Str) : ∃ k t, s = List.replicate k '0' ++ t ∧ t.head? ≠ some '0' := by
  refine ⟨(s.takeWhile (· == '0')).length, s.dropWhile (· == '0'), ?_, dropWhile_zero_head s⟩
  have : s.takeWhile (· == '0') = List.replicate (s.takeWhile (· == '0')).length '0' := by
    rw [List.eq_replicate_iff]
    refine ⟨rfl, fun c hc => ?_⟩
    have := List.all_takeWhile (l := s) (p := (· == '0'))
    rw [List.all_eq_true] at this
    simpa using this c hc
  rw [← this, List.takeWhile_append_dropWhile]

omit [UnicodeTables] in
theorem fromStr_all_zero {s : Str} (h : ∀ c ∈ s, c = '0') : NationalNumber.fromStr s = .err (.malformedInteger .empty) := by
  have hd : Digits s := fun c hc => by rw [h c hc]; rfl
  have htake : s.takeWhile (· == '0') = s := (dropWhile_all fun c hc => by simp [h c hc]).2
  have hdrop : dropBytes s s.length = some [] := by
    have := dropBytes_append s []
    rwa [List.append_nil, hd.byteLen] at this
  unfold NationalNumber.fromStr
  simp only [htake, hdrop, Outcome.slice_some, Outcome.bind_ok]
  rfl

omit [UnicodeTables] in
theorem fromStr_large {s : Str} (hd : Digits s) (hl : s.length ≤ 17) (h : 2 ^ 56 ≤ decVal s) :
    NationalNumber.fromStr s = .err .tooLong := by
  obtain ⟨k, t, rfl, h0⟩ := zeros_split s
  rw [decVal_replicate_zero] at h
  have ht : Digits t := (digits_append.1 hd).2
  have hne : t ≠ [] := by rintro rfl; simp at h
  have hlt : decVal t < 2 ^ 64 := by
    have h1 := decVal_lt ht
    have h2 : t.length ≤ 17 := by simp at hl; omega
    have h3 : 10 ^ t.length ≤ 10 ^ 17 := Nat.pow_le_pow_right (by omega) h2
    have h4 : 10 ^ 17 < 2 ^ 64 := by decide
    omega
  rw [NationalNumber.fromStr_zeros ht hne h0 hlt, (C01_new_accessors _ _).2.2.1]
  rw [UInt64.toNat_ofNat', Nat.mod_eq_of_lt hlt]
  exact h

omit [UnicodeTables] in
theorem prefixCode_decStr {n : Number} {c : Nat} (hp : n.pref = some (decStr c)) (hc : c < 65536) : prefixCode n = .ok c := by
  unfold prefixCode
  rw [hp]
  simp only [parseUInt_decStr (b := u16Bound) hc, Outcome.okOr_some]

omit [UnicodeTables] in
theorem finishParse_of {n : Number} (hd : Digits n.national) {c : Nat} (hcode : prefixCode n = .ok c)
    {o : Outcome ParseErr PhoneNumber}
    (h : Spec.Verdict n.national (fun x => ⟨⟨c, n.country⟩, x, n.extension, n.carrier⟩) o) : finishParse n = o := by
  unfold finishParse
  simp only [hd.byteLen, Consts.minLengthForNsn, Consts.maxLengthForNsn, hcode, Outcome.bind_ok]
  cases h with
  | short h => rw [if_pos h]
  | long h =>
    by_cases hl : 17 < n.national.length
    · rw [if_neg (by omega), if_pos hl]
    · have h := h.resolve_left hl
      rw [if_neg (by omega), if_neg hl, fromStr_large hd (by omega) h.1]; rfl
  | zero h1 h2 h3 => rw [if_neg (by omega), if_neg (by omega), fromStr_all_zero h3]; rfl
  | @ok m h1 h2 h3 h4 =>
    have hv : m.value ≠ 0 := by
      intro h0
      obtain ⟨x, hx, hx0⟩ := h3
      have := C03_zero_rejected m h0
      rw [h4] at this
      have hz : ∀ x ∈ m.display, x = '0' := by
        unfold NationalNumber.display
        rw [h0]
        intro x hx
        rcases List.mem_append.1 hx with hx | hx
        · exact List.eq_of_mem_replicate hx
        · rw [show decStr (0 : UInt64).toNat = ['0'] from rfl] at hx; simpa using hx
      exact hx0 (hz x (h4 ▸ hx))
    rw [if_neg (by omega), if_neg (by omega), ← h4, C03_display_fromStr m hv]; rfl

omit [UnicodeTables] in
theorem verdict_total {ds : Str} (hd : Digits ds) (mk : NationalNumber → PhoneNumber) : ∃ o, Spec.Verdict ds mk o := by
  by_cases h1 : ds.length < 2
  · exact ⟨_, .short h1⟩
  · by_cases h2 : 17 < ds.length
    · exact ⟨_, .long (.inl h2)⟩
    · by_cases h3 : ∀ c ∈ ds, c = '0'
      · exact ⟨_, .zero (by omega) (by omega) h3⟩
      · by_cases h4 : 2 ^ 56 ≤ decVal ds
        · exact ⟨_, .long (.inr ⟨h4, by omega⟩)⟩
        · obtain ⟨k, t, rfl, h0⟩ := zeros_split ds
          rw [decVal_replicate_zero] at h4
          have hne : t ≠ [] := by
            rintro rfl
            exact h3 fun c hc => by rw [List.append_nil] at hc; exact List.eq_of_mem_replicate hc
          obtain ⟨n, _, _, _, hn⟩ := C02_fromStr_display k t (digits_append.1 hd).2 hne h0 (by simp at h2; omega) (by omega)
          exact ⟨_, .ok (by omega) (by omega) (by simpa using h3) hn⟩

omit [UnicodeTables] in
theorem dropPrefix_digits {md : Metadata} {s : Str} (h : Digits s) : Digits (Spec.dropPrefix md s) := by
  unfold Spec.dropPrefix Spec.dropOnce
  split
  · split
    · exact h.drop _
    · exact h
  · exact h

theorem trunk_digits {md : Metadata} (ht : ∀ t, md.nationalPrefixTransformRule = some t → Spec.DigitTemplate t) {ds out : Str}
    {car : Option Str} (hd : Digits ds) (h : Spec.Trunk md ds out car) : Digits out := by
  have sp : ∀ {re : Regex} {m : Match}, re.find ds = some m → Digits m.text ∧ Digits m.post := by
    intro re m hf
    have := (find_eq_some hf).split
    rw [this] at hd
    simp only [digits_append] at hd
    exact ⟨hd.1.2, hd.2⟩
  cases h with
  | plain _ => exact dropPrefix_digits hd
  | noMatch _ _ => exact hd
  | removed _ hf _ _ => exact (sp hf).2
  | @rewritten re m t car _ hf _ hr _ _ =>
    refine digits_append.2 ⟨digits_expand ?_ (ht t hr.1), (sp hf).2⟩
    intro k u hk
    obtain ⟨x, y, hxy⟩ := (find_eq_some hf).get hk
    have := (sp hf).1
    rw [hxy] at this
    simp only [digits_append] at this
    exact this.1.2
  | kept _ _ _ _ _ _ => exact hd

theorem nationalPart_digits {md : Metadata} (ht : ∀ t, md.nationalPrefixTransformRule = some t → Spec.DigitTemplate t) {ds out : Str}
    {car : Option Str} (hd : Digits ds) (h : Spec.NationalPart md ds out car) : Digits out := by
  cases h with
  | used h _ => exact dropPrefix_digits (trunk_digits ht hd h)
  | unused _ _ => exact hd

/-! ## C62 -/

/-- C62, national numbers: digits written with a reference country, that begin neither with its dialling prefix (unless a zero follows it) nor (unless its general
description accepts them) with its calling code, are read as the number the region's parsing pattern, transform rule and national
prefix make of them. -/
theorem C62_national (db : Database) (c : Id) (md : Metadata) (hmd : db.byId c.asRef = some md) (hcc : md.countryCode < 65536)
    (ht : ∀ t, md.nationalPrefixTransformRule = some t → Spec.DigitTemplate t) (ds : Str) (hd : ∀ x ∈ ds, isDigit x = true)
    (h2 : 2 ≤ ds.length) (hidd : Spec.NotDialled db (some c) ds) (hown : ¬ Spec.OwnCode md ds)
    (out : Str) (car : Option Str) (h : Spec.NationalPart md ds out car) (o : Outcome ParseErr PhoneNumber)
    (hv : Spec.Verdict out (fun n => ⟨⟨md.countryCode, .default⟩, n, none, car⟩) o) : parseWith db (some c) ds = o := by
  rw [parse_national hmd hd h2 hidd, if_neg, stripNational_of rfl h]
  · exact finishParse_of (nationalPart_digits ht hd h) (prefixCode_decStr rfl hcc) hv
  · intro hx
    apply hown
    simp only [Bool.and_eq_true, startsWith_iff, Bool.or_eq_true, Bool.not_eq_true'] at hx
    obtain ⟨⟨r, hr⟩, hx⟩ := hx
    refine ⟨⟨r, hr.symm⟩, fun ⟨h1, h2⟩ => ?_⟩
    rcases hx with hx | hx
    · exact isMatch_false.1 hx h1
    · rw [length_possible.2 h2] at hx; cases hx

/-- Every such digit string is covered by C62. -/
theorem C62_national_total (md : Metadata) (hf : Spec.FirstWithLast md)
    (ht : ∀ t, md.nationalPrefixTransformRule = some t → Spec.DigitTemplate t) (ds : Str) (hd : ∀ x ∈ ds, isDigit x = true)
    (mk : Option Str → NationalNumber → PhoneNumber) : ∃ out car o, Spec.NationalPart md ds out car ∧ Spec.Verdict out (mk car) o := by
  obtain ⟨out, car, h⟩ := nationalPart_total md hf ds
  obtain ⟨o, ho⟩ := verdict_total (nationalPart_digits ht hd h) (mk car)
  exact ⟨out, car, o, h, ho⟩

section
variable (compile : Str → Option Regex) (ms : List Loader.Metadata) (db : Database)
  (hdb : Database.from compile ms = .ok db) (hid : ((ms.filterMap (·.id)).filter (· ≠ worldId)).Nodup)
  (hs : Spec.SharedAreCountries db)

theorem Spec.RegionOf.entry {db : Database} {c : Nat} {ds : Str} {md : Metadata} (h : Spec.RegionOf db c ds (some md)) :
    Spec.Entry db md := by
  cases h with
  | only h _ => exact .inr ⟨_, _, h, by simp⟩
  | first h _ _ _ => exact .inr ⟨_, _, h, by simp⟩

include hdb hid hs in
theorem tail_international {country : Option Id} {n : Number} (hd : Digits n.national) (hcar : n.carrier = none) {c : Nat}
    (hcode : prefixCode n = .ok c) (hsrc : n.country ≠ .default)
    (ht : ∀ md, Spec.Entry db md → ∀ t, md.nationalPrefixTransformRule = some t → Spec.DigitTemplate t)
    {out : Str} {car : Option Str} (h : Spec.InternationalPart db c n.national out car) {o : Outcome ParseErr PhoneNumber}
    (hv : Spec.Verdict out (fun x => ⟨⟨c, n.country⟩, x, n.extension, car⟩) o) : tail db country n = o := by
  obtain ⟨src, h1, h2⟩ := sourceFor_chosen ParseErr hdb hid hs c (n.national.dropWhile (· == '0'))
  have hm : parseMeta db country n = .ok (src.bind (sourceMeta db)) := by
    unfold parseMeta
    split
    · rename_i h; exact absurd h hsrc
    · simp [hcode, h1]
  unfold tail
  rw [hm, Outcome.bind_ok]
  rcases h with ⟨hr, rfl, rfl⟩ | ⟨md, hr, h⟩
  · rw [h2.unique hr]
    have : stripNational none n = .ok n := rfl
    rw [this, Outcome.bind_ok]
    exact finishParse_of hd hcode (by rw [hcar]; exact hv)
  · rw [h2.unique hr, stripNational_of hcar h, Outcome.bind_ok]
    exact finishParse_of (n := { n with national := out, carrier := car }) (nationalPart_digits (ht md hr.entry) hd h) hcode hv

include hdb hid hs in
/-- C62, international numbers: after a plus sign and a calling code the digits are read as the number the region chosen for them makes
of them, whatever the reference country. -/
theorem C62_international (hpf : Spec.PrefixFree db)
    (ht : ∀ md, Spec.Entry db md → ∀ t, md.nationalPrefixTransformRule = some t → Spec.DigitTemplate t)
    (country : Option Id) (c : Nat) (hk : (db.byCode c).isSome) (hc : 1 ≤ c ∧ c ≤ 999)
    (r : Str) (hr : ∀ x ∈ r, isDigit x = true) (h3 : 3 ≤ (decStr c ++ r).length)
    (hidd : ∀ x, country = some x → ¬ Spec.BeginsWithIdd db country (decStr c ++ r))
    (out : Str) (car : Option Str) (h : Spec.InternationalPart db c r out car) (o : Outcome ParseErr PhoneNumber)
    (hv : Spec.Verdict out (fun n => ⟨⟨c, .plus⟩, n, none, car⟩) o) : parseWith db country ('+' :: (decStr c ++ r)) = o := by
  rw [parse_plus_code hpf hk hc hr h3 hidd]
  exact tail_international compile ms db hdb hid hs (n := { national := r, country := .plus, pref := some (decStr c) }) hr rfl
    (prefixCode_decStr rfl (by omega)) (by simp) ht h hv

include hdb hid hs in
/-- C62, own calling code: digits that begin with the calling code of the reference country, and that its general description does not
accept as they are, are read without it like an international number. -/
theorem C62_own_code (ht : ∀ md, Spec.Entry db md → ∀ t, md.nationalPrefixTransformRule = some t → Spec.DigitTemplate t)
    (c : Id) (md : Metadata) (hmd : db.byId c.asRef = some md) (hcc : md.countryCode < 65536) (r : Str)
    (hd : ∀ x ∈ r, isDigit x = true) (h2 : 2 ≤ (decStr md.countryCode ++ r).length)
    (hidd : Spec.NotDialled db (some c) (decStr md.countryCode ++ r)) (hown : Spec.OwnCode md (decStr md.countryCode ++ r))
    (out : Str) (car : Option Str) (h : Spec.InternationalPart db md.countryCode r out car) (o : Outcome ParseErr PhoneNumber)
    (hv : Spec.Verdict out (fun n => ⟨⟨md.countryCode, .number⟩, n, none, car⟩) o) :
    parseWith db (some c) (decStr md.countryCode ++ r) = o := by
  have hd' : Digits (decStr md.countryCode ++ r) := digits_append.2 ⟨digits_decStr _, hd⟩
  rw [parse_national hmd hd' h2 hidd, if_pos, List.drop_left]
  · exact tail_international compile ms db hdb hid hs (n := { national := r, country := .number, pref := some (decStr md.countryCode) })
      hd rfl (prefixCode_decStr rfl hcc) (by simp) ht h hv
  · simp only [Bool.and_eq_true, startsWith_iff, Bool.or_eq_true, Bool.not_eq_true']
    refine ⟨⟨r, rfl⟩, ?_⟩
    have := hown.2
    cases hp : (length md (decStr md.countryCode ++ r) .unknown).possible with
    | false => exact .inr rfl
    | true => exact .inl (isMatch_false.2 fun ha => this ⟨ha, length_possible.1 hp⟩)

include hdb hid hs in
/-- Every digit string is covered by the two theorems above. -/
theorem C62_international_total (hf : ∀ md, Spec.Entry db md → Spec.FirstWithLast md)
    (ht : ∀ md, Spec.Entry db md → ∀ t, md.nationalPrefixTransformRule = some t → Spec.DigitTemplate t)
    (c : Nat) (r : Str) (hr : ∀ x ∈ r, isDigit x = true) (mk : Option Str → NationalNumber → PhoneNumber) :
    ∃ out car o, Spec.InternationalPart db c r out car ∧ Spec.Verdict out (mk car) o := by
  obtain ⟨src, h1, h2⟩ := sourceFor_chosen ParseErr hdb hid hs c (r.dropWhile (· == '0'))
  cases hm : src.bind (sourceMeta db) with
  | none =>
    rw [hm] at h2
    obtain ⟨o, ho⟩ := verdict_total hr (mk none)
    exact ⟨r, none, o, .inl ⟨h2, rfl, rfl⟩, ho⟩
  | some md =>
    rw [hm] at h2
    obtain ⟨out, car, o, h3, h4⟩ := C62_national_total md (hf md h2.entry) (ht md h2.entry) r hr mk
    exact ⟨out, car, o, .inr ⟨md, h2, h3⟩, h4⟩

end

/-- The Argentine entry of the sample, its parsing pattern and a match of it. -/
def Sample.arEntry : Metadata := (Sample.db.byId (str% "AR")).get (by kernel_rfl)
def Sample.arPattern : Regex := Sample.arEntry.nationalPrefixForParsing.get (by kernel_rfl)
def Sample.arMatch : Match := (Sample.arPattern.find (str% "0111523456789")).get (by kernel_rfl)

/-- The hypotheses are met: an Argentine mobile number written nationally is rewritten by the transform rule. -/
example : Sample.db.byId (Id.asRef .AR) = some Sample.arEntry ∧ Sample.arEntry.countryCode < 65536 ∧
    ¬ Spec.OwnCode Sample.arEntry (str% "0111523456789") ∧ Spec.NotDialled Sample.db (some .AR) (str% "0111523456789") ∧
    Spec.NationalPart Sample.arEntry (str% "0111523456789") (str% "91123456789") (some (str% "11")) := by
  have hcc : Sample.arEntry.countryCode = 54 := by kernel_rfl
  refine ⟨by kernel_rfl, by rw [hcc]; decide, ?_, ?_, ?_⟩
  · rintro ⟨h, _⟩
    rw [hcc] at h
    revert h
    decide
  · refine notDialled ?_
    rintro ⟨md, re, m, h1, h2, h3, h4⟩
    have : ((Sample.db.byId (Id.asRef .AR)).bind (·.internationalPrefix)).map (fun re => matchesAtStart re (str% "0111523456789")) =
        some false := by kernel_rfl
    rw [h1] at this
    simp [h2, matchesAtStart, h3, h4] at this
  · have hr : Spec.Rewrites Sample.arEntry Sample.arPattern Sample.arMatch (str% "9$1") := ⟨by kernel_rfl, by kernel_rfl⟩
    have ht : Spec.Trunk Sample.arEntry (str% "0111523456789") (expand Sample.arMatch (str% "9$1") ++ Sample.arMatch.post) (some (str% "11")) :=
      .rewritten (re := Sample.arPattern) (m := Sample.arMatch) (by kernel_rfl) (by kernel_rfl) (by kernel_rfl) hr
        (fun _ => (C26_isMatch_iff _ _).1 (by kernel_rfl)) (by kernel_rfl)
    have hl : length Sample.arEntry (Spec.dropPrefix Sample.arEntry (expand Sample.arMatch (str% "9$1") ++ Sample.arMatch.post)) .unknown =
      .invalidLength := by kernel_rfl
    have he : Spec.dropPrefix Sample.arEntry (expand Sample.arMatch (str% "9$1") ++ Sample.arMatch.post) = (str% "91123456789") := by kernel_rfl
    exact he ▸ .used ht (by rw [← length_tooShort, hl]; decide)

/-- What that gives. -/
example : parseWith Sample.db (some .AR) (str% "0111523456789") =
    .ok ⟨⟨54, .default⟩, ⟨91123456789⟩, none, some (str% "11")⟩ := by kernel_rfl

/-- The database conditions of C62 for international numbers are met by the sample. -/
example : Database.from Sample.compile Sample.territories = .ok Sample.db ∧
    ((Sample.territories.filterMap (·.id)).filter (· ≠ worldId)).Nodup ∧ Spec.SharedAreCountries Sample.db ∧ Spec.PrefixFree Sample.db ∧
    (∀ md, Spec.Entry Sample.db md → Spec.FirstWithLast md) ∧
    (∀ md, Spec.Entry Sample.db md → ∀ t, md.nationalPrefixTransformRule = some t → Spec.DigitTemplate t) ∧
    parseWith Sample.db none (str% "+5491123456789") = .ok ⟨⟨54, .plus⟩, ⟨91123456789⟩, none, none⟩ :=
  ⟨Sample.from_territories, by decide, Sample.db_shared, C34_sample_prefixFree, Sample.db_firstWithLast, Sample.db_templates, by kernel_rfl⟩

end Phone
