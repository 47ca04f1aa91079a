import Verif.Regex.Around
import Verif.Spec.Area
import Verif.Props.ValidBack
import Verif.Props.Reads
import Verif.Props.SoleBuiltin
import Verif.Props.ParseErrors
/-! # C47, C50 for the shipped database -/

namespace Phone.Builtin
open Database Helper
variable [UnicodeTables]

/-- The rule `$j` keeps what follows the match of the parsing pattern up to group `j`. -/
def keepsRule (re : Re) (j : Nat) (t : Str) : Bool :=
  re.once j && ((re.around j).all fun x => x.2.2.words == some [[]]) && (Nat.beq j 1 && t == (str% "$1") || Nat.beq j 2 && t == (str% "$2"))

/-- The rule puts an area code before a local number. -/
def areaRule (m : Loader.Metadata) (re : Re) (j : Nat) (t : Str) : Bool :=
  Nat.beq j 1 && re.once 1 && Spec.areaCodes.any fun e => m.id == some e.1 && t == e.2.1 ++ (str% "$1") && !e.2.1.contains '$' &&
    (match m.nationalPrefix with | none => true | some np => !np.isPrefixOf e.2.1 && Nat.ble np.length e.2.1.length) &&
    (re.around 1).all fun x => x.1.words == some [[]] && x.2.1.width == some e.2.2 && x.2.2.words == some [[]] && x.2.2.atEnd

/-- The rule of Argentina. -/
def mobileRule (m : Loader.Metadata) (re : Re) (j : Nat) (t : Str) : Bool :=
  Nat.beq j 1 && re.once 1 && (m.id == some (str% "AR") && t == (str% "9$1") && m.nationalPrefix == some ['0'] &&
    (re.around 1).all fun x => x.1.words == some [['0'], []] && x.2.2.words == some [['1', '5']])

def ruleCheck (m : Loader.Metadata) : Bool :=
  match m.nationalPrefixTransformRule with
  | none => true
  | some t => match m.nationalPrefixForParsing.bind compile with
    | none => false
    | some re => keepsRule re.re re.ngroups t || (areaRule m re.re re.ngroups t || mobileRule m re.re re.ngroups t)

omit [UnicodeTables] in
theorem rule_check : Data.territories.all ruleCheck = true := by kernel_rfl

omit [UnicodeTables] in
theorem expand_area {m : Match} {a c : Str} (ha : '$' ∉ a) (h : m.get 1 = some c) : expand m (a ++ (str% "$1")) = a ++ c := by
  rw [expand_text ha, show (str% "$1") = '$' :: '1' :: [] from rfl, expand_ref (by decide) (by simp), show digitVal '1' = 1 from rfl, h]
  simp

omit [UnicodeTables] in
theorem dropPrefix_drop (md : Metadata) (s : Str) : ∃ k, Spec.dropPrefix md s = s.drop k := by
  unfold Spec.dropPrefix Spec.dropOnce
  split
  · split
    · exact ⟨_, rfl⟩
    · exact ⟨0, rfl⟩
  · exact ⟨0, rfl⟩

/-- What rewriting does to the digits. -/
theorem rewritten_reshaped {m : Loader.Metadata} {md : Metadata} (he : Spec.EntryOf compile m md) (hc : ruleCheck m = true) {re : Regex}
    {mm : Match} {t ds : Str} (hre : md.nationalPrefixForParsing = some re) (hf : re.find ds = some mm) (hp : mm.pre = [])
    (hr : Spec.Rewrites md re mm t) : Spec.Reshaped md.id ds (Spec.dropPrefix md (expand mm t ++ mm.post)) := by
  obtain ⟨ht, hg⟩ := hr
  rw [he.nationalPrefixTransformRule] at ht
  have hcomp : m.nationalPrefixForParsing.bind compile = some re := by
    have := he.nationalPrefixForParsing
    rw [hre] at this
    generalize m.nationalPrefixForParsing = o at this
    cases this with
    | some h => exact h
  simp only [ruleCheck, ht, hcomp, Bool.or_eq_true] at hc
  rcases hc with hc | hc | hc
  · simp only [keepsRule, Bool.and_eq_true, Bool.or_eq_true, beq_iff_eq, List.all_eq_true] at hc
    obtain ⟨⟨ho, ha⟩, hj⟩ := hc
    have hj0 : re.ngroups ≠ 0 := by
      intro e
      rw [e] at hj
      rcases hj with ⟨h, _⟩ | ⟨h, _⟩ <;> cases h
    obtain ⟨u, c, v, e, hcap, x, hx, _, _, _, _, _, l3⟩ := find_around hf hp hj0 ho hg
    have hv : v = [] := by simpa using lang_words (ha x hx) l3
    subst hv
    have hex : expand mm t = c := by
      rcases hj with ⟨h, rfl⟩ | ⟨h, rfl⟩
      · rw [Nat.eq_of_beq_eq_true h] at hcap
        exact expand_area (a := []) (by simp) hcap
      · rw [Nat.eq_of_beq_eq_true h] at hcap
        rw [show (str% "$2") = '$' :: '2' :: [] from rfl, expand_ref (by decide) (by simp), show digitVal '2' = 2 from rfl, hcap]
        simp
    obtain ⟨k, hk⟩ := dropPrefix_drop md (expand mm t ++ mm.post)
    rw [hk, hex, show c ++ mm.post = ds.drop u.length by rw [e]; simp, List.drop_drop]
    exact .kept _
  · simp only [areaRule, Bool.and_eq_true, List.any_eq_true, beq_iff_eq, List.all_eq_true, Bool.not_eq_true'] at hc
    obtain ⟨⟨hj, ho⟩, ⟨id, a, n⟩, hmem, ⟨⟨⟨hid, htt⟩, hdol⟩, hnp⟩, ha⟩ := hc
    have hj := Nat.eq_of_beq_eq_true hj
    rw [hj] at hg
    obtain ⟨u, c, v, e, hcap, x, hx, _, _, _, l1, l2, l3⟩ := find_around hf hp (by decide) ho hg
    obtain ⟨⟨⟨w1, w2⟩, w3⟩, w4⟩ := ha x hx
    have hu : u = [] := by simpa using lang_words w1 l1
    have hv : v = [] := by simpa using lang_words w3 l3
    have hpost := lang_atEnd w4 l3
    have hlen := lang_width w2 l2
    subst hu hv
    simp only [List.nil_append, List.append_nil, hpost] at e
    subst e
    simp only at hid htt hdol hnp
    rw [he.id, Option.some.injEq] at hid
    rw [htt, expand_area (by simpa using hdol) hcap, hpost, List.append_nil]
    have : Spec.dropPrefix md (a ++ ds) = a ++ ds := by
      unfold Spec.dropPrefix Spec.dropOnce
      rw [he.nationalPrefix]
      cases hn : m.nationalPrefix with
      | none => rfl
      | some np =>
        simp only [hn, Bool.and_eq_true, Bool.not_eq_true'] at hnp
        simp only
        rw [if_neg]
        intro h
        have h := List.isPrefixOf_iff_prefix.1 h
        have := List.prefix_of_prefix_length_le h (List.prefix_append a ds) (Nat.le_of_ble_eq_true hnp.2)
        rw [List.isPrefixOf_iff_prefix.2 this] at hnp
        cases hnp.1
    rw [this]
    exact .area (by rw [hid, hlen]; exact hmem)
  · simp only [mobileRule, Bool.and_eq_true, beq_iff_eq, List.all_eq_true] at hc
    obtain ⟨⟨hj, ho⟩, ⟨⟨hid, htt⟩, hnp⟩, ha⟩ := hc
    have hj := Nat.eq_of_beq_eq_true hj
    rw [hj] at hg
    obtain ⟨u, c, v, e, hcap, x, hx, _, _, _, l1, l2, l3⟩ := find_around hf hp (by decide) ho hg
    obtain ⟨w1, w3⟩ := ha x hx
    have hu := lang_words w1 l1
    have hv : v = ['1', '5'] := by simpa using lang_words w3 l3
    rw [he.id, Option.some.injEq] at hid
    rw [htt, show (str% "9$1") = ['9'] ++ (str% "$1") from rfl, expand_area (by decide) hcap]
    have : Spec.dropPrefix md (['9'] ++ c ++ mm.post) = '9' :: c ++ mm.post := by
      unfold Spec.dropPrefix Spec.dropOnce
      rw [he.nationalPrefix, hnp]
      simp
    rw [this]
    exact .mobile hid (by simpa [or_comm] using hu) (by rw [e, hv])

/-- C47: what the territories of the shipped database make of digits. -/
theorem C47_national (md : Metadata) (h : Spec.Entry db md) (ds out : Str) (car : Option Str) (hp : Spec.NationalPart md ds out car) :
    Spec.Reshaped md.id ds out := by
  obtain ⟨m, hm, hmeta⟩ := entry_of_territory from_builtin h
  have hc := List.all_eq_true.1 rule_check m hm
  have he := metadata_rel _ _ hmeta
  cases hp with
  | unused _ _ => exact .kept 0
  | used ht _ =>
    have kept : ∀ k, Spec.Reshaped md.id ds (Spec.dropPrefix md (ds.drop k)) := fun k => by
      obtain ⟨k', hk'⟩ := dropPrefix_drop md (ds.drop k)
      rw [hk', List.drop_drop]
      exact .kept _
    cases ht with
    | plain _ =>
      obtain ⟨k, hk⟩ := dropPrefix_drop md ds
      rw [hk]; exact kept k
    | noMatch _ _ => exact kept 0
    | @removed re mm _ hf hp _ =>
      have := (find_eq_some hf).split
      rw [hp, List.nil_append] at this
      have : mm.post = ds.drop mm.text.length := by rw [this]; simp
      rw [this]
      exact kept _
    | rewritten hre hf hp hr _ _ => exact rewritten_reshaped he hc hre hf hp hr
    | kept _ _ _ _ _ _ => exact kept 0

/-- National prefix handling in the shipped database. -/
theorem stripNational_reshaped {country : Option Id} {n1 n2 : Number} {md : Metadata} (hc : n1.carrier = none)
    (hm : parseMeta db country n1 = .ok (some md)) (h : stripNational (some md) n1 = .ok n2) :
    Spec.Reshaped md.id n1.national n2.national := by
  have he := parseMeta_entry hm
  obtain ⟨out, car, hp⟩ := nationalPart_total md (firstWithLast he) n1.national
  rw [stripNational_of hc hp, Outcome.ok.injEq] at h
  rw [← h]
  exact C47_national md he _ _ _ hp

/-- The territory that national prefix handling uses has the calling code of the number, and is the reference country's if there is no
calling code in the text. -/
theorem parse_territory {country : Option Id} {n0 n1 : Number} (post : CodePost db country n0 n1) {c : Nat}
    (hp : prefixCode n1 = .ok c) {o : Option Metadata} (hm : parseMeta db country n1 = .ok o) :
    ∃ md, (o = some md ∨ o = none) ∧ Spec.Entry db md ∧ md.countryCode = c ∧
      (n1.country = .default → ∃ i, country = some i ∧ i.asRef = md.id) := by
  have hcons := from_consistent from_builtin
  have h16 : ∀ md, Spec.Entry db md → md.countryCode < 65536 := fun md h => by
    have := (good_iff h).1
    omega
  by_cases hd : n1.country = .default
  · obtain ⟨i, md, h1, h2, h3⟩ := post.natl (.inr hd)
    unfold parseMeta at hm
    rw [h1, hd] at hm
    simp only [Outcome.ok.injEq] at hm
    refine ⟨md, .inl (by rw [← hm, h2]), .inl ⟨_, h2⟩, ?_, fun _ => ⟨i, h1, ((hcons.2.2.2 _ _ h2).1).symm⟩⟩
    rw [prefixCode, h3] at hp
    simp only [parseUInt_decStr (b := u16Bound) (h16 md (.inl ⟨_, h2⟩)), Outcome.okOr_eq_ok, Option.some.injEq] at hp
    exact hp
  · have hm' : (do
        let code ← prefixCode n1
        let src ← sourceFor db code (n1.national.dropWhile (· == '0'))
        pure (src.bind (sourceMeta db)) : Outcome ParseErr (Option Metadata)) = .ok o := by
      unfold parseMeta at hm
      split at hm
      · rename_i h; exact absurd h hd
      · exact hm
    rw [hp, Outcome.bind_ok] at hm'
    obtain ⟨src, h1, h2⟩ := sourceFor_chosen ParseErr from_builtin ids_nodup shared c (n1.national.dropWhile (· == '0'))
    rw [h1, Outcome.bind_ok, Outcome.pure_eq, Outcome.ok.injEq] at hm'
    rw [hm'] at h2
    cases o with
    | some md =>
      obtain ⟨l, hl, hmem⟩ := region_mem h2
      exact ⟨md, .inl rfl, .inr ⟨_, _, hl, hmem⟩, (hcons.2.1 _ l hl).2 md hmem, fun h => absurd h hd⟩
    | none =>
      have hs : (db.byCode c).isSome := by
        cases hs : n1.country with
        | plus => obtain ⟨p', c', g1, g2, g3⟩ := post.intl (.inl hs); simp only [prefixCode, g1, g2, Outcome.okOr_eq_ok, Option.some.injEq] at hp; rwa [← hp]
        | idd => obtain ⟨p', c', g1, g2, g3⟩ := post.intl (.inr hs); simp only [prefixCode, g1, g2, Outcome.okOr_eq_ok, Option.some.injEq] at hp; rwa [← hp]
        | number =>
          obtain ⟨i, md, g1, g2, g3⟩ := post.natl (.inl hs)
          simp only [prefixCode, g3, parseUInt_decStr (b := u16Bound) (h16 md (.inl ⟨_, g2⟩)), Outcome.okOr_eq_ok, Option.some.injEq] at hp
          rw [← hp]
          exact (hcons.2.2.2 _ _ g2).2
        | default => exact absurd hs hd
      obtain ⟨l, hl⟩ := Option.isSome_iff_exists.1 hs
      obtain ⟨hne, hall⟩ := hcons.2.1 _ l hl
      cases l with
      | nil => exact absurd rfl hne
      | cons md l => exact ⟨md, .inr rfl, .inr ⟨_, _, hl, by simp⟩, hall md (by simp), fun h => absurd h hd⟩

/-- National prefix handling in the shipped database, whether or not a territory is known. -/
theorem stripNational_territory {country : Option Id} {n1 n2 : Number} {o : Option Metadata} (hc : n1.carrier = none)
    (hm : parseMeta db country n1 = .ok o) (h : stripNational o n1 = .ok n2) {id : Str} (ho : ∀ md, o = some md → md.id = id) :
    Spec.Reshaped id n1.national n2.national := by
  cases o with
  | some md => rw [← ho md rfl]; exact stripNational_reshaped hc hm h
  | none =>
    simp only [stripNational, Outcome.ok.injEq] at h
    rw [← h]
    exact .kept 0

theorem stripNational_digits {country : Option Id} {n1 n2 : Number} {o : Option Metadata} (hd : Digits n1.national)
    (hc : n1.carrier = none) (hm : parseMeta db country n1 = .ok o) (h : stripNational o n1 = .ok n2) : Digits n2.national := by
  cases o with
  | none =>
    simp only [stripNational, Outcome.ok.injEq] at h
    rw [← h]; exact hd
  | some md =>
    have he := parseMeta_entry hm
    obtain ⟨out, car, hp⟩ := nationalPart_total md (firstWithLast he) n1.national
    rw [stripNational_of hc hp, Outcome.ok.injEq] at h
    rw [← h]
    exact nationalPart_digits (digitTemplates he) hd hp

/-- C47: the national digits of a number read with the shipped database are a final part of the digits of the number part of the text,
except that some territories put the area code before a local number and that Argentina moves the mark of a mobile number. The territory
has the calling code of the number, and is the reference country if the text has no calling code. -/
theorem C47_builtin (country : Option Id) (s : Str) (p : PhoneNumber) (h : parse country s = .ok p) :
    ∃ a x b ds k md, s = a ++ x ++ b ∧ Spec.Viable x ∧ Spec.Digitised (Spec.vanity x) x ds ∧ Spec.Entry db md ∧
      md.countryCode = p.code.value ∧ (p.code.source = .default → ∃ i, country = some i ∧ i.asRef = md.id) ∧
      Spec.Reshaped md.id (ds.drop k) p.national.display := by
  obtain ⟨n0, n1, o, n2, h0, hv, h1, post, h2, h3, h4⟩ := parseWith_stages h
  obtain ⟨hc0, a, b, hs⟩ := readNumber_ok h0
  have hc : n1.carrier = none := by rw [post.carrier]; exact hc0
  obtain ⟨k, hk⟩ := post.suffix
  obtain ⟨g1, g2, g3, g4, g5, _⟩ := finishParse_ok h4
  obtain ⟨e1, e2, _, _, _⟩ := stripNational_ok post.norm.national hc h3
  have hpc : prefixCode n1 = .ok p.code.value := by
    rw [← g3]; unfold prefixCode; rw [e2]
  obtain ⟨md, ho, hent, hcode, hdef⟩ := parse_territory post hpc h2
  have hre := stripNational_territory hc h2 h3 (id := md.id) (fun md' e => by rcases ho with h | h <;> simp_all)
  have hd := stripNational_digits post.norm.national hc h2 h3
  rw [hd.byteLen] at g2
  refine ⟨a, n0.national, b, _, k, md, hs, hv, act_iff_digitised.1 rfl, hent, hcode, ?_, ?_⟩
  · rw [g4, e1]; exact hdef
  · rw [← hk, (fromStr_ok_digits hd g2 g5).1]
    exact hre

theorem area_example : readCheck Data.territories (some .NF) (str% "2 23-45") ⟨⟨672, .default⟩, ⟨322345⟩, none, some (str% "22345")⟩ = true := by
  kernel_rfl

theorem mobile_example : readCheck Data.territories (some .AR) (str% "0343 15 555 1212")
    ⟨⟨54, .default⟩, ⟨93435551212⟩, none, some (str% "343")⟩ = true := by kernel_rfl

/-- The three cases do occur: a local number of Norfolk Island and a mobile number of Argentina. -/
example : parse (some .NF) (str% "2 23-45") = .ok ⟨⟨672, .default⟩, ⟨322345⟩, none, some (str% "22345")⟩ ∧
    (NationalNumber.mk 322345).display = (str% "3") ++ (str% "22345") ∧
    parse (some .AR) (str% "0343 15 555 1212") = .ok ⟨⟨54, .default⟩, ⟨93435551212⟩, none, some (str% "343")⟩ ∧
    (NationalNumber.mk 93435551212).display = '9' :: (str% "343") ++ (str% "5551212") :=
  ⟨reads_of_check area_example, by kernel_rfl, reads_of_check mobile_example, by kernel_rfl⟩

omit [UnicodeTables] in
/-- Area codes are not zero, and short. -/
theorem area_facts {id a : Str} {n : Nat} (h : (id, a, n) ∈ Spec.areaCodes) : a.length + n ≤ 10 ∧ ∃ c ∈ a, c ≠ '0' := by
  have : Spec.areaCodes.all (fun e => Nat.ble (e.2.1.length + e.2.2) 10 && e.2.1.any (· != '0')) = true := by decide
  have := List.all_eq_true.1 this _ h
  simp only [Bool.and_eq_true, List.any_eq_true, bne_iff_ne] at this
  exact ⟨Nat.le_of_ble_eq_true this.1, this.2⟩

/-- C50: with the shipped database `TooLong` is only returned if the number part of the text has more than 17 digits or has 17 digits
that form a number of at least 2^56. -/
theorem C50_tooLong_builtin (country : Option Id) (s : Str) (h : parse country s = .err .tooLong) :
    ∃ a x b ds, s = a ++ x ++ b ∧ Spec.Viable x ∧ Spec.Digitised (Spec.vanity x) x ds ∧
      (17 < ds.length ∨ ds.length = 17 ∧ 2 ^ 56 ≤ decVal ds) := by
  rcases parseWith_err h with ⟨h, _⟩ | ⟨n0, h0, hv, ⟨_, h⟩ | ⟨n1, h1, post, ⟨h, _⟩ | ⟨o, n2, h2, h3, h4⟩⟩⟩
  · cases h
  · have := h.kind; simp at this
  · obtain ⟨_, h⟩ := h; cases h
  · obtain ⟨hc0, a, b, hs⟩ := readNumber_ok h0
    have hc : n1.carrier = none := by rw [post.carrier]; exact hc0
    have hd := stripNational_digits post.norm.national hc h2 h3
    obtain ⟨k', hk'⟩ := post.suffix
    have hre : ∃ id, Spec.Reshaped id n1.national n2.national := by
      cases o with
      | none => exact ⟨[], stripNational_territory hc h2 h3 (by simp)⟩
      | some md => exact ⟨md.id, stripNational_territory hc h2 h3 (by simp)⟩
    obtain ⟨id, hre⟩ := hre
    generalize hds : act (mapFor (Spec.vanity n0.national)) n0.national = ds at hk'
    refine ⟨a, n0.national, b, ds, hs, hv, act_iff_digitised.1 hds, ?_⟩
    have hlen : n1.national.length ≤ ds.length := by rw [hk', List.length_drop]; omega
    have hlong : 17 < n2.national.length ∨ n2.national.length = 17 ∧ 2 ^ 56 ≤ decVal n2.national := by
      rcases finishParse_err hd h4 with ⟨h, _⟩ | ⟨_, h⟩ | ⟨h, _⟩
      · cases h
      · rcases h with h | h
        · exact .inl h
        · have h5 := decVal_lt hd
          rcases Nat.lt_or_ge n2.national.length 17 with hlt | hge
          · have : 10 ^ n2.national.length ≤ 10 ^ 16 := Nat.pow_le_pow_right (by omega) (by omega)
            omega
          · rcases Nat.lt_or_ge 17 n2.national.length with hlt | hge'
            · exact .inl hlt
            · exact .inr ⟨by omega, h⟩
      · obtain ⟨_, h⟩ := h; cases h
    generalize n2.national = out at hre hlong
    cases hre with
    | kept k =>
      rw [hk', List.drop_drop] at hlong
      have hl : (ds.drop (k' + k)).length = ds.length - (k' + k) := by simp
      rcases Nat.lt_or_ge 17 ds.length with hlt | hge
      · exact .inl hlt
      · rcases hlong with h | ⟨h, h'⟩
        · omega
        · have : k' + k = 0 := by omega
          rw [this] at h h'
          exact .inr ⟨h, h'⟩
    | area ha =>
      have := (area_facts ha).1
      rw [List.length_append] at hlong
      omega
    | @mobile z u r _ _ e =>
      have := congrArg List.length e
      simp only [List.length_append, List.length_cons, List.length_nil] at this
      simp only [List.length_append, List.length_cons] at hlong
      omega

/-- There are texts with this error. -/
example : parse none (str% "+32123456789012345678") = .err .tooLong := by
  obtain ⟨md, h1, h2⟩ := sole_of_check be_sole
  refine (C71_sole compile Data.territories db from_builtin ids_nodup shared prefixFree (fun _ => digitTemplates) 32 .BE md h1 (by decide)
    none (str% "123456789012345678") (by decide) (by decide) (fun _ h => by cases h)).1 _ (.long (.inl ?_))
  simp only [Spec.dropPrefix, h2, Spec.dropOnce]
  decide

/-- C50: with the shipped database `MalformedInteger` is only returned if the text has a plus sign or a parameter, or the remaining
national digits are all zero. -/
theorem C50_malformed_builtin (country : Option Id) (s : Str) (k : IntErr) (h : parse country s = .err (.malformedInteger k)) :
    ('+' ∈ s ∨ ';' ∈ s) ∨
    ∃ a x b ds k, s = a ++ x ++ b ∧ Spec.Viable x ∧ Spec.Digitised (Spec.vanity x) x ds ∧
      2 ≤ (ds.drop k).length ∧ ∀ c ∈ ds.drop k, c = '0' := by
  have h16 : ∀ md, Spec.Entry db md → md.countryCode < 65536 := fun md h => by
    have := (good_iff h).1
    omega
  have known : ∀ n0 n1, CodePost db country n0 n1 → ∀ p, n1.pref = some p → parseUInt u16Bound p ≠ none := by
    intro n0 n1 post p hp
    cases hs : n1.country with
    | plus => obtain ⟨p', c, h1, h2, _⟩ := post.intl (.inl hs); rw [h1] at hp; cases hp; simp [h2]
    | idd => obtain ⟨p', c, h1, h2, _⟩ := post.intl (.inr hs); rw [h1] at hp; cases hp; simp [h2]
    | number =>
      obtain ⟨c, md, _, h2, h3⟩ := post.natl (.inl hs)
      rw [h3] at hp; cases hp; rw [parseUInt_decStr (b := u16Bound) (h16 md (.inl ⟨_, h2⟩))]; simp
    | default =>
      obtain ⟨c, md, _, h2, h3⟩ := post.natl (.inr hs)
      rw [h3] at hp; cases hp; rw [parseUInt_decStr (b := u16Bound) (h16 md (.inl ⟨_, h2⟩))]; simp
  rcases parseWith_err h with ⟨h, _⟩ | ⟨n0, h0, hv, ⟨_, h⟩ | ⟨n1, h1, post, ⟨_, p, hp, hu, _⟩ | ⟨o, n2, h2, h3, h4⟩⟩⟩
  · cases h
  · exact .inl (readNumber_pref_cause h0 (h.malformed _ rfl).1)
  · exact absurd hu (known n0 n1 post p hp)
  · obtain ⟨hc0, a, b, hs⟩ := readNumber_ok h0
    have hc : n1.carrier = none := by rw [post.carrier]; exact hc0
    have hd := stripNational_digits post.norm.national hc h2 h3
    obtain ⟨k', hk'⟩ := post.suffix
    have hre : ∃ id, Spec.Reshaped id n1.national n2.national := by
      cases o with
      | none => exact ⟨[], stripNational_territory hc h2 h3 (by simp)⟩
      | some md => exact ⟨md.id, stripNational_territory hc h2 h3 (by simp)⟩
    obtain ⟨id, hre⟩ := hre
    rcases finishParse_err hd h4 with ⟨h, _⟩ | ⟨h, _⟩ | ⟨_, h⟩
    · cases h
    · cases h
    · rcases h with ⟨p, hp, hu, _⟩ | ⟨h5, h6, _⟩
      · rw [(stripNational_ok post.norm.national hc h3).2.1] at hp
        exact absurd hu (known n0 n1 post p hp)
      · right
        generalize n2.national = out at hre h5 h6
        cases hre with
        | kept k =>
          rw [hk', List.drop_drop] at h5 h6
          exact ⟨a, n0.national, b, _, k' + k, hs, hv, act_iff_digitised.1 rfl, h5, h6⟩
        | area ha =>
          obtain ⟨_, c, hc, h0⟩ := area_facts ha
          exact absurd (h6 c (List.mem_append.2 (.inl hc))) h0
        | mobile _ _ _ => exact absurd (h6 '9' (by simp)) (by decide)

/-- There are texts with this error. -/
example : parse none (str% "+320000") = .err (.malformedInteger .empty) :=
  (C71_builtin 32 .BE _ be_sole (.inr rfl) (str% "0000") (by decide) (by decide) (by decide)).2 (by decide)

end Phone.Builtin
