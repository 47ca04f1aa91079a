import Verif.Props.ValidNational
import Verif.Props.ValidNationalExceptions
/-! # C84: the digits of a valid number are read in its country -/

namespace Phone
variable [UnicodeTables]

/-- Without a transform rule, or with one that keeps the first group, national prefix handling adds no digits. -/
theorem nationalPart_length {md : Metadata} (h : ∀ t, md.nationalPrefixTransformRule = some t → t = str% "$1") {ds out : Str} {car : Option Str}
    (hp : Spec.NationalPart md ds out car) : out.length ≤ ds.length := by
  have hdrop : ∀ s, (Spec.dropPrefix md s).length ≤ s.length := by
    intro s
    unfold Spec.dropPrefix Spec.dropOnce
    split
    · split
      · rw [List.length_drop]; omega
      · exact Nat.le_refl _
    · exact Nat.le_refl _
  have htr : ∀ {o c}, Spec.Trunk md ds o c → o.length ≤ ds.length := by
    intro o c ht
    cases ht with
    | plain _ => exact hdrop _
    | noMatch _ _ => exact Nat.le_refl _
    | removed _ hf _ _ =>
      have := congrArg List.length (find_eq_some hf).split
      simp only [List.length_append] at this
      omega
    | @rewritten re m t car _ hf _ hr _ hg =>
      rw [h t hr.1, show (str% "$1") = '$' :: '1' :: [] from rfl, expand_ref (by decide) (by simp),
        show digitVal '1' = 1 from rfl, hg]
      have f := find_eq_some hf
      obtain ⟨x, y, e⟩ := f.get hg
      have hs := congrArg List.length f.split
      rw [e] at hs
      simp only [List.length_append] at hs
      simp only [Option.getD_some, expand_nil, List.append_nil, List.length_append]
      omega
    | kept _ _ _ _ _ _ => exact Nat.le_refl _
  cases hp with
  | used ht _ => exact Nat.le_trans (hdrop _) (htr ht)
  | unused _ _ => exact Nat.le_refl _

namespace Builtin

/-- The digits the territory accepts do not begin with its dialling prefix, unless a zero follows. -/
def diallingCheck (m : Loader.Metadata) : Bool :=
  match m.internationalPrefix with
  | none => true
  | some p => match compile p with
    | none => false
    | some re => apart m [] (some [notZero re.re])

/-- The digits accepted do not begin with the calling code where a territory of the code has a transform rule that may add digits. -/
def addsCheck (ms : List Loader.Metadata) (m : Loader.Metadata) : Bool :=
  (ms.all fun m' => m'.countryCode != m.countryCode || m'.nationalPrefixTransformRule.all (· == str% "$1")) ||
    match m.countryCode with
    | none => false
    | some c => apart m [] (some [Re.lit (decStr c)])

/-- The calling codes with valid numbers whose digits are not read as they are in the country of the number. -/
def bareExceptions : List Nat := [7, 55, 62, 66, 81, 82, 91, 250, 359, 370, 375, 507, 598, 974]

def bareCheckOn (ms part : List Loader.Metadata) : Bool :=
  part.all fun m => bareExceptions.any (fun c => m.countryCode == some c) || (addsCheck ms m &&
    (!(nationalExceptions.any fun c => m.countryCode == some c) || diallingCheck m))

omit [UnicodeTables] in
theorem bare_check : bareCheckOn Data.territories Data.territories = true := by kernel_rfl

omit [UnicodeTables] in
theorem bareCheck_mem {ms : List Loader.Metadata} (h : bareCheckOn ms ms = true) {m : Loader.Metadata} (hm : m ∈ ms) {c : Nat}
    (hc : m.countryCode = some c) (hx : c ∉ bareExceptions) : addsCheck ms m = true ∧ (c ∈ nationalExceptions → diallingCheck m = true) := by
  have := List.all_eq_true.1 h m hm
  rw [Bool.or_eq_true] at this
  rcases this with h2 | h2
  · obtain ⟨k, hk, e⟩ := List.any_eq_true.1 h2
    rw [hc] at e
    have : c = k := by simpa using e
    exact absurd (this ▸ hk) hx
  · rw [Bool.and_eq_true, Bool.or_eq_true, Bool.not_eq_true'] at h2
    refine ⟨h2.1, fun hn => h2.2.resolve_left fun h => ?_⟩
    rw [List.any_eq_false] at h
    exact h c hn (by rw [hc]; simp)

/-- What the metadata says about digits a country accepts: their number, that no dialling prefix is removed, what national prefix
handling makes of them. -/
theorem bare_facts {c : Id} {md : Metadata} (hmd : db.byId c.asRef = some md) (hx : md.countryCode ∉ bareExceptions) {ds : Str}
    (hd : ∀ x ∈ ds, isDigit x = true) (hlt : ds.length < 65536) (hg : Spec.Accepts md.descriptors.general ds)
    (ht : ∃ o ∈ Spec.typed md.descriptors, Spec.AcceptsOpt o ds) :
    (4 ≤ ds.length ∧ ds.length ≤ 17) ∧ Spec.NotDialled db (some c) ds ∧ Spec.NationalPart md ds ds none ∧
    ((∀ md', md'.countryCode = md.countryCode → Spec.Entry db md' → ∀ t, md'.nationalPrefixTransformRule = some t → t = str% "$1") ∨
      ¬ decStr md.countryCode <+: ds) := by
  have hent : Spec.Entry db md := .inl ⟨_, hmd⟩
  obtain ⟨m, hm, hmm⟩ := entry_of_territory from_builtin hent
  have he := metadata_rel _ _ hmm
  have hgen : md.descriptors.general.possibleLength = [] := (good_iff hent).2.2.2.2.2.2.2.1
  obtain ⟨o, ho, d, rfl, ha⟩ := ht
  have hmc : m.countryCode = some md.countryCode := he.countryCode
  obtain ⟨hlc, hkeep⟩ := validCheck_mem valid_check hm hmc
  obtain ⟨e, he1, he2⟩ := typed_of_entry he ho
  have hlen := List.all_eq_true.1 hlc e he1
  rw [Bool.and_eq_true, ← he2.possibleLength] at hlen
  have hne : d.possibleLength ≠ [] := by simpa using hlen.1
  have hmem := ha.1.resolve_left hne
  rw [Digits.byteLen hd, Nat.mod_eq_of_lt hlt] at hmem
  have hb := List.all_eq_true.1 hlen.2 _ hmem
  rw [Bool.and_eq_true] at hb
  have hb : 4 ≤ ds.length ∧ ds.length ≤ 17 := ⟨Nat.le_of_ble_eq_true hb.1, Nat.le_of_ble_eq_true hb.2⟩
  obtain ⟨b1, b2⟩ := bareCheck_mem bare_check hm hmc hx
  have hdial : diallingCheck m = true := by
    by_cases hn : md.countryCode ∈ nationalExceptions
    · exact b2 hn
    · rcases (nationalCheck_mem national_check hm hmc hn).1 with this | ⟨this, _⟩
      · simp only [leadCheck, Bool.and_eq_true] at this
        exact this.1
      · simp only [unprefixedCheck, Bool.and_eq_true] at this
        exact this.1
  refine ⟨hb, ?_, ?_, ?_⟩
  · rintro rest ⟨md₂, re, f, k1, k2, k3, k4, k5⟩
    rw [hmd, Option.some.injEq] at k1
    subst k1
    by_cases h0 : ['0'] <+: rest
    · exact h0
    · exfalso
      have f' := find_eq_some k3
      have hl := f'.lang
      have hs := f'.split
      rw [k4, k5] at hl hs
      rcases compiled_pattern he.internationalPrefix with ⟨_, e⟩ | ⟨p, re', e1, e2, e3⟩
      · rw [k2] at e; cases e
      · rw [k2, Option.some.injEq] at e2
        subst e2
        simp only [diallingCheck, e1, e3] at hdial
        obtain ⟨w, q, e4, h4⟩ := notZero_lang hl (fun c hc => hd c (by rw [hs]; simp [hc])) h0
        exact apart_sound he hdial hd hb.2 hg ho ha hne (by simp) 0 ⟨_, by simp, w, q, by rw [hs, ← e4]; rfl, h4⟩
  · have hx' : md.countryCode ∉ exceptions := fun h => hx (by revert h; simp only [exceptions, bareExceptions, List.mem_cons]; grind)
    rcases hkeep hx' with hnone | ⟨hk, _⟩
    · obtain ⟨h1, h2⟩ := hnone m hm hmc
      refine nationalPart_keeps ⟨fun np h => (by rw [he.nationalPrefix, h1] at h; cases h), fun re h => ?_⟩
      have := he.nationalPrefixForParsing
      rw [h2, h] at this
      cases this
    · rcases hk with hk | hk
      · exact nationalPart_keeps (keeps_of_check he hk hd hb.2 hg ho ha hne)
      · exact part_of_rewritesCheck he hk hd hg ho ha hne hb.2
  · rw [addsCheck, Bool.or_eq_true] at b1
    rcases b1 with b1 | b1
    · left
      intro md' hc' hent'
      obtain ⟨m', hm', hmm'⟩ := entry_of_territory from_builtin hent'
      have he' := metadata_rel _ _ hmm'
      have := List.all_eq_true.1 b1 m' hm'
      rw [Bool.or_eq_true, he'.countryCode, hmc, hc'] at this
      rw [he'.nationalPrefixTransformRule]
      rcases this with h | h
      · simp at h
      · intro t ht
        rw [ht] at h
        exact eq_of_beq h
    · right
      intro hpre
      rw [hmc] at b1
      obtain ⟨w, q, e4, h4⟩ := lang_prefix hpre
      exact apart_sound he b1 hd hb.2 hg ho ha hne (by simp) 0 ⟨_, by simp, w, q, e4, h4⟩

omit [UnicodeTables] in
theorem display_nonzero {n : NationalNumber} (h : n.value ≠ 0) : ∃ c ∈ n.display, c ≠ '0' := by
  apply Classical.byContradiction
  intro hz
  have hall : ∀ c ∈ n.display, c = '0' := fun c hc => Classical.byContradiction fun h0 => hz ⟨c, hc, h0⟩
  have e := List.eq_replicate_of_mem hall
  have hv : decVal n.display = n.value.toNat := by simp [NationalNumber.display]
  rw [e] at hv
  have := decVal_replicate_zero n.display.length []
  rw [List.append_nil, hv] at this
  exact h (UInt64.toNat_inj.1 this)

/-- C84: digits a country accepts, written with spaces, hyphens, points, slashes and parentheses as one likes, are read as the number
with that country as reference country, if they do not begin with its calling code and the calling code is not one of those listed. -/
theorem C84_accepted (c : Id) (md : Metadata) (hmd : db.byId c.asRef = some md) (n : NationalNumber)
    (hx : md.countryCode ∉ [7, 55, 62, 66, 81, 82, 91, 250, 359, 370, 375, 507, 598, 974])
    (hg : Spec.Accepts md.descriptors.general n.display) (ht : ∃ o ∈ Spec.typed md.descriptors, Spec.AcceptsOpt o n.display)
    (hz : n.value ≠ 0) (hown : ¬ decStr md.countryCode <+: n.display) (b : Str) (hb : Spec.Plain b) (hbd : b.filter isDigit = n.display) :
    parse (some c) b = .ok ⟨⟨md.countryCode, .default⟩, n, none, none⟩ := by
  have hd : Digits n.display := digits_display _
  obtain ⟨hl, h1, h2, _⟩ := bare_facts hmd hx hd (display_length _) hg ht
  have hcc : md.countryCode < 65536 := by
    have := (good_iff (.inl ⟨_, hmd⟩)).1
    omega
  have := C13_formatting_ignored db (some c) [] b (.inl rfl) hb (by simp) (by rw [hbd]; omega)
  rw [List.nil_append, List.nil_append, hbd] at this
  rw [parse, this]
  exact C62_national db c md hmd hcc (digitTemplates (.inl ⟨_, hmd⟩)) n.display hd (by omega) h1 (fun h => hown h.1) _ none h2 _
    (.ok (by omega) hl.2 (display_nonzero hz) rfl)

/-- C84: digits that begin with the calling code are never read as the number. -/
theorem C84_own_code (c : Id) (md : Metadata) (hmd : db.byId c.asRef = some md) (n : NationalNumber)
    (hx : md.countryCode ∉ [7, 55, 62, 66, 81, 82, 91, 250, 359, 370, 375, 507, 598, 974])
    (hg : Spec.Accepts md.descriptors.general n.display) (ht : ∃ o ∈ Spec.typed md.descriptors, Spec.AcceptsOpt o n.display)
    (hown : decStr md.countryCode <+: n.display) (b : Str) (hb : Spec.Plain b) (hbd : b.filter isDigit = n.display)
    (q : PhoneNumber) (hq : parse (some c) b = .ok q) : q.national ≠ n := by
  have hd : Digits n.display := digits_display _
  obtain ⟨hl, h1, h2, h3⟩ := bare_facts hmd hx hd (display_length _) hg ht
  have hcc : md.countryCode < 65536 := by
    have := (good_iff (.inl ⟨_, hmd⟩)).1
    omega
  have hgen : md.descriptors.general.possibleLength = [] := (good_iff (.inl ⟨_, hmd⟩)).2.2.2.2.2.2.2.1
  have h3 := h3.resolve_right (fun h => h hown)
  have hc13 := C13_formatting_ignored db (some c) [] b (.inl rfl) hb (by simp) (by rw [hbd]; omega)
  rw [List.nil_append, List.nil_append, hbd] at hc13
  rw [parse, hc13] at hq
  obtain ⟨r, hr⟩ := hown
  have hdr : Digits r := (digits_append.1 (hr ▸ hd)).2
  obtain ⟨out, car, o, g1, g2⟩ := C62_international_total compile Data.territories db from_builtin ids_nodup shared (fun _ => firstWithLast)
    (fun _ => digitTemplates) md.countryCode r hdr (fun car n => ⟨⟨md.countryCode, .number⟩, n, none, car⟩)
  have hp := C62_own_code compile Data.territories db from_builtin ids_nodup shared (fun _ => digitTemplates) c md hmd hcc r hdr
    (by rw [hr]; omega) (by rw [hr]; exact h1) ⟨⟨r, rfl⟩, fun ⟨_, k, _, hk, _⟩ => by rw [hgen] at hk; cases hk⟩ out car g1 o g2
  rw [hr, hq] at hp
  subst hp
  have hle : out.length ≤ r.length := by
    rcases g1 with ⟨_, rfl, _⟩ | ⟨md', hreg, hpart⟩
    · exact Nat.le_refl _
    · obtain ⟨l, hl, hmem⟩ := region_mem hreg
      exact nationalPart_length (h3 md' (((from_consistent from_builtin).2.1 _ l hl).2 md' hmem) (.inr ⟨_, _, hl, hmem⟩)) hpart
  have hlt : r.length < n.display.length := by
    have h0 : 0 < (decStr md.countryCode).length := List.length_pos_iff.2 (decStr_ne_nil _)
    rw [← hr, List.length_append]; omega
  cases g2 with
  | ok _ _ _ hdisp =>
    intro e
    rw [← e, hdisp] at hlt
    omega

/-- C84: hence the digits of a valid number, whose calling code is not one of those listed, are read as the number in its country if and
only if they do not begin with the calling code. (For a calling code with several countries the national number must not begin with
zero: the country is found without leading zeros, validity with them.) -/
theorem C84_valid {ε : Type} (n : PhoneNumber) (hv : isValid (ε := ε) n = .ok true) (c : Id) (hc : countryId n = .ok (some c))
    (h0 : n.national.zeros = 0 ∨ ∀ l, db.byCode n.code.value = some l → l.length = 1) (hz : n.national.value ≠ 0)
    (hx : n.code.value ∉ [7, 55, 62, 66, 81, 82, 91, 250, 359, 370, 375, 507, 598, 974]) (b : Str) (hb : Spec.Plain b)
    (hbd : b.filter isDigit = n.national.display) :
    (∃ q, parse (some c) b = .ok q ∧ q.code.value = n.code.value ∧ q.national = n.national) ↔ ¬ decStr n.code.value <+: n.national.display := by
  obtain ⟨md, hby, hcode, hg, ht⟩ := valid_country n hv c hc h0
  rw [← hcode] at hx ⊢
  constructor
  · rintro ⟨q, hq, _, hn⟩ hown
    exact C84_own_code c md hby n.national hx hg ht hown b hb hbd q hq hn
  · intro hown
    exact ⟨_, C84_accepted c md hby n.national hx hg ht hz hown b hb hbd, rfl, rfl⟩

/-- A valid number without leading zeros or of a calling code with one region, whose digits do not begin with its calling code and are
read as another number, according to the territories of its calling code and the freephone service. -/
def misreadBare (ms : List Loader.Metadata) (p : PhoneNumber) : Bool :=
  match Database.from compile (withFreephone ms p.code.value) with
  | .ok d => d.sharedCheck && (Nat.beq p.national.zeros.toNat 0 || (match d.byCode p.code.value with | some [_] => true | _ => false)) &&
    match isValidWith (ε := ParseErr) d p, p.countryId d with
    | .ok true, .ok (some i) => !(decStr p.code.value).isPrefixOf p.national.display &&
      (ms.all fun m => m.id != some i.asRef || (m.countryCode == some p.code.value || m.countryCode == some 800)) &&
      match parseWith d (some i) p.national.display with
      | .ok q => !Nat.beq q.national.raw.toNat p.national.raw.toNat && (Nat.beq q.code.value p.code.value || Nat.beq q.code.value 800)
      | _ => false
    | _, _ => false
  | _ => false

theorem misreadBare_builtin (p : PhoneNumber) (h : misreadBare Data.territories p = true) :
    (p.national.zeros = 0 ∨ ∀ l, db.byCode p.code.value = some l → l.length = 1) ∧
    isValid (ε := ParseErr) p = .ok true ∧ ∃ i q, countryId p = .ok (some i) ∧
      ¬ decStr p.code.value <+: p.national.display ∧ parse (some i) p.national.display = .ok q ∧ q.national ≠ p.national := by
  revert h
  have hnd := ids_nodup
  have hfrom := from_builtin
  generalize Data.territories = ms at *
  intro h
  unfold misreadBare at h
  generalize hms : withFreephone ms p.code.value = ms' at h
  have hmem : ∀ m ∈ ms', m ∈ ms := by
    intro m hm
    rw [← hms] at hm
    exact (List.mem_filter.1 hm).1
  have hcode : ∀ c, (c = p.code.value ∨ c = 800) → ms'.filter (·.countryCode == some c) = ms.filter (·.countryCode == some c) := by
    intro c hc
    rw [← hms]
    refine filter_filter_of fun a _ ha => ?_
    rw [Bool.or_eq_true]
    rcases hc with rfl | rfl
    · exact .inl ha
    · exact .inr ha
  split at h
  · rename_i d hd
    rw [Bool.and_eq_true, Bool.and_eq_true] at h
    obtain ⟨⟨h1, h2⟩, h⟩ := h
    have hs := shared_of_check h1
    have hid' : ((ms'.filterMap (·.id)).filter (· ≠ worldId)).Nodup := by
      rw [← hms]
      exact hnd.sublist ((List.filter_sublist.filterMap _).filter _)
    obtain ⟨_, n2, _, n4, _⟩ := C76_number compile ms ms' db d hfrom hd hnd hid' shared hs p (hcode _ (.inl rfl)).symm
    refine ⟨?_, ?_⟩
    · rw [Bool.or_eq_true] at h2
      rcases h2 with h2 | h2
      · exact .inl (UInt8.toNat_inj.1 (Nat.eq_of_beq_eq_true h2))
      · right
        intro l hl
        rw [byCode_local hfrom hd (hcode _ (.inl rfl)).symm] at hl
        rw [hl] at h2
        split at h2
        · rename_i e
          rw [Option.some.injEq] at e
          rw [e]; rfl
        · cases h2
    · split at h
      · rename_i i e1 e2
        rw [Bool.and_eq_true, Bool.and_eq_true] at h
        obtain ⟨⟨k1, k2⟩, k3⟩ := h
        split at k3
        · rename_i q hq
          rw [Bool.and_eq_true, Bool.not_eq_true', Bool.or_eq_true] at k3
          obtain ⟨k3, k4⟩ := k3
          refine ⟨(n2 _).trans e1, i, q, n4.trans e2, ?_, ?_, ?_⟩
          · intro hp
            rw [Bool.not_eq_true', List.isPrefixOf_iff_prefix.2 hp] at k1
            cases k1
          · refine C76_some compile ms' ms d db hd hfrom hid' hnd hs shared prefixFree (some i) _ q hq hmem ?_ (hcode _ ?_)
            · rintro _ ⟨⟩
              rw [← hms]
              refine filter_filter_of fun a ha hai => ?_
              have := List.all_eq_true.1 k2 a ha
              rw [Bool.or_eq_true] at this
              refine this.resolve_left fun hne => ?_
              rw [eq_of_beq hai] at hne
              simp at hne
            · rcases k4 with k4 | k4
              · exact .inl (Nat.eq_of_beq_eq_true k4)
              · exact .inr (Nat.eq_of_beq_eq_true k4)
          · intro e
            rw [e] at k3
            simp at k3
        · cases k3
      · cases h
  · cases h

/-- A number of each exception: leading zeros in the top byte, value below. -/
def bareMisread : List (Nat × UInt64) :=
  [(7, 8001234567), (55, 900123456), (62, 144115188256168217), (66, 144115206077090439), (81, 144115188141979328),
    (82, 144115188383979328), (91, 216172790115018375), (250, 72057594044051392), (359, 144115196077090439), (370, 80012345),
    (375, 8011234567), (507, 144115188875979328), (598, 216172782113784220), (974, 144115188875979328)]

theorem bare_misread : bareMisread.all (fun x => misreadBare Data.territories ⟨⟨x.1, .plus⟩, ⟨x.2⟩, none, none⟩ &&
    !Nat.beq (⟨x.2⟩ : NationalNumber).value.toNat 0) = true := by kernel_rfl

omit [UnicodeTables] in
theorem bare_misread_codes : bareMisread.map Prod.fst = [7, 55, 62, 66, 81, 82, 91, 250, 359, 370, 375, 507, 598, 974] := rfl

/-- C84: each of the calling codes listed has a valid number, meeting the other conditions of `C84_valid`, whose digits are read as another
number in its country. -/
theorem C84_exceptions (c : Nat) (hc : c ∈ [7, 55, 62, 66, 81, 82, 91, 250, 359, 370, 375, 507, 598, 974]) :
    ∃ (n : PhoneNumber) (i : Id) (q : PhoneNumber), n.code.value = c ∧ isValid (ε := ParseErr) n = .ok true ∧
      countryId n = .ok (some i) ∧ (n.national.zeros = 0 ∨ ∀ l, db.byCode n.code.value = some l → l.length = 1) ∧ n.national.value ≠ 0 ∧
      ¬ decStr n.code.value <+: n.national.display ∧ parse (some i) n.national.display = .ok q ∧ q.national ≠ n.national := by
  rw [← bare_misread_codes] at hc
  obtain ⟨⟨c', v⟩, hx, rfl⟩ := List.mem_map.1 hc
  have h := List.all_eq_true.1 bare_misread _ hx
  rw [Bool.and_eq_true, Bool.not_eq_true'] at h
  obtain ⟨h0, hv, i, q, h1, h2, h3, h4⟩ := misreadBare_builtin _ h.1
  refine ⟨_, i, q, rfl, hv, h1, h0, ?_, h2, h3, h4⟩
  intro e
  have := h.2
  rw [show ((⟨v⟩ : NationalNumber).value) = 0 from e] at this
  cases this

/-- Numbers of Jersey and of the United States meet the hypotheses of `C84_valid` and are read with any separators; so does a Norwegian
one that begins with 47, and is not read as the number. -/
example : (∃ q, parse (some .JE) (str% "1534/45-67-89") = .ok q ∧ q.code.value = 44 ∧ q.national = ⟨1534456789⟩) ∧
    (∃ q, parse (some .US) (str% "(650) 253-0000") = .ok q ∧ q.code.value = 1 ∧ q.national = ⟨6502530000⟩) ∧
    ∃ i, ¬ ∃ q, parse (some i) (str% "47 12 34 56") = .ok q ∧ q.code.value = 47 ∧ q.national = ⟨47123456⟩ := by
  have key : ∀ (p : PhoneNumber) (i : Id) (b : Str), isValid (ε := ParseErr) p = .ok true → countryId p = .ok (some i) →
      (Nat.beq p.national.zeros.toNat 0 && !Nat.beq p.national.value.toNat 0) = true →
      p.code.value ∉ [7, 55, 62, 66, 81, 82, 91, 250, 359, 370, 375, 507, 598, 974] → Spec.Plain b → b.filter isDigit = p.national.display →
      ((∃ q, parse (some i) b = .ok q ∧ q.code.value = p.code.value ∧ q.national = p.national) ↔
        ¬ decStr p.code.value <+: p.national.display) := by
    intro p i b k1 k2 ab hx hb hbd
    rw [Bool.and_eq_true, Bool.not_eq_true'] at ab
    refine C84_valid p k1 i k2 (.inl (UInt8.toNat_inj.1 (Nat.eq_of_beq_eq_true ab.1))) (fun h => ?_) hx b hb hbd
    rw [h] at ab
    exact absurd ab.2 (by decide)
  obtain ⟨_, h2, h3⟩ := nationally_examples
  obtain ⟨a1, a2, _⟩ := nationally_builtin ⟨⟨44, .plus⟩, ⟨1534456789⟩, none, none⟩ _ _ h2
  obtain ⟨b1, b2, _⟩ := nationally_builtin ⟨⟨1, .plus⟩, ⟨6502530000⟩, none, none⟩ _ _ h3
  obtain ⟨_, c1, i, _, _, c2, _⟩ := misreadNational_builtin ⟨⟨47, .plus⟩, ⟨47123456⟩, none, none⟩ own_misread
  refine ⟨(key ⟨⟨44, .plus⟩, ⟨1534456789⟩, none, none⟩ _ _ a1 a2 (by kernel_rfl) (by decide) (by unfold Spec.Plain; decide) (by kernel_rfl)).2 (by decide +kernel),
    (key ⟨⟨1, .plus⟩, ⟨6502530000⟩, none, none⟩ _ _ b1 b2 (by kernel_rfl) (by decide) (by unfold Spec.Plain; decide) (by kernel_rfl)).2 (by decide +kernel),
    i, fun h => (key ⟨⟨47, .plus⟩, ⟨47123456⟩, none, none⟩ i _ c1 c2 (by kernel_rfl) (by decide) (by unfold Spec.Plain; decide) (by kernel_rfl)).1 h (by decide +kernel)⟩

end Builtin
end Phone
