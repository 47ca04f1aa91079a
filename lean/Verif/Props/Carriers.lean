import Verif.Props.Reshaped
import Verif.Spec.Carrier
/-! # C93: what is reported as carrier with the shipped database -/

namespace Phone.Builtin
open Database Helper
variable [UnicodeTables]

/-- Every text of `l` is listed. -/
def wordsWithin (l : Option (List Str)) (xs : List Str) : Bool :=
  match l with
  | some l => l.all fun w => xs.contains w
  | none => false

def lensWithin (l : Option (List Nat)) (ns : List Nat) : Bool :=
  match l with
  | some l => l.all fun w => ns.any (Nat.beq w)
  | none => false

/-- What is before, in and after the group that is reported is as `Spec.Carried` says. -/
def groupCheck (id : Str) (x : Re × Re × Re) : Bool :=
  (Spec.carrierCodes.any fun e => e.1 == id && wordsWithin x.1.words e.2.1 && lensWithin x.2.1.widths e.2.2) ||
  ((Spec.areaCodes.any fun e => e.1 == id && wordsWithin x.1.words [[]] && lensWithin x.2.1.widths [e.2.2] && wordsWithin x.2.2.words [[]] && x.2.2.atEnd) ||
  (id == (str% "AR") && wordsWithin x.1.words [[], ['0']] && wordsWithin x.2.2.words [['1', '5']] ||
  (id == (str% "GA") && wordsWithin x.1.words [['0']] && lensWithin x.2.1.widths [8] && wordsWithin x.2.2.words [[]] ||
  id == (str% "JP") && wordsWithin x.1.words [[]] && lensWithin x.2.1.widths [8, 9, 10] && wordsWithin x.2.2.words [[]] && x.2.2.atEnd)))

def carrierCheck (m : Loader.Metadata) : Bool :=
  match m.nationalPrefixForParsing.bind compile with
  | none => true
  | some re => match m.id with
    | none => false
    | some id =>
      let j := match m.nationalPrefixTransformRule with
        | some _ => 1
        | none => re.ngroups
      match j with
      | 0 => Spec.trunkCarriers.any fun e => e.1 == id && wordsWithin re.re.words e.2
      | j + 1 => re.re.once (j + 1) && (re.re.around (j + 1)).all (groupCheck id)

omit [UnicodeTables] in
theorem carrier_check : Data.territories.all carrierCheck = true := by kernel_rfl

theorem lang_within {r : Re} {xs : List Str} (h : wordsWithin r.words xs = true) {p : Nat} {w q : Str} (hl : Lang r p w q) : w ∈ xs := by
  unfold wordsWithin at h
  split at h
  · rename_i l hw
    simpa using List.all_eq_true.1 h _ (lang_words hw hl)
  · cases h

theorem lang_lens {r : Re} {ns : List Nat} (h : lensWithin r.widths ns = true) {p : Nat} {w q : Str} (hl : Lang r p w q) :
    w.length ∈ ns := by
  unfold lensWithin at h
  split at h
  · rename_i l hw
    obtain ⟨n, hn, e⟩ := List.any_eq_true.1 (List.all_eq_true.1 h _ (lang_widths hw hl))
    rw [Nat.eq_of_beq_eq_true e]; exact hn
  · cases h

/-- A group that takes part in the match. -/
theorem carried_group {id ds : Str} {re : Regex} {mm : Match} (hf : re.find ds = some mm) (hp : mm.pre = []) {j : Nat} (hj : j ≠ 0)
    (ho : re.re.once j = true) (hc : (re.re.around j).all (groupCheck id) = true) {x : Str} (hx : mm.get j = some x) :
    Spec.Carried id ds x := by
  obtain ⟨u, c, v, e, hcap, y, hy, _, _, _, l1, l2, l3⟩ := find_around hf hp hj ho (by rw [hx]; rfl)
  rw [hx, Option.some.injEq] at hcap
  subst hcap
  have hc := List.all_eq_true.1 hc y hy
  simp only [groupCheck, Bool.or_eq_true, Bool.and_eq_true, List.any_eq_true, beq_iff_eq] at hc
  rcases hc with ⟨⟨i, zs, ns⟩, hm, ⟨rfl, h1⟩, h2⟩ | ⟨⟨i, a, n⟩, hm, ⟨⟨⟨rfl, h1⟩, h2⟩, h3⟩, h4⟩ | ⟨⟨rfl, h1⟩, h2⟩ | ⟨⟨⟨rfl, h1⟩, h2⟩, h3⟩ |
    ⟨⟨⟨⟨rfl, h1⟩, h2⟩, h3⟩, h4⟩
  · exact .code hm (lang_within h1 l1) (lang_lens h2 l2) (by rw [e, List.append_assoc])
  · have hu : u = [] := by simpa using lang_within h1 l1
    have hv : v = [] := by simpa using lang_within h3 l3
    have hl : x.length = n := by simpa using lang_lens h2 l2
    rw [hu, hv, lang_atEnd h4 l3] at e
    simp only [List.nil_append, List.append_nil] at e
    subst e
    exact .whole (by rw [hl]; exact hm)
  · have hu : u ∈ [[], ['0']] := lang_within h1 l1
    have hv : v = ['1', '5'] := by simpa using lang_within h2 l3
    exact .area rfl (by simpa using hu) (by rw [e, hv])
  · have hu : u = ['0'] := by simpa using lang_within h1 l1
    have hv : v = [] := by simpa using lang_within h3 l3
    exact .gabon (r := mm.post) rfl (by simpa using lang_lens h2 l2) (by rw [e, hu, hv]; simp)
  · have hu : u = [] := by simpa using lang_within h1 l1
    have hv : v = [] := by simpa using lang_within h3 l3
    rw [hu, hv, lang_atEnd h4 l3] at e
    simp only [List.nil_append, List.append_nil] at e
    subst e
    exact .japan rfl (lang_lens h2 l2)

/-- C93: what the territories of the shipped database report as carrier. -/
theorem C93_national (md : Metadata) (h : Spec.Entry db md) (ds out x : Str) (hp : Spec.NationalPart md ds out (some x)) :
    Spec.Carried md.id ds x := by
  obtain ⟨m, hm, hmeta⟩ := entry_of_territory from_builtin h
  have hc := List.all_eq_true.1 carrier_check m hm
  have he := metadata_rel _ _ hmeta
  have hcomp : ∀ re, md.nationalPrefixForParsing = some re → m.nationalPrefixForParsing.bind compile = some re := fun re hre => by
    have := he.nationalPrefixForParsing
    rw [hre] at this
    generalize m.nationalPrefixForParsing = o at this
    cases this with
    | some h => exact h
  have ht := he.nationalPrefixTransformRule
  generalize hcar : some x = car at hp
  cases hp with
  | unused _ _ => cases hcar
  | used htr _ =>
    cases htr with
    | plain _ => cases hcar
    | noMatch _ _ => cases hcar
    | @removed re mm hre hf hp hno =>
      simp only [carrierCheck, hcomp re hre, he.id] at hc
      cases hr : m.nationalPrefixTransformRule with
      | some t => exact absurd ⟨by rw [ht, hr], by rw [← hcar]; rfl⟩ (hno t)
      | none =>
        rw [hr] at hc
        simp only at hc
        split at hc
        · rename_i h0
          obtain ⟨⟨i, xs⟩, hmem, hx⟩ := List.any_eq_true.1 hc
          simp only [Bool.and_eq_true, beq_iff_eq] at hx
          obtain ⟨rfl, hx⟩ := hx
          have hxt : x = mm.text := by simpa [h0, Match.get] using hcar
          have hF := find_eq_some hf
          have hs := hF.split
          rw [hp, List.nil_append] at hs
          rw [hxt]
          exact .trunk hmem (lang_within hx hF.lang) hs
        · rename_i j h0
          rw [h0] at hcar
          rw [Bool.and_eq_true] at hc
          exact carried_group hf hp (by simp) hc.1 hc.2 hcar.symm
    | @rewritten re mm t _ hre hf hp hr _ hx =>
      rw [Option.some.injEq] at hcar
      rw [← hcar] at hx
      have hr1 : m.nationalPrefixTransformRule = some t := by rw [← ht]; exact hr.1
      simp only [carrierCheck, hcomp re hre, he.id, hr1, Bool.and_eq_true] at hc
      exact carried_group hf hp (by decide) hc.1 hc.2 hx
    | kept _ _ _ _ _ _ => cases hcar

/-- C93: with the shipped database a reported carrier is a carrier code that was dialled (in ten territories), or a trunk prefix (in
three), or a part of the number itself (in the territories that rewrite numbers). The territory has the calling code of the number, and is
the reference country if the text has no calling code. -/
theorem C93_builtin (country : Option Id) (s : Str) (p : PhoneNumber) (x : Str) (h : parse country s = .ok p) (hx : p.carrier = some x) :
    ∃ a y b ds k md, s = a ++ y ++ b ∧ Spec.Viable y ∧ Spec.Digitised (Spec.vanity y) y ds ∧ Spec.Entry db md ∧
      md.countryCode = p.code.value ∧ (p.code.source = .default → ∃ i, country = some i ∧ i.asRef = md.id) ∧
      Spec.Carried md.id (ds.drop k) x ∧ Spec.Reshaped md.id (ds.drop k) p.national.display := by
  obtain ⟨n0, n1, o, n2, h0, hv, h1, post, h2, h3, h4⟩ := parseWith_stages h
  obtain ⟨hc0, a, b, hs⟩ := readNumber_ok h0
  have hc : n1.carrier = none := by rw [post.carrier]; exact hc0
  obtain ⟨k, hk⟩ := post.suffix
  obtain ⟨g1, g2, g3, g4, g5, _, g7⟩ := finishParse_ok h4
  obtain ⟨e1, e2, _, _, _⟩ := stripNational_ok post.norm.national hc h3
  have hpc : prefixCode n1 = .ok p.code.value := by
    rw [← g3]; unfold prefixCode; rw [e2]
  rw [g7] at hx
  cases o with
  | none => simp only [stripNational, Outcome.ok.injEq] at h3; rw [← h3, hc] at hx; cases hx
  | some md =>
    obtain ⟨md', ho, hent, hcode, hdef⟩ := parse_territory post hpc h2
    have : md = md' := by simpa using ho
    subst this
    have hre := stripNational_reshaped hc h2 h3
    have hd := stripNational_digits post.norm.national hc h2 h3
    rw [hd.byteLen] at g2
    obtain ⟨out, car, hp⟩ := nationalPart_total md (firstWithLast hent) n1.national
    rw [stripNational_of hc hp, Outcome.ok.injEq] at h3
    have hcx : car = some x := by rw [← h3] at hx; exact hx
    subst hcx
    refine ⟨a, n0.national, b, _, k, md, hs, hv, act_iff_digitised.1 rfl, hent, hcode, ?_, ?_, ?_⟩
    · rw [g4, e1]; exact hdef
    · rw [← hk]; exact C93_national md hent _ _ _ hp
    · rw [← hk, (fromStr_ok_digits hd g2 g5).1]; exact hre

/-- A territory, a text, the calling code and the national number read, and the carrier. -/
abbrev Witness := Id × Str × Nat × UInt64 × Str

/-- Texts with a carrier code. -/
def codeTexts : List Witness :=
  [(.AU, str% "1831212345678", 61, 212345678, str% "1831"),
   (.BO, str% "01022123456", 591, 22123456, str% "10"),
   (.BR, str% "01511912345678", 55, 11912345678, str% "15"),
   (.CN, str% "125931012345678", 86, 1012345678, str% "12593"),
   (.CO, str% "036012345678", 57, 6012345678, str% "3"),
   (.CO, str% "04446012345678", 57, 6012345678, str% "444"),
   (.CR, str% "190022123456", 506, 22123456, str% "1900"),
   (.FO, str% "1001201234", 298, 201234, str% "1001"),
   (.KR, str% "081212345678", 82, 212345678, str% "81"),
   (.KR, str% "08500212345678", 82, 212345678, str% "8500"),
   (.LI, str% "10012345678", 423, 2345678, str% "1001"),
   (.LU, str% "1500127123456", 352, 27123456, str% "15001")]

/-- Texts with a trunk prefix that is reported as carrier. -/
def trunkTexts : List Witness :=
  [(.BY, str% "0152450911", 375, 152450911, str% "0"),
   (.BY, str% "8152450911", 375, 152450911, str% "8"),
   (.BY, str% "80152450911", 375, 152450911, str% "80"),
   (.GB, str% "02079460958", 44, 2079460958, str% "0"),
   (.GB, str% "1800202079460958", 44, 2079460958, str% "180020"),
   (.LT, str% "031234567", 370, 31234567, str% "0"),
   (.LT, str% "831234567", 370, 31234567, str% "8")]

/-- Local numbers. -/
def localTexts : List Witness :=
  [(.AG, str% "4123456", 1, 2684123456, str% "4123456"),
   (.AI, str% "4123456", 1, 2644123456, str% "4123456"),
   (.AS, str% "6123456", 1, 6846123456, str% "6123456"),
   (.BB, str% "4123456", 1, 2464123456, str% "4123456"),
   (.BM, str% "4123456", 1, 4414123456, str% "4123456"),
   (.BS, str% "4123456", 1, 2424123456, str% "4123456"),
   (.CC, str% "51234567", 61, 851234567, str% "51234567"),
   (.CX, str% "51234567", 61, 851234567, str% "51234567"),
   (.DM, str% "4123456", 1, 7674123456, str% "4123456"),
   (.GD, str% "4123456", 1, 4734123456, str% "4123456"),
   (.GG, str% "512345", 44, 1481512345, str% "512345"),
   (.GU, str% "4123456", 1, 6714123456, str% "4123456"),
   (.IM, str% "512345", 44, 1624512345, str% "512345"),
   (.JE, str% "412345", 44, 1534412345, str% "412345"),
   (.KN, str% "4123456", 1, 8694123456, str% "4123456"),
   (.KY, str% "4123456", 1, 3454123456, str% "4123456"),
   (.LC, str% "4123456", 1, 7584123456, str% "4123456"),
   (.MG, str% "4123456", 261, 204123456, str% "4123456"),
   (.MP, str% "4123456", 1, 6704123456, str% "4123456"),
   (.MS, str% "4123456", 1, 6644123456, str% "4123456"),
   (.NF, str% "51234", 672, 351234, str% "51234"),
   (.SM, str% "812345", 378, 72057594587740281, str% "812345"),
   (.SX, str% "5123456", 1, 7215123456, str% "5123456"),
   (.TC, str% "4123456", 1, 6494123456, str% "4123456"),
   (.TT, str% "4123456", 1, 8684123456, str% "4123456"),
   (.VC, str% "4123456", 1, 7844123456, str% "4123456"),
   (.VG, str% "4123456", 1, 2844123456, str% "4123456"),
   (.VI, str% "4123456", 1, 3404123456, str% "4123456")]

def witnessCheck (ms : List Loader.Metadata) (w : Witness) : Bool :=
  readCheck ms (some w.1) w.2.1 ⟨⟨w.2.2.1, .default⟩, ⟨w.2.2.2.1⟩, none, some w.2.2.2.2⟩

theorem code_texts : codeTexts.all (witnessCheck Data.territories) = true := by kernel_rfl
theorem trunk_texts : trunkTexts.all (witnessCheck Data.territories) = true := by kernel_rfl
theorem local_texts : localTexts.all (witnessCheck Data.territories) = true := by kernel_rfl

theorem witness_reads {w : Witness} (h : witnessCheck Data.territories w = true) :
    parse (some w.1) w.2.1 = .ok ⟨⟨w.2.2.1, .default⟩, ⟨w.2.2.2.1⟩, none, some w.2.2.2.2⟩ := reads_of_check h

/-- C93: every listed territory reports carrier codes of every listed length. -/
theorem C93_codes (id : Str) (zs : List Str) (ns : List Nat) (h : (id, zs, ns) ∈ Spec.carrierCodes) (n : Nat) (hn : n ∈ ns) :
    ∃ i s p x, i.asRef = id ∧
      parse (some i) s = .ok p ∧ p.carrier = some x ∧ x.length = n ∧ ∃ z ∈ zs, s = z ++ x ++ p.national.display := by
  have : Spec.carrierCodes.all (fun e => e.2.2.all fun n => codeTexts.any fun w => w.1.asRef == e.1 &&
      (Nat.beq w.2.2.2.2.length n && e.2.1.any fun z => w.2.1 == z ++ w.2.2.2.2 ++ (NationalNumber.mk w.2.2.2.1).display)) = true := by
    kernel_rfl
  have := List.all_eq_true.1 (List.all_eq_true.1 this _ h) n hn
  obtain ⟨w, hw, e⟩ := List.any_eq_true.1 this
  simp only [Bool.and_eq_true, beq_iff_eq, List.any_eq_true] at e
  obtain ⟨e1, e2, z, hz, e3⟩ := e
  exact ⟨w.1, w.2.1, _, _, e1, witness_reads (List.all_eq_true.1 code_texts w hw), rfl, Nat.eq_of_beq_eq_true e2, z, hz, e3⟩

/-- C93: Belarus, the United Kingdom and Lithuania report each of their trunk prefixes as carrier. -/
theorem C93_trunk (id : Str) (xs : List Str) (h : (id, xs) ∈ Spec.trunkCarriers) (x : Str) (hx : x ∈ xs) :
    ∃ i s p, i.asRef = id ∧ parse (some i) s = .ok p ∧ p.carrier = some x ∧ s = x ++ p.national.display := by
  have : Spec.trunkCarriers.all (fun e => e.2.all fun x => trunkTexts.any fun w =>
      w.1.asRef == e.1 && (w.2.2.2.2 == x && w.2.1 == x ++ (NationalNumber.mk w.2.2.2.1).display)) = true := by kernel_rfl
  have := List.all_eq_true.1 (List.all_eq_true.1 this _ h) x hx
  obtain ⟨w, hw, e⟩ := List.any_eq_true.1 this
  simp only [Bool.and_eq_true, beq_iff_eq] at e
  obtain ⟨e1, rfl, e2⟩ := e
  exact ⟨w.1, w.2.1, _, e1, witness_reads (List.all_eq_true.1 trunk_texts w hw), rfl, e2⟩

/-- C93: every territory that puts an area code before a local number reports the whole local number as carrier. -/
theorem C93_local (id a : Str) (n : Nat) (h : (id, a, n) ∈ Spec.areaCodes) :
    ∃ i s p, i.asRef = id ∧ s.length = n ∧ parse (some i) s = .ok p ∧ p.carrier = some s ∧ p.national.display = a ++ s := by
  have : Spec.areaCodes.all (fun e => localTexts.any fun w =>
      w.1.asRef == e.1 && (Nat.beq w.2.1.length e.2.2 && (w.2.2.2.2 == w.2.1 && (NationalNumber.mk w.2.2.2.1).display == e.2.1 ++ w.2.1))) =
      true := by kernel_rfl
  obtain ⟨w, hw, e⟩ := List.any_eq_true.1 (List.all_eq_true.1 this _ h)
  simp only [Bool.and_eq_true, beq_iff_eq] at e
  obtain ⟨e1, e2, e3, e4⟩ := e
  exact ⟨w.1, w.2.1, _, e1, Nat.eq_of_beq_eq_true e2, witness_reads (List.all_eq_true.1 local_texts w hw), by rw [e3], e4⟩

/-- A case of `C93_builtin`. -/
example : parse (some .BR) (str% "01511912345678") = .ok ⟨⟨55, .default⟩, ⟨11912345678⟩, none, some (str% "15")⟩ :=
  witness_reads (w := (.BR, str% "01511912345678", 55, 11912345678, str% "15")) (List.all_eq_true.1 code_texts _ (by simp [codeTexts]))

end Phone.Builtin
