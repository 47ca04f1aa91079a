import Verif.Props.Distinct
import Verif.Props.Grouped
import Verif.Props.ValidFrom
/-! # C91 for the national form, with Argentina and Belarus, whose formats write other digits than those of the number and the national prefix -/

namespace Phone
open Formatter
namespace Builtin
variable [UnicodeTables]

/-- The formats of the territory write the prefix `8`, some also a zero, and its numbers do not begin with zero. -/
def belarusCheck (m : Loader.Metadata) : Bool :=
  m.nationalPrefix == some ['8'] && apart m [] (some [Re.lit ['0']]) && m.id != some (str% "AR") &&
  m.formats.all fun f => (f.nationalPrefixFormattingRule == some (str% "$NP $FG") || f.nationalPrefixFormattingRule == some (str% "$NP 0$FG")) &&
    !f.leadingDigits.isEmpty && (f.format.all fun t => t.all fun c => c == '$' || isDigit c || (str% " -.()/").contains c)

omit [UnicodeTables] in
theorem belarus_check : (Data.territories.all fun m => m.countryCode != some 375 || belarusCheck m) = true := by kernel_rfl

/-- The national form of a valid number of Belarus: the digits `8` or `80` and those of the number. -/
theorem belarus_form {ε : Type} (n : PhoneNumber) (hc : n.code.value = 375) (hv : isValid (ε := ε) n = .ok true) (hcar : n.carrier = none)
    (s : Str) (h : format n .national = .ok s) :
    ∃ md nat lead, Spec.MetadataFor db n md ∧ s = nat ++ Spec.extensionText md .national n.extension ∧ Spec.Plain nat ∧
      nat.filter isDigit = lead ++ n.national.display ∧ (lead = ['8'] ∨ lead = ['8', '0']) := by
  obtain ⟨f, md', hmd', ⟨b, a, hsp, happ, hbef⟩, _⟩ := C90_national n hv (by rw [hc]; decide)
  have hf : Spec.Chosen md' n.national.display .national none f := .inr ⟨rfl, b, a, hsp, happ, hbef⟩
  have he : Spec.Entry db md' := by
    obtain ⟨l, hl⟩ := hmd'
    exact .inr ⟨_, _, hl, by simp⟩
  obtain ⟨_, _, _, g0, _, g1, _⟩ := good_iff he
  obtain ⟨m, hm, hem, hcm⟩ : ∃ m ∈ Data.territories, Spec.EntryOf compile m md' ∧ m.countryCode = some n.code.value := by
    obtain ⟨l, hl⟩ := hmd'
    exact territory_of_region hl (by simp)
  have hck := List.all_eq_true.1 belarus_check m hm
  rw [hcm, hc] at hck
  simp only [bne_self_eq_false, Bool.false_or, belarusCheck, Bool.and_eq_true, beq_iff_eq, List.all_eq_true, Bool.or_eq_true,
    Bool.not_eq_true', List.isEmpty_eq_false_iff, bne_iff_ne, ne_eq] at hck
  obtain ⟨⟨⟨hnp, _⟩, hid⟩, hfs⟩ := hck
  have hmem : f ∈ md'.formats := by
    rcases id hf with hf | ⟨_, b, a, hf, _⟩
    · cases hf
    · have : f ∈ Spec.formatsFor md' .national := by rw [hf]; simp
      simpa [Spec.formatsFor] using this
  obtain ⟨g, hg, hfg⟩ := listRel_mem hem.formats hmem
  obtain ⟨⟨hrule, hld⟩, hfc⟩ := hfs g hg
  have hnp' : md'.nationalPrefix = some ['8'] := by rw [hem.nationalPrefix, hnp]
  have hfa := g1.resolve_left (fun e => hid (by rw [hem.id, e])) f hmem
  have hpun : Spec.Punctuates f := ⟨faithful_sound hfa, fun c hcf => by
    have := hfc
    rw [hfg.format] at this
    simp only [Option.all_some, List.all_eq_true, Bool.or_eq_true, beq_iff_eq, List.contains_iff_mem] at this
    rcases this c hcf with (h | h) | h
    · exact .inl h
    · exact .inr (.inl h)
    · exact .inr (.inr h)⟩
  have hat : ∃ m, f.pattern.find n.national.display = some m ∧ m.pre = [] := by
    rcases id hf with hf | ⟨_, b, a, _, happ, _⟩
    · cases hf
    obtain ⟨m, hm, hmt⟩ := (happ.resolve_left (by
      intro e
      have := hfg.leadingDigits
      rw [e] at this
      cases hgl : g.leadingDigits with
      | nil => exact hld hgl
      | cons _ _ => rw [hgl] at this; cases this)).2
    refine ⟨m, hm, ?_⟩
    have := congrArg List.length (find_eq_some hm).split
    simp only [List.length_append, hmt] at this
    exact List.length_eq_zero_iff.1 (by omega)
  have hlead : ∃ lead, Spec.LeadDigits md' f n lead ∧ (lead = ['8'] ∨ lead = ['8', '0']) := by
    have hd := mentionsGroup_dollar (g0 f hmem)
    have hrf : Spec.ruleFor f n.carrier = f.nationalPrefix := by rw [hcar]; rfl
    rw [← hfg.nationalPrefix] at hrule
    rcases hrule with hr | hr
    · refine ⟨['8'], .rule (rule := [.np, .text [' '], .fg]) (by rw [hrf, hr]; rfl) hd (by rw [hnp']; decide) (by rw [hcar]; simp)
        ⟨by decide, trivial⟩ ⟨[.np, .text [' ']], [], rfl, ?_, ?_, ?_, ?_⟩ hat, .inl rfl⟩
      · intro p hp; simp at hp; rcases hp with rfl | rfl <;> trivial
      · rw [hnp']; unfold Spec.Plain; simp [Spec.ruleMeaning, Spec.RulePart.meaning]; decide
      · rw [hnp']; rfl
      · rfl
    · refine ⟨['8', '0'], .rule (rule := [.np, .text [' ', '0'], .fg]) (by rw [hrf, hr]; rfl) hd (by rw [hnp']; decide) (by rw [hcar]; simp)
        ⟨by decide, trivial⟩ ⟨[.np, .text [' ', '0']], [], rfl, ?_, ?_, ?_, ?_⟩ hat, .inr rfl⟩
      · intro p hp; simp at hp; rcases hp with rfl | rfl <;> trivial
      · rw [hnp']; unfold Spec.Plain; simp [Spec.ruleMeaning, Spec.RulePart.meaning]; decide
      · rw [hnp']; rfl
      · rfl
  obtain ⟨lead, hl1, hl2⟩ := hlead
  obtain ⟨md, nat, hm1, hs, hp, hfil, _⟩ := national_shape h lead fun md hm => by
    obtain rfl := metadataFor_unique hm hmd'
    refine ⟨fun g hg => ?_, fun hno => ?_⟩
    · obtain rfl := chosen_unique hf hg
      exact ⟨hpun, hl1⟩
    · rcases hf with hf | ⟨_, b, a, hf, happ, _⟩
      · cases hf
      · exact absurd happ (hno.2 f (by rw [hf]; simp))
  exact ⟨md, nat, lead, hm1, hs, hp, hfil, hl2⟩

/-- Valid numbers of Belarus do not begin with zero. -/
theorem belarus_nonzero {ε : Type} (n : PhoneNumber) (hc : n.code.value = 375) (hv : isValid (ε := ε) n = .ok true) (t : Str) :
    n.national.display ≠ '0' :: t := by
  intro e
  obtain ⟨m, hm, md, d, c, he, hg, ht, ha, hne, _⟩ := valid_described n hv
  have hck := List.all_eq_true.1 belarus_check m hm
  rw [c, hc] at hck
  simp only [bne_self_eq_false, Bool.false_or, belarusCheck, Bool.and_eq_true] at hck
  exact apart_sound he hck.1.1.2 (digits_display _) (valid_facts n hv).1.2 hg ht ha hne (by simp) 0
    ⟨Re.lit ['0'], by simp, lang_prefix ⟨t, e.symm⟩⟩

/-- The case of `C91_national` for Belarus. -/
theorem belarus_alike {ε : Type} (a b : PhoneNumber) (ha : isValid (ε := ε) a = .ok true) (hb : isValid (ε := ε) b = .ok true)
    (hz : a.national.value ≠ 0) (hz' : b.national.value ≠ 0) (hc : a.code.value = 375) (hc' : b.code.value = 375)
    (hcar : a.carrier = none) (hcar' : b.carrier = none) (s : Str) (h : format a .national = .ok s) (h' : format b .national = .ok s) :
    a.national = b.national ∧ a.extension = b.extension := by
  obtain ⟨md, na, la, hm, hs, hp, hf, hla⟩ := belarus_form a hc ha hcar s h
  obtain ⟨md', nb, lb, hm', hs', hp', hf', hlb⟩ := belarus_form b hc' hb hcar' s h'
  obtain rfl : md = md' := by
    obtain ⟨l, hl⟩ := hm
    obtain ⟨l', hl'⟩ := hm'
    rw [hc] at hl
    rw [hc', hl] at hl'
    simp at hl'
    exact hl'.1
  have e := hs.symm.trans hs'
  rw [extensionText_eq _ _ (.inr rfl), extensionText_eq _ _ (.inr rfl)] at e
  obtain ⟨rfl, he⟩ := apart_extension hp hp' (extension_marked (entry_of_metadataFor hm)) e
  refine ⟨?_, he⟩
  have hd := hf.symm.trans hf'
  rcases hla with rfl | rfl <;> rcases hlb with rfl | rfl
  · exact C03_display_injective _ _ hz hz' (List.append_cancel_left hd)
  · exact absurd (List.append_cancel_left (as := ['8']) hd) (belarus_nonzero a hc ha _)
  · exact absurd (List.append_cancel_left (as := ['8']) hd).symm (belarus_nonzero b hc' hb _)
  · exact C03_display_injective _ _ hz hz' (List.append_cancel_left hd)

/-! ## Argentina -/

/-- The first group is a single character. -/
def singleFirst : Re → Bool
  | .cat (.grp 1 (.cls _)) _ => true
  | _ => false

/-- The format of mobile numbers, which leaves out the first digit, a nine, and writes `15` after the area code. -/
def mobileFormat (f : Format) : Bool :=
  f.format == (str% "$2 15-$3-$4") && f.nationalPrefix == some (str% "$NP$FG") && groupsUpTo 1 f.pattern.re == some 5 && singleFirst f.pattern.re &&
  match f.leadingDigits.getLast? with
  | none => false
  | some l => (str% "012345678").all fun c => (Run.step c (some [l.re])).dead

/-- The other formats only put punctuation between the groups and the national prefix before the number. -/
def otherFormat (f : Format) : Bool :=
  faithful f && (f.format.all fun c => c == '$' || isDigit c || (str% " -.()/").contains c) &&
  match f.nationalPrefix with
  | none => true
  | some r => r == (str% "$NP$FG") && !f.leadingDigits.isEmpty

def argentina (md : Metadata) : Bool := md.nationalPrefix == some ['0'] && md.formats.all fun f => mobileFormat f || otherFormat f

/-- Numbers that begin with a nine have eleven digits, none has more. -/
def elevenCheck (m : Loader.Metadata) : Bool :=
  (typedOf m).all fun d => (d.possibleLength.all fun k => decide (k ≤ 11)) && match patternOf d with
    | none => false
    | some r => match Run.step '9' (some [r]) with
      | none => false
      | some l => l.all fun x => Nat.ble 10 x.minLen

omit [UnicodeTables] in
theorem argentina_check : (Data.territories.all fun m => m.countryCode != some 54 || elevenCheck m &&
    match Database.metadata compile m with
    | .ok md => argentina md
    | _ => false) = true := by kernel_rfl

/-- The texts of the groups of a sequence of groups, the first of which is a single character. -/
theorem single_first {r : Regex} {s : Str} {m : Match} (h : r.find s = some m) {n : Nat} (hg : groupsUpTo 1 r.re = some n)
    (hs : singleFirst r.re = true) : ∃ c, ∃ ts : List Str, ts.length + 1 = n - 1 ∧ m.text = c :: ts.flatten ∧ capTexts m.caps 1 ([c] :: ts) := by
  obtain ⟨ts, k1, k2, k3, k4⟩ := groupSeq_find h (groupsUpTo_sound hg)
  have hgs := groupsUpTo_sound hg
  have hb := (find_eq_some h).best
  simp only [matchAt, Option.map_eq_some_iff] at hb
  obtain ⟨s', hs', he⟩ := hb
  generalize r.re = re at hs hgs hs'
  unfold singleFirst at hs
  split at hs
  · rename_i cls b
    cases hgs with
    | cons _ hgs =>
    have hrun := List.mem_of_head? hs'
    rw [run, List.mem_flatMap] at hrun
    obtain ⟨t, ht, hrun⟩ := hrun
    obtain ⟨w, p, h1, h2⟩ := grp_run rfl ht
    obtain ⟨us, nc, j1, j2, j3, j4, j5, j6⟩ := groupSeq_run hgs t s' hrun
    have hw : ∃ c, w = [c] := by
      rw [run, List.mem_map] at ht
      obtain ⟨u, hu, rfl⟩ := ht
      rw [run] at hu
      simp only at h1
      split at hu
      · cases hu
      · rename_i c cs hcs
        simp only at hcs
        split at hu
        · simp only [List.mem_singleton] at hu
          subst hu
          simp only [hcs] at h1
          refine ⟨c, ?_⟩
          have := List.append_cancel_right (as := [c]) (bs := cs) (cs := w) h1
          exact this.symm
        · cases hu
    obtain ⟨c, rfl⟩ := hw
    have hcap : (m.caps.find? (·.idx == 1)).map Cap.text = some [c] := by
      rw [← he]
      simp only [j4, h2]
      have : nc.find? (·.idx == 1) = none := by
        rw [List.find?_eq_none]
        intro x hx
        have := j6 x hx
        simp; omega
      rw [List.find?_append, this]; simp
    match ts, k1, k3, k4 with
    | [], k1, _, _ =>
      simp at k1
      omega
    | x :: ts, k1, k3, k4 =>
      have hx : x = [c] := Option.some.inj (k4.1.symm.trans hcap)
      subst hx
      exact ⟨c, ts, by simpa using k1, by simpa using k3, k4⟩
  · cases hs

/-- The national form of a number of Argentina. -/
theorem argentina_form (n : PhoneNumber) (hc : n.code.value = 54) (hcar : n.carrier = none)
    (s : Str) (h : format n .national = .ok s) :
    ∃ md nat, Spec.MetadataFor db n md ∧ s = nat ++ Spec.extensionText md .national n.extension ∧ Spec.Plain nat ∧
      ((∃ lead, nat.filter isDigit = lead ++ n.national.display ∧
        (lead = [] ∨ md.nationalPrefix = some lead ∧ lead.length = 1 ∧ ∃ f ∈ md.formats, ∃ r, f.nationalPrefix = some r ∧ 'N' ∈ r)) ∨
      ∃ x y z : Str, n.national.display = '9' :: (x ++ y ++ z) ∧ nat = '0' :: x ++ (str% " 15-") ++ y ++ '-' :: z) := by
  obtain ⟨md, nat, hmd, hs, hn⟩ := C64_national db n none s h
  have hent : Spec.Entry db md := entry_of_metadataFor hmd
  obtain ⟨m, hm, hmm⟩ := entry_of_territory from_builtin hent
  have hem := metadata_rel _ _ hmm
  have hcm : m.countryCode = some 54 := by
    obtain ⟨l, hl⟩ := hmd
    rw [hem.countryCode, ((from_consistent from_builtin).2.1 _ _ hl).2 md (by simp), hc]
  have hck := List.all_eq_true.1 argentina_check m hm
  rw [hcm, hmm] at hck
  simp only [bne_self_eq_false, Bool.false_or, Bool.and_eq_true, argentina, beq_iff_eq, List.all_eq_true, Bool.or_eq_true] at hck
  obtain ⟨_, hnp, hfs⟩ := hck
  have hv := digits_display n.national
  rcases id hn with ⟨hno, rfl⟩ | ⟨f, hch, h1, h2⟩
  · exact ⟨md, _, hmd, hs, fun c hc => .inl (hv c hc), .inl ⟨[], filter_digits hv, .inl rfl⟩⟩
  have hmem : f ∈ md.formats := by
    rcases id hch with hf | ⟨_, b, a, hf, _⟩
    · cases hf
    · have : f ∈ Spec.formatsFor md .national := by rw [hf]; simp
      simpa [Spec.formatsFor] using this
  have happ : Spec.Applies f n.national.display := by
    rcases id hch with hf | ⟨_, b, a, _, ha, _⟩
    · cases hf
    · exact ha
  have hrf : Spec.ruleFor f n.carrier = f.nationalPrefix := by rw [hcar]; rfl
  rcases hfs f hmem with hmob | hoth
  · simp only [mobileFormat, Bool.and_eq_true, beq_iff_eq] at hmob
    obtain ⟨⟨⟨⟨hfmt, hrule⟩, hgr⟩, hsf⟩, hld⟩ := hmob
    split at hld
    · cases hld
    rename_i l hl
    rcases happ with h0 | ⟨⟨last, hlast, lm, hlm, hlp⟩, pm, hpm, hpt⟩
    · rw [h0] at hl; cases hl
    rw [hl, Option.some.injEq] at hlast
    subst hlast
    have hnat := h2 [.np, .fg] [] (str% " 15-$3-$4") '2' (by rw [hrf, hrule]; rfl) (by rw [hfmt]; rfl) (by decide)
      (by rintro ⟨p, e, q, hh, _⟩; simp at hh) (by rw [hnp]; decide) (by rw [hcar]; simp) trivial
    obtain ⟨c, ts, k1, k3, k4⟩ := single_first hpm hgr hsf
    match ts, k1 with
    | [x, y, z], _ =>
    have g2 := capTexts_get (k := 1) (by decide) k4 1 x rfl
    have g3 := capTexts_get (k := 1) (by decide) k4 2 y rfl
    have g4 := capTexts_get (k := 1) (by decide) k4 3 z rfl
    have hdisp : n.national.display = c :: (x ++ y ++ z) := by rw [← hpt, k3]; simp
    have hpre : pm.pre = [] ∧ pm.post = [] := by
      have := congrArg List.length (find_eq_some hpm).split
      simp only [List.length_append, hpt] at this
      exact ⟨List.length_eq_zero_iff.1 (by omega), List.length_eq_zero_iff.1 (by omega)⟩
    have hnine : c = '9' := by
      have hcd := hv c (by rw [hdisp]; simp)
      have hfo := find_eq_some hlm
      have hsp := hfo.split
      rw [hlp, List.nil_append, hdisp] at hsp
      have hfit := Run.fits_step (r := some [l.re]) hcd ⟨_, by simp, lm.text, lm.post, hsp, hfo.lang⟩
      have hcs : c ∈ (str% "012345678") ∨ c = '9' := by
        have : ∀ k, 48 ≤ k → k ≤ 57 → Char.ofNat k ∈ (str% "012345678") ∨ Char.ofNat k = '9' := by
          intro k h1 h2
          rcases (by omega : k = 48 ∨ k = 49 ∨ k = 50 ∨ k = 51 ∨ k = 52 ∨ k = 53 ∨ k = 54 ∨ k = 55 ∨ k = 56 ∨ k = 57) with
            rfl | rfl | rfl | rfl | rfl | rfl | rfl | rfl | rfl | rfl <;> decide
        have h3 := isDigit_iff.1 hcd
        have := this c.toNat h3.1 h3.2
        rwa [Char.ofNat_toNat] at this
      rcases hcs with hcs | hcs
      · rw [dead_eq (List.all_eq_true.1 hld c hcs)] at hfit
        obtain ⟨_, hh, _⟩ := hfit
        cases hh
      · exact hcs
    subst hnine
    have hval : nat = '0' :: x ++ (str% " 15-") ++ y ++ '-' :: z := by
      rw [hnat, hnp]
      have e2 : capRef pm ['2'] = x := by
        have : capRef pm ['2'] = (pm.get 2).getD [] := rfl
        rw [this, g2]; rfl
      have e3 : capRef pm ['3'] = y := by
        have : capRef pm ['3'] = (pm.get 3).getD [] := rfl
        rw [this, g3]; rfl
      have e4 : capRef pm ['4'] = z := by
        have : capRef pm ['4'] = (pm.get 4).getD [] := rfl
        rw [this, g4]; rfl
      have e : expand pm (str% "0$2 15-$3-$4") =
          '0' :: (capRef pm ['2'] ++ ' ' :: '1' :: '5' :: '-' :: (capRef pm ['3'] ++ '-' :: capRef pm ['4'])) := rfl
      have : ([] ++ Spec.ruleMeaning ((some ['0']).getD []) (if f.domesticCarrier = none then [] else n.carrier.getD []) ['$', '2'] [.np, .fg] ++
          (str% " 15-$3-$4")) = (str% "0$2 15-$3-$4") := rfl
      rw [this, Regex.replace, hpm]
      simp only [hpre, e, e2, e3, e4]
      simp
    refine ⟨md, nat, hmd, hs, ?_, .inr ⟨x, y, z, hdisp, hval⟩⟩
    have hxyz : ∀ c ∈ x ++ y ++ z, isDigit c = true := fun c hc => hv c (by rw [hdisp]; exact List.mem_cons_of_mem _ hc)
    rw [hval]
    intro c hc
    simp only [List.mem_append, List.mem_cons, List.not_mem_nil, or_false] at hc
    rcases hc with (((rfl | h) | h) | h) | rfl | h
    · exact .inl (by decide)
    · exact .inl (hxyz c (by simp [h]))
    · rcases h with rfl | rfl | rfl | rfl
      · exact .inr (by decide)
      · exact .inl (by decide)
      · exact .inl (by decide)
      · exact .inr (by decide)
    · exact .inl (hxyz c (by simp [h]))
    · exact .inr (by decide)
    · exact .inl (hxyz c (by simp [h]))
  · simp only [otherFormat, Bool.and_eq_true, List.all_eq_true, Bool.or_eq_true, beq_iff_eq, List.contains_iff_mem] at hoth
    obtain ⟨⟨hfa, hfc⟩, hr⟩ := hoth
    have hpun : Spec.Punctuates f := ⟨faithful_sound hfa, fun c hcf => by
      rcases hfc c hcf with (h | h) | h
      · exact .inl h
      · exact .inr (.inl h)
      · exact .inr (.inr h)⟩
    have hlead : ∃ lead, Spec.LeadDigits md f n lead ∧
        (lead = [] ∨ md.nationalPrefix = some lead ∧ lead.length = 1 ∧ ∃ f ∈ md.formats, ∃ r, f.nationalPrefix = some r ∧ 'N' ∈ r) := by
      cases hfr : f.nationalPrefix with
      | none => exact ⟨[], .noRule (hrf.trans hfr), .inl rfl⟩
      | some r =>
        rw [hfr] at hr
        simp only [Bool.and_eq_true, beq_iff_eq, Bool.not_eq_true', List.isEmpty_eq_false_iff] at hr
        obtain ⟨rfl, hne⟩ := hr
        obtain ⟨pm, hpm, hpt⟩ := (happ.resolve_left hne).2
        refine ⟨['0'], .rule (rule := [.np, .fg]) (by rw [hrf, hfr]; rfl) (mentionsGroup_dollar ((good_iff hent).2.2.2.1 f hmem)) (by rw [hnp]; decide)
          (by rw [hcar]; simp) trivial ⟨[.np], [], rfl, ?_, ?_, ?_, ?_⟩ ⟨pm, hpm, ?_⟩, .inr ⟨hnp, rfl, f, hmem, _, hfr, by decide⟩⟩
        · intro p hp; simp at hp; rcases hp with rfl; trivial
        · rw [hnp]; unfold Spec.Plain; simp [Spec.ruleMeaning, Spec.RulePart.meaning]; decide
        · rw [hnp]; rfl
        · rfl
        · have := congrArg List.length (find_eq_some hpm).split
          simp only [List.length_append, hpt] at this
          exact List.length_eq_zero_iff.1 (by omega)
    obtain ⟨lead, hl1, hl2⟩ := hlead
    obtain ⟨md2, nat2, hm2, hs2, hp2, hfil, _⟩ := national_shape h lead fun md' hm' => by
      obtain rfl := metadataFor_unique hm' hmd
      refine ⟨fun g hg => ?_, fun hno => ?_⟩
      · obtain rfl := chosen_unique hch hg
        exact ⟨hpun, hl1⟩
      · rcases hch with hf | ⟨_, b, a, hf, happ, _⟩
        · cases hf
        · exact absurd happ (hno.2 f (by rw [hf]; simp))
    obtain rfl := metadataFor_unique hm2 hmd
    exact ⟨md2, nat2, hm2, hs2, hp2, .inl ⟨lead, hfil, hl2⟩⟩


/-- Valid numbers of Argentina have at most eleven digits, and eleven if they begin with a nine. -/
theorem argentina_length {ε : Type} (n : PhoneNumber) (hc : n.code.value = 54) (hv : isValid (ε := ε) n = .ok true) :
    n.national.display.length ≤ 11 ∧ ∀ t, n.national.display = '9' :: t → n.national.display.length = 11 := by
  obtain ⟨m, hm, md, d, c, he, hg, ht, ha, hne, hl⟩ := valid_described n hv
  have hck := List.all_eq_true.1 argentina_check m hm
  rw [c, hc] at hck
  simp only [bne_self_eq_false, Bool.false_or, Bool.and_eq_true] at hck
  obtain ⟨e, he1, he2⟩ := typed_of_entry he ht
  have := List.all_eq_true.1 hck.1 e he1
  rw [Bool.and_eq_true, patternOf_eq he2, ← he2.possibleLength] at this
  have h11 : n.national.display.length ≤ 11 := by simpa using List.all_eq_true.1 this.1 _ hl
  refine ⟨h11, fun t et => ?_⟩
  have h2 := this.2
  dsimp only at h2
  have hfit := ha.2
  rw [et] at hfit
  have hs := Run.fits_step (p := 0) (r := some [d.nationalNumber.re]) (by decide) ⟨_, by simp, hfit⟩
  split at h2
  · cases h2
  · rename_i l hl
    rw [hl] at hs
    obtain ⟨x, hx, w, q, e, hl⟩ := hs
    have h10 : 10 ≤ x.minLen := by simpa using List.all_eq_true.1 h2 x hx
    have := lang_minLen hl
    have := congrArg List.length e
    have := congrArg List.length et
    simp only [List.length_append, List.length_cons] at *
    omega

/-- The case of `C91_national` for Argentina. -/
theorem argentina_alike {ε : Type} (a b : PhoneNumber) (ha : isValid (ε := ε) a = .ok true) (hb : isValid (ε := ε) b = .ok true)
    (hz : a.national.value ≠ 0) (hz' : b.national.value ≠ 0) (hc : a.code.value = 54) (hc' : b.code.value = 54)
    (hcar : a.carrier = none) (hcar' : b.carrier = none) (s : Str) (h : format a .national = .ok s) (h' : format b .national = .ok s) :
    a.national = b.national ∧ a.extension = b.extension := by
  obtain ⟨md, na, hm, hs, hp, hf⟩ := argentina_form a hc hcar s h
  obtain ⟨md', nb, hm', hs', hp', hf'⟩ := argentina_form b hc' hcar' s h'
  obtain rfl : md = md' := by
    obtain ⟨l, hl⟩ := hm
    obtain ⟨l', hl'⟩ := hm'
    rw [hc] at hl
    rw [hc', hl] at hl'
    simp at hl'
    exact hl'.1
  have e := hs.symm.trans hs'
  rw [extensionText_eq _ _ (.inr rfl), extensionText_eq _ _ (.inr rfl)] at e
  obtain ⟨rfl, he⟩ := apart_extension hp hp' (extension_marked (entry_of_metadataFor hm)) e
  refine ⟨?_, he⟩
  obtain ⟨la, ka⟩ := argentina_length a hc ha
  obtain ⟨lb, kb⟩ := argentina_length b hc' hb
  have mixed : ∀ (n k : PhoneNumber), n.national.display.length ≤ 11 →
      (∀ t, k.national.display = '9' :: t → k.national.display.length = 11) → ∀ (lead : Str) (x y z : Str),
      na.filter isDigit = lead ++ n.national.display → lead.length ≤ 1 → k.national.display = '9' :: (x ++ y ++ z) →
      na = '0' :: x ++ (str% " 15-") ++ y ++ '-' :: z → False := by
    intro n k hn hk lead x y z h1 h2 h3 h4
    have hd : ∀ c ∈ x ++ y ++ z, isDigit c = true := fun c hc => digits_display k.national c (by rw [h3]; exact List.mem_cons_of_mem _ hc)
    have hx := filter_digits (s := x) fun c hc => hd c (by simp [hc])
    have hy := filter_digits (s := y) fun c hc => hd c (by simp [hc])
    have hz := filter_digits (s := z) fun c hc => hd c (by simp [hc])
    have hl := hk _ h3
    have := congrArg List.length h1
    rw [h4] at this
    rw [h3] at hl
    have e : List.filter isDigit ('0' :: x ++ (str% " 15-") ++ y ++ '-' :: z) = '0' :: x ++ (str% "15") ++ y ++ z := by
      have h15 : List.filter isDigit (str% " 15-") = (str% "15") := by decide
      have h0 : isDigit '0' = true := by decide
      have hm : isDigit '-' = false := by decide
      rw [List.filter_append, List.filter_append, List.filter_append, List.filter_cons_of_pos h0, hx, hy, h15, List.filter_cons_of_neg (by simp [hm]), hz]
    rw [e] at this
    simp only [List.length_append, List.length_cons, List.length_nil] at this hl
    omega
  rcases hf with ⟨l1, e1, f1⟩ | ⟨x, y, z, e1, f1⟩
  · rcases hf' with ⟨l2, e2, f2⟩ | ⟨x, y, z, e2, f2⟩
    · have hd := e1.symm.trans e2
      rcases f1 with rfl | ⟨n1, _, g1, h1, r1, k1, j1⟩
      · rcases f2 with rfl | ⟨n2, _, g2, h2, r2, k2, j2⟩
        · exact C03_display_injective _ _ hz hz' hd
        · exact absurd hd (not_prefixed ha hb (hc.trans hc'.symm) hm' n2 h2 k2 j2)
      · rcases f2 with rfl | ⟨n2, _, g2, h2, r2, k2, j2⟩
        · exact absurd hd.symm (not_prefixed hb ha (hc'.trans hc.symm) hm n1 h1 k1 j1)
        · rw [n1, Option.some.injEq] at n2
          subst n2
          exact C03_display_injective _ _ hz hz' (List.append_cancel_left hd)
    · exact (mixed a b la kb l1 x y z e1 (by rcases f1 with rfl | h; · simp
                                             · omega) e2 f2).elim
  · rcases hf' with ⟨l2, e2, f2⟩ | ⟨x', y', z', e2, f2⟩
    · exact (mixed b a lb ka l2 x y z e2 (by rcases f2 with rfl | h; · simp
                                             · omega) e1 f1).elim
    · have d1 : ∀ c ∈ x ++ y ++ z, isDigit c = true := fun c hc => digits_display a.national c (by rw [e1]; exact List.mem_cons_of_mem _ hc)
      have d2 : ∀ c ∈ x' ++ y' ++ z', isDigit c = true := fun c hc => digits_display b.national c (by rw [e2]; exact List.mem_cons_of_mem _ hc)
      have e : x ++ ' ' :: ((str% "15-") ++ y ++ '-' :: z) = x' ++ ' ' :: ((str% "15-") ++ y' ++ '-' :: z') := by
        have := f1.symm.trans f2
        simpa using this
      obtain ⟨rfl, _, e⟩ := apart_at (P := fun c => isDigit c = true) (fun c hc => d1 c (by simp [hc])) (fun c hc => d2 c (by simp [hc])) (by decide) (by decide) e
      have e : y ++ '-' :: z = y' ++ '-' :: z' := by simpa using e
      obtain ⟨rfl, _, rfl⟩ := apart_at (P := fun c => isDigit c = true) (fun c hc => d1 c (by simp [hc])) (fun c hc => d2 c (by simp [hc])) (by decide) (by decide) e
      exact C03_display_injective _ _ hz hz' (e1.trans e2.symm)

/-- C91: valid numbers of a calling code (other than 241) without carrier that have the same national form are the same, and have the same
extension. -/
theorem C91_national {ε : Type} (a b : PhoneNumber) (ha : isValid (ε := ε) a = .ok true) (hb : isValid (ε := ε) b = .ok true)
    (hz : a.national.value ≠ 0) (hz' : b.national.value ≠ 0) (hc : a.code.value = b.code.value) (hx : a.code.value ≠ 241)
    (hcar : a.carrier = none) (hcar' : b.carrier = none) (s : Str) (h : format a .national = .ok s) (h' : format b .national = .ok s) :
    a.national = b.national ∧ a.extension = b.extension := by
  by_cases h1 : a.code.value = 54
  · exact argentina_alike a b ha hb hz hz' h1 (hc ▸ h1) hcar hcar' s h h'
  by_cases h2 : a.code.value = 375
  · exact belarus_alike a b ha hb hz hz' h2 (hc ▸ h2) hcar hcar' s h h'
  exact national_alike a b ha hb hz hz' hc (by simp [h1, h2, hx]) hcar hcar' s h h'

/-- A number that meets the hypotheses of `C91_national`, and what is written for it: so no other valid Danish number is written like this. -/
example (b : PhoneNumber) (hb : isValid (ε := ParseErr) b = .ok true) (hz : b.national.value ≠ 0) (hc : b.code.value = 45)
    (hcar : b.carrier = none) (h : format b .national = .ok (str% "32 12 34 56")) : b.national = ⟨32123456⟩ ∧ b.extension = none := by
  obtain ⟨h1, _, h2⟩ := nationally_builtin ⟨⟨45, .plus⟩, ⟨32123456⟩, none, none⟩ .DK (str% "32 12 34 56") alike_denmark
  obtain ⟨e1, e2⟩ := C91_national _ b h1 hb (by decide) hz hc.symm (by decide) rfl hcar _ h2 h
  exact ⟨e1.symm, e2.symm⟩

theorem alike_argentina : nationally (Data.territories.filter (·.countryCode == some 54)) ⟨⟨54, .plus⟩, ⟨91123456789⟩, none, none⟩ =
    (true, .ok true, .ok (some .AR), .ok (str% "011 15-2345-6789")) := by kernel_rfl

/-- And for an Argentine number, where the format leaves out the first digit and writes others. -/
example (b : PhoneNumber) (hb : isValid (ε := ParseErr) b = .ok true) (hz : b.national.value ≠ 0) (hc : b.code.value = 54)
    (hcar : b.carrier = none) (h : format b .national = .ok (str% "011 15-2345-6789")) : b.national = ⟨91123456789⟩ ∧ b.extension = none := by
  obtain ⟨h1, _, h2⟩ := nationally_builtin ⟨⟨54, .plus⟩, ⟨91123456789⟩, none, none⟩ .AR (str% "011 15-2345-6789") alike_argentina
  obtain ⟨e1, e2⟩ := C91_national _ b h1 hb (by decide) hz hc.symm (by decide) rfl hcar _ h2 h
  exact ⟨e1.symm, e2.symm⟩

end Builtin
end Phone
