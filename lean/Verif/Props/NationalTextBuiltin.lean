import Verif.Props.NationalText
import Verif.Props.InternationalBuiltin
import Verif.Props.SoleBuiltin
/-! # C72 for the shipped database -/

namespace Phone

section
variable [UnicodeTables]

/-- Only one format is the one used. -/
theorem chosen_unique {md : Metadata} {v : Str} {mode : Formatter.Mode} {custom : Option Format} {f g : Format}
    (hf : Spec.Chosen md v mode custom f) (hg : Spec.Chosen md v mode custom g) : f = g := by
  rcases hf with hf | ⟨hf, b, a, h1, h2, h3⟩
  · rcases hg with hg | ⟨hg, _⟩
    · rw [hf] at hg; exact Option.some.inj hg
    · rw [hf] at hg; cases hg
  · rcases hg with hg | ⟨_, b', a', h1', h2', h3'⟩
    · rw [hf] at hg; cases hg
    · rw [h1] at h1'
      rcases List.append_eq_append_iff.1 h1' with ⟨t, e1, e2⟩ | ⟨t, e1, e2⟩
      · match t, e2 with
        | [], e2 => simp at e2; exact e2.1
        | x :: t, e2 =>
          simp only [List.cons_append, List.cons.injEq] at e2
          exact absurd h2 (h3' f (by rw [e1, e2.1]; simp))
      · match t, e2 with
        | [], e2 => simp at e2; exact e2.1.symm
        | x :: t, e2 =>
          simp only [List.cons_append, List.cons.injEq] at e2
          exact absurd h2' (h3 g (by rw [e1, e2.1]; simp))

/-- A format is used or none is. -/
theorem chosen_or_none (md : Metadata) (v : Str) (mode : Formatter.Mode) (custom : Option Format) :
    (∃ f, Spec.Chosen md v mode custom f) ∨ Spec.NoneChosen md v mode custom := by
  cases custom with
  | some f => exact .inl ⟨f, .inl rfl⟩
  | none =>
    by_cases h : ∃ f ∈ Spec.formatsFor md mode, Spec.Applies f v
    · left
      generalize hl : Spec.formatsFor md mode = l at h
      have : ∀ l : List Format, (∃ f ∈ l, Spec.Applies f v) → ∃ f b a, l = b ++ f :: a ∧ Spec.Applies f v ∧ ∀ g ∈ b, ¬ Spec.Applies g v := by
        intro l
        induction l with
        | nil => rintro ⟨_, h, _⟩; cases h
        | cons x l ih =>
          intro h
          by_cases hx : Spec.Applies x v
          · exact ⟨x, [], l, rfl, hx, by simp⟩
          · obtain ⟨f, hf, ha⟩ := h
            rcases List.mem_cons.1 hf with rfl | hf
            · exact absurd ha hx
            · obtain ⟨f, b, a, rfl, h2, h3⟩ := ih ⟨f, hf, ha⟩
              refine ⟨f, x :: b, a, rfl, h2, ?_⟩
              intro g hg
              rcases List.mem_cons.1 hg with rfl | hg
              · exact hx
              · exact h3 g hg
      obtain ⟨f, b, a, h1, h2, h3⟩ := this l h
      exact ⟨f, .inr ⟨rfl, b, a, hl.trans h1, h2, h3⟩⟩
    · exact .inr ⟨rfl, fun f hf ha => h ⟨f, hf, ha⟩⟩

omit [UnicodeTables] in
theorem metadataFor_unique {db : Database} {n : PhoneNumber} {a b : Metadata} (ha : Spec.MetadataFor db n a) (hb : Spec.MetadataFor db n b) :
    a = b := by
  obtain ⟨l, h⟩ := ha
  obtain ⟨l', h'⟩ := hb
  rw [h] at h'
  simp at h'
  exact h'.1

end

namespace Builtin

/-- The parts of the rules the shipped formats use. -/
theorem known_rule {r np cc : Str} (h : r ∈ knownRules) (hnp : ∀ c ∈ np, isDigit c = true) :
    ∃ rule lead, r = Spec.ruleSource rule ∧ Spec.PlainRule np cc rule ∧ Spec.Leads np cc rule lead ∧
      (lead = [] ∧ 'N' ∉ r ∨ lead = np ∧ 'N' ∈ r) := by
  have mk : ∀ (u v : Str), Spec.Plain u → Spec.Plain v → u.filter isDigit = [] → v.filter isDigit = [] → '$' ∉ u → '$' ∉ v →
      (∀ w : Str, Spec.Plain w → w.filter isDigit = [] → '$' ∉ w → Spec.PlainRule np cc [.text u, .np, .text w, .fg, .text v] ∧
        Spec.Leads np cc [.text u, .np, .text w, .fg, .text v] np) ∧
      (Spec.PlainRule np cc [.text u, .fg, .text v] ∧ Spec.Leads np cc [.text u, .fg, .text v] []) := by
    intro u v hu hv hu0 hv0 hud hvd
    refine ⟨fun w hw hw0 hwd => ⟨⟨hud, hwd, hvd, trivial⟩, [.text u, .np, .text w], [.text v], rfl, ?_, ?_, ?_, ?_⟩,
      ⟨hud, hvd, trivial⟩, [.text u], [.text v], rfl, ?_, ?_, ?_, ?_⟩
    · intro p hp; simp at hp; rcases hp with rfl | rfl | rfl | rfl <;> trivial
    · simp only [Spec.ruleMeaning, List.cons_append, List.nil_append, List.flatMap_cons, List.flatMap_nil, Spec.RulePart.meaning, plain_append]
      exact ⟨hu, fun c hc => .inl (hnp c hc), hw, hv, by intro c hc; cases hc⟩
    · simp [Spec.digitsOf, Spec.ruleMeaning, Spec.RulePart.meaning, hu0, hw0, filter_digits hnp]
    · simp [Spec.digitsOf, Spec.ruleMeaning, Spec.RulePart.meaning, hv0]
    · intro p hp; simp at hp; rcases hp with rfl | rfl <;> trivial
    · simp only [Spec.ruleMeaning, List.cons_append, List.nil_append, List.flatMap_cons, List.flatMap_nil, Spec.RulePart.meaning, plain_append]
      exact ⟨hu, hv, by intro c hc; cases hc⟩
    · simp [Spec.digitsOf, Spec.ruleMeaning, Spec.RulePart.meaning, hu0]
    · simp [Spec.digitsOf, Spec.ruleMeaning, Spec.RulePart.meaning, hv0]
  have key : ∀ (u w v : Str), Spec.Plain u → Spec.Plain v → Spec.Plain w → u.filter isDigit = [] → v.filter isDigit = [] →
      w.filter isDigit = [] → ∃ rule lead, u ++ (str% "$NP") ++ w ++ (str% "$FG") ++ v = Spec.ruleSource rule ∧ Spec.PlainRule np cc rule ∧
        Spec.Leads np cc rule lead ∧ (lead = [] ∧ 'N' ∉ u ++ (str% "$NP") ++ w ++ (str% "$FG") ++ v ∨
          lead = np ∧ 'N' ∈ u ++ (str% "$NP") ++ w ++ (str% "$FG") ++ v) := by
    intro u w v h1 h2 h3 h4 h5 h6
    obtain ⟨k1, k2⟩ := (mk u v h1 h2 h4 h5 (plain_no_dollar h1) (plain_no_dollar h2)).1 w h3 h6 (plain_no_dollar h3)
    exact ⟨_, np, by simp [Spec.ruleSource, Spec.RulePart.source], k1, k2, .inr ⟨rfl, by simp⟩⟩
  have pl : ∀ s : Str, s ∈ [[], str% "(", str% ")", str% " ", str% " (", str% "-"] → Spec.Plain s ∧ s.filter isDigit = [] := by
    unfold Spec.Plain; decide
  simp only [knownRules, List.mem_cons, List.not_mem_nil, or_false] at h
  rcases h with rfl | rfl | rfl | rfl | rfl | rfl | rfl
  · exact key [] [] [] (pl _ (by simp)).1 (pl _ (by simp)).1 (pl _ (by simp)).1 rfl rfl rfl
  · exact key (str% "(") [] (str% ")") (pl _ (by simp)).1 (pl _ (by simp)).1 (pl _ (by simp)).1 rfl rfl rfl
  · exact key [] (str% " ") [] (pl _ (by simp)).1 (pl _ (by simp)).1 (pl _ (by simp)).1 rfl rfl rfl
  · obtain ⟨k1, k2⟩ := (mk (str% "(") (str% ")") (pl _ (by simp)).1 (pl _ (by simp)).1 rfl rfl (by decide) (by decide)).2
    exact ⟨_, [], rfl, k1, k2, .inl ⟨rfl, by decide⟩⟩
  · exact key [] (str% " (") (str% ")") (pl _ (by simp)).1 (pl _ (by simp)).1 (pl _ (by simp)).1 rfl rfl rfl
  · exact key (str% "(") (str% " ") (str% ")") (pl _ (by simp)).1 (pl _ (by simp)).1 (pl _ (by simp)).1 rfl rfl rfl
  · exact key (str% "(") (str% "-") (str% ")") (pl _ (by simp)).1 (pl _ (by simp)).1 (pl _ (by simp)).1 rfl rfl rfl

variable [UnicodeTables]

omit [UnicodeTables] in
theorem mentionsGroup_dollar {t : Str} (h : mentionsGroup t = true) : '$' ∈ t := by
  fun_induction mentionsGroup t with
  | case1 d s ih => simp
  | case2 c s _ ih => exact List.mem_cons_of_mem _ (ih h)
  | case3 => cases h

theorem chosen_national {n : PhoneNumber} {md : Metadata} {f : Format} (hmd : Spec.MetadataFor db n md) (hcar : n.carrier = none)
    (hex : md.id ∉ [str% "AR", str% "BY", str% "GA"]) (hf : Spec.Chosen md n.national.display .national none f) :
    Spec.Punctuates f ∧ Spec.EndsInGroup f ∧ (Spec.ruleFor f n.carrier = none ∨ 2 ≤ f.format.count '$' ∨
      Spec.ruleFor f n.carrier = some (str% "$NP$FG")) ∧
    ∃ lead, Spec.LeadDigits md f n lead ∧
      (lead = [] ∧ (∀ r, f.nationalPrefix = some r → 'N' ∉ r) ∨
        lead = md.nationalPrefix.getD [] ∧ ∃ r, f.nationalPrefix = some r ∧ 'N' ∈ r) := by
  have he : Spec.Entry db md := by
    obtain ⟨l, hl⟩ := hmd
    exact .inr ⟨_, _, hl, by simp⟩
  obtain ⟨_, _, _, g0, _, g1, _, _, _, _, g2⟩ := good_iff he
  have hr := entry_readableNational he
  rcases hf with hf | ⟨_, b, a, hf, happ, _⟩
  · cases hf
  have hmem : f ∈ md.formats := by
    have : f ∈ Spec.formatsFor md .national := by rw [hf]; simp
    simpa [Spec.formatsFor] using this
  simp only [readableNational, Bool.or_eq_true, List.contains_iff_mem, hex, false_or, List.all_eq_true, Bool.and_eq_true, beq_iff_eq] at hr
  obtain ⟨⟨⟨h1, h2⟩, h3⟩, h4⟩ := hr f hmem
  have hfa := g1.resolve_left (fun h => hex (by simp [h])) f hmem
  have hrule : Spec.ruleFor f n.carrier = f.nationalPrefix := by rw [hcar]; rfl
  have hnp : ∀ c ∈ md.nationalPrefix.getD [], isDigit c = true := by
    cases hn : md.nationalPrefix with
    | none => intro c hc; cases hc
    | some np => exact g2 np hn
  have hnd : '$' ∉ md.nationalPrefix.getD [] := fun h => absurd (hnp _ h) (by decide)
  refine ⟨⟨faithful_sound hfa, fun c hc => ?_⟩, ?_, ?_, ?_⟩
  · rcases h1 c hc with (h | h) | h
    · exact .inl h
    · exact .inr (.inl h)
    · exact .inr (.inr h)
  · obtain ⟨a, d, k1, k2, k3⟩ := endsInRef_sound h2
    exact ⟨a, d, k1, k2, fun v m hm => find_filled hm h3 k3⟩
  · rw [hrule]
    cases hn : f.nationalPrefix with
    | none => exact .inl rfl
    | some r =>
      rw [hn] at h4
      simp only [Option.map_some, Option.getD_some, Bool.and_eq_true, Bool.or_eq_true, decide_eq_true_eq, beq_iff_eq] at h4
      rcases h4.2 with h | h
      · exact .inr (.inl h)
      · exact .inr (.inr (by rw [h]))
  · cases hn : f.nationalPrefix with
    | none => exact ⟨[], .noRule (hrule.trans hn), .inl ⟨rfl, fun _ h => nomatch h⟩⟩
    | some r =>
      rw [hn] at h4
      simp only [Option.map_some, Option.getD_some, Bool.and_eq_true, List.contains_iff_mem, Bool.not_eq_true', List.isEmpty_eq_false_iff] at h4
      obtain ⟨rule, lead, r1, r2, r3, r4⟩ := known_rule (cc := Spec.carrierText f n) h4.1.1 hnp
      refine ⟨lead, .rule (rule := rule) ?_ (mentionsGroup_dollar (g0 f hmem)) hnd (by rw [hcar]; simp) r2 r3 ?_, r4.imp (fun h => ⟨h.1, fun r' e => by cases e; exact h.2⟩) fun h => ⟨h.1, r, rfl, h.2⟩⟩
      · rw [hrule, hn, r1]
      · obtain ⟨m, hm, hmt⟩ := (happ.resolve_left h4.1.2).2
        refine ⟨m, hm, ?_⟩
        have := congrArg List.length (find_eq_some hm).split
        simp only [List.length_append, hmt] at this
        exact List.length_eq_zero_iff.1 (by omega)

/-- C72 for the shipped database: the national form of a number without carrier, read with a reference country `c` with its calling code,
gives the number back, if national prefix handling of `c` makes the national number of itself, and of itself with the national prefix in
front. Argentina, Belarus and Gabon, whose formats write other digits too, are excepted. -/
theorem C72_builtin (n : PhoneNumber) (hlen : 2 ≤ n.national.display.length ∧ n.national.display.length ≤ 17) (hv : n.national.value ≠ 0)
    (hcar : n.carrier = none) (c : Id) (md : Metadata) (hmd : db.byId c.asRef = some md) (hcode : md.countryCode = n.code.value)
    (hex : ∀ md', Spec.MetadataFor db n md' → md'.id ∉ [str% "AR", str% "BY", str% "GA"])
    (car : Str → Option Str)
    (hread : ∀ md' lead, Spec.MetadataFor db n md' → lead = [] ∨ lead = md'.nationalPrefix.getD [] →
      3 ≤ (lead ++ n.national.display).length ∧ Spec.NotDialled db (some c) (lead ++ n.national.display) ∧
      ¬ Spec.OwnCode md (lead ++ n.national.display) ∧
      Spec.NationalPart md (lead ++ n.national.display) n.national.display (car lead))
    (s : Str) (h : format n .national = .ok s)
    (hext : ∀ e, n.extension = some e → (e ≠ [] ∧ e.length ≤ 7 ∧ ∀ c ∈ e, isDigit c = true) ∧ ' ' ∈ s) :
    ∃ lead, parse (some c) s = .ok ⟨⟨n.code.value, .default⟩, n.national, n.extension, car lead⟩ := by
  have hcc : md.countryCode < 65536 := by
    have := (good_iff (.inl ⟨_, hmd⟩)).1
    omega
  have ht : ∀ t, md.nationalPrefixTransformRule = some t → Spec.DigitTemplate t := digitTemplates (.inl ⟨_, hmd⟩)
  obtain ⟨md', _, hmd', _⟩ := C64_national db n none s h
  have key : ∃ lead, (lead = [] ∨ lead = md'.nationalPrefix.getD []) ∧ ∀ md, Spec.MetadataFor db n md → (∀ f, Spec.Chosen md n.national.display .national none f →
      Spec.Punctuates f ∧ Spec.LeadDigits md f n lead) ∧ (Spec.NoneChosen md n.national.display .national none → lead = []) := by
    rcases chosen_or_none md' n.national.display .national none with ⟨f, hf⟩ | hno
    · obtain ⟨h1, _, _, lead, h2, h3⟩ := chosen_national hmd' hcar (hex _ hmd') hf
      refine ⟨lead, h3.imp (·.1) (·.1), fun md hm => ?_⟩
      obtain rfl := metadataFor_unique hm hmd'
      refine ⟨fun g hg => ?_, fun hno => ?_⟩
      · obtain rfl := chosen_unique hf hg
        exact ⟨h1, h2⟩
      · rcases hf with hf | ⟨_, b, a, hf, happ, _⟩
        · cases hf
        · exact absurd happ (hno.2 f (by rw [hf]; simp))
    · refine ⟨[], .inl rfl, fun md hm => ?_⟩
      obtain rfl := metadataFor_unique hm hmd'
      refine ⟨fun f hf => ?_, fun _ => rfl⟩
      rcases hf with hf | ⟨_, b, a, hf, happ, _⟩
      · cases hf
      · exact absurd happ (hno.2 f (by rw [hf]; simp))
  obtain ⟨lead, hl, hlead⟩ := key
  obtain ⟨r1, r2, r3, r4⟩ := hread md' lead hmd' hl
  refine ⟨lead, C72_national db n none c md hmd hcode hcc ht hlen hv lead hlead r1 r2 r3 (car lead) r4 s h fun e he => ⟨(hext e he).1, (hext e he).2, ?_⟩⟩
  intro md hm
  obtain rfl := metadataFor_unique hm hmd'
  refine ⟨(readable_iff (by obtain ⟨l, hl⟩ := hm; exact .inr ⟨_, _, hl, by simp⟩)).2, ?_⟩
  obtain ⟨md'', nat, hm'', hs, _, _, hlast⟩ := national_shape h lead hlead
  obtain rfl := metadataFor_unique hm'' hm
  obtain ⟨t, d, h1, h2⟩ := hlast (fun f hf => by
    obtain ⟨_, k1, k2, _⟩ := chosen_national hm hcar (hex _ hm) hf
    exact ⟨k1, k2⟩) (by intro h0; rw [h0] at hlen; simp at hlen)
  exact ⟨t, d, h2, by rw [hs, h1, he]; rfl⟩

/-- C72 for a reference country of the shipped database without parsing pattern: the national form of a number with at least three
digits and without carrier gives the number back, if its digits do not begin with the national prefix, and neither they nor the national
prefix and they begin with the dialling prefix or the calling code of the country. The country must have the national prefix of the main
country of its code. -/
theorem C72_simple (n : PhoneNumber) (hlen : 3 ≤ n.national.display.length ∧ n.national.display.length ≤ 17) (hv : n.national.value ≠ 0)
    (hcar : n.carrier = none) (c : Id) (md : Metadata) (hmd : db.byId c.asRef = some md) (hcode : md.countryCode = n.code.value)
    (hpat : md.nationalPrefixForParsing = none)
    (hsame : ∀ md', Spec.MetadataFor db n md' → md'.nationalPrefix = md.nationalPrefix ∧ md'.id ∉ [str% "AR", str% "BY", str% "GA"])
    (hnp : ∀ np, md.nationalPrefix = some np → ¬ np <+: n.national.display)
    (hidd : ∀ lead, lead = [] ∨ md.nationalPrefix = some lead → ¬ Spec.BeginsWithIdd db (some c) (lead ++ n.national.display) ∧
      ¬ decStr n.code.value <+: lead ++ n.national.display)
    (s : Str) (h : format n .national = .ok s)
    (hext : ∀ e, n.extension = some e → (e ≠ [] ∧ e.length ≤ 7 ∧ ∀ c ∈ e, isDigit c = true) ∧ ' ' ∈ s) :
    parse (some c) s = .ok ⟨⟨n.code.value, .default⟩, n.national, n.extension, none⟩ := by
  have hgen : md.descriptors.general.possibleLength = [] := (good_iff (.inl ⟨_, hmd⟩)).2.2.2.2.2.2.2.1
  have hkeep : Spec.dropPrefix md n.national.display = n.national.display := by
    unfold Spec.dropPrefix
    cases hp : md.nationalPrefix with
    | none => rfl
    | some np => exact dropOnce_keep (hnp np hp)
  obtain ⟨lead, hl⟩ := C72_builtin n ⟨by omega, hlen.2⟩ hv hcar c md hmd hcode (fun md' hm => (hsame md' hm).2) (fun _ => none)
    (fun md' lead hm hl => by
      rw [(hsame md' hm).1] at hl
      have hl' : lead = [] ∨ md.nationalPrefix = some lead := by
        rcases hl with hl | hl
        · exact .inl hl
        · cases hp : md.nationalPrefix with
          | none => rw [hp] at hl; exact .inl hl
          | some np => rw [hp] at hl; exact .inr (by rw [hl]; rfl)
      obtain ⟨i1, i2⟩ := hidd lead hl'
      refine ⟨by rw [List.length_append]; omega, notDialled i1, fun ho => i2 (hcode ▸ ho.1), ?_⟩
      have ht : Spec.dropPrefix md (lead ++ n.national.display) = n.national.display := by
        rcases hl' with rfl | hp
        · exact hkeep
        · unfold Spec.dropPrefix
          rw [hp]
          exact dropOnce_append _ _
      have := Spec.NationalPart.used (md := md) (.plain hpat (ds := lead ++ n.national.display))
        (by rw [hgen]; rintro ⟨_, _, h, _⟩; cases h)
      rwa [ht, hkeep] at this) s h hext
  exact hl

/-- The regular expression of the dialling prefix 00. -/
theorem find_00 {re : Regex} (hre : compile (str% "00") = some re) {ds : Str} {m : Match} (h : re.find ds = some m) (h0 : m.start = 0) :
    ∃ t, ds = '0' :: '0' :: t := by
  have hs : re = ⟨str% "00", .cat (.chr '0') (.chr '0'), 0⟩ := by
    have : compile (str% "00") = some ⟨str% "00", .cat (.chr '0') (.chr '0'), 0⟩ := by kernel_rfl
    rw [this] at hre; exact (Option.some.inj hre).symm
  have f := find_eq_some h
  have hl := f.lang
  rw [hs] at hl
  obtain ⟨u, v, h1, h2, h3⟩ := lang_cat.1 hl
  obtain ⟨x, rfl, hx⟩ := lang_cls.1 h2
  obtain ⟨y, rfl, hy⟩ := lang_cls.1 h3
  have hz : ∀ c : Char, (⟨false, [.range '0' '0']⟩ : Cls).mem c = true → c = '0' := by
    intro c hc
    simp [Cls.mem, CItem.mem] at hc
    have h48 : '0'.toNat = 48 := rfl
    exact Char.toNat_inj.1 (by omega)
  have hp : m.pre = [] := byteLen_eq_zero.1 h0
  rw [hz x hx, hz y hy] at h1
  exact ⟨m.post, by rw [f.split, hp, h1]; rfl⟩

/-- The shipped territories with this calling code have the dialling prefix 00. -/
def zeroIdd (ts : List Loader.Metadata) (c : Nat) : Bool := ts.all fun m => m.countryCode != some c || m.internationalPrefix == some (str% "00")

/-- C72 for a country that has its calling code alone, has no parsing pattern, no national prefix or 0, and the dialling prefix 00: the
national form of every number with three to seventeen digits, the first not zero, that do not begin with the calling code, gives the
number back, with an extension of one to seven digits too. -/
theorem C72_sole (c : Nat) (i : Id) (np : Option Str) (h : soleCheck Data.territories c i np = true) (hnp : np = none ∨ np = some ['0'])
    (hidd : zeroIdd Data.territories c = true) (hex : i.asRef ∉ [str% "AR", str% "BY", str% "GA"])
    (n : PhoneNumber) (hc : n.code.value = c) (hlen : 3 ≤ n.national.display.length ∧ n.national.display.length ≤ 17)
    (h0 : n.national.display.head? ≠ some '0') (hown : ¬ decStr c <+: n.national.display) (hcar : n.carrier = none)
    (hext : ∀ e, n.extension = some e → e ≠ [] ∧ e.length ≤ 7 ∧ ∀ c ∈ e, isDigit c = true)
    (s : Str) (hs : format n .national = .ok s) (hsp : n.extension ≠ none → ' ' ∈ s) :
    parse (some i) s = .ok ⟨⟨n.code.value, .default⟩, n.national, n.extension, none⟩ := by
  obtain ⟨md, h1, h2⟩ := sole_of_check h
  have hid : md.id ≠ worldId := by rw [h1.id]; exact asRef_ne_world i
  have hby := listed_by_id from_builtin ids_nodup h1.only (by simp) hid
  rw [h1.id] at hby
  have he : Spec.Entry db md := .inl ⟨_, hby⟩
  have hcode : md.countryCode = c := ((from_consistent from_builtin).2.1 c _ h1.only).2 md (by simp)
  have hfor : ∀ md', Spec.MetadataFor db n md' → md' = md := by
    rintro md' ⟨l, hl⟩
    rw [hc, h1.only] at hl
    simp at hl
    exact hl.1.symm
  have hbegin : ∀ lead, lead = [] ∨ md.nationalPrefix = some lead → lead = [] ∨ lead = ['0'] := by
    rintro lead (h | h)
    · exact .inl h
    · rw [h2] at h
      rcases hnp with h' | h' <;> rw [h'] at h
      · cases h
      · exact .inr (Option.some.inj h).symm
  have hv : n.national.value ≠ 0 := by
    intro hz
    apply h0
    rw [NationalNumber.display, hz]
    cases n.national.zeros.toNat <;> rfl
  refine C72_simple n hlen hv hcar i md hby (hcode.trans hc.symm) h1.noPattern (fun md' hm => by rw [hfor md' hm, h1.id]; exact ⟨rfl, hex⟩)
    (fun p hp => ?_) (fun lead hl => ⟨?_, ?_⟩) s hs (fun e he => ⟨hext e he, hsp (by rw [he]; simp)⟩)
  · rcases hbegin p (.inr hp) with rfl | rfl
    · rw [h2] at hp
      rcases hnp with h' | h' <;> rw [h'] at hp <;> cases hp
    · rintro ⟨t, ht⟩
      rw [← ht] at h0
      exact h0 rfl
  · rintro ⟨md', re, m, k1, k2, k3, k4⟩
    rw [hby, Option.some.injEq] at k1
    subst k1
    obtain ⟨m', hm', hmm⟩ := entry_of_territory from_builtin he
    obtain ⟨_, f2, _, _, _, _, _, f3, _⟩ := metadata_fields hmm
    have := List.all_eq_true.1 hidd m' hm'
    rw [f2, hcode] at this
    simp only [bne_self_eq_false, Bool.false_or, beq_iff_eq] at this
    rw [this, Option.bind_some, k2] at f3
    obtain ⟨t, ht⟩ := find_00 f3.symm k3 k4
    rcases hbegin lead hl with rfl | rfl
    · rw [List.nil_append] at ht; rw [ht] at h0; exact h0 rfl
    · simp only [List.cons_append, List.nil_append, List.cons.injEq, true_and] at ht
      rw [ht] at h0; exact h0 rfl
  · rw [hc]
    rcases hbegin lead hl with rfl | rfl
    · exact hown
    · rintro ⟨t, ht⟩
      have := decStr_head_ne_zero (n := c) (by have := code_range (c := c) (by simp [h1.only]); omega)
      cases hd : decStr c with
      | nil => exact absurd hd (decStr_ne_nil _)
      | cons x xs => rw [hd] at ht this; simp at ht this; exact this ht.1

/-- The text before an extension contains a space, except where it is introduced by `#` (Taiwan). -/
theorem space_before {n : PhoneNumber} {s e : Str} (h : format n .national = .ok s) (he : n.extension = some e)
    (hp : ∀ md, Spec.MetadataFor db n md → md.preferredExtensionPrefix ≠ some (str% "#")) : ' ' ∈ s := by
  obtain ⟨md, nat, hmd, rfl, _⟩ := C64_national db n none s h
  have := entry_readable (md := md) (by obtain ⟨l, hl⟩ := hmd; exact .inr ⟨_, _, hl, by simp⟩)
  simp only [readable, Bool.and_eq_true, List.contains_iff_mem] at this
  have h2 := this.2
  have h3 := hp md hmd
  rw [he]
  show ' ' ∈ nat ++ (md.preferredExtensionPrefix.getD (str% " ext. ") ++ e)
  refine List.mem_append_right _ (List.mem_append_left _ ?_)
  cases hx : md.preferredExtensionPrefix with
  | none => exact List.mem_cons_self
  | some p =>
    rw [hx] at h2 h3
    have h3 : p ≠ (str% "#") := fun h => h3 (by rw [h])
    simp only [Option.getD_some, List.mem_cons, List.not_mem_nil, or_false, h3, false_or] at h2 ⊢
    rcases h2 with rfl | rfl | rfl | rfl | rfl <;> decide

omit [UnicodeTables] in
theorem be_idd : zeroIdd Data.territories 32 = true := by kernel_rfl
omit [UnicodeTables] in
theorem be_present : Data.territories.any (fun m => m.countryCode == some 32) = true := by kernel_rfl
omit [UnicodeTables] in
theorem be_prefix : Data.territories.all (fun m => m.countryCode != some 32 || m.preferredExtensionPrefix == none) = true := by kernel_rfl

/-- C72 for Belgium: every number with three to seventeen digits, the first not zero, that do not begin with 32, has a national form that
reads back in Belgium. -/
theorem C72_belgian (n : PhoneNumber) (hc : n.code.value = 32) (hlen : 3 ≤ n.national.display.length ∧ n.national.display.length ≤ 17)
    (h0 : n.national.display.head? ≠ some '0') (hown : ¬ (str% "32") <+: n.national.display) (hcar : n.carrier = none)
    (hext : ∀ e, n.extension = some e → e ≠ [] ∧ e.length ≤ 7 ∧ ∀ c ∈ e, isDigit c = true) :
    ∃ s, format n .national = .ok s ∧ parse (some .BE) s = .ok ⟨⟨32, .default⟩, n.national, n.extension, none⟩ := by
  obtain ⟨h1, h2⟩ := C35_builtin n .national
  cases hf : format n .national with
  | ok s =>
    refine ⟨s, rfl, ?_⟩
    have := C72_sole 32 .BE _ be_sole (.inr rfl) be_idd (by decide) n hc hlen h0 hown hcar hext s hf (fun he => ?_)
    · rw [this, hc]
    · obtain ⟨e, he⟩ := Option.ne_none_iff_exists'.1 he
      refine space_before hf he fun md hmd => ?_
      have hent : Spec.Entry db md := by obtain ⟨l, hl⟩ := hmd; exact .inr ⟨_, _, hl, by simp⟩
      obtain ⟨m, hm, hmm⟩ := entry_of_territory from_builtin hent
      obtain ⟨_, f2, _, _, _, f3, _⟩ := metadata_fields hmm
      have hcode : md.countryCode = 32 := by
        obtain ⟨l, hl⟩ := hmd
        rw [← hc]
        exact ((from_consistent from_builtin).2.1 _ _ hl).2 md (by simp)
      have := List.all_eq_true.1 be_prefix m hm
      rw [f2, hcode] at this
      simp only [bne_self_eq_false, Bool.false_or, beq_iff_eq] at this
      rw [f3, this]; simp
  | err e =>
    obtain ⟨m, hm, hm'⟩ := present be_present
    exact absurd hm' (by rw [← hc]; exact h2.1 ⟨e, hf⟩ m hm)
  | panic p => rw [hf] at h1; exact absurd trivial h1

/-- A number meeting the hypotheses. -/
example : ∃ n : PhoneNumber, n.code.value = 32 ∧ (3 ≤ n.national.display.length ∧ n.national.display.length ≤ 17) ∧
    n.national.display.head? ≠ some '0' ∧ ¬ (str% "32") <+: n.national.display ∧ n.carrier = none ∧ n.extension = some (str% "1234567") :=
  ⟨⟨⟨32, .plus⟩, ⟨471234567⟩, some (str% "1234567"), none⟩, rfl, by decide, by decide, by decide, rfl, rfl⟩

end Builtin
end Phone
