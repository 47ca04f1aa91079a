import Verif.Spec.Format
import Verif.Regex.Template
import Verif.Spec.Sample
import Verif.Props.Entries
import Verif.Props.Database
import Verif.Props.NationalNumber
import Verif.Props.Parse
import Verif.Props.Viable
/-! # C34, C35, C37-C40: formatting -/

namespace Phone
open Formatter

/-- A known code has a first entry. -/
theorem byCode_head {compile : Str → Option Regex} {ms : List Loader.Metadata} {db : Database} (hdb : Database.from compile ms = .ok db)
    (c : Nat) : ((db.byCode c).bind List.head?).isSome ↔ ∃ m ∈ ms, m.countryCode = some c := by
  obtain ⟨mds, hmap, _, hcode, hlist, _⟩ := C27_indexes ms db hdb
  constructor
  · intro h
    rw [← hcode]
    cases hb : db.byCode c with
    | none => rw [hb] at h; cases h
    | some l => rfl
  · intro h
    rw [(hlist c h).1]
    obtain ⟨m, hm, hc⟩ := h
    have : (some m.id.get!, some c) = (some m.id.get!, some c) := rfl
    have hmd : ∃ md ∈ mds, md.countryCode = c := by
      have e := congrArg (List.map fun p => p.2.1) hmap
      simp only [List.map_map] at e
      have : some c ∈ ms.map (fun m => m.countryCode) := List.mem_map.2 ⟨m, hm, hc⟩
      rw [show ms.map (fun m => m.countryCode) = mds.map (fun md => some md.countryCode) from e.symm] at this
      obtain ⟨md, h1, h2⟩ := List.mem_map.1 this
      exact ⟨md, h1, by simpa using h2⟩
    obtain ⟨md, h1, h2⟩ := hmd
    have hin : md ∈ Spec.listed (·.mainCountryForCode) (mds.filter (·.countryCode == c)) := by
      simp only [Spec.listed, List.mem_append, List.mem_reverse, List.mem_filter, Bool.not_eq_true', beq_iff_eq]
      cases md.mainCountryForCode <;> simp [h1, h2]
    cases hl : Spec.listed (·.mainCountryForCode) (mds.filter (·.countryCode == c)) with
    | nil => rw [hl] at hin; cases hin
    | cons a l => simp

variable [UnicodeTables]

/-! ## C34 -/

/-- C34: E.164 output is a plus sign, the decimal code and the national digits; it depends on nothing else. -/
theorem C34_e164 (db : Database) (n : PhoneNumber) (custom : Option Format) (s : Str) (h : fmt db n .e164 custom = .ok s) :
    s = '+' :: (decStr n.code.value ++ n.national.display) ∧ Digits (decStr n.code.value ++ n.national.display) := by
  unfold fmt at h
  split at h
  · cases h
  · simp only [body, Outcome.ok.injEq] at h
    refine ⟨by rw [← h]; rfl, ?_⟩
    rw [digits_append]
    refine ⟨digits_decStr _, ?_⟩
    unfold NationalNumber.display
    rw [digits_append]
    refine ⟨?_, digits_decStr _⟩
    intro c hc
    rw [List.mem_replicate] at hc
    rw [hc.2]; decide

/-- C34: with prefix-free calling codes, E.164 output determines the calling code and the national number. -/
theorem C34_injective (db : Database) (hp : Spec.PrefixFree db) (a b : PhoneNumber) (ha : a.national.value ≠ 0) (hb : b.national.value ≠ 0)
    (s : Str) (h : fmt db a .e164 = .ok s) (h' : fmt db b .e164 = .ok s) :
    a.code.value = b.code.value ∧ a.national = b.national := by
  have known : ∀ n : PhoneNumber, fmt db n .e164 = .ok s → (db.byCode n.code.value).isSome := by
    intro n hn
    unfold fmt at hn
    cases hc : db.byCode n.code.value with
    | none => rw [hc] at hn; simp at hn
    | some l => rfl
  have e := ((C34_e164 db a none s h).1).symm.trans (C34_e164 db b none s h').1
  simp only [List.cons.injEq, true_and] at e
  have hc : a.code.value = b.code.value := by
    rcases List.append_eq_append_iff.1 e with ⟨t, h1, _⟩ | ⟨t, h1, _⟩
    · exact hp _ _ (known a h) (known b h') ⟨t, h1.symm⟩
    · exact (hp _ _ (known b h') (known a h) ⟨t, h1.symm⟩).symm
  refine ⟨hc, ?_⟩
  rw [hc] at e
  exact C03_display_injective _ _ ha hb (List.append_cancel_left e)

omit [UnicodeTables] in
theorem C34_sample_prefixFree : Spec.PrefixFree Sample.db := by
  intro c d hc hd
  have key : ∀ c, (Sample.db.byCode c).isSome → c ∈ [54, 1, 358, 7, 800] := by
    intro c hc
    obtain ⟨l, hl⟩ := Option.isSome_iff_exists.1 hc
    have e2 : Sample.db.byCodeMap.map Prod.fst = [54, 1, 358, 7, 800] := by kernel_rfl
    rw [← e2]
    exact List.mem_map.2 ⟨_, lookup_eq_some_mem hl, rfl⟩
  have h1 := key c hc
  have h2 := key d hd
  simp only [List.mem_cons, List.not_mem_nil, or_false] at h1 h2
  rcases h1 with rfl | rfl | rfl | rfl | rfl <;> rcases h2 with rfl | rfl | rfl | rfl | rfl <;> decide

/-- Two numbers meeting the hypotheses of `C34_injective` with the same output: they differ only in source and extension. -/
example : fmt Sample.db ⟨⟨54, .plus⟩, ⟨1123456789⟩, none, none⟩ .e164 = .ok (str% "+541123456789") ∧
    fmt Sample.db ⟨⟨54, .default⟩, ⟨1123456789⟩, some (str% "12"), none⟩ .e164 = .ok (str% "+541123456789") := ⟨by kernel_rfl, by kernel_rfl⟩

/-! ## Choice of the format -/

theorem applies_iff {f : Format} {v : Str} : meantFor v f = true ↔ Spec.Applies f v := by
  unfold Spec.Applies meantFor
  cases hl : f.leadingDigits.getLast? with
  | none =>
    have : f.leadingDigits = [] := by simpa using hl
    simp [this]
  | some last =>
    have hne : f.leadingDigits ≠ [] := by intro h; rw [h] at hl; cases hl
    have h1 : leadingMatches v last = true ↔ ∃ m, last.find v = some m ∧ m.pre = [] := by
      unfold leadingMatches
      cases last.find v with
      | none => simp
      | some m => simp [Match.start_eq_zero]
    have h2 : patternMatches v f.pattern = true ↔ ∃ m, f.pattern.find v = some m ∧ m.text = v := by
      unfold patternMatches
      cases hf : f.pattern.find v with
      | none => simp
      | some m =>
        have fd := find_eq_some hf
        have hs := fd.split
        simp only [Option.map_some, Option.getD_some, Bool.and_eq_true, decide_eq_true_eq, Match.start_eq_zero, Option.some.injEq,
          exists_eq_left']
        constructor
        · rintro ⟨hp, he⟩
          rw [hp] at hs
          simp only [List.nil_append] at hs
          have : byteLen m.post = 0 := by
            have := congrArg byteLen hs
            rw [byteLen_append] at this
            simp only [Match.stop, hp, byteLen_nil, Nat.zero_add] at he
            omega
          rw [byteLen_eq_zero.1 this] at hs
          simpa using hs.symm
        · intro ht
          have hl := congrArg byteLen hs
          rw [ht] at hl
          simp only [byteLen_append] at hl
          have h0 : m.pre = [] := byteLen_eq_zero.1 (by omega)
          refine ⟨h0, ?_⟩
          simp [Match.stop, h0, ht]
    rw [Bool.and_eq_true, h1, h2]
    simp [hne]

/-- C55: the format used is the first one meant for the number. -/
theorem C55_first_applicable (v : Str) (fs : List Format) :
    (∀ f, formatter v fs = some f ↔ Spec.FirstApplicable fs v f) ∧ (formatter v fs = none ↔ ∀ f ∈ fs, ¬ Spec.Applies f v) := by
  induction fs with
  | nil =>
    refine ⟨fun f => ?_, by simp [formatter]⟩
    simp only [formatter, reduceCtorEq, false_iff]
    rintro ⟨b, a, h, _⟩
    cases b <;> cases h
  | cons g fs ih =>
    have hu := applies_iff (f := g) (v := v)
    simp only [formatter]
    by_cases hg : Spec.Applies g v
    · rw [if_pos (hu.2 hg)]
      refine ⟨fun f => ?_, by simp [hg]⟩
      rw [Option.some.injEq]
      constructor
      · rintro rfl; exact ⟨[], fs, rfl, hg, by simp⟩
      · rintro ⟨b, a, h, ha, hb⟩
        cases b with
        | nil => simp only [List.nil_append, List.cons.injEq] at h; exact h.1
        | cons x b =>
          simp only [List.cons_append, List.cons.injEq] at h
          exact absurd hg (by rw [h.1]; exact hb x (by simp))
    · rw [if_neg (fun h => hg (hu.1 h))]
      refine ⟨fun f => ?_, by simp [hg, ih.2]⟩
      rw [ih.1]
      constructor
      · rintro ⟨b, a, h, ha, hb⟩
        exact ⟨g :: b, a, by rw [h]; rfl, ha, by simpa [hg] using hb⟩
      · rintro ⟨b, a, h, ha, hb⟩
        cases b with
        | nil => simp only [List.nil_append, List.cons.injEq] at h; rw [← h.1] at ha; exact absurd ha hg
        | cons x b =>
          simp only [List.cons_append, List.cons.injEq] at h
          exact ⟨b, a, h.2, ha, fun y hy => hb y (by simp [hy])⟩

theorem formatter_chosen {md : Metadata} {v : Str} {mode : Mode} {custom : Option Format} :
    (∀ f, (custom.orElse fun _ => formatter v (candidates md mode)) = some f ↔ Spec.Chosen md v mode custom f) ∧
    ((custom.orElse fun _ => formatter v (candidates md mode)) = none ↔ Spec.NoneChosen md v mode custom) := by
  have h := C55_first_applicable v (candidates md mode)
  have e : candidates md mode = Spec.formatsFor md mode := rfl
  rw [e] at h
  rw [e]
  cases custom with
  | none => simpa [Spec.Chosen, Spec.NoneChosen, Option.orElse] using h
  | some g => simp [Spec.Chosen, Spec.NoneChosen, Option.orElse]

/-- A number whose second format is used, since the first is not meant for it. -/
example : formatter (str% "6502530000") [⟨⟨[], .cls ⟨false, [.nd]⟩, 0⟩, [], [⟨[], Re.chr '9', 0⟩], none, false, none⟩,
    ⟨⟨[], .cls ⟨false, [.nd]⟩, 0⟩, str% "$0", [], none, false, none⟩] =
    some ⟨⟨[], .cls ⟨false, [.nd]⟩, 0⟩, str% "$0", [], none, false, none⟩ := by kernel_rfl

/-! ## C35 -/

theorem firstGroup_lang {p : Nat} {w q : Str} : Lang Consts.firstGroup.re p w q ↔ ∃ d, w = ['$', d] ∧ isNd d = true := by
  simp only [Consts.firstGroup, lang_grp, lang_cat, lang_chr, lang_set, List.any_cons, List.any_nil, Bool.or_false, CItem.mem]
  constructor
  · rintro ⟨_, _, rfl, rfl, d, rfl, hd⟩; exact ⟨d, rfl, hd⟩
  · rintro ⟨d, rfl, hd⟩; exact ⟨['$'], [d], rfl, rfl, d, rfl, hd⟩

theorem firstGroup_find (t : Str) :
    (Consts.firstGroup.find t = none ∧ ¬ Spec.MentionsGroup t) ∨
    ∃ m d, Consts.firstGroup.find t = some m ∧ t = m.pre ++ '$' :: d :: m.post ∧ isNd d = true ∧ m.get 1 = some ['$', d] ∧
      ∀ a e b, t = a ++ '$' :: e :: b → isNd e = true → m.pre.length ≤ a.length := by
  cases hf : Consts.firstGroup.find t with
  | none =>
    refine .inl ⟨rfl, ?_⟩
    rintro ⟨a, d, b, h, hd⟩
    exact find_eq_none.1 hf a ('$' :: d :: b) h ⟨['$', d], b, rfl, firstGroup_lang.2 ⟨d, rfl, hd⟩⟩
  | some m =>
    have fd := find_eq_some hf
    obtain ⟨d, hw, hd⟩ := firstGroup_lang.1 fd.lang
    have hs := fd.split
    rw [hw] at hs
    refine .inr ⟨m, d, rfl, by simpa using hs, hd, ?_, ?_⟩
    · obtain ⟨ts, h1, _, h2, h3⟩ := groupSeq_find hf (n := 2) (.one rfl)
      match ts, h1 with
      | [x], _ =>
        have := capTexts_get (k := 1) (by decide) h3 0 x rfl
        simp only [List.flatten_cons, List.flatten_nil, List.append_nil] at h2
        rw [← h2, hw] at this
        exact this
    · intro a e b h he
      apply Nat.le_of_not_lt
      intro hlt
      exact fd.leftmost a ('$' :: e :: b) h hlt ⟨['$', e], b, rfl, firstGroup_lang.2 ⟨e, rfl, he⟩⟩

theorem replace_isPanic {ε : Type} {v : Str} {md : Metadata} {f : Format} {rule carrier : Option Str} :
    (replace (ε := ε) v md f rule carrier).IsPanic ↔ rule ≠ none ∧ ¬ Spec.MentionsGroup f.format := by
  unfold replace template
  cases rule with
  | none => simp [Outcome.IsPanic]
  | some rule =>
    rcases firstGroup_find f.format with ⟨h1, h2⟩ | ⟨m, d, h1, h2, h3, h4, h5⟩
    · simp [h1, h2, Outcome.unwrap, Outcome.IsPanic]
    · have : Spec.MentionsGroup f.format := ⟨_, d, _, h2, h3⟩
      simp [h1, h4, this, Outcome.unwrap, Outcome.IsPanic]

omit [UnicodeTables] in
theorem metadataFor_iff {db : Database} {n : PhoneNumber} {md : Metadata} :
    (db.byCode n.code.value).bind List.head? = some md ↔ Spec.MetadataFor db n md := by
  unfold Spec.MetadataFor
  cases db.byCode n.code.value with
  | none => simp
  | some l => cases l <;> simp [eq_comm]

theorem nationalWith_eq {md : Metadata} {v : Str} {carrier : Option Str} {f : Format} :
    nationalWith md v carrier f = replace v md f (Spec.ruleFor f carrier) (if f.domesticCarrier = none then none else carrier) := by
  unfold nationalWith Spec.ruleFor
  cases carrier <;> cases hd : f.domesticCarrier <;> cases hn : f.nationalPrefix <;> simp

omit [UnicodeTables] in
theorem isPanic_bind_ok {α β : Type} (o : Outcome FmtErr α) (g : α → β) : (o >>= fun x => .ok (g x)).IsPanic ↔ o.IsPanic := by
  cases o <;> simp [Outcome.IsPanic]

theorem body_panic {md : Metadata} {n : PhoneNumber} {mode : Mode} {custom : Option Format} :
    (body md n mode custom).IsPanic ↔ mode = .national ∧
      ∃ f, Spec.Chosen md n.national.display mode custom f ∧ Spec.ruleFor f n.carrier ≠ none ∧ ¬ Spec.MentionsGroup f.format := by
  have hch := formatter_chosen (md := md) (v := n.national.display) (mode := mode) (custom := custom)
  cases mode with
  | e164 => simp [body, Outcome.IsPanic]
  | international =>
    simp only [body, reduceCtorEq, false_and, iff_false, isPanic_bind_ok]
    unfold internationalPart
    split
    · rw [replace_isPanic]; simp
    · simp [Outcome.IsPanic]
  | rfc3966 =>
    simp only [body, reduceCtorEq, false_and, iff_false, isPanic_bind_ok]
    unfold rfcPart
    split
    · rw [isPanic_bind_ok, replace_isPanic]; simp
    · simp [Outcome.IsPanic]
  | national =>
    simp only [body, isPanic_bind_ok]
    cases ho : (custom.orElse fun _ => formatter n.national.display (candidates md .national)) with
    | none =>
      simp only [nationalPart, Outcome.IsPanic, true_and, false_iff, not_exists]
      rintro f ⟨hf, _⟩
      rw [← hch.1, ho] at hf
      cases hf
    | some f =>
      simp only [nationalPart, nationalWith_eq, replace_isPanic, true_and]
      constructor
      · exact fun h => ⟨f, (hch.1 f).1 ho, h⟩
      · rintro ⟨g, hg, h⟩
        rw [← hch.1, ho, Option.some.injEq] at hg
        subst hg; exact h

theorem replace_ne_err {v : Str} {md : Metadata} {f : Format} {r c : Option Str} {e : FmtErr} :
    replace (ε := FmtErr) v md f r c ≠ .err e := by
  unfold replace template
  cases r with
  | none => simp
  | some r =>
    rcases firstGroup_find f.format with ⟨h1, h2⟩ | ⟨m, d, h1, h2, h3, h4, h5⟩
    · simp [h1, Outcome.unwrap]
    · simp [h1, h4, Outcome.unwrap]

theorem body_ne_err {md : Metadata} {n : PhoneNumber} {mode : Mode} {custom : Option Format} {e : FmtErr} :
    body md n mode custom ≠ .err e := by
  intro h
  unfold body at h
  cases mode <;> simp only [Outcome.bind_eq_err, reduceCtorEq, and_false, exists_false, or_false] at h
  · unfold internationalPart at h
    split at h
    · exact replace_ne_err h
    · cases h
  · unfold nationalPart at h
    split at h
    · rw [nationalWith_eq] at h; exact replace_ne_err h
    · cases h
  · unfold rfcPart at h
    split at h
    · simp only [Outcome.bind_eq_err, reduceCtorEq, and_false, exists_false, or_false] at h
      exact replace_ne_err h
    · cases h

/-- C35: formatting reports an error exactly if the database has no territory with the number's calling code. -/
theorem C35_error_iff (compile : Str → Option Regex) (ms : List Loader.Metadata) (db : Database) (hdb : Database.from compile ms = .ok db)
    (n : PhoneNumber) (mode : Mode) (custom : Option Format) :
    (∃ e, fmt db n mode custom = .err e) ↔ ∀ m ∈ ms, m.countryCode ≠ some n.code.value := by
  have hk := byCode_head hdb n.code.value
  unfold fmt
  cases hm : (db.byCode n.code.value).bind List.head? with
  | none =>
    rw [hm] at hk
    simp only [Option.isSome_none, Bool.false_eq_true, false_iff, not_exists, not_and] at hk
    exact ⟨fun _ => hk, fun _ => ⟨_, rfl⟩⟩
  | some md =>
    rw [hm] at hk
    simp only [Option.isSome_some, true_iff] at hk
    obtain ⟨m, h1, h2⟩ := hk
    exact ⟨fun ⟨e, he⟩ => absurd he body_ne_err, fun h => absurd h2 (h m h1)⟩

/-- C35: formatting panics exactly in national mode, when a rule has to be put into a template that mentions no group. -/
theorem C35_panic_iff (db : Database) (n : PhoneNumber) (mode : Mode) (custom : Option Format) :
    (fmt db n mode custom).IsPanic ↔ mode = .national ∧ ∃ md f, Spec.MetadataFor db n md ∧
      Spec.Chosen md n.national.display mode custom f ∧ Spec.ruleFor f n.carrier ≠ none ∧ ¬ Spec.MentionsGroup f.format := by
  unfold fmt
  simp only [← metadataFor_iff]
  cases (db.byCode n.code.value).bind List.head? with
  | none => simp [Outcome.IsPanic]
  | some md => simp [body_panic]

/-- C35: if every format of every entry is usable, formatting without a caller-supplied format never panics. -/
theorem C35_no_panic (db : Database) (h : ∀ c l md, db.byCode c = some l → md ∈ l → ∀ f ∈ md.formats, Spec.Usable f)
    (n : PhoneNumber) (mode : Mode) : ¬ (fmt db n mode).IsPanic := by
  rw [C35_panic_iff]
  rintro ⟨rfl, md, f, ⟨l, hl⟩, hch, hr, hg⟩
  rcases hch with h' | ⟨_, b, a, hf, _⟩
  · cases h'
  · have hm : f ∈ md.formats := by
      have : Spec.formatsFor md .national = md.formats := by simp [Spec.formatsFor]
      rw [this] at hf; rw [hf]; simp
    rcases h _ _ md hl (by simp) f hm with ⟨h1, h2⟩ | h1
    · apply hr; unfold Spec.ruleFor; cases n.carrier <;> simp [h1, h2]
    · exact hg h1

theorem usable_of_digit {f : Format} (a b : Str) (d : Char) (h : f.format = a ++ '$' :: d :: b) (hd : isDigit d = true) : Spec.Usable f :=
  .inr ⟨a, d, b, h, isNd_of_isDigit hd⟩

/-- A usable and an unusable format: with the second one national formatting panics. -/
example : Spec.Usable ⟨⟨[], .cls ⟨false, [.nd]⟩, 0⟩, str% "($1) $2", [], some (str% "$NP$FG"), false, none⟩ ∧
    fmt Sample.db ⟨⟨1, .plus⟩, ⟨6502530000⟩, none, none⟩ .national (some ⟨⟨[], .cls ⟨false, [.nd]⟩, 0⟩, str% "x", [], some (str% "$NP$FG"), false, none⟩) =
      .panic .unwrap :=
  ⟨usable_of_digit ['('] (str% ") $2") '1' rfl (by decide), by kernel_rfl⟩

/-! ## C56: formatting rules -/

omit [UnicodeTables] in
theorem strReplaceAux_fuel {pat rep : Str} (hp : pat ≠ []) (f : Nat) : ∀ g s, s.length ≤ f → s.length ≤ g →
    strReplaceAux pat rep f s = strReplaceAux pat rep g s := by
  induction f with
  | zero =>
    intro g s h _
    have : s = [] := List.length_eq_zero_iff.1 (by omega)
    subst this; cases g <;> rfl
  | succ f ih =>
    intro g s h h'
    cases g with
    | zero =>
      have : s = [] := List.length_eq_zero_iff.1 (by omega)
      subst this; rfl
    | succ g =>
      cases s with
      | nil => rfl
      | cons c cs =>
        simp only [List.length_cons, Nat.add_le_add_iff_right] at h h'
        simp only [strReplaceAux]
        cases hs : stripPrefix pat (c :: cs) with
        | none => simp only; rw [ih g cs h h']
        | some rest =>
          simp only
          rw [stripPrefix_eq_some] at hs
          have : rest.length ≤ cs.length := by
            have := congrArg List.length hs
            have hpl : 0 < pat.length := List.length_pos_iff.2 hp
            simp only [List.length_cons, List.length_append] at this
            omega
          rw [ih g rest (by omega) (by omega)]

omit [UnicodeTables] in
theorem strReplace_hit {pat rep s : Str} (hp : pat ≠ []) : strReplace (pat ++ s) pat rep = rep ++ strReplace s pat rep := by
  unfold strReplace
  cases pat with
  | nil => exact absurd rfl hp
  | cons c cs =>
    have hs : stripPrefix (c :: cs) (c :: (cs ++ s)) = some s := stripPrefix_eq_some.2 rfl
    simp only [List.cons_append, List.length_cons, strReplaceAux, hs]
    rw [strReplaceAux_fuel hp]
    · simp
    · exact Nat.le_refl _

omit [UnicodeTables] in
theorem strReplace_miss {pat rep s : Str} {c : Char} (h : ¬ pat <+: c :: s) :
    strReplace (c :: s) pat rep = c :: strReplace s pat rep := by
  unfold strReplace
  have hs : stripPrefix pat (c :: s) = none := by
    cases hs : stripPrefix pat (c :: s) with
    | none => rfl
    | some r => exact absurd ⟨r, (stripPrefix_eq_some.1 hs).symm⟩ h
  simp only [List.length_cons, strReplaceAux, hs]

omit [UnicodeTables] in
theorem strReplace_text {p rep s a : Str} (h : '$' ∉ a) : strReplace (a ++ s) ('$' :: p) rep = a ++ strReplace s ('$' :: p) rep := by
  induction a with
  | nil => rfl
  | cons c a ih =>
    simp only [List.mem_cons, not_or] at h
    rw [List.cons_append, strReplace_miss, ih h.2]
    · rfl
    · rintro ⟨t, ht⟩
      simp only [List.cons_append, List.cons.injEq] at ht
      exact h.1 ht.1

omit [UnicodeTables] in
/-- A dollar sign that does not begin the searched text is kept, and so is what follows up to the next dollar sign. -/
theorem strReplace_other {p rep s a : Str} (h : '$' ∉ a) (hn : ¬ ('$' :: p) <+: '$' :: (a ++ s)) :
    strReplace ('$' :: a ++ s) ('$' :: p) rep = '$' :: a ++ strReplace s ('$' :: p) rep := by
  rw [List.cons_append, strReplace_miss hn, strReplace_text h]
  rfl

omit [UnicodeTables] in
/-- The text of a rule after the placeholders have been filled in by `replace`, before the group references are expanded. -/
def filled (np cc ref : Str) : Spec.RulePart → Str
  | .text s => s
  | .np => np
  | .cc => cc
  | .fg => '$' :: ref
  | .one => str% "$1"

omit [UnicodeTables] in
theorem fill_rule {np cc : Str} {d : Char} (hnp : '$' ∉ np) (hd : d ≠ 'C') (hd2 : d ≠ '$') (ps : List Spec.RulePart)
    (hplain : ∀ s, Spec.RulePart.text s ∈ ps → '$' ∉ s) :
    strReplace (strReplace (strReplace (Spec.ruleSource ps) Consts.np np) Consts.fg ('$' :: ['$', d])) Consts.cc cc =
      ps.flatMap (filled np cc ['$', d]) := by
  induction ps with
  | nil => rfl
  | cons q ps ih =>
    have ih := ih (fun s hs => hplain s (by simp [hs]))
    have hsrc : Spec.ruleSource (q :: ps) = q.source ++ Spec.ruleSource ps := rfl
    rw [hsrc, List.flatMap_cons]
    have key : ∀ x y : Str, strReplace (strReplace (strReplace (q.source ++ Spec.ruleSource ps) Consts.np np) Consts.fg ('$' :: ['$', d])) Consts.cc cc =
        x ++ strReplace (strReplace (strReplace (Spec.ruleSource ps) Consts.np np) Consts.fg ('$' :: ['$', d])) Consts.cc cc → x = y →
        strReplace (strReplace (strReplace (q.source ++ Spec.ruleSource ps) Consts.np np) Consts.fg ('$' :: ['$', d])) Consts.cc cc =
          y ++ ps.flatMap (filled np cc ['$', d]) := by
      intro x y h e
      rw [h, ih, e]
    cases q with
    | text s =>
      have hs := hplain s (by simp)
      refine key s _ ?_ rfl
      simp only [Spec.RulePart.source, Consts.np, Consts.fg, Consts.cc]
      rw [strReplace_text hs, strReplace_text hs, strReplace_text hs]
    | np =>
      refine key np _ ?_ rfl
      simp only [Spec.RulePart.source, Consts.np, Consts.fg, Consts.cc]
      rw [strReplace_hit (by simp), strReplace_text hnp, strReplace_text hnp]
    | cc =>
      refine key cc _ ?_ rfl
      simp only [Spec.RulePart.source, Consts.np, Consts.fg, Consts.cc]
      rw [show ∀ s : Str, (str% "$CC") ++ s = '$' :: (str% "CC") ++ s from fun _ => rfl,
        strReplace_other (by decide) (by rintro ⟨t, ht⟩; simp at ht),
        strReplace_other (by decide) (by rintro ⟨t, ht⟩; simp at ht)]
      exact strReplace_hit (pat := str% "$CC") (by simp)
    | fg =>
      refine key ('$' :: ['$', d]) _ ?_ rfl
      simp only [Spec.RulePart.source, Consts.np, Consts.fg, Consts.cc]
      rw [show ∀ s : Str, (str% "$FG") ++ s = '$' :: (str% "FG") ++ s from fun _ => rfl,
        strReplace_other (by decide) (by rintro ⟨t, ht⟩; simp at ht),
        show ∀ s : Str, '$' :: (str% "FG") ++ s = (str% "$FG") ++ s from fun _ => rfl,
        strReplace_hit (by simp)]
      rw [show ∀ s : Str, '$' :: ['$', d] ++ s = '$' :: ([] ++ ('$' :: [d] ++ s)) from fun _ => rfl,
        show ∀ s : Str, '$' :: ([] ++ s) = '$' :: [] ++ s from fun _ => rfl,
        strReplace_other (by simp) (by rintro ⟨t, ht⟩; simp at ht),
        strReplace_other (by simpa using fun h => hd2 h.symm) (by rintro ⟨t, ht⟩; simp at ht; exact hd ht.1.symm)]
      rfl
    | one =>
      refine key (str% "$1") _ ?_ rfl
      simp only [Spec.RulePart.source, Consts.np, Consts.fg, Consts.cc]
      rw [show ∀ s : Str, (str% "$1") ++ s = '$' :: ['1'] ++ s from fun _ => rfl,
        strReplace_other (by decide) (by rintro ⟨t, ht⟩; simp at ht),
        strReplace_other (by decide) (by rintro ⟨t, ht⟩; simp at ht),
        strReplace_other (by decide) (by rintro ⟨t, ht⟩; simp at ht)]

omit [UnicodeTables] in
theorem plainRule_text {np cc : Str} {ps : List Spec.RulePart} (h : Spec.PlainRule np cc ps) : ∀ s, Spec.RulePart.text s ∈ ps → '$' ∉ s := by
  induction ps with
  | nil => intro s hs; cases hs
  | cons q ps ih =>
    intro s hs
    rcases List.mem_cons.1 hs with rfl | hs'
    · exact h.1
    · clear hs
      cases q
      · exact ih h.2 s hs'
      · exact ih h s hs'
      · exact ih h s hs'
      · exact ih h s hs'
      · exact ih h.2 s hs'

omit [UnicodeTables] in
theorem expand_filled {np cc : Str} {d : Char} {m : Match} (hm : m.get 1 = some ['$', d]) (hnp : '$' ∉ np) (hcc : '$' ∉ cc) (hd : d ≠ '$')
    (ps : List Spec.RulePart) (h : Spec.PlainRule np cc ps) :
    expand m (ps.flatMap (filled np cc ['$', d])) = Spec.ruleMeaning np cc ['$', d] ps := by
  induction ps with
  | nil => rfl
  | cons q ps ih =>
    rw [List.flatMap_cons, show Spec.ruleMeaning np cc ['$', d] (q :: ps) = q.meaning np cc ['$', d] ++ Spec.ruleMeaning np cc ['$', d] ps from rfl]
    cases q with
    | text s => simp only [filled, Spec.RulePart.meaning]; rw [expand_text h.1, ih h.2]
    | np => simp only [filled, Spec.RulePart.meaning]; rw [expand_text hnp, ih h]
    | cc => simp only [filled, Spec.RulePart.meaning]; rw [expand_text hcc, ih h]
    | fg =>
      simp only [filled, Spec.RulePart.meaning]
      rw [show ∀ s : Str, '$' :: ['$', d] ++ s = '$' :: '$' :: d :: s from fun _ => rfl, expand_dollars, expand_cons hd, ih h]
      rfl
    | one =>
      simp only [filled, Spec.RulePart.meaning]
      have hname : ∀ c t, ps.flatMap (filled np cc ['$', d]) = c :: t → isNameChar c = false := by
        have h1 := h.1
        clear ih h
        induction ps with
        | nil => intro c t e; cases e
        | cons r rs ih2 =>
          intro c t e
          rw [List.flatMap_cons] at e
          rw [show Spec.ruleMeaning np cc ['$'] (r :: rs) = r.meaning np cc ['$'] ++ Spec.ruleMeaning np cc ['$'] rs from rfl] at h1
          have both : ∀ x : Str, x ++ rs.flatMap (filled np cc ['$', d]) = c :: t →
              (∀ c t, x ++ Spec.ruleMeaning np cc ['$'] rs = c :: t → isNameChar c = false) → isNameChar c = false := by
            intro x hx hx1
            cases x with
            | nil => exact ih2 (by simpa using hx1) c t (by simpa using hx)
            | cons y ys =>
              simp only [List.cons_append, List.cons.injEq] at hx
              rw [← hx.1]
              exact hx1 y _ rfl
          cases r with
          | text s => exact both s e h1
          | np => exact both np e h1
          | cc => exact both cc e h1
          | fg => simp only [filled, List.cons_append, List.cons.injEq] at e; rw [← e.1]; decide
          | one => simp only [filled, List.cons_append, List.cons.injEq] at e; rw [← e.1]; decide
      rw [show ∀ s : Str, (str% "$1") ++ s = '$' :: '1' :: s from fun _ => rfl, expand_ref (by decide) hname, ih h.2]
      rw [show digitVal '1' = 1 from rfl, hm]
      rfl

/-- C56: in national mode the rule is put in place of the first group reference of the template, with `$NP`, `$CC` and `$FG`
replaced by the national prefix, the carrier code and that group reference; the rest is as without a rule. -/
theorem C56_rule (md : Metadata) (v : Str) (carrier : Option Str) (f : Format) (rule : List Spec.RulePart) (a b : Str) (d : Char)
    (hrule : Spec.ruleFor f carrier = some (Spec.ruleSource rule)) (hfmt : f.format = a ++ '$' :: d :: b) (hd : isDigit d = true)
    (ha : ¬ Spec.MentionsGroup a)
    (hnp : '$' ∉ md.nationalPrefix.getD []) (hcc : '$' ∉ carrier.getD [])
    (hplain : Spec.PlainRule (md.nationalPrefix.getD []) (if f.domesticCarrier = none then [] else carrier.getD []) rule) :
    nationalWith md v carrier f = .ok (f.pattern.replace v
      (a ++ Spec.ruleMeaning (md.nationalPrefix.getD []) (if f.domesticCarrier = none then [] else carrier.getD []) ['$', d] rule ++ b)) := by
  obtain ⟨hd1, _, _⟩ := isDigit_ne hd
  have hdC : d ≠ 'C' := by rintro rfl; revert hd; decide
  rcases firstGroup_find f.format with ⟨_, h2⟩ | ⟨m, e, h1, h2, h3, h4, h5⟩
  · exact absurd ⟨a, d, b, hfmt, isNd_of_isDigit hd⟩ h2
  · have hle := h5 a d b hfmt (isNd_of_isDigit hd)
    have hlen : m.pre = a ∧ '$' :: e :: m.post = '$' :: d :: b := by
      rw [hfmt] at h2
      rcases List.append_eq_append_iff.1 h2 with ⟨t, e1, e2⟩ | ⟨t, e1, e2⟩
      · have : t = [] := by
          have := congrArg List.length e1
          rw [List.length_append] at this
          exact List.length_eq_zero_iff.1 (by omega)
        subst this
        exact ⟨by simpa using e1, by simpa using e2.symm⟩
      · match t, e1, e2 with
        | [], e1, e2 => exact ⟨by simpa using e1.symm, by simpa using e2⟩
        | [x], e1, e2 =>
          simp only [List.cons_append, List.nil_append, List.cons.injEq] at e2
          rw [e2.2.1] at h3
          exact absurd h3 (by simp [isNd, isDigit])
        | x :: y :: t, e1, e2 =>
          simp only [List.cons_append, List.cons.injEq] at e2
          rw [← e2.1, ← e2.2.1] at e1
          exact absurd ⟨m.pre, e, t, e1, h3⟩ ha
    obtain ⟨hpre, hrest⟩ := hlen
    simp only [List.cons.injEq, true_and] at hrest
    obtain ⟨rfl, hpost⟩ := hrest
    rw [nationalWith_eq, hrule]
    have hcc' : ((if f.domesticCarrier = none then none else carrier).getD [] : Str) = if f.domesticCarrier = none then [] else carrier.getD [] := by
      split <;> rfl
    have hcc2 : '$' ∉ (if f.domesticCarrier = none then [] else carrier.getD [] : Str) := by split <;> simp_all
    simp only [replace, template, h1, Outcome.unwrap, h4, Outcome.bind_ok, Outcome.pure_eq, hcc']
    rw [fill_rule hnp hdC hd1 rule (plainRule_text hplain)]
    congr 2
    unfold Regex.replace
    rw [h1]
    simp only
    rw [expand_filled h4 hnp hcc2 hd1 rule hplain, hpre, hpost]

/-- A carrier rule: the national prefix, the carrier code and the first group in brackets. -/
example (md : Metadata) (v : Str) (f : Format) (hnp : md.nationalPrefix = some ['0']) (hf : f.format = str% "$2 15-$3-$4")
    (hr : f.domesticCarrier = some (str% "$NP$CC ($FG)")) :
    nationalWith md v (some (str% "12")) f = .ok (f.pattern.replace v (str% "012 ($2) 15-$3-$4")) := by
  have := C56_rule md v (some (str% "12")) f [.np, .cc, .text (str% " ("), .fg, .text (str% ")")] [] (str% " 15-$3-$4") '2'
    (by simp [Spec.ruleFor, hr, Spec.ruleSource, Spec.RulePart.source]) hf (by decide) (by rintro ⟨a, d, b, h, _⟩; cases a <;> cases h)
    (by simp [hnp]) (by decide) (by simp [Spec.PlainRule])
  simpa [Spec.ruleMeaning, Spec.RulePart.meaning, hnp, hr] using this

/-! ## C37 -/

omit [UnicodeTables] in
theorem hyphenateAux_text {a s : Str} (h : ∀ c ∈ a, Spec.isSep c = false) (hne : a ≠ []) (after : Bool) :
    Spec.hyphenateAux after (a ++ s) = a ++ Spec.hyphenateAux false s := by
  induction a generalizing after with
  | nil => exact absurd rfl hne
  | cons c a ih =>
    have hc := h c (by simp)
    simp only [List.cons_append, Spec.hyphenateAux, hc, Bool.false_eq_true, if_false]
    cases a with
    | nil => rfl
    | cons x a => rw [ih (fun c hc => h c (by simp [hc])) (by simp)]

omit [UnicodeTables] in
theorem hyphenateAux_run {a s : Str} (h : ∀ c ∈ a, Spec.isSep c = true) (hs : ∀ c t, s = c :: t → Spec.isSep c = false) :
    Spec.hyphenateAux true (a ++ s) = Spec.hyphenateAux false s := by
  induction a with
  | nil =>
    cases s with
    | nil => rfl
    | cons c t => simp [Spec.hyphenateAux, hs c t rfl]
  | cons c a ih =>
    simp only [List.cons_append, Spec.hyphenateAux, h c (by simp), if_true]
    exact ih fun c hc => h c (by simp [hc])

theorem isSep_eq (c : Char) : Cls.mem ⟨false, Consts.validPunctuation⟩ c = Spec.isSep c := by
  rw [Bool.eq_iff_iff]
  have e2 : (str% "-x ()[]./~").map Char.toNat = [45, 120, 32, 40, 41, 91, 93, 46, 47, 126] := by decide
  have hb : ∀ b : Bool, (b != false) = b := by decide
  simp only [Cls.mem, hb, Consts.validPunctuation, Consts.one, List.any_cons, List.any_nil, CItem.mem, Spec.isSep, Spec.isPunct,
    Bool.or_false, Bool.or_eq_true, Bool.and_eq_true, decide_eq_true_eq, beq_iff_eq, toNat_mem (s := str% "-x ()[]./~"), e2,
    List.mem_cons, List.not_mem_nil, or_false, Char.reduceToNat]
  omega

/-- `replace_all` with the separator pattern is `hyphenate`. -/
theorem replaceAll_separators (s : Str) : Consts.separatorPattern.replaceAllLit s ['-'] = Spec.hyphenate s := by
  unfold Regex.replaceAllLit Spec.hyphenate
  have key : ∀ f (s : Str), s.length < f → Regex.replaceAllAux Consts.separatorPattern ['-'] f s = Spec.hyphenateAux false s := by
    intro f
    induction f with
    | zero => intro s h; omega
    | succ f ih =>
      intro s hlen
      unfold Regex.replaceAllAux
      rcases find_plus_cls (r := Consts.separatorPattern) (k := ⟨false, Consts.validPunctuation⟩) rfl s with
        ⟨h1, h2⟩ | ⟨m, h1, h2, h3, h4, h5, h6⟩
      · rw [h1]
        simp only [isSep_eq] at h2
        cases s with
        | nil => rfl
        | cons c t =>
          have := hyphenateAux_text (s := []) h2 (by simp) false
          simpa [Spec.hyphenateAux] using this.symm
      · rw [h1]
        simp only [isSep_eq] at h3 h5 h6
        simp only [if_neg h4]
        rw [ih m.post (by rw [h2] at hlen; simp only [List.length_append] at hlen; have := List.length_pos_iff.2 h4; omega)]
        have hpre : Spec.hyphenateAux false s = m.pre ++ Spec.hyphenateAux false (m.text ++ m.post) := by
          rw [h2, List.append_assoc]
          by_cases hp : m.pre = []
          · simp [hp]
          · exact hyphenateAux_text h3 hp false
        rw [hpre, List.append_assoc]
        congr 1
        cases ht : m.text with
        | nil => exact absurd ht h4
        | cons c t =>
          rw [ht] at h5
          simp only [List.cons_append, Spec.hyphenateAux, h5 c (by simp), if_true, Bool.false_eq_true, if_false, List.nil_append]
          rw [hyphenateAux_run (fun c hc => h5 c (by simp [hc])) h6]
  exact key _ s (by omega)

/-- C37: RFC 3966 output consists of `tel:+`, the calling code, a hyphen, the grouped national number in which every run of
separators has become one hyphen, and the extension if there is one. -/
theorem C37_rfc3966 (db : Database) (n : PhoneNumber) (custom : Option Format) (s : Str) (h : fmt db n .rfc3966 custom = .ok s) :
    ∃ md nat, Spec.MetadataFor db n md ∧
      s = (str% "tel:+") ++ decStr n.code.value ++ ['-'] ++ nat ++ Spec.extensionText md .rfc3966 n.extension ∧
      ((Spec.NoneChosen md n.national.display .rfc3966 custom ∧ nat = n.national.display) ∨
        ∃ f, Spec.Chosen md n.national.display .rfc3966 custom f ∧ nat = Spec.hyphenate (f.pattern.replace n.national.display f.format)) := by
  unfold fmt at h
  cases hm : (db.byCode n.code.value).bind List.head? with
  | none => rw [hm] at h; cases h
  | some md =>
    rw [hm] at h
    simp only [body, Outcome.bind_eq_ok, Outcome.ok.injEq] at h
    obtain ⟨nat, h1, h2⟩ := h
    have hch := formatter_chosen (md := md) (v := n.national.display) (mode := .rfc3966) (custom := custom)
    refine ⟨md, nat, metadataFor_iff.1 hm, ?_, ?_⟩
    · rw [← h2]; unfold rfcSuffix; cases n.extension <;> simp [Spec.extensionText]
    · unfold rfcPart at h1
      split at h1
      · rename_i f hf
        refine .inr ⟨f, (hch.1 f).1 hf, ?_⟩
        simp only [replace, template, Outcome.bind_ok, Outcome.pure_eq, Outcome.ok.injEq] at h1
        rw [← h1, replaceAll_separators]
      · rename_i hf
        exact .inl ⟨hch.2.1 hf, by simpa using h1.symm⟩

omit [UnicodeTables] in
/-- C37: `hyphenate` does what its name says: hyphens are the only separators left, no two are adjacent, and the other characters
are unchanged. -/
theorem C37_hyphenate (s : Str) : (∀ c ∈ Spec.hyphenate s, Spec.isSep c = true → c = '-') ∧
    (∀ a b, Spec.hyphenate s ≠ a ++ '-' :: '-' :: b) ∧
    (Spec.hyphenate s).filter (fun c => !Spec.isSep c) = s.filter (fun c => !Spec.isSep c) := by
  unfold Spec.hyphenate
  refine ⟨?_, ?_, ?_⟩
  · generalize false = b
    induction s generalizing b with
    | nil => intro c hc; cases hc
    | cons x s ih =>
      intro c hc hsep
      unfold Spec.hyphenateAux at hc
      split at hc
      · split at hc
        · exact ih _ c hc hsep
        · rcases List.mem_cons.1 hc with h | h
          · exact h
          · exact ih _ c h hsep
      · rename_i hx
        rcases List.mem_cons.1 hc with h | h
        · subst h; exact absurd hsep hx
        · exact ih _ c h hsep
  · have key : ∀ b s, (∀ u v, Spec.hyphenateAux b s ≠ u ++ '-' :: '-' :: v) ∧ (b = true → ∀ v, Spec.hyphenateAux b s ≠ '-' :: v) := by
      intro b s
      induction s generalizing b with
      | nil => exact ⟨fun u v h => by (cases u <;> cases h), fun _ v h => by cases h⟩
      | cons x s ih =>
        unfold Spec.hyphenateAux
        split
        · split
          · exact ⟨(ih true).1, fun _ => (ih true).2 rfl⟩
          · rename_i hb
            refine ⟨fun u v h => ?_, fun h => absurd h hb⟩
            cases u with
            | nil => simp only [List.nil_append, List.cons.injEq, true_and] at h; exact (ih true).2 rfl v h
            | cons y u => simp only [List.cons_append, List.cons.injEq] at h; exact (ih true).1 u v h.2
        · rename_i hx
          have hx' : x ≠ '-' := by rintro rfl; exact hx (by decide)
          refine ⟨fun u v h => ?_, fun _ v h => ?_⟩
          · cases u with
            | nil => simp only [List.nil_append, List.cons.injEq] at h; exact hx' h.1
            | cons y u => simp only [List.cons_append, List.cons.injEq] at h; exact (ih false).1 u v h.2
          · simp only [List.cons.injEq] at h; exact hx' h.1
    exact fun a b => (key false s).1 a b
  · generalize false = b
    induction s generalizing b with
    | nil => rfl
    | cons x s ih =>
      unfold Spec.hyphenateAux
      split
      · rename_i hx
        split
        · rw [ih]; simp [hx]
        · rw [List.filter_cons_of_neg (by decide), ih]; simp [hx]
      · rename_i hx
        rw [List.filter_cons_of_pos (by simpa using hx), List.filter_cons_of_pos (by simpa using hx), ih]

/-- A number written with a bracket and a blank in international format. -/
example : fmt Sample.db ⟨⟨7, .plus⟩, ⟨9161234567⟩, some (str% "89"), none⟩ .rfc3966 = .ok (str% "tel:+7-916-123-45-67;ext=89") ∧
    Spec.hyphenate (str% "(916) 123-45") = str% "-916-123-45" := ⟨by kernel_rfl, by decide⟩

/-! ## C38 -/

omit [UnicodeTables] in
@[simp] theorem digitsOf_append (a b : Str) : Spec.digitsOf (a ++ b) = Spec.digitsOf a ++ Spec.digitsOf b := by simp [Spec.digitsOf]

omit [UnicodeTables] in
theorem digitsOf_digits {s : Str} (h : Digits s) : Spec.digitsOf s = s := List.filter_eq_self.2 h

omit [UnicodeTables] in
theorem digitsOf_cons_of_not {c : Char} {s : Str} (h : isDigit c = false) : Spec.digitsOf (c :: s) = Spec.digitsOf s := by
  simp [Spec.digitsOf, h]

omit [UnicodeTables] in
theorem digits_display (n : NationalNumber) : Digits n.display := by
  unfold NationalNumber.display
  rw [digits_append]
  refine ⟨?_, digits_decStr _⟩
  intro c hc
  rw [List.mem_replicate] at hc
  rw [hc.2]; decide

omit [UnicodeTables] in
theorem refsInOrder_le {k n : Nat} {t : Str} (h : Spec.RefsInOrder k t n) : k ≤ n := by
  induction h with
  | nil => exact Nat.le_refl _
  | text _ _ _ ih => exact ih
  | ref _ _ _ _ ih => omega

omit [UnicodeTables] in
theorem digitsOf_expand {m : Match} {k n : Nat} {t : Str} (h : Spec.RefsInOrder k t n) : k ≠ 0 → ∀ ts, ts.length = n - k →
    capTexts m.caps k ts → Spec.digitsOf (expand m t) = Spec.digitsOf ts.flatten := by
  induction h with
  | nil =>
    intro _ ts hl _
    have : ts = [] := List.length_eq_zero_iff.1 (by omega)
    subst this; rfl
  | text h1 h2 _ ih =>
    intro hk ts hl hc
    rw [expand_cons h2, digitsOf_cons_of_not h1]
    exact ih hk ts hl hc
  | @ref k d s n h1 h2 h3 hr ih =>
    intro hk ts hl hc
    have hkn : k + 1 ≤ n := refsInOrder_le hr
    match ts, hl with
    | [], hl => simp at hl; omega
    | x :: ts, hl =>
      have hg := capTexts_get hk hc 0 x rfl
      rw [expand_ref h1 h3, h2]
      rw [Nat.add_zero] at hg
      rw [hg]
      simp only [Option.getD_some, List.flatten_cons, digitsOf_append]
      rw [ih (by omega) ts (by simp only [List.length_cons] at hl; omega) hc.2]

/-- Grouping by a faithful format keeps the digits. -/
theorem digitsOf_replace {f : Format} (hf : Spec.Faithful f) {v : Str} (hv : Digits v) :
    Spec.digitsOf (f.pattern.replace v f.format) = v := by
  unfold Regex.replace
  obtain ⟨n, h1, h2⟩ := hf
  split
  · exact digitsOf_digits hv
  · rename_i m hm
    obtain ⟨ts, k1, k2, k3, k4⟩ := groupSeq_find hm h1
    rw [digitsOf_append, digitsOf_append, digitsOf_expand h2 (by decide) ts k1 k4, ← k3, ← digitsOf_append, ← digitsOf_append,
      ← (find_eq_some hm).split, digitsOf_digits hv]

omit [UnicodeTables] in
theorem digitsOf_hyphenate (s : Str) : Spec.digitsOf (Spec.hyphenate s) = Spec.digitsOf s := by
  have h := congrArg Spec.digitsOf (C37_hyphenate s).2.2
  have key : ∀ t : Str, Spec.digitsOf (t.filter fun c => !Spec.isSep c) = Spec.digitsOf t := by
    intro t
    unfold Spec.digitsOf
    rw [List.filter_filter]
    congr 1
    funext c
    cases hd : isDigit c with
    | false => rfl
    | true =>
      rw [isDigit_iff] at hd
      have : Spec.isSep c = false := by
        rw [← Bool.not_eq_true]
        have e2 : (str% "-x ()[]./~").map Char.toNat = [45, 120, 32, 40, 41, 91, 93, 46, 47, 126] := by decide
        simp only [Spec.isSep, Spec.isPunct, Bool.or_eq_true, Bool.and_eq_true, decide_eq_true_eq, beq_iff_eq,
          toNat_mem (s := str% "-x ()[]./~"), e2, List.mem_cons, List.not_mem_nil, or_false]
        omega
      simp [this]
  rwa [key, key] at h

/-- C38: if the format used (if any) is faithful, the digits of the international and RFC 3966 output are the calling code, the
national number and the extension suffix's digits; those of the national output without a rule are the national number and the suffix's. -/
theorem C38_digits_kept (db : Database) (n : PhoneNumber) (custom : Option Format) (mode : Mode) (s : Str) (h : fmt db n mode custom = .ok s)
    (md : Metadata) (hmd : Spec.MetadataFor db n md)
    (hf : ∀ f, Spec.Chosen md n.national.display mode custom f → Spec.Faithful f ∧ (mode = .national → Spec.ruleFor f n.carrier = none)) :
    Spec.digitsOf s = (if mode = .national then [] else decStr n.code.value) ++ n.national.display ++
      Spec.digitsOf (Spec.extensionText md mode n.extension) := by
  unfold fmt at h
  rw [metadataFor_iff.2 hmd] at h
  have hv := digits_display n.national
  have hc := digitsOf_digits (digits_decStr n.code.value)
  have hn := digitsOf_digits hv
  have hch := formatter_chosen (md := md) (v := n.national.display) (mode := mode) (custom := custom)
  have hext : mode = .international ∨ mode = .national → extSuffix md n.extension = Spec.extensionText md mode n.extension := by
    unfold extSuffix
    rintro (rfl | rfl) <;> cases n.extension <;> rfl
  have htel : Spec.digitsOf (str% "tel:+") = [] := by decide
  cases mode with
  | e164 =>
    simp only [body, Outcome.ok.injEq] at h
    rw [← h, List.cons_append, digitsOf_cons_of_not (by decide), digitsOf_append, hc, hn]
    simp [Spec.extensionText, Spec.digitsOf]
  | international =>
    simp only [body, Outcome.bind_eq_ok, Outcome.ok.injEq] at h
    obtain ⟨nat, h1, h2⟩ := h
    have hnat : Spec.digitsOf nat = n.national.display := by
      unfold internationalPart at h1
      split at h1
      · rename_i f hf'
        simp only [replace, template, Outcome.bind_ok, Outcome.pure_eq, Outcome.ok.injEq] at h1
        rw [← h1]
        exact digitsOf_replace (hf f ((hch.1 f).1 hf')).1 hv
      · simp only [Outcome.ok.injEq] at h1
        rw [← h1, hn]
    rw [← h2]
    simp only [List.cons_append, List.append_assoc]
    rw [digitsOf_cons_of_not (by decide), digitsOf_append, digitsOf_cons_of_not (by decide), digitsOf_append, hc, hnat, hext (.inl rfl)]
    simp
  | national =>
    simp only [body, Outcome.bind_eq_ok, Outcome.ok.injEq] at h
    obtain ⟨nat, h1, h2⟩ := h
    have hnat : Spec.digitsOf nat = n.national.display := by
      unfold nationalPart at h1
      split at h1
      · rename_i f hf'
        obtain ⟨hfa, hr⟩ := hf f ((hch.1 f).1 hf')
        rw [nationalWith_eq, hr rfl] at h1
        simp only [replace, template, Outcome.bind_ok, Outcome.pure_eq, Outcome.ok.injEq] at h1
        rw [← h1]
        exact digitsOf_replace hfa hv
      · simp only [Outcome.ok.injEq] at h1
        rw [← h1, hn]
    rw [← h2, digitsOf_append, hnat, hext (.inr rfl)]
    simp
  | rfc3966 =>
    simp only [body, Outcome.bind_eq_ok, Outcome.ok.injEq] at h
    obtain ⟨nat, h1, h2⟩ := h
    have hnat : Spec.digitsOf nat = n.national.display := by
      unfold rfcPart at h1
      split at h1
      · rename_i f hf'
        simp only [replace, template, Outcome.bind_ok, Outcome.pure_eq, Outcome.ok.injEq, replaceAll_separators] at h1
        rw [← h1, digitsOf_hyphenate]
        exact digitsOf_replace (hf f ((hch.1 f).1 hf')).1 hv
      · simp only [Outcome.ok.injEq] at h1
        rw [← h1, hn]
    rw [← h2]
    simp only [digitsOf_append, htel, hc]
    rw [digitsOf_cons_of_not (by decide), hnat]
    have : rfcSuffix n.extension = Spec.extensionText md .rfc3966 n.extension := by unfold rfcSuffix; cases n.extension <;> rfl
    rw [this]
    simp

/-- Check for `Spec.GroupSeq`-shaped patterns. -/
def groupsUpTo (k : Nat) : Re → Option Nat
  | .grp j a => if j = k ∧ a.noGroups = true then some (k + 1) else none
  | .cat (.grp j a) b => if j = k ∧ a.noGroups = true then groupsUpTo (k + 1) b else none
  | _ => none

omit [UnicodeTables] in
theorem groupsUpTo_sound {r : Re} : ∀ {k n : Nat}, groupsUpTo k r = some n → GroupSeq k r n := by
  induction r with
  | grp j a _ =>
    intro k n h
    simp only [groupsUpTo] at h
    split at h
    · rename_i hj; simp only [Option.some.injEq] at h; rw [← h, hj.1]; exact .one hj.2
    · cases h
  | cat a b _ ihb =>
    intro k n h
    cases a with
    | grp j a =>
      simp only [groupsUpTo] at h
      split at h
      · rename_i hj; rw [hj.1]; exact .cons hj.2 (ihb h)
      · cases h
    | _ => simp [groupsUpTo] at h
  | _ => intro k n h; simp [groupsUpTo] at h

/-- Check for templates that mention the groups in order; the result is the next group number. -/
def refsUpTo : Nat → Str → Option Nat
  | k, [] => some k
  | k, '$' :: d :: s =>
    if isDigit d ∧ digitVal d = k ∧ (s.head?.map isNameChar).getD false = false then refsUpTo (k + 1) s else none
  | k, c :: s => if isDigit c = false ∧ c ≠ '$' then refsUpTo k s else none

omit [UnicodeTables] in
theorem refsUpTo_sound {k n : Nat} {t : Str} (h : refsUpTo k t = some n) : Spec.RefsInOrder k t n := by
  fun_induction refsUpTo k t with
  | case1 k => simp only [Option.some.injEq] at h; rw [← h]; exact .nil
  | case2 k d s hc ih =>
    refine .ref hc.1 hc.2.1 ?_ (ih h)
    rintro c t rfl
    simpa using hc.2.2
  | case3 => cases h
  | case4 k c s _ hc ih => exact .text hc.1 hc.2 (ih h)
  | case5 => cases h

/-- Check for `Spec.Faithful`. -/
def faithful (f : Format) : Bool :=
  match groupsUpTo 1 f.pattern.re with
  | none => false
  | some n => refsUpTo 1 f.format = some n

omit [UnicodeTables] in
theorem faithful_sound {f : Format} (h : faithful f = true) : Spec.Faithful f := by
  unfold faithful at h
  split at h
  · cases h
  · rename_i n hn
    exact ⟨n, groupsUpTo_sound hn, refsUpTo_sound (by simpa using h)⟩

/-- The Russian format is faithful and used without a rule in international mode. -/
example : ((Sample.db.byCode 7).getD []).all (fun md => md.formats.all faithful) = true ∧
    fmt Sample.db ⟨⟨7, .plus⟩, ⟨9161234567⟩, none, none⟩ .international = .ok (str% "+7 916 123-45-67") := ⟨by kernel_rfl, by kernel_rfl⟩

/-- The Argentinian national format for mobiles is not: it drops the first group and adds `15`. -/
example : fmt Sample.db ⟨⟨54, .plus⟩, ⟨91123456789⟩, none, none⟩ .national = .ok (str% "011 15-2345-6789") := by kernel_rfl

/-! ## C39, C40 -/

/-- C39: the carrier code shows only in national format, and there only if the format used has a carrier rule. -/
theorem C39_carrier (db : Database) (n : PhoneNumber) (c : Option Str) (mode : Mode) (custom : Option Format)
    (h : mode = .national → ∀ md f, Spec.MetadataFor db n md → Spec.Chosen md n.national.display mode custom f → f.domesticCarrier = none) :
    fmt db { n with carrier := c } mode custom = fmt db n mode custom := by
  unfold fmt
  simp only
  cases hm : (db.byCode n.code.value).bind List.head? with
  | none => rfl
  | some md =>
    simp only
    cases mode with
    | e164 => rfl
    | international => rfl
    | rfc3966 => rfl
    | national =>
      simp only [body]
      congr 1
      cases hf : (custom.orElse fun _ => formatter n.national.display (candidates md .national)) with
      | none => rfl
      | some f =>
        have hd := h rfl md f (metadataFor_iff.1 hm) ((formatter_chosen.1 f).1 hf)
        simp only [nationalPart, nationalWith_eq, Spec.ruleFor, hd]
        cases c <;> cases n.carrier <;> rfl

/-- The carrier shows in national format with a carrier rule. -/
example : fmt Sample.db ⟨⟨54, .plus⟩, ⟨91123456789⟩, none, some (str% "12")⟩ .national = .ok (str% "012 (11) 15-2345-6789") ∧
    fmt Sample.db ⟨⟨54, .plus⟩, ⟨91123456789⟩, none, some (str% "12")⟩ .international = .ok (str% "+54 9 11 2345-6789") :=
  ⟨by kernel_rfl, by kernel_rfl⟩

/-- C40: the extension is a suffix: the region's extension prefix and the extension in international and national format, `;ext=`
and the extension in RFC 3966 format, nothing in E.164. -/
theorem C40_extension (db : Database) (n : PhoneNumber) (e : Str) (mode : Mode) (custom : Option Format) (md : Metadata)
    (hmd : Spec.MetadataFor db n md) (s : Str) :
    fmt db { n with extension := some e } mode custom = .ok s ↔
      ∃ t, fmt db { n with extension := none } mode custom = .ok t ∧ s = t ++ Spec.extensionText md mode (some e) := by
  unfold fmt
  simp only [metadataFor_iff.2 hmd]
  cases mode with
  | e164 =>
    simp only [body, Outcome.ok.injEq, Spec.extensionText, List.append_nil]
    exact ⟨fun h => ⟨_, rfl, h.symm⟩, fun ⟨t, h, h'⟩ => h.trans h'.symm⟩
  | international =>
    simp only [body, Outcome.bind_eq_ok, Outcome.ok.injEq, extSuffix, Consts.defaultExtnPrefix, Spec.extensionText]
    constructor
    · rintro ⟨nat, h1, rfl⟩; exact ⟨_, ⟨nat, h1, rfl⟩, by simp⟩
    · rintro ⟨_, ⟨nat, h1, rfl⟩, rfl⟩; exact ⟨nat, h1, by simp⟩
  | national =>
    simp only [body, Outcome.bind_eq_ok, Outcome.ok.injEq, extSuffix, Consts.defaultExtnPrefix, Spec.extensionText]
    constructor
    · rintro ⟨nat, h1, rfl⟩; exact ⟨_, ⟨nat, h1, rfl⟩, by simp⟩
    · rintro ⟨_, ⟨nat, h1, rfl⟩, rfl⟩; exact ⟨nat, h1, by simp⟩
  | rfc3966 =>
    simp only [body, Outcome.bind_eq_ok, Outcome.ok.injEq, rfcSuffix, Spec.extensionText]
    constructor
    · rintro ⟨nat, h1, rfl⟩; exact ⟨_, ⟨nat, h1, rfl⟩, by simp⟩
    · rintro ⟨_, ⟨nat, h1, rfl⟩, rfl⟩; exact ⟨nat, h1, by simp⟩

example : fmt Sample.db ⟨⟨1, .plus⟩, ⟨6502530000⟩, some (str% "12"), none⟩ .national = .ok (str% "(650) 253-0000 ext. 12") ∧
    fmt Sample.db ⟨⟨1, .plus⟩, ⟨6502530000⟩, none, none⟩ .national = .ok (str% "(650) 253-0000") := ⟨by kernel_rfl, by kernel_rfl⟩

end Phone
