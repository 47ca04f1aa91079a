import Verif.Spec.NationalText
import Verif.Props.International
import Verif.Props.Trunk
/-! # C72: reading back what is written in national format -/

namespace Phone
open Formatter
variable [UnicodeTables]

omit [UnicodeTables] in
theorem meaning_fixed {np cc ref : Str} {ps : List Spec.RulePart} (h : ∀ p ∈ ps, p.fixed) :
    Spec.ruleMeaning np cc ref ps = Spec.ruleMeaning np cc [] ps := by
  induction ps with
  | nil => rfl
  | cons p ps ih =>
    simp only [Spec.ruleMeaning, List.flatMap_cons] at ih ⊢
    rw [ih fun p hp => h p (by simp [hp])]
    have := h p (by simp)
    cases p <;> simp_all [Spec.RulePart.fixed, Spec.RulePart.meaning]

omit [UnicodeTables] in
theorem meaning_append {np cc ref : Str} {a b : List Spec.RulePart} :
    Spec.ruleMeaning np cc ref (a ++ b) = Spec.ruleMeaning np cc ref a ++ Spec.ruleMeaning np cc ref b := by
  simp [Spec.ruleMeaning]

omit [UnicodeTables] in
/-- The first reference of a template that mentions groups in order. -/
theorem refs_first {k n : Nat} {t : Str} (h : Spec.RefsInOrder k t n) (hd : '$' ∈ t) : ∃ a d b, t = a ++ '$' :: d :: b ∧
    isDigit d = true ∧ digitVal d = k ∧ (∀ c ∈ a, isDigit c = false ∧ c ≠ '$') ∧ (∀ c s, b = c :: s → isNameChar c = false) ∧
    Spec.RefsInOrder (k + 1) b n := by
  induction h with
  | nil => cases hd
  | @text k c s n h1 h2 _ ih =>
    rcases List.mem_cons.1 hd with h | h
    · exact absurd h.symm h2
    · obtain ⟨a, d, b, rfl, i1, i2, i3, i4⟩ := ih h
      refine ⟨c :: a, d, b, rfl, i1, i2, ?_, i4⟩
      intro x hx
      rcases List.mem_cons.1 hx with rfl | hx
      · exact ⟨h1, h2⟩
      · exact i3 x hx
  | @ref k e s n h1 h2 h3 hr ih => exact ⟨[], e, s, rfl, h1, h2, by simp, h3, hr⟩

omit [UnicodeTables] in
theorem plain_no_dollar {s : Str} (h : Spec.Plain s) : '$' ∉ s := by
  intro hc
  rcases h _ hc with h | h <;> revert h <;> decide

omit [UnicodeTables] in
theorem plain_not_name {c : Char} (h : c ∈ (str% " -.()/")) : isNameChar c = false :=
  (by decide : ∀ c ∈ (str% " -.()/"), isNameChar c = false) c h

omit [UnicodeTables] in
theorem plain_append {a b : Str} : Spec.Plain (a ++ b) ↔ Spec.Plain a ∧ Spec.Plain b := by
  simp only [Spec.Plain, List.mem_append]
  exact ⟨fun h => ⟨fun c hc => h c (.inl hc), fun c hc => h c (.inr hc)⟩, fun h c hc => hc.elim (h.1 c) (h.2 c)⟩

/-- Grouping by a template into which plain text is put before and after the first reference. -/
theorem replace_lead {f : Format} (hf : Spec.Punctuates f) {v : Str} (hv : Digits v) {m : Match} (hm : f.pattern.find v = some m)
    (hpre : m.pre = []) {a b x y : Str} {d : Char} (hfmt : f.format = a ++ '$' :: d :: b) (hd : isDigit d = true)
    (ha : ∀ c ∈ a, isDigit c = false ∧ c ≠ '$') (hb : ∀ c s, b = c :: s → isNameChar c = false) (hx : Spec.Plain x) (hy : Spec.Plain y)
    (hy0 : y.filter isDigit = []) :
    Spec.Plain (f.pattern.replace v (a ++ (x ++ '$' :: d :: y) ++ b)) ∧
      (f.pattern.replace v (a ++ (x ++ '$' :: d :: y) ++ b)).filter isDigit = x.filter isDigit ++ v ∧
      ((∃ t e, expand m b ++ m.post = t ++ [e] ∧ isDigit e = true) → ∃ t e, f.pattern.replace v (a ++ (x ++ '$' :: d :: y) ++ b) = t ++ [e] ∧
        isDigit e = true) := by
  have hpl := plain_replace hf hv
  have hdg : (f.pattern.replace v f.format).filter isDigit = v := digitsOf_replace hf.1 hv
  have ha' : '$' ∉ a := fun h => (ha _ h).2 rfl
  have hyn : ∀ c s, y ++ b = c :: s → isNameChar c = false := by
    intro c s h
    match y, h with
    | [], h => exact hb c s h
    | z :: y, h =>
      simp only [List.cons_append, List.cons.injEq] at h
      obtain ⟨rfl, _⟩ := h
      rcases hy z (by simp) with h | h
      · rw [List.filter_cons_of_pos h] at hy0; cases hy0
      · exact plain_not_name h
  have ha0 : a.filter isDigit = [] := List.filter_eq_nil_iff.2 fun c hc => by simp [(ha c hc).1]
  simp only [Regex.replace, hm, hpre, List.nil_append] at hpl hdg ⊢
  rw [hfmt, expand_text ha', expand_ref hd hb] at hpl hdg
  rw [show a ++ (x ++ '$' :: d :: y) ++ b = a ++ (x ++ ('$' :: d :: (y ++ b))) by simp, expand_text ha', expand_text (plain_no_dollar hx),
    expand_ref hd hyn, expand_text (plain_no_dollar hy)]
  simp only [plain_append, List.filter_append, ha0, List.nil_append, hy0] at hpl hdg ⊢
  refine ⟨⟨⟨hpl.1.1, hx, hpl.1.2.1, hy, hpl.1.2.2⟩, hpl.2⟩, ?_, ?_⟩
  · rw [List.append_assoc, ← hdg]
  · rintro ⟨t, e, h1, h2⟩
    refine ⟨a ++ (x ++ ((m.get (digitVal d)).getD [] ++ (y ++ t))), e, ?_, h2⟩
    simp only [List.append_assoc, h1]

/-- What follows the first of several groups ends with a digit. -/
theorem rest_last {f : Format} (hf : Spec.Punctuates f) (he : Spec.EndsInGroup f) {v : Str} (hv : Digits v) {m : Match}
    (hm : f.pattern.find v = some m) {a b : Str} {d : Char} (hfmt : f.format = a ++ '$' :: d :: b) (hd : isDigit d = true)
    (h2 : '$' ∈ b) {k n : Nat} (hb : Spec.RefsInOrder k b n) : ∃ t e, expand m b ++ m.post = t ++ [e] ∧ isDigit e = true := by
  have key : ∀ (u w : Str), w ≠ [] → Digits w → ∃ t d, u ++ w = t ++ [d] ∧ isDigit d = true := by
    intro u w hw hd
    refine ⟨u ++ w.dropLast, w.getLast hw, ?_, hd _ (List.getLast_mem hw)⟩
    rw [List.append_assoc, List.dropLast_concat_getLast]
  by_cases hp : m.post = []
  · obtain ⟨a', e, ht, he, hfill⟩ := he
    obtain ⟨⟨n', hg, hr⟩, _⟩ := hf
    obtain ⟨b', rfl⟩ : ∃ b', b = b' ++ ['$', e] := by
      rw [hfmt] at ht
      rcases List.append_eq_append_iff.1 ht with ⟨t, e1, e2⟩ | ⟨t, e1, e2⟩
      · match t, e2 with
        | [], e2 => simp at e2; rw [e2.2] at h2; cases h2
        | [x], e2 =>
          simp only [List.cons_append, List.nil_append, List.cons.injEq] at e2
          exact absurd e2.2.1 (isDigit_ne hd).1
        | x :: y :: t, e2 =>
          simp only [List.cons_append, List.cons.injEq] at e2
          exact ⟨t, e2.2.2⟩
      · have := congrArg List.length e2
        simp only [List.length_cons, List.length_append, List.length_nil] at this
        have : b = [] := List.length_eq_zero_iff.1 (by omega)
        rw [this] at h2; cases h2
    obtain ⟨u, hu⟩ := expand_last (m := m) he hb b' rfl
    have hget : ∃ g, m.get (digitVal e) = some g := by
      obtain ⟨ts, k1, k2, _, k4⟩ := groupSeq_find hm hg
      obtain ⟨l1, l2⟩ := refs_last he hr a' ht
      have hi : digitVal e - 1 < ts.length := by omega
      have := capTexts_get (by omega) k4 (digitVal e - 1) ts[digitVal e - 1] (by simp [hi])
      exact ⟨_, by rwa [show 1 + (digitVal e - 1) = digitVal e by omega] at this⟩
    obtain ⟨g, hg'⟩ := hget
    rw [hp, List.append_nil, hu, hg', Option.getD_some]
    exact key _ g (fun h => hfill v m hm (by rw [hg', h])) (digits_get hv hm hg')
  · exact key _ _ hp (fun c hc => hv c (by rw [(find_eq_some hm).split]; simp [hc]))

/-- A template with a single reference at its end gives text that ends with a digit. -/
theorem single_last {f : Format} (hf : Spec.Punctuates f) (he : Spec.EndsInGroup f) {v : Str} (hv : Digits v) (hne : v ≠ []) {m : Match}
    (hm : f.pattern.find v = some m) (hpre : m.pre = []) {a b x : Str} {d : Char} (hfmt : f.format = a ++ '$' :: d :: b)
    (hd : isDigit d = true) (ha : ∀ c ∈ a, isDigit c = false ∧ c ≠ '$') (hb : '$' ∉ b) (hx : '$' ∉ x) :
    ∃ t e, f.pattern.replace v (a ++ (x ++ '$' :: d :: []) ++ b) = t ++ [e] ∧ isDigit e = true := by
  have ha' : '$' ∉ a := fun h => (ha _ h).2 rfl
  have hb0 : b = [] := by
    obtain ⟨a', e, ht, he, _⟩ := he
    rw [hfmt] at ht
    rcases List.append_eq_append_iff.1 ht with ⟨t, e1, e2⟩ | ⟨t, e1, e2⟩
    · match t, e2 with
      | [], e2 => simp at e2; exact e2.2
      | [x], e2 =>
        simp only [List.cons_append, List.nil_append, List.cons.injEq] at e2
        exact absurd e2.2.1 (isDigit_ne hd).1
      | x :: y :: t, e2 =>
        simp only [List.cons_append, List.cons.injEq] at e2
        rw [e2.2.2] at hb
        exact absurd (by simp) hb
    · have := congrArg List.length e2
      simp only [List.length_cons, List.length_append, List.length_nil] at this
      exact List.length_eq_zero_iff.1 (by omega)
  subst hb0
  have hdg : (f.pattern.replace v f.format).filter isDigit = v := digitsOf_replace hf.1 hv
  have hn : ∀ c s, ([] : Str) = c :: s → isNameChar c = false := by intro c s h; cases h
  simp only [Regex.replace, hm, hpre, List.nil_append] at hdg ⊢
  rw [hfmt, expand_text ha', expand_ref hd hn] at hdg
  rw [List.append_nil, expand_text ha', expand_text hx, expand_ref hd hn]
  have ha0 : a.filter isDigit = [] := List.filter_eq_nil_iff.2 fun c hc => by simp [(ha c hc).1]
  have hw : Digits ((m.get (digitVal d)).getD [] ++ m.post) := by
    refine digits_append.2 ⟨?_, fun c hc => hv c (by rw [(find_eq_some hm).split]; simp [hc])⟩
    cases hg : m.get (digitVal d) with
    | none => intro c hc; cases hc
    | some g => exact digits_get hv hm hg
  have hwne : (m.get (digitVal d)).getD [] ++ m.post ≠ [] := by
    intro h
    obtain ⟨h1, h2⟩ := List.append_eq_nil_iff.1 h
    rw [h1, h2] at hdg
    simp only [List.append_nil, ha0, expand, expandAux] at hdg
    exact hne hdg.symm
  refine ⟨a ++ (x ++ ((m.get (digitVal d)).getD [] ++ m.post).dropLast), ((m.get (digitVal d)).getD [] ++ m.post).getLast hwne, ?_,
    hw _ (List.getLast_mem hwne)⟩
  simp only [List.append_assoc, List.dropLast_concat_getLast]
  simp [expand, expandAux]

/-- National output without the extension: plain text with the digits of the rule and the national number. -/
theorem national_shape {db : Database} {n : PhoneNumber} {custom : Option Format} {s : Str}
    (h : fmt db n .national custom = .ok s) (lead : Str)
    (hf : ∀ md, Spec.MetadataFor db n md → (∀ f, Spec.Chosen md n.national.display .national custom f →
      Spec.Punctuates f ∧ Spec.LeadDigits md f n lead) ∧ (Spec.NoneChosen md n.national.display .national custom → lead = [])) :
    ∃ md nat, Spec.MetadataFor db n md ∧ s = nat ++ Spec.extensionText md .national n.extension ∧
      Spec.Plain nat ∧ nat.filter isDigit = lead ++ n.national.display ∧
      ((∀ f, Spec.Chosen md n.national.display .national custom f → Spec.EndsInGroup f ∧ (Spec.ruleFor f n.carrier = none ∨
        2 ≤ f.format.count '$' ∨ Spec.ruleFor f n.carrier = some (str% "$NP$FG"))) → n.national.display ≠ [] → ∃ t d, nat = t ++ [d] ∧ isDigit d = true) := by
  obtain ⟨md, nat, hmd, hs, hn⟩ := C64_national db n custom s h
  obtain ⟨hf, hnone⟩ := hf md hmd
  have hv := digits_display n.national
  have hbare : n.national.display ≠ [] → ∃ t d, n.national.display = t ++ [d] ∧ isDigit d = true :=
    fun hne => ⟨_, _, (List.dropLast_concat_getLast hne).symm, hv _ (List.getLast_mem hne)⟩
  refine ⟨md, nat, hmd, hs, ?_⟩
  rcases hn with ⟨hno, rfl⟩ | ⟨f, hch, h1, h2⟩
  · rw [hnone hno]
    exact ⟨fun c hc => .inl (hv c hc), filter_digits hv, fun _ => hbare⟩
  · obtain ⟨hp, hl⟩ := hf f hch
    have refs : '$' ∈ f.format → _ := fun hd => refs_first hp.1.choose_spec.2 hd
    cases hl with
    | noRule hr =>
      rw [h1 hr]
      exact ⟨plain_replace hp hv, digitsOf_replace hp.1 hv, fun he hne => replace_last hp (he f hch).1 hv hne⟩
    | @rule rule _ hr hd hnp hcc hpr hld hm =>
      obtain ⟨a, d, b, hfmt, k1, k2, k3, k4, k5⟩ := refs hd
      have hna : ¬ Spec.MentionsGroup a := by
        rintro ⟨p, e, q, rfl, _⟩
        exact (k3 '$' (by simp)).2 rfl
      rw [h2 rule a b d hr hfmt k1 hna hnp hcc hpr]
      obtain ⟨m, hm, hpre⟩ := hm
      obtain ⟨before, after, rfl, l1, l2, rfl, l3⟩ := hld
      have e : Spec.ruleMeaning (md.nationalPrefix.getD []) (if f.domesticCarrier = none then [] else n.carrier.getD []) ['$', d]
          (before ++ .fg :: after) = Spec.ruleMeaning (md.nationalPrefix.getD []) (Spec.carrierText f n) [] before ++ '$' :: d ::
            Spec.ruleMeaning (md.nationalPrefix.getD []) (Spec.carrierText f n) [] after := by
        rw [meaning_append, show (Spec.RulePart.fg :: after) = [.fg] ++ after from rfl, meaning_append,
          meaning_fixed fun p hp => l1 p (by simp [hp]), meaning_fixed (ps := after) fun p hp => l1 p (by simp [hp])]
        rfl
      rw [e]
      rw [meaning_append, plain_append] at l2
      obtain ⟨r1, r2, r3⟩ := replace_lead hp hv hm hpre hfmt k1 k3 k4 l2.1 l2.2 l3
      refine ⟨r1, r2, fun he hne => ?_⟩
      obtain ⟨e1, e2⟩ := he f hch
      by_cases hdb : '$' ∈ b
      · exact r3 (rest_last hp e1 hv hm hfmt k1 hdb k5)
      · have e2 : Spec.ruleFor f n.carrier = some (Spec.ruleSource [.np, .fg]) := by
          rcases e2 with e2 | e2 | e2
          · rw [hr] at e2; cases e2
          · have ha0 : a.count '$' = 0 := List.count_eq_zero.2 fun h => (k3 _ h).2 rfl
            rw [hfmt, List.count_append, ha0, List.count_cons_self, List.count_cons_of_ne (by exact (isDigit_ne k1).1)] at e2
            exact absurd (List.count_pos_iff.1 (by omega)) hdb
          · exact e2
        have hT := h2 [.np, .fg] a b d e2 hfmt k1 hna hnp hcc trivial
        rw [h2 (before ++ .fg :: after) a b d hr hfmt k1 hna hnp hcc hpr, e] at hT
        rw [hT]
        exact single_last (x := md.nationalPrefix.getD []) hp e1 hv hne hm hpre hfmt k1 k3 hdb hnp
    | @noMatch rule hr hd hnp hcc hpr hm =>
      obtain ⟨a, d, b, hfmt, k1, k2, k3, k4, k5⟩ := refs hd
      have hna : ¬ Spec.MentionsGroup a := by
        rintro ⟨p, e, q, rfl, _⟩
        exact (k3 '$' (by simp)).2 rfl
      rw [h2 rule a b d hr hfmt k1 hna hnp hcc hpr]
      simp only [Regex.replace, hm]
      exact ⟨fun c hc => .inl (hv c hc), filter_digits hv, fun _ => hbare⟩

/-- Punctuation does not start a number. -/
theorem starts_plain {c : Char} (h : c ∈ (str% " -.()/")) : Spec.startsNumber c = false := by
  have h2 : ∀ c ∈ (str% " -.()/"), c.toNat < 128 ∧ isDigit c = false ∧ Spec.isPlus c = false := by decide
  obtain ⟨h3, h4, h5⟩ := h2 c h
  simp [Spec.startsNumber, isNd, h3, h4, h5]

/-- C72: national output of a number, read with the reference country `c`, gives the number back (with source `Default`), if the format
used (the caller's or the region's) only puts punctuation between the groups, and what national prefix handling makes of the digits
written – those the rule puts in front and those of the national number – is the national number. The carrier is the one national prefix
handling finds. An extension of one to seven digits is kept, if the text that introduces it is one the reader knows and is written
after a digit, and there is a space somewhere. -/
theorem C72_national (db : Database) (n : PhoneNumber) (custom : Option Format) (c : Id) (md : Metadata)
    (hmd : db.byId c.asRef = some md) (hcode : md.countryCode = n.code.value) (hcc : md.countryCode < 65536)
    (ht : ∀ t, md.nationalPrefixTransformRule = some t → Spec.DigitTemplate t)
    (hlen : 2 ≤ n.national.display.length ∧ n.national.display.length ≤ 17) (hne : n.national.value ≠ 0) (lead : Str)
    (hlead : ∀ md, Spec.MetadataFor db n md → (∀ f, Spec.Chosen md n.national.display .national custom f →
      Spec.Punctuates f ∧ Spec.LeadDigits md f n lead) ∧ (Spec.NoneChosen md n.national.display .national custom → lead = []))
    (h3 : 3 ≤ (lead ++ n.national.display).length)
    (hidd : Spec.NotDialled db (some c) (lead ++ n.national.display)) (hown : ¬ Spec.OwnCode md (lead ++ n.national.display))
    (car : Option Str) (hnp : Spec.NationalPart md (lead ++ n.national.display) n.national.display car)
    (s : Str) (h : fmt db n .national custom = .ok s)
    (hext : ∀ e, n.extension = some e → (e ≠ [] ∧ e.length ≤ 7 ∧ ∀ c ∈ e, isDigit c = true) ∧ ' ' ∈ s ∧ ∀ md, Spec.MetadataFor db n md →
      (Spec.Introduces (Spec.extensionPrefix md) ∧ Spec.MarksNotDigits (Spec.extensionPrefix md)) ∧
      ∃ t d, isDigit d = true ∧ s = t ++ [d] ++ (Spec.extensionPrefix md ++ e)) :
    parseWith db (some c) s = .ok ⟨⟨n.code.value, .default⟩, n.national, n.extension, car⟩ := by
  obtain ⟨md', nat, hmd', rfl, hplain, hfil, _⟩ := national_shape h lead hlead
  have hnz : ∃ c ∈ n.national.display, c ≠ '0' := by
    apply Classical.byContradiction
    intro hz
    have hall : ∀ c ∈ n.national.display, c = '0' := fun c hc => Classical.byContradiction fun h0 => hz ⟨c, hc, h0⟩
    have e := List.eq_replicate_of_mem hall
    have hv : decVal n.national.display = n.national.value.toNat := by simp [NationalNumber.display]
    rw [e] at hv
    have := decVal_replicate_zero n.national.display.length []
    rw [List.append_nil, hv] at this
    exact hne (UInt64.toNat_inj.1 this)
  have base : parseWith db (some c) (lead ++ n.national.display) = .ok ⟨⟨n.code.value, .default⟩, n.national, none, car⟩ := by
    rw [← hcode]
    refine C62_national db c md hmd hcc ht _ ?_ (by omega) hidd hown _ car hnp _ (.ok hlen.1 hlen.2 hnz rfl)
    rw [← hfil]; exact digits_filter _
  have h3' : 3 ≤ (nat.filter isDigit).length := by rw [hfil]; exact h3
  cases he : n.extension with
  | none =>
    rw [show Spec.extensionText md' .national none = [] from rfl, List.append_nil]
    have := C13_formatting_ignored db (some c) [] nat (.inl rfl) hplain (by simp) h3'
    rw [List.nil_append, List.nil_append] at this
    rw [this, hfil, base]
  | some e =>
    obtain ⟨⟨e1, e2, e3⟩, hsp, h4⟩ := hext e he
    obtain ⟨⟨h5, h6⟩, h7⟩ := h4 md' hmd'
    obtain ⟨t, d, hd, htd⟩ := h7
    have htd : nat = t ++ [d] := by
      rw [he] at htd
      exact List.append_cancel_right htd
    have hx := ExtText_of_introduces h5 e2 e3
    have hm : Spec.MarksNotDigits (Spec.extensionPrefix md' ++ e) := by
      intro c hc hw
      rcases List.mem_append.1 hc with hc | hc
      · exact h6 c hc hw
      · exact absurd hw ((by decide : ∀ c ∈ plainChars, c ∉ Spec.wideExt) c (mem_plain_of_digit (e3 c hc)))
    have hdig : Spec.Digitised false e e := by
      rw [← act_iff_digitised, act_plain (fun c hc => mem_plain_of_digit (e3 c hc)), filter_digits e3]
    let j := nat.takeWhile fun c => !isDigit c
    let b := nat.dropWhile fun c => !isDigit c
    have hjb : nat = j ++ b := (List.takeWhile_append_dropWhile).symm
    have hj : ∀ c ∈ j, isDigit c = false := fun c hc => by
      have := List.all_eq_true.1 (List.all_takeWhile (p := fun c => !isDigit c) (l := nat)) c hc
      simpa using this
    have hj0 : j.filter isDigit = [] := List.filter_eq_nil_iff.2 fun c hc => by simp [hj c hc]
    have hb0 : b.filter isDigit = lead ++ n.national.display := by rw [← hfil, hjb, List.filter_append, hj0]; rfl
    have hbs : ∃ c s, b = c :: s ∧ isDigit c = true := by
      match hb : b, hb0 with
      | [], hb0 => rw [← hb0] at h3; simp at h3
      | x :: b', _ =>
        refine ⟨x, b', rfl, ?_⟩
        have := List.head?_dropWhile_not (fun c => !isDigit c) nat
        rw [show nat.dropWhile (fun c => !isDigit c) = x :: b' from hb] at this
        simpa using this
    have hbe : ∃ t d, b = t ++ [d] ∧ isDigit d = true := by
      obtain ⟨x, b', hb, _⟩ := hbs
      refine ⟨b.dropLast, b.getLast (by rw [hb]; simp), (List.dropLast_concat_getLast _).symm, ?_⟩
      have : nat.getLast (by rw [hjb, hb]; simp) = d := by simp [htd]
      rw [← hd, ← this]
      congr 1
      simp only [hjb]
      rw [List.getLast_append_of_ne_nil]
    rw [hjb] at hplain hsp ⊢
    have := C65_written db (some c) j [] b (Spec.extensionPrefix md' ++ e) [] e e ?_ (by simp) (.inl rfl) (plain_append.1 hplain).2
      (fun _ => hbs) hbe (by rw [hb0]; exact h3) hx e1 hm hdig ?_
    · rw [List.nil_append, List.nil_append, List.append_nil, hb0, base, ← List.append_assoc] at this
      show parseWith db (some c) (j ++ b ++ (Spec.extensionPrefix md' ++ e)) = _
      rw [this]
      rfl
    · intro c hc
      rcases (plain_append.1 hplain).1 c hc with h | h
      · rw [hj c hc] at h; cases h
      · exact starts_plain h
    · rw [List.nil_append, List.append_nil, ← List.append_assoc]
      rw [he] at hsp
      exact hsp

/-- With the sample database: the national form of a Russian number with an extension reads back in Russia, and the hypotheses on the
rule and on national prefix handling are met. -/
example : fmt Sample.db ⟨⟨7, .plus⟩, ⟨9123456789⟩, some (str% "12"), none⟩ .national = .ok (str% "8 (912) 345-67-89 ext. 12") ∧
    parseWith Sample.db (some .RU) (str% "8 (912) 345-67-89 ext. 12") = .ok ⟨⟨7, .default⟩, ⟨9123456789⟩, some (str% "12"), none⟩ :=
  ⟨by kernel_rfl, by kernel_rfl⟩

omit [UnicodeTables] in
example : Spec.Leads (str% "8") [] [.text (str% "8 ("), .fg, .text (str% ")")] (str% "8") :=
  ⟨[.text (str% "8 (")], [.text (str% ")")], rfl, by intro p hp; simp at hp; rcases hp with rfl | rfl <;> trivial, by unfold Spec.Plain; decide,
    by decide, by decide⟩

end Phone
