import Verif.Spec.International
import Verif.Props.RoundTrip
import Verif.Props.FormatExact
import Verif.Props.Natural
import Verif.Regex.Filled
/-! # C70: reading back what is written in international format -/

namespace Phone
open Formatter
variable [UnicodeTables]

omit [UnicodeTables] in
theorem isSep_of_plain {c : Char} (h : c ∈ (str% " -.()/")) : Spec.isSep c = true :=
  (by decide : ∀ c ∈ (str% " -.()/"), Spec.isSep c = true) c h

/-- Grouping by a punctuating format gives plain text. -/
theorem plain_replace {f : Format} (hf : Spec.Punctuates f) {v : Str} (hv : Digits v) : Spec.Plain (f.pattern.replace v f.format) := by
  intro c hc
  unfold Regex.replace at hc
  split at hc
  · exact .inl (hv c hc)
  · rename_i m hm
    have hfound := find_eq_some hm
    have hsplit := hfound.split
    have hsub : ∀ x, (x ∈ m.pre ∨ x ∈ m.text ∨ x ∈ m.post) → isDigit x = true := by
      intro x hx
      apply hv
      rw [hsplit]
      rcases hx with h | h | h <;> simp [h]
    rcases List.mem_append.1 hc with hc | hc
    · rcases List.mem_append.1 hc with hc | hc
      · exact .inl (hsub c (.inl hc))
      · obtain ⟨⟨n, _, h2⟩, ht⟩ := hf
        rcases expand_chars h2 hc with ⟨h, h', h''⟩ | ⟨i, g, hg, hcg⟩
        · rcases ht c h with h1 | h1 | h1
          · exact absurd h1 h'
          · exact .inl h1
          · exact .inr h1
        · exact .inl (digits_get hv hm hg c hcg)
    · exact .inl (hsub c (.inr (.inr hc)))

omit [UnicodeTables] in
/-- A template that mentions the groups in order and ends with a reference ends with the group. -/
theorem expand_last {m : Match} {d : Char} (hd : isDigit d = true) {k n : Nat} {t : Str} (h : Spec.RefsInOrder k t n) :
    ∀ a, t = a ++ ['$', d] → ∃ u, expand m t = u ++ (m.get (digitVal d)).getD [] := by
  induction h with
  | nil => intro a h; simp at h
  | @text k c s n h1 h2 _ ih =>
    intro a ha
    rw [expand_cons h2]
    match a, ha with
    | [], ha => simp at ha; exact absurd ha.1 h2
    | x :: a, ha =>
      simp only [List.cons_append, List.cons.injEq] at ha
      obtain ⟨u, hu⟩ := ih a ha.2
      exact ⟨c :: u, by rw [hu]; rfl⟩
  | @ref k e s n h1 h2 h3 hr ih =>
    intro a ha
    rw [expand_ref h1 h3]
    match a, ha with
    | [], ha =>
      simp only [List.nil_append, List.cons.injEq, true_and] at ha
      obtain ⟨rfl, rfl⟩ := ha
      exact ⟨[], by simp [expand, expandAux]⟩
    | [x], ha =>
      simp only [List.cons_append, List.nil_append, List.cons.injEq] at ha
      exact absurd ha.2.1 (isDigit_ne h1).1
    | x :: y :: a, ha =>
      simp only [List.cons_append, List.cons.injEq] at ha
      obtain ⟨u, hu⟩ := ih a ha.2.2
      exact ⟨(m.get (digitVal e)).getD [] ++ u, by rw [hu, List.append_assoc]⟩

omit [UnicodeTables] in
theorem refs_last {d : Char} (hd : isDigit d = true) {k n : Nat} {t : Str} (h : Spec.RefsInOrder k t n) :
    ∀ a, t = a ++ ['$', d] → k ≤ digitVal d ∧ digitVal d < n := by
  induction h with
  | nil => intro a h; simp at h
  | @text k c s n h1 h2 _ ih =>
    intro a ha
    match a, ha with
    | [], ha => simp at ha; exact absurd ha.1 h2
    | x :: a, ha =>
      simp only [List.cons_append, List.cons.injEq] at ha
      exact ih a ha.2
  | @ref k e s n h1 h2 h3 hr ih =>
    intro a ha
    match a, ha with
    | [], ha =>
      simp only [List.nil_append, List.cons.injEq, true_and] at ha
      obtain ⟨rfl, rfl⟩ := ha
      have := refsInOrder_le hr
      omega
    | [x], ha =>
      simp only [List.cons_append, List.nil_append, List.cons.injEq] at ha
      exact absurd ha.2.1 (isDigit_ne h1).1
    | x :: y :: a, ha =>
      simp only [List.cons_append, List.cons.injEq] at ha
      have := ih a ha.2.2
      omega

/-- Grouped digits end with a digit. -/
theorem replace_last {f : Format} (hf : Spec.Punctuates f) (he : Spec.EndsInGroup f) {v : Str} (hv : Digits v) (hne : v ≠ []) :
    ∃ t d, f.pattern.replace v f.format = t ++ [d] ∧ isDigit d = true := by
  have key : ∀ (u w : Str), w ≠ [] → Digits w → ∃ t d, u ++ w = t ++ [d] ∧ isDigit d = true := by
    intro u w hw hd
    refine ⟨u ++ w.dropLast, w.getLast hw, ?_, hd _ (List.getLast_mem hw)⟩
    rw [List.append_assoc, List.dropLast_concat_getLast]
  unfold Regex.replace
  split
  · exact key [] v hne hv
  · rename_i m hm
    have hsplit := (find_eq_some hm).split
    by_cases hp : m.post = []
    · obtain ⟨a, d, ht, hd, hfill⟩ := he
      obtain ⟨⟨n, hg, hr⟩, _⟩ := hf
      obtain ⟨u, hu⟩ := expand_last (m := m) hd hr a ht
      have hget : ∃ g, m.get (digitVal d) = some g := by
        obtain ⟨ts, k1, k2, _, k4⟩ := groupSeq_find hm hg
        obtain ⟨l1, l2⟩ := refs_last hd hr a ht
        have hi : digitVal d - 1 < ts.length := by omega
        have := capTexts_get (by omega) k4 (digitVal d - 1) ts[digitVal d - 1] (by simp [hi])
        exact ⟨_, by rwa [show 1 + (digitVal d - 1) = digitVal d by omega] at this⟩
      obtain ⟨g, hg'⟩ := hget
      rw [hp, List.append_nil, hu, hg', Option.getD_some, ← List.append_assoc]
      exact key _ g (fun h => hfill v m hm (by rw [hg', h])) (digits_get hv hm hg')
    · exact key _ _ hp (fun c hc => hv c (by rw [hsplit]; simp [hc]))

theorem ExtText_of_introduces {p e : Str} (hp : Spec.Introduces p) (h7 : e.length ≤ 7) (he : Digits e) :
    Spec.ExtText (p ++ e) (some e) := by
  obtain ⟨s1, w, col, s2, rfl, h1, h2, h3, h4⟩ := hp
  have := Spec.ExtText.word s1 w col s2 e [] h1 h2 h3 h4 h7 (fun c hc => isNd_of_isDigit (he c hc)) (.inl rfl)
  simpa using this

/-- The shape of international output. -/
theorem international_shape {db : Database} {n : PhoneNumber} {custom : Option Format} {s : Str}
    (h : fmt db n .international custom = .ok s)
    (hf : ∀ md f, Spec.MetadataFor db n md → Spec.Chosen md n.national.display .international custom f → Spec.Punctuates f) :
    ∃ md nat, Spec.MetadataFor db n md ∧
      s = ['+'] ++ (decStr n.code.value ++ [' '] ++ nat) ++ Spec.extensionText md .international n.extension ∧
      Spec.Plain nat ∧ nat.filter isDigit = n.national.display ∧
      ((∀ f, Spec.Chosen md n.national.display .international custom f → Spec.EndsInGroup f) → n.national.display ≠ [] →
        ∃ t d, nat = t ++ [d] ∧ isDigit d = true) := by
  obtain ⟨md, nat, hmd, hs, hn⟩ := C64_international db n custom s h
  refine ⟨md, nat, hmd, by rw [hs]; simp, ?_⟩
  rcases hn with ⟨_, rfl⟩ | ⟨f, hch, rfl⟩
  · have hd := digits_display n.national
    refine ⟨fun c hc => .inl (hd c hc), filter_digits hd, fun _ hne => ⟨_, _, (List.dropLast_concat_getLast hne).symm, hd _ (List.getLast_mem hne)⟩⟩
  · have hp := hf md f hmd hch
    exact ⟨plain_replace hp (digits_display _), digitsOf_replace hp.1 (digits_display _),
      fun he hne => replace_last hp (he f hch) (digits_display _) hne⟩

omit [UnicodeTables] in
theorem plain_code {c : Nat} {nat : Str} (h : Spec.Plain nat) : Spec.Plain (decStr c ++ [' '] ++ nat) := by
  intro x hx
  simp only [List.append_assoc, List.mem_append, List.mem_singleton] at hx
  rcases hx with hx | rfl | hx
  · exact .inl (digits_decStr _ x hx)
  · exact .inr (by decide)
  · exact h x hx

omit [UnicodeTables] in
theorem filter_code {c : Nat} {nat ds : Str} (h : nat.filter isDigit = ds) :
    (decStr c ++ [' '] ++ nat).filter isDigit = decStr c ++ ds := by
  rw [List.filter_append, List.filter_append, filter_digits (digits_decStr _), h]
  simp [show isDigit ' ' = false by decide]

/-- International output of an ordinary number is read like its E.164 form, with the extension. -/
theorem parse_international_form {db : Database} {n : PhoneNumber} (hn : Spec.Ordinary db n) {custom : Option Format}
    (hf : ∀ md f, Spec.MetadataFor db n md → Spec.Chosen md n.national.display .international custom f → Spec.Punctuates f)
    (hext : ∀ e, n.extension = some e → (e ≠ [] ∧ e.length ≤ 7 ∧ ∀ c ∈ e, isDigit c = true) ∧ ∀ md, Spec.MetadataFor db n md →
      (Spec.Introduces (Spec.extensionPrefix md) ∧ Spec.MarksNotDigits (Spec.extensionPrefix md)) ∧
      ∀ f, Spec.Chosen md n.national.display .international custom f → Spec.EndsInGroup f)
    {s : Str} (h : fmt db n .international custom = .ok s) (country : Option Id) :
    parseWith db country s =
      match n.extension with
      | none => parseWith db country ('+' :: (decStr n.code.value ++ n.national.display))
      | some e => parseWith db country ('+' :: (decStr n.code.value ++ n.national.display)) >>= fun p => .ok (Spec.withExtension e p) := by
  obtain ⟨md, nat, hmd, rfl, hplain, hfil, hlast⟩ := international_shape h hf
  have hlen := hn.length
  have hlen1 : 1 ≤ (decStr n.code.value).length := List.length_pos_iff.2 (decStr_ne_nil _)
  have hfc := filter_code (c := n.code.value) hfil
  have h3 : 3 ≤ ((decStr n.code.value ++ [' '] ++ nat).filter isDigit).length := by rw [hfc, List.length_append]; omega
  cases he : n.extension with
  | none =>
    rw [show Spec.extensionText md .international none = [] from rfl, List.append_nil,
      C13_formatting_ignored db country ['+'] _ (.inr rfl) (plain_code hplain) (by simp) h3, hfc]
    rfl
  | some e =>
    obtain ⟨⟨e1, e2, e3⟩, h4⟩ := hext e he
    obtain ⟨⟨h5, h6⟩, h7⟩ := h4 md hmd
    obtain ⟨t, d, ht, hd⟩ := hlast h7 (by intro h0; rw [h0] at hlen; simp at hlen)
    have hx := ExtText_of_introduces h5 e2 e3
    have hm : Spec.MarksNotDigits (Spec.extensionPrefix md ++ e) := by
      intro c hc hw
      rcases List.mem_append.1 hc with hc | hc
      · exact h6 c hc hw
      · exact absurd hw ((by decide : ∀ c ∈ plainChars, c ∉ Spec.wideExt) c (mem_plain_of_digit (e3 c hc)))
    have hdig : Spec.Digitised false e e := by
      rw [← act_iff_digitised, act_plain (fun c hc => mem_plain_of_digit (e3 c hc)), filter_digits e3]
    have := C65_written db country [] ['+'] (decStr n.code.value ++ [' '] ++ nat) (Spec.extensionPrefix md ++ e) [] e e (by simp) (by simp)
      (.inr rfl) (plain_code hplain) (by simp) ⟨decStr n.code.value ++ [' '] ++ t, d, by rw [ht]; simp, hd⟩ h3 hx e1 hm hdig (by simp)
    rw [List.nil_append, List.append_nil, hfc] at this
    exact this

/-- C70: international output of an ordinary number parses back to the number, with source `Plus` and without carrier, if the format
used (the caller's or the region's) only puts punctuation between the groups and national prefix handling leaves the national number
alone; with any reference country whose dialling prefix the digits do not begin with. An extension of one to seven digits is kept, if the
text that introduces it is one the reader knows and the format ends in a group. -/
theorem C70_international (compile : Str → Option Regex) (ms : List Loader.Metadata) (db : Database)
    (hdb : Database.from compile ms = .ok db) (hid : ((ms.filterMap (·.id)).filter (· ≠ worldId)).Nodup)
    (hs : Spec.SharedAreCountries db) (hp : Spec.PrefixFree db) (n : PhoneNumber) (hn : Spec.Ordinary db n)
    (hu : Spec.Untouched db n.code.value n.national.display) (custom : Option Format)
    (hf : ∀ md f, Spec.MetadataFor db n md → Spec.Chosen md n.national.display .international custom f → Spec.Punctuates f)
    (hext : ∀ e, n.extension = some e → (e ≠ [] ∧ e.length ≤ 7 ∧ ∀ c ∈ e, isDigit c = true) ∧ ∀ md, Spec.MetadataFor db n md →
      (Spec.Introduces (Spec.extensionPrefix md) ∧ Spec.MarksNotDigits (Spec.extensionPrefix md)) ∧
      ∀ f, Spec.Chosen md n.national.display .international custom f → Spec.EndsInGroup f)
    (s : Str) (h : fmt db n .international custom = .ok s) (country : Option Id)
    (hidd : ∀ c, country = some c → ¬ Spec.BeginsWithIdd db country (decStr n.code.value ++ n.national.display)) :
    parseWith db country s = .ok { n with code := ⟨n.code.value, .plus⟩, carrier := none } := by
  have hlen := hn.length
  have hlen1 : 1 ≤ (decStr n.code.value).length := List.length_pos_iff.2 (decStr_ne_nil _)
  rw [parse_international_form hn hf hext h, parse_plus_code hp hn.known hn.code (digits_display _) (by rw [List.length_append]; omega) hidd,
    tail_untouched hdb hid hs (c := n.code.value) (by have := hn.code; omega) rfl (by simp) hu, finishParse_ordinary hn]
  cases n with
  | mk c v e k => cases e <;> rfl

/-- With the sample database: seven digits of extension survive, eight do not. -/
example : fmt Sample.db ⟨⟨1, .plus⟩, ⟨6502530000⟩, some (str% "1234567"), none⟩ .international = .ok (str% "+1 650-253-0000 ext. 1234567") ∧
    parseWith Sample.db (some .RU) (str% "+1 650-253-0000 ext. 1234567") = .ok ⟨⟨1, .plus⟩, ⟨6502530000⟩, some (str% "1234567"), none⟩ ∧
    fmt Sample.db ⟨⟨1, .plus⟩, ⟨6502530000⟩, some (str% "12345678"), none⟩ .international = .ok (str% "+1 650-253-0000 ext. 12345678") ∧
    parseWith Sample.db (some .RU) (str% "+1 650-253-0000 ext. 12345678") = .err .tooLong :=
  ⟨by kernel_rfl, by kernel_rfl, by kernel_rfl, by kernel_rfl⟩

omit [UnicodeTables] in
/-- What the shipped metadata use to introduce an extension. -/
theorem introduces_known {p : Str} (h : p ∈ [str% " ext. ", str% " x", str% " Anexo ", str% " int ", str% "#", str% " int. "]) :
    Spec.Introduces p := by
  simp only [List.mem_cons, List.not_mem_nil, or_false] at h
  rcases h with rfl | rfl | rfl | rfl | rfl | rfl
  · exact ⟨str% " ", str% "ext", str% ".", str% " ", by decide, by decide, by decide, by decide, by decide⟩
  · exact ⟨str% " ", str% "x", [], [], by decide, by decide, by decide, by decide, by decide⟩
  · exact ⟨str% " ", str% "Anexo", [], str% " ", by decide, by decide, by decide, by decide, by decide⟩
  · exact ⟨str% " ", str% "int", [], str% " ", by decide, by decide, by decide, by decide, by decide⟩
  · exact ⟨[], str% "#", [], [], by decide, by decide, by decide, by decide, by decide⟩
  · exact ⟨str% " ", str% "int", str% ".", str% " ", by decide, by decide, by decide, by decide, by decide⟩

end Phone
