import Verif.Props.International
import Verif.Props.Builtin
/-! # C70 for the shipped database -/

namespace Phone.Builtin
variable [UnicodeTables]

omit [UnicodeTables] in
theorem endsInRef_sound {t : Str} (h : endsInRef t = true) : ∃ a d, t = a ++ ['$', d] ∧ isDigit d = true ∧ digitVal d ≠ 0 := by
  unfold endsInRef at h
  split at h
  · rename_i d r hr
    simp only [Bool.and_eq_true, decide_eq_true_eq] at h
    refine ⟨r.reverse, d, ?_, h.1, h.2⟩
    rw [← List.reverse_reverse t, hr]; simp
  · cases h

/-- What `readable` says. -/
theorem readable_iff {md : Metadata} (h : Spec.Entry db md) :
    (∀ f ∈ md.internationalFormats, Spec.Punctuates f ∧ Spec.EndsInGroup f) ∧
    Spec.Introduces (Spec.extensionPrefix md) ∧ Spec.MarksNotDigits (Spec.extensionPrefix md) := by
  have hr := entry_readable h
  simp only [readable, Bool.and_eq_true, List.all_eq_true, Bool.or_eq_true, beq_iff_eq, List.contains_iff_mem] at hr
  obtain ⟨h1, h2⟩ := hr
  obtain ⟨_, _, _, _, g1, _⟩ := good_iff h
  refine ⟨fun f hf => ⟨⟨faithful_sound (g1 f hf).1.1, fun c hc => ?_⟩, ?_⟩, introduces_known h2, ?_⟩
  · rcases (h1 f hf).1.1 c hc with (h | h) | h
    · exact .inl h
    · exact .inr (.inl h)
    · exact .inr (.inr h)
  · obtain ⟨a, d, h3, h4, h5⟩ := endsInRef_sound (h1 f hf).1.2
    exact ⟨a, d, h3, h4, fun v m hm => find_filled hm (h1 f hf).2 h5⟩
  · exact marksNotDigits_ascii ((by decide : ∀ p ∈ [str% " ext. ", str% " x", str% " Anexo ", str% " int ", str% "#", str% " int. "],
      p.all (fun c => decide (c.toNat < 128)) = true) _ h2)

theorem chosen_international {n : PhoneNumber} {md : Metadata} {f : Format} (hmd : Spec.MetadataFor db n md)
    (hf : Spec.Chosen md n.national.display .international none f) : Spec.Punctuates f ∧ Spec.EndsInGroup f := by
  have he : Spec.Entry db md := by
    obtain ⟨l, hl⟩ := hmd
    exact .inr ⟨_, _, hl, by simp⟩
  obtain ⟨_, _, _, _, _, _, g2, _⟩ := good_iff he
  rcases hf with hf | ⟨_, b, a, hf, _⟩
  · cases hf
  · have hmem : f ∈ Spec.formatsFor md .international := by rw [hf]; simp
    unfold Spec.formatsFor at hmem
    split at hmem
    · rename_i hc
      rcases hc with hc | hc
      · rcases g2 with g | g
        · rw [g] at hmem; cases hmem
        · exact absurd hc g
      · cases hc
    · exact (readable_iff he).1 f hmem

/-- C70 for the shipped database: the international form of a number with a national number of two to seventeen digits, not all zero,
and no extension or one of one to seven digits, parses back, if national prefix handling leaves the national number alone; with any
reference country whose dialling prefix the digits do not begin with, and without one. -/
theorem C70_builtin (n : PhoneNumber) (hlen : 2 ≤ n.national.display.length ∧ n.national.display.length ≤ 17)
    (hv : n.national.value ≠ 0) (hext : ∀ e, n.extension = some e → e ≠ [] ∧ e.length ≤ 7 ∧ ∀ c ∈ e, isDigit c = true)
    (hu : Spec.Untouched db n.code.value n.national.display) (s : Str) (h : format n .international = .ok s) (country : Option Id)
    (hidd : ∀ c, country = some c → ¬ Spec.BeginsWithIdd db country (decStr n.code.value ++ n.national.display)) :
    parse country s = .ok { n with code := ⟨n.code.value, .plus⟩, carrier := none } :=
  C70_international compile Data.territories db from_builtin ids_nodup shared prefixFree n (ordinary h hlen hv) hu none
    (fun _ _ hmd hf => (chosen_international hmd hf).1)
    (fun e he => ⟨hext e he, fun md hmd => ⟨(readable_iff (by obtain ⟨l, hl⟩ := hmd; exact .inr ⟨_, _, hl, by simp⟩)).2,
      fun f hf => (chosen_international hmd hf).2⟩⟩) s h country hidd

/-- C70: what the parser returns survives being written in international format and read again, if its extension has one to seven
digits or is missing and national prefix handling leaves its national number alone. -/
theorem C70_parsed (country : Option Id) (s : Str) (p : PhoneNumber) (h : parse country s = .ok p)
    (hext : ∀ e, p.extension = some e → e ≠ [] ∧ e.length ≤ 7)
    (hu : Spec.Untouched db p.code.value p.national.display) :
    ∃ t, format p .international = .ok t ∧ parse none t = .ok { p with code := ⟨p.code.value, .plus⟩, carrier := none } := by
  obtain ⟨h1, h2, _, h3, _⟩ := C06_builtin country s p h
  have hv : p.national.value ≠ 0 := by intro e; rw [e] at h3; exact absurd h3 (by decide)
  obtain ⟨t, ht⟩ := C57_parsed_formats country s p h .international
  exact ⟨t, ht, C70_builtin p ⟨h1, h2⟩ hv (fun e he => ⟨(hext e he).1, (hext e he).2, (C08_digits db country s p h).1 e he⟩) hu t ht none
    (fun _ h => by cases h)⟩

omit [UnicodeTables] in
theorem present {l : List Loader.Metadata} {c : Nat} (h : l.any (fun m => m.countryCode == some c) = true) :
    ∃ m ∈ l, m.countryCode = some c := by
  obtain ⟨m, hm, hc⟩ := List.any_eq_true.1 h
  exact ⟨m, hm, by simpa using hc⟩

omit [UnicodeTables] in
theorem dk_present : Data.territories.any (fun m => m.countryCode == some 45) = true := by kernel_rfl
omit [UnicodeTables] in
theorem dk_plain : Data.territories.all (fun m => m.countryCode != some 45 || (m.nationalPrefix.isNone && m.nationalPrefixForParsing.isNone)) =
    true := by kernel_rfl

theorem dk_untouched (ds : Str) : Spec.Untouched db 45 ds :=
  untouched_of_no_prefix 45 (fun m hm hc => by simpa [hc] using List.all_eq_true.1 dk_plain m hm) ds

/-- Danish numbers with an extension meet the hypotheses, whatever their digits. -/
example (v : NationalNumber) (hlen : 2 ≤ v.display.length ∧ v.display.length ≤ 17) (hv : v.value ≠ 0) (n : PhoneNumber)
    (hn : n = ⟨⟨45, .number⟩, v, some (str% "1234567"), none⟩) :
    ∃ t, format n .international = .ok t ∧ parse none t = .ok ⟨⟨45, .plus⟩, v, some (str% "1234567"), none⟩ := by
  have hc : n.code.value = 45 := by rw [hn]
  obtain ⟨h1, h2⟩ := C35_builtin n .international
  cases hf : format n .international with
  | ok t =>
    have := C70_builtin n (by rw [hn]; exact hlen) (by rw [hn]; exact hv) (by rw [hn]; intro e he; cases he; decide)
      (by rw [hc]; exact dk_untouched _) t hf none (fun _ h => by cases h)
    exact ⟨t, rfl, by rw [this, hn]⟩
  | err e =>
    obtain ⟨m, hm, hm'⟩ := present dk_present
    exact absurd hm' (by rw [← hc]; exact h2.1 ⟨e, hf⟩ m hm)
  | panic p => rw [hf] at h1; exact absurd trivial h1

end Phone.Builtin
