import Verif.Props.ValidNational
/-! # C91: numbers written alike are the same number -/

namespace Phone

/-- Texts made of characters of a kind and then one of another kind can be taken apart in one way. -/
theorem apart_at {P : Char → Prop} {a b x y : Str} {c d : Char} (ha : ∀ z ∈ a, P z) (hb : ∀ z ∈ b, P z) (hc : ¬ P c) (hd : ¬ P d)
    (h : a ++ c :: x = b ++ d :: y) : a = b ∧ c = d ∧ x = y := by
  induction a generalizing b with
  | nil =>
    cases b with
    | nil => simpa using h
    | cons z b =>
      simp only [List.nil_append, List.cons_append, List.cons.injEq] at h
      exact absurd (h.1 ▸ hb z (by simp)) hc
  | cons z a ih =>
    cases b with
    | nil =>
      simp only [List.nil_append, List.cons_append, List.cons.injEq] at h
      exact absurd (h.1 ▸ ha z (by simp)) hd
    | cons w b =>
      simp only [List.cons_append, List.cons.injEq] at h
      obtain ⟨e1, e2, e3⟩ := ih (fun z hz => ha z (by simp [hz])) (fun z hz => hb z (by simp [hz])) h.2
      exact ⟨by rw [h.1, e1], e2, e3⟩

/-- The number and the extension of a text, if what introduces the extension has a character the number cannot have. -/
theorem apart_extension {P : Char → Prop} {a b p : Str} {e f : Option Str} (ha : ∀ z ∈ a, P z) (hb : ∀ z ∈ b, P z)
    (hp : ∃ u c v, p = u ++ c :: v ∧ (∀ z ∈ u, P z) ∧ ¬ P c)
    (h : a ++ (e.map (p ++ ·)).getD [] = b ++ (f.map (p ++ ·)).getD []) : a = b ∧ e = f := by
  obtain ⟨u, c, v, rfl, hu, hc⟩ := hp
  have au : ∀ z ∈ a ++ u, P z := fun z hz => (List.mem_append.1 hz).elim (ha z) (hu z)
  have bu : ∀ z ∈ b ++ u, P z := fun z hz => (List.mem_append.1 hz).elim (hb z) (hu z)
  cases e with
  | none =>
    cases f with
    | none => simpa using h
    | some f =>
      have : c ∈ a := by
        have h : a = b ++ (u ++ c :: v ++ f) := by simpa using h
        rw [h]; simp
      exact absurd (ha c this) hc
  | some e =>
    cases f with
    | none =>
      have : c ∈ b := by
        have h : a ++ (u ++ c :: v ++ e) = b := by simpa using h
        rw [← h]; simp
      exact absurd (hb c this) hc
    | some f =>
      have h : (a ++ u) ++ c :: (v ++ e) = (b ++ u) ++ c :: (v ++ f) := by simpa using h
      obtain ⟨e1, _, e2⟩ := apart_at au bu hc hc h
      rw [List.append_cancel_right e1, List.append_cancel_left e2]
      exact ⟨rfl, rfl⟩

variable [UnicodeTables]

omit [UnicodeTables] in
theorem extensionText_eq (md : Metadata) (mode : Formatter.Mode) (h : mode = .international ∨ mode = .national) (e : Option Str) :
    Spec.extensionText md mode e = (e.map (Spec.extensionPrefix md ++ ·)).getD [] := by
  rcases h with rfl | rfl <;> cases e <;> rfl

namespace Builtin

omit [UnicodeTables] in
/-- What introduces an extension has a character that is no digit and no punctuation. -/
theorem extension_marked {md : Metadata} (h : Spec.Entry db md) :
    ∃ u c v, Spec.extensionPrefix md = u ++ c :: v ∧ (∀ z ∈ u, isDigit z = true ∨ z ∈ (str% " -.()/")) ∧
      ¬ (isDigit c = true ∨ c ∈ (str% " -.()/")) := by
  have hr := entry_readable h
  simp only [readable, Bool.and_eq_true, List.contains_iff_mem] at hr
  have h2 : Spec.extensionPrefix md ∈ _ := hr.2
  simp only [List.mem_cons, List.not_mem_nil, or_false] at h2
  rcases h2 with e | e | e | e | e | e <;> rw [e]
  · exact ⟨[' '], 'e', str% "xt. ", rfl, by decide, by decide⟩
  · exact ⟨[' '], 'x', [], rfl, by decide, by decide⟩
  · exact ⟨[' '], 'A', str% "nexo ", rfl, by decide, by decide⟩
  · exact ⟨[' '], 'i', str% "nt ", rfl, by decide, by decide⟩
  · exact ⟨[], '#', [], rfl, by decide, by decide⟩
  · exact ⟨[' '], 'i', str% "nt. ", rfl, by decide, by decide⟩

omit [UnicodeTables] in
theorem entry_of_metadataFor {n : PhoneNumber} {md : Metadata} (h : Spec.MetadataFor db n md) : Spec.Entry db md := by
  obtain ⟨l, hl⟩ := h
  exact .inr ⟨_, _, hl, by simp⟩

/-- Equal digits, calling codes and extensions make equal national numbers. -/
theorem same_national {a b : PhoneNumber} (ha : a.national.value ≠ 0) (hb : b.national.value ≠ 0) {mode : Formatter.Mode}
    (hm : mode ≠ .national) {s : Str} (h : format a mode = .ok s) (h' : format b mode = .ok s) (hc : a.code.value = b.code.value)
    (he : a.extension = b.extension) : a.national = b.national := by
  have e := (C38_builtin a mode hm s h).symm.trans (C38_builtin b mode hm s h')
  rw [hc, he, List.append_assoc, List.append_assoc] at e
  exact C03_display_injective _ _ ha hb (List.append_cancel_right (List.append_cancel_left e))

/-- C91: numbers with the same international form have the same calling code, national number and extension. -/
theorem C91_international (a b : PhoneNumber) (ha : a.national.value ≠ 0) (hb : b.national.value ≠ 0) (s : Str)
    (h : format a .international = .ok s) (h' : format b .international = .ok s) :
    a.code.value = b.code.value ∧ a.national = b.national ∧ a.extension = b.extension := by
  obtain ⟨md, na, hmd, hs, hpa, _, _⟩ := international_shape h fun _ _ hm hf => (chosen_international hm hf).1
  obtain ⟨md', nb, hmd', hs', hpb, _, _⟩ := international_shape h' fun _ _ hm hf => (chosen_international hm hf).1
  have e : decStr a.code.value ++ ' ' :: (na ++ Spec.extensionText md .international a.extension) =
      decStr b.code.value ++ ' ' :: (nb ++ Spec.extensionText md' .international b.extension) := by
    have := hs.symm.trans hs'
    simpa using this
  obtain ⟨e1, _, e2⟩ := apart_at (P := fun c => isDigit c = true) (digits_decStr _) (digits_decStr _) (by decide) (by decide) e
  have hc := decStr_injective e1
  obtain rfl : md = md' := by
    obtain ⟨l, hl⟩ := hmd
    obtain ⟨l', hl'⟩ := hmd'
    rw [hc, hl'] at hl
    simp at hl
    exact hl.1.symm
  rw [extensionText_eq _ _ (.inl rfl), extensionText_eq _ _ (.inl rfl)] at e2
  obtain ⟨_, he⟩ := apart_extension hpa hpb (extension_marked (entry_of_metadataFor hmd)) e2
  exact ⟨hc, same_national ha hb (by decide) h h' hc he, he⟩

/-- The number in RFC 3966 output consists of digits and hyphens. -/
theorem rfc3966_plain {n : PhoneNumber} {md : Metadata} {nat : Str} (hmd : Spec.MetadataFor db n md)
    (h : (Spec.NoneChosen md n.national.display .rfc3966 none ∧ nat = n.national.display) ∨
      ∃ f, Spec.Chosen md n.national.display .rfc3966 none f ∧ nat = Spec.hyphenate (f.pattern.replace n.national.display f.format)) :
    ∀ c ∈ nat, isDigit c = true ∨ c = '-' := by
  rcases h with ⟨_, rfl⟩ | ⟨f, hf, rfl⟩
  · exact fun c hc => .inl (digits_display _ c hc)
  · intro c hc
    obtain ⟨h1, _, h2⟩ := C37_hyphenate (f.pattern.replace n.national.display f.format)
    by_cases hsep : Spec.isSep c = true
    · exact .inr (h1 c hc hsep)
    · have : c ∈ f.pattern.replace n.national.display f.format := by
        have hm : c ∈ (Spec.hyphenate (f.pattern.replace n.national.display f.format)).filter (fun c => !Spec.isSep c) :=
          List.mem_filter.2 ⟨hc, by simpa using hsep⟩
        rw [h2] at hm
        exact (List.mem_filter.1 hm).1
      have hp : Spec.Punctuates f := by
        refine (chosen_international hmd (f := f) ?_).1
        simpa only [Spec.Chosen, Spec.formatsFor, reduceCtorEq, or_false] using hf
      rcases plain_replace hp (digits_display _) c this with h | h
      · exact .inl h
      · exact absurd (isSep_of_plain h) hsep

/-- C91: so have numbers with the same RFC 3966 form. -/
theorem C91_rfc3966 (a b : PhoneNumber) (ha : a.national.value ≠ 0) (hb : b.national.value ≠ 0) (s : Str)
    (h : format a .rfc3966 = .ok s) (h' : format b .rfc3966 = .ok s) :
    a.code.value = b.code.value ∧ a.national = b.national ∧ a.extension = b.extension := by
  obtain ⟨md, na, hmd, hs, hna⟩ := C37_rfc3966 db a none s h
  obtain ⟨md', nb, hmd', hs', hnb⟩ := C37_rfc3966 db b none s h'
  have e : decStr a.code.value ++ '-' :: (na ++ Spec.extensionText md .rfc3966 a.extension) =
      decStr b.code.value ++ '-' :: (nb ++ Spec.extensionText md' .rfc3966 b.extension) := by
    have := hs.symm.trans hs'
    simpa using this
  obtain ⟨e1, _, e2⟩ := apart_at (P := fun c => isDigit c = true) (digits_decStr _) (digits_decStr _) (by decide) (by decide) e
  have hc := decStr_injective e1
  have hx : ∀ (md : Metadata) (e : Option Str), Spec.extensionText md .rfc3966 e = (e.map ((str% ";ext=") ++ ·)).getD [] := by
    intro md e; cases e <;> rfl
  rw [hx, hx] at e2
  obtain ⟨_, he⟩ := apart_extension (P := fun c => isDigit c = true ∨ c = '-') (rfc3966_plain hmd hna) (rfc3966_plain hmd' hnb)
    ⟨[], ';', str% "ext=", rfl, by simp, by decide⟩ e2
  exact ⟨hc, same_national ha hb (by decide) h h' hc he, he⟩

/-- Digits that begin with the national prefix and that a typed description of the first territory accepts are, without it, not accepted by
one of the second territory. -/
def prefixApart (np : Str) (m1 m2 : Loader.Metadata) : Bool :=
  match m1.general.bind patternOf, m2.general.bind patternOf with
  | some g1, some g2 => (typedOf m1).all fun d1 =>
      match patternOf d1 with
      | none => false
      | some r1 => (Run.steps np (some [r1])).dead || (typedOf m2).all fun d2 =>
        match patternOf d2 with
        | none => false
        | some r2 => (d2.possibleLength.all fun k => d1.possibleLength.all fun l => !Nat.beq (np.length + k) l) ||
          !clash ((d2.possibleLength.filter fun k => d1.possibleLength.any fun l => Nat.beq (np.length + k) l).foldl Nat.max 0)
            [Run.steps np (some [r1]), Run.steps np (some [g1]), some [g2], some [r2]]
  | _, _ => false

def distinctCheck (ms : List Loader.Metadata) : Bool :=
  ms.all fun m' => match m'.nationalPrefix with
    | none => true
    | some np => (m'.formats.all fun f => !writesPrefix f) || (np.all isDigit &&
        (ms.filter (·.countryCode == m'.countryCode)).all fun m1 => apart m1 [] (some [Re.lit np]) ||
          (ms.filter (·.countryCode == m'.countryCode)).all fun m2 => prefixApart np m1 m2)

omit [UnicodeTables] in
theorem distinct_check : distinctCheck Data.territories = true := by kernel_rfl

/-- The national form of a number without carrier: plain text with the digits of the number, before which there is nothing or the national
prefix, and the extension. Argentina, Belarus and Gabon are excepted. -/
theorem national_form (n : PhoneNumber) (hcar : n.carrier = none)
    (hex : ∀ md, Spec.MetadataFor db n md → md.id ∉ [str% "AR", str% "BY", str% "GA"]) (s : Str) (h : format n .national = .ok s) :
    ∃ md nat lead, Spec.MetadataFor db n md ∧ s = nat ++ Spec.extensionText md .national n.extension ∧ Spec.Plain nat ∧
      nat.filter isDigit = lead ++ n.national.display ∧
      (lead = [] ∨ md.nationalPrefix = some lead ∧ ∃ f ∈ md.formats, ∃ r, f.nationalPrefix = some r ∧ 'N' ∈ r) := by
  obtain ⟨md', _, hmd', _⟩ := C64_national db n none s h
  rcases chosen_or_none md' n.national.display .national none with ⟨f, hf⟩ | hno
  · obtain ⟨h1, _, _, lead, h2, h3⟩ := chosen_national hmd' hcar (hex _ hmd') hf
    obtain ⟨md, nat, hm, hs, hp, hfil, _⟩ := national_shape h lead fun md hm => by
      obtain rfl := metadataFor_unique hm hmd'
      refine ⟨fun g hg => ?_, fun hno => ?_⟩
      · obtain rfl := chosen_unique hf hg
        exact ⟨h1, h2⟩
      · rcases hf with hf | ⟨_, b, a, hf, happ, _⟩
        · cases hf
        · exact absurd happ (hno.2 f (by rw [hf]; simp))
    obtain rfl := metadataFor_unique hm hmd'
    refine ⟨md, nat, lead, hm, hs, hp, hfil, ?_⟩
    by_cases hl : lead = []
    · exact .inl hl
    · refine .inr ⟨?_, f, ?_, (h3.resolve_left fun h => hl h.1).2⟩
      · have := (h3.resolve_left fun h => hl h.1).1
        cases hp : md.nationalPrefix with
        | none => rw [hp] at this; exact absurd this hl
        | some np => rw [hp] at this; rw [this]; rfl
      · rcases hf with hf | ⟨_, b, a, hf, _⟩
        · cases hf
        · have : f ∈ Spec.formatsFor md .national := by rw [hf]; simp
          simpa [Spec.formatsFor] using this
  · obtain ⟨md, nat, hm, hs, hp, hfil, _⟩ := national_shape h [] fun md hm => by
      obtain rfl := metadataFor_unique hm hmd'
      refine ⟨fun f hf => ?_, fun _ => rfl⟩
      rcases hf with hf | ⟨_, b, a, hf, happ, _⟩
      · cases hf
      · exact absurd happ (hno.2 f (by rw [hf]; simp))
    exact ⟨md, nat, [], hm, hs, hp, hfil, .inl rfl⟩

/-- The descriptions that accept a valid number, and the length the typed one lists. -/
theorem valid_described {ε : Type} (n : PhoneNumber) (hv : isValid (ε := ε) n = .ok true) :
    ∃ m ∈ Data.territories, ∃ md d, m.countryCode = some n.code.value ∧ Spec.EntryOf compile m md ∧
      Spec.Accepts md.descriptors.general n.national.display ∧ some d ∈ Spec.typed md.descriptors ∧ Spec.Accepts d n.national.display ∧
      d.possibleLength ≠ [] ∧ n.national.display.length ∈ d.possibleLength := by
  obtain ⟨md, hr, hg, _, ho, d, rfl, ha⟩ := (C63_valid ε compile Data.territories db from_builtin ids_nodup shared n).1 hv
  have hd : Digits n.national.display := digits_display _
  obtain ⟨l, hl, hmd⟩ := region_mem hr
  obtain ⟨m, hm, he, hc⟩ := territory_of_region hl hmd
  obtain ⟨hlc, _⟩ := validCheck_mem valid_check hm hc
  obtain ⟨e, he1, he2⟩ := typed_of_entry he ho
  have hlen := List.all_eq_true.1 hlc e he1
  rw [Bool.and_eq_true, ← he2.possibleLength] at hlen
  have hne : d.possibleLength ≠ [] := by simpa using hlen.1
  have hmem := ha.1.resolve_left hne
  rw [hd.byteLen, Nat.mod_eq_of_lt (display_length _)] at hmem
  exact ⟨m, hm, md, d, hc, he, hg, ho, ha, hne, hmem⟩

/-- Soundness of `prefixApart`. -/
theorem prefixApart_sound {np u v : Str} {m1 m2 : Loader.Metadata} {md1 md2 : Metadata} (hc : prefixApart np m1 m2 = true)
    (hnp : ∀ c ∈ np, isDigit c = true) (h1 : Spec.EntryOf compile m1 md1) (h2 : Spec.EntryOf compile m2 md2)
    (hu : u = np ++ v) (hv : ∀ c ∈ v, isDigit c = true) (hg1 : Spec.Accepts md1.descriptors.general u)
    (hg2 : Spec.Accepts md2.descriptors.general v) {d1 d2 : Descriptor} (ht1 : some d1 ∈ Spec.typed md1.descriptors)
    (ht2 : some d2 ∈ Spec.typed md2.descriptors) (ha1 : Spec.Accepts d1 u) (ha2 : Spec.Accepts d2 v)
    (hl1 : u.length ∈ d1.possibleLength) (hl2 : v.length ∈ d2.possibleLength) : False := by
  obtain ⟨g1, e1, k1⟩ := h1.general
  obtain ⟨g2, e2, k2⟩ := h2.general
  obtain ⟨t1, f1, f2⟩ := typed_of_entry h1 ht1
  obtain ⟨t2, f3, f4⟩ := typed_of_entry h2 ht2
  simp only [prefixApart, e1, e2, Option.bind_some, patternOf_eq k1, patternOf_eq k2, List.all_eq_true] at hc
  have hc := hc t1 f1
  rw [patternOf_eq f2] at hc
  have fits : ∀ {r : Re} {ds : Str}, (∃ w q, ds = w ++ q ∧ Lang r 0 w q) → Run.Fits 0 ds (some [r]) := fun {r ds} h => ⟨r, by simp, h⟩
  have s1 : ∃ p, (Run.steps np (some [d1.nationalNumber.re])).Fits p v := Run.fits_steps hnp (hu ▸ fits ha1.2)
  have s2 : ∃ p, (Run.steps np (some [md1.descriptors.general.nationalNumber.re])).Fits p v := Run.fits_steps hnp (hu ▸ fits hg1.2)
  simp only [Bool.or_eq_true] at hc
  rcases hc with hc | hc
  · obtain ⟨p, s1⟩ := s1
    generalize Run.steps np (some [d1.nationalNumber.re]) = t at hc s1
    unfold Run.dead at hc
    split at hc
    · obtain ⟨_, h, _⟩ := s1; cases h
    · cases hc
  have hc := List.all_eq_true.1 hc t2 f3
  rw [patternOf_eq f4] at hc
  simp only [Bool.or_eq_true, List.all_eq_true, Bool.not_eq_true', ← f2.possibleLength, ← f4.possibleLength] at hc
  rcases hc with hc | hc
  · have := hc _ hl2 _ hl1
    rw [hu, List.length_append, Nat.beq_refl] at this
    cases this
  · rw [clash_of_fits hv] at hc
    · cases hc
    · refine le_foldl_max (.inl (List.mem_filter.2 ⟨hl2, List.any_eq_true.2 ⟨_, hl1, ?_⟩⟩))
      rw [hu, List.length_append, Nat.beq_refl]
    · intro r hr
      simp only [List.mem_cons, List.not_mem_nil, or_false] at hr
      rcases hr with rfl | rfl | rfl | rfl
      · exact s1
      · exact s2
      · exact ⟨0, fits hg2.2⟩
      · exact ⟨0, fits ha2.2⟩

/-- A valid number is not another valid number of its calling code with the national prefix in front. -/
theorem not_prefixed {ε : Type} {a b : PhoneNumber} (ha : isValid (ε := ε) a = .ok true) (hb : isValid (ε := ε) b = .ok true)
    (hc : a.code.value = b.code.value) {md : Metadata} (hmd : Spec.MetadataFor db b md) {np : Str} (hnp : md.nationalPrefix = some np)
    {f : Format} (hf : f ∈ md.formats) {r : Str} (hr : f.nationalPrefix = some r) (hN : 'N' ∈ r) :
    a.national.display ≠ np ++ b.national.display := by
  intro e
  obtain ⟨l, hl⟩ := hmd
  obtain ⟨m', hm', he', hc'⟩ := territory_of_region hl (by simp : md ∈ md :: l)
  obtain ⟨m1, hm1, md1, d1, c1, he1, hg1, ht1, ha1, hne1, hl1⟩ := valid_described a ha
  obtain ⟨m2, hm2, md2, d2, c2, he2, hg2, ht2, ha2, hne2, hl2⟩ := valid_described b hb
  have hlen := (valid_facts a ha).1.2
  have := List.all_eq_true.1 distinct_check m' hm'
  rw [← he'.nationalPrefix, hnp] at this
  simp only [Bool.or_eq_true] at this
  rcases this with h | h
  · obtain ⟨g, hg, hfg⟩ := listRel_mem he'.formats hf
    have := List.all_eq_true.1 h g hg
    rw [Bool.not_eq_true', writesPrefix, ← hfg.nationalPrefix, hr] at this
    simp at this
    exact this 'N' hN rfl
  · rw [Bool.and_eq_true] at h
    have hd : ∀ c ∈ np, isDigit c = true := fun c hc => List.all_eq_true.1 h.1 c hc
    have h := List.all_eq_true.1 h.2 m1 (List.mem_filter.2 ⟨hm1, by rw [c1, hc', hc]; simp⟩)
    rw [Bool.or_eq_true] at h
    rcases h with h | h
    · refine apart_sound he1 h (digits_display _) hlen hg1 ht1 ha1 hne1 (by simp) 0 ⟨Re.lit np, by simp, ?_⟩
      exact lang_prefix ⟨_, e.symm⟩
    · exact prefixApart_sound (List.all_eq_true.1 h m2 (List.mem_filter.2 ⟨hm2, by rw [c2, hc']; simp⟩)) hd he1 he2 e (digits_display _)
        hg1 hg2 ht1 ht2 ha1 ha2 hl1 hl2

/-- The territories whose formats write other digits have these calling codes. -/
def otherDigits (ms : List Loader.Metadata) : Bool :=
  ms.all fun m => !([str% "AR", str% "BY", str% "GA"].any fun i => m.id == some i) || [54, 241, 375].any fun c => m.countryCode == some c

omit [UnicodeTables] in
theorem otherDigits_check : otherDigits Data.territories = true := by kernel_rfl

omit [UnicodeTables] in
theorem other_digits {n : PhoneNumber} (hx : n.code.value ∉ [54, 241, 375]) {md : Metadata} (hmd : Spec.MetadataFor db n md) :
    md.id ∉ [str% "AR", str% "BY", str% "GA"] := by
  intro hi
  obtain ⟨l, hl⟩ := hmd
  obtain ⟨m, hm, he, hc⟩ := territory_of_region hl (by simp : md ∈ md :: l)
  have := List.all_eq_true.1 otherDigits_check m hm
  rw [Bool.or_eq_true, Bool.not_eq_true', List.any_eq_false] at this
  rcases this with h | h
  · exact h _ hi (by rw [he.id]; simp)
  · obtain ⟨k, hk, e⟩ := List.any_eq_true.1 h
    rw [hc] at e
    have : n.code.value = k := by simpa using e
    exact hx (this ▸ hk)

/-- The case of `C91_national` for calling codes other than 54 and 375, whose formats write further digits. -/
theorem national_alike {ε : Type} (a b : PhoneNumber) (ha : isValid (ε := ε) a = .ok true) (hb : isValid (ε := ε) b = .ok true)
    (hz : a.national.value ≠ 0) (hz' : b.national.value ≠ 0) (hc : a.code.value = b.code.value) (hx : a.code.value ∉ [54, 241, 375])
    (hcar : a.carrier = none) (hcar' : b.carrier = none) (s : Str) (h : format a .national = .ok s) (h' : format b .national = .ok s) :
    a.national = b.national ∧ a.extension = b.extension := by
  obtain ⟨md, na, la, hm, hs, hp, hf, hla⟩ := national_form a hcar (fun _ h => other_digits hx h) s h
  obtain ⟨md', nb, lb, hm', hs', hp', hf', hlb⟩ := national_form b hcar' (fun _ h => other_digits (hc ▸ hx) h) s h'
  obtain rfl : md = md' := by
    obtain ⟨l, hl⟩ := hm
    obtain ⟨l', hl'⟩ := hm'
    rw [hc, hl'] at hl
    simp at hl
    exact hl.1.symm
  have e := hs.symm.trans hs'
  rw [extensionText_eq _ _ (.inr rfl), extensionText_eq _ _ (.inr rfl)] at e
  obtain ⟨rfl, he⟩ := apart_extension hp hp' (extension_marked (entry_of_metadataFor hm)) e
  refine ⟨?_, he⟩
  have hd := hf.symm.trans hf'
  rcases hla with rfl | ⟨n1, f1, h1, r1, k1, j1⟩
  · rcases hlb with rfl | ⟨n2, f2, h2, r2, k2, j2⟩
    · exact C03_display_injective _ _ hz hz' hd
    · exact absurd hd (not_prefixed ha hb hc hm' n2 h2 k2 j2)
  · rcases hlb with rfl | ⟨n2, f2, h2, r2, k2, j2⟩
    · exact absurd hd.symm (not_prefixed hb ha hc.symm hm n1 h1 k1 j1)
    · rw [n1, Option.some.injEq] at n2
      subst n2
      exact C03_display_injective _ _ hz hz' (List.append_cancel_left hd)

theorem alike_gabon1 : nationally (Data.territories.filter (·.countryCode == some 241)) ⟨⟨241, .plus⟩, ⟨2345678⟩, none, none⟩ =
    (true, .ok true, .ok (some .GA), .ok (str% "02 34 56 78")) := by kernel_rfl
theorem alike_gabon2 : nationally (Data.territories.filter (·.countryCode == some 241)) ⟨⟨241, .plus⟩, ⟨72057594040273614⟩, none, none⟩ =
    (true, .ok true, .ok (some .GA), .ok (str% "02 34 56 78")) := by kernel_rfl
theorem alike_denmark : nationally (Data.territories.filter (·.countryCode == some 45)) ⟨⟨45, .plus⟩, ⟨32123456⟩, none, none⟩ =
    (true, .ok true, .ok (some .DK), .ok (str% "32 12 34 56")) := by kernel_rfl
theorem alike_norway : nationally (Data.territories.filter (·.countryCode == some 47)) ⟨⟨47, .plus⟩, ⟨32123456⟩, none, none⟩ =
    (true, .ok true, .ok (some .NO), .ok (str% "32 12 34 56")) := by kernel_rfl

/-- C91: for Gabon this fails: two valid numbers are written alike. -/
theorem C91_gabon : ∃ (a b : PhoneNumber) (s : Str), a.code.value = 241 ∧ b.code.value = 241 ∧ isValid (ε := ParseErr) a = .ok true ∧
    isValid (ε := ParseErr) b = .ok true ∧ a.national.value ≠ 0 ∧ b.national.value ≠ 0 ∧ a.carrier = none ∧ b.carrier = none ∧
    a.extension = none ∧ b.extension = none ∧ format a .national = .ok s ∧ format b .national = .ok s ∧ a.national ≠ b.national := by
  obtain ⟨h1, _, h2⟩ := nationally_builtin ⟨⟨241, .plus⟩, ⟨2345678⟩, none, none⟩ .GA (str% "02 34 56 78") alike_gabon1
  obtain ⟨h3, _, h4⟩ := nationally_builtin ⟨⟨241, .plus⟩, ⟨72057594040273614⟩, none, none⟩ .GA (str% "02 34 56 78") alike_gabon2
  exact ⟨_, _, _, rfl, rfl, h1, h3, by decide, by decide, rfl, rfl, rfl, rfl, h2, h4, by decide⟩

/-- C91: and the national form does not tell the calling code: a valid Danish and a valid Norwegian number are written alike. -/
theorem C91_national_codes : ∃ (a b : PhoneNumber) (s : Str), a.code.value = 45 ∧ b.code.value = 47 ∧ isValid (ε := ParseErr) a = .ok true ∧
    isValid (ε := ParseErr) b = .ok true ∧ a.extension = none ∧ b.extension = none ∧ format a .national = .ok s ∧ format b .national = .ok s := by
  obtain ⟨h1, _, h2⟩ := nationally_builtin ⟨⟨45, .plus⟩, ⟨32123456⟩, none, none⟩ .DK (str% "32 12 34 56") alike_denmark
  obtain ⟨h3, _, h4⟩ := nationally_builtin ⟨⟨47, .plus⟩, ⟨32123456⟩, none, none⟩ .NO (str% "32 12 34 56") alike_norway
  exact ⟨_, _, _, rfl, rfl, h1, h3, rfl, rfl, h2, h4⟩

/-- The hypotheses of `C91_international` and `C91_rfc3966` for numbers with an extension: no other number is written like this. -/
example : ∃ (a : PhoneNumber) (s t : Str), a.national.value ≠ 0 ∧ a.extension = some (str% "12") ∧ format a .international = .ok s ∧
    format a .rfc3966 = .ok t ∧ ∀ b : PhoneNumber, b.national.value ≠ 0 → (format b .international = .ok s ∨ format b .rfc3966 = .ok t) →
      b.code.value = 45 ∧ b.national = ⟨32123456⟩ ∧ b.extension = some (str% "12") := by
  obtain ⟨h1, _, _⟩ := nationally_builtin ⟨⟨45, .plus⟩, ⟨32123456⟩, none, none⟩ .DK (str% "32 12 34 56") alike_denmark
  have formats : ∀ mode, ∃ s, format ⟨⟨45, .plus⟩, ⟨32123456⟩, some (str% "12"), none⟩ mode = .ok s := valid_formats (ε := ParseErr) h1
  obtain ⟨s, hs⟩ := formats .international
  obtain ⟨t, ht⟩ := formats .rfc3966
  refine ⟨_, s, t, by decide, rfl, hs, ht, ?_⟩
  rintro b hz (h | h)
  · obtain ⟨e1, e2, e3⟩ := C91_international _ b (by decide) hz s hs h
    exact ⟨e1.symm, e2.symm, e3.symm⟩
  · obtain ⟨e1, e2, e3⟩ := C91_rfc3966 _ b (by decide) hz t ht h
    exact ⟨e1.symm, e2.symm, e3.symm⟩

end Builtin
end Phone
