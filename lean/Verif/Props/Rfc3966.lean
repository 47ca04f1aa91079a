import Verif.Props.ParseErrors
import Verif.Spec.Rfc3966
/-! # C09, C18, C19: `tel:` texts -/

namespace Phone
open Helper

/-! ## Character classes -/

theorem separator_eq (c : Char) : Rfc3966.separator c = Spec.isSeparator c := by
  rw [Bool.eq_iff_iff]
  simp [Rfc3966.separator, Spec.isSeparator, or_assoc]

theorem number_eq (c : Char) : Rfc3966.number c = Spec.isPhoneDigit c := by
  unfold Rfc3966.number Rfc3966.digit Spec.isPhoneDigit
  rw [separator_eq]
  unfold isHex
  rw [Bool.eq_iff_iff]
  simp only [isDigit, Bool.or_eq_true, Bool.and_eq_true, decide_eq_true_eq]
  have h1 : 'a'.toNat = 97 := rfl
  have h2 : 'f'.toNat = 102 := rfl
  have h3 : 'A'.toNat = 65 := rfl
  have h4 : 'F'.toNat = 70 := rfl
  rw [h1, h2, h3, h4]
  constructor
  · rintro (h | h)
    · left; omega
    · exact .inr h
  · rintro (h | h)
    · left; omega
    · exact .inr h

theorem pname_eq (c : Char) : Rfc3966.pname c = Spec.isNameCharacter c := rfl

theorem pchar_eq (c : Char) : Rfc3966.pchar c = Spec.isValueCharacter c := by
  unfold Rfc3966.pchar Rfc3966.parameterUnreserved Rfc3966.unreserved Rfc3966.alphanum Rfc3966.mark Spec.isValueCharacter
  rw [Bool.eq_iff_iff]
  simp only [Bool.or_eq_true, beq_iff_eq, decide_eq_true_eq, List.mem_cons, List.not_mem_nil, or_false]
  constructor <;> intro h <;> grind

theorem not_sep_of_digit {c : Char} (h : isDigit c = true) : Rfc3966.separator c = false := by
  rw [Bool.eq_false_iff]
  intro h'
  simp only [Rfc3966.separator, Bool.or_eq_true, beq_iff_eq] at h'
  rcases h' with ((rfl | rfl) | rfl) | rfl <;> revert h <;> decide

theorem number_ne {c d : Char} (h : Spec.isPhoneDigit c = true) (hd : Spec.isPhoneDigit d = false := by decide) : c ≠ d := by
  rintro rfl; rw [h] at hd; cases hd

/-! ## Parameters -/

theorem params_text : ∀ (ps : List (Str × Str)) (f : Nat),
    (∀ p ∈ ps, (∀ c ∈ p.1, Spec.isNameCharacter c = true) ∧ ∀ c ∈ p.2, Spec.isValueCharacter c = true) →
    (ps.flatMap Spec.paramText).length ≤ f → Rfc3966.params f (ps.flatMap Spec.paramText) = ps := by
  intro ps
  induction ps with
  | nil => intro f _ _; cases f <;> rfl
  | cons p ps ih =>
    intro f h hf
    obtain ⟨k, v⟩ := p
    obtain ⟨hk, hv⟩ := h (k, v) (by simp)
    have hlen : (List.flatMap Spec.paramText ((k, v) :: ps)).length =
        (k.length + v.length + 2) + (ps.flatMap Spec.paramText).length := by
      simp [Spec.paramText]; omega
    cases f with
    | zero => omega
    | succ f =>
      have hpar : Rfc3966.parameter (List.flatMap Spec.paramText ((k, v) :: ps)) =
          some ((k, v), ps.flatMap Spec.paramText) := by
        have e : List.flatMap Spec.paramText ((k, v) :: ps) = ';' :: (k ++ '=' :: (v ++ ps.flatMap Spec.paramText)) := by
          simp [Spec.paramText]
        rw [e]
        unfold Rfc3966.parameter
        simp only
        have hk' : ∀ c ∈ k, Rfc3966.pname c = true := fun c hc => by rw [pname_eq]; exact hk c hc
        have hv' : ∀ c ∈ v, Rfc3966.pchar c = true := fun c hc => by rw [pchar_eq]; exact hv c hc
        rw [dropWhile_append_stop hk' (by decide), takeWhile_append_stop hk' (by decide)]
        simp only
        cases hr : ps.flatMap Spec.paramText with
        | nil => simp only [List.append_nil]; rw [(dropWhile_all hv').1, (dropWhile_all hv').2]
        | cons c r =>
          have : c = ';' := by
            cases ps with
            | nil => simp at hr
            | cons p ps => simp [Spec.paramText] at hr; exact hr.1.symm
          subst this
          rw [dropWhile_append_stop hv' (by decide), takeWhile_append_stop hv' (by decide)]
      unfold Rfc3966.params
      rw [hpar]
      simp only
      rw [ih f (fun p hp => h p (by simp [hp])) (by omega)]

theorem getParam_eq (ps : List (Str × Str)) (key : Str) :
    Rfc3966.getParam ps key = ((ps.filter fun p => p.1 == key).getLast?).map Prod.snd := by
  unfold Rfc3966.getParam
  congr 1
  rw [← List.head?_filter, List.filter_reverse, List.head?_reverse]

theorem stripPlus_eq (s : Str) : Rfc3966.stripPlus s = Spec.dropPlus s := by
  unfold Rfc3966.stripPlus Spec.dropPlus
  split
  · rfl
  · rename_i h
    cases s with
    | nil => rfl
    | cons c s =>
      rw [if_neg]
      intro hc
      simp only [List.head?_cons, Option.some.injEq] at hc
      exact h s (by rw [hc])

/-! ## Reading a well formed text -/

theorem paramsText_head {t : Spec.Tel} : t.params.flatMap Spec.paramText = [] ∨
    ∃ r, t.params.flatMap Spec.paramText = ';' :: r := by
  cases t.params with
  | nil => exact .inl rfl
  | cons p ps => exact .inr ⟨_, by simp [Spec.paramText]; rfl⟩

theorem tel_no_space {t : Spec.Tel} (h : t.WellFormed) : ' ' ∉ t.text := by
  intro hs
  unfold Spec.Tel.text at hs
  simp only [List.mem_append, List.mem_flatMap] at hs
  rcases hs with (hs | hs) | ⟨p, hp, hs⟩
  · cases hp : t.pref with
    | none => rw [hp] at hs; cases hs
    | some p =>
      rw [hp] at hs
      simp only [List.mem_cons] at hs
      rcases hs with hs | hs
      · cases hs
      · have := (h.pref p hp).1 _ hs; revert this; decide
  · have := h.number.2 _ hs; revert this; decide
  · obtain ⟨h1, h2⟩ := h.params p hp
    simp only [Spec.paramText, List.cons_append, List.mem_cons, List.mem_append] at hs
    rcases hs with hs | hs | hs | hs
    · cases hs
    · have := h1 _ hs; revert this; decide
    · cases hs
    · have := h2 _ hs; revert this; decide

theorem optTel_of_head {c : Char} {s : Str} (h : c ≠ 't') (h' : c ≠ 'T') : Rfc3966.optTel (c :: s) = c :: s := by
  unfold Rfc3966.optTel
  split
  · rename_i he
    cases he
    rw [if_neg]
    rintro ⟨h1, _⟩
    unfold Rfc3966.lower at h1
    split at h1
    · rename_i hc
      apply h'
      rw [eq_char_iff] at h1 ⊢
      rw [toNat_ofNat_small (by omega)] at h1
      have : 't'.toNat = 116 := rfl
      have : 'T'.toNat = 84 := rfl
      omega
    · exact h h1
  · rfl

theorem tel_phoneNumber {t : Spec.Tel} (h : t.WellFormed) :
    Rfc3966.phoneNumber t.text = .ok { national := t.number, pref := t.context, extension := t.last (str% "ext") } := by
  have hns : containsChar t.text ' ' = false := by
    rw [Bool.eq_false_iff, ne_eq, containsChar_iff]; exact tel_no_space h
  obtain ⟨c, s, hcs⟩ := List.exists_cons_of_ne_nil h.number.1
  have hc : Spec.isPhoneDigit c = true := h.number.2 c (by simp [hcs])
  have htel : Rfc3966.optTel t.text = t.text := by
    unfold Spec.Tel.text
    cases t.pref with
    | none =>
      rw [hcs]
      exact optTel_of_head (number_ne hc) (number_ne hc)
    | some p => exact optTel_of_head (by decide) (by decide)
  have hpre : Rfc3966.optPrefix t.text = (t.pref, t.number ++ t.params.flatMap Spec.paramText) := by
    unfold Spec.Tel.text
    cases hp : t.pref with
    | none =>
      simp only [List.nil_append]
      exact optPrefix_of_ne_plus (by rw [hcs]; simpa using number_ne hc)
    | some p =>
      obtain ⟨h1, h2, c', s', h3, h4⟩ := h.pref p hp
      rw [h3]
      simp only [List.cons_append, List.append_assoc]
      unfold Rfc3966.optPrefix
      have hnp : ∀ c ∈ p, (!Rfc3966.separator c) = true := fun c hc => by rw [not_sep_of_digit (h1 c hc)]; rfl
      simp only
      rw [takeWhile_append_stop hnp (by rw [separator_eq, h4]; rfl), dropWhile_append_stop hnp (by rw [separator_eq, h4]; rfl)]
      cases p with
      | nil => exact absurd rfl h2
      | cons x xs => rfl
  have hnum : ∀ c ∈ t.number, Rfc3966.number c = true := fun c hc => by rw [number_eq]; exact h.number.2 c hc
  have hsplit : (t.number ++ t.params.flatMap Spec.paramText).takeWhile Rfc3966.number = t.number ∧
      (t.number ++ t.params.flatMap Spec.paramText).dropWhile Rfc3966.number = t.params.flatMap Spec.paramText := by
    rcases paramsText_head (t := t) with e | ⟨r, e⟩
    · rw [e, List.append_nil]; exact ⟨(dropWhile_all hnum).2, (dropWhile_all hnum).1⟩
    · rw [e]; exact ⟨takeWhile_append_stop hnum (by decide), dropWhile_append_stop hnum (by decide)⟩
  unfold Rfc3966.phoneNumber
  rw [if_neg (by simp [hns])]
  simp only [htel, hpre, hsplit.1, hsplit.2]
  rw [if_neg (by simp [hcs]), if_neg]
  · rw [params_text t.params _ h.params (Nat.le_refl _)]
    simp only [getParam_eq]
    congr 2
    unfold Spec.Tel.context Spec.Tel.last
    cases t.pref with
    | some p => rfl
    | none =>
      simp only [Option.orElse_none]
      congr 1
      funext s; exact stripPlus_eq s
  · rcases paramsText_head (t := t) with e | ⟨r, e⟩ <;> simp [e]

variable [UnicodeTables]

theorem tel_read {t : Spec.Tel} (h : t.WellFormed) :
    readNumber t.text = .ok { national := t.number, pref := t.context, extension := t.last (str% "ext") } := by
  simp [readNumber, tel_phoneNumber h]

/-- C18: two texts with the same calling code, number, last `ext` and last `phone-context` (if there is no code before the
number) are parsed alike: the order of parameters and other parameters do not matter. -/
theorem C18_parameters_irrelevant (db : Database) (country : Option Id) (t u : Spec.Tel) (ht : t.WellFormed) (hu : u.WellFormed)
    (hn : t.number = u.number) (hc : t.context = u.context) (he : t.last (str% "ext") = u.last (str% "ext")) :
    parseWith db country t.text = parseWith db country u.text := by
  rw [parseWith_eq, parseWith_eq, tel_read ht, tel_read hu, hn, hc, he]

/-- C18: the extension is made of the digits of the last `ext`; the calling code, if given by a prefix or the last
`phone-context`, is their number, and the source is `Plus`. -/
theorem C18_extension_and_code (db : Database) (country : Option Id) (t : Spec.Tel) (ht : t.WellFormed) (p : PhoneNumber)
    (h : parseWith db country t.text = .ok p) :
    (match t.last (str% "ext") with
      | none => p.extension = none
      | some e => ∃ es, p.extension = some es ∧ Spec.Digitised (Spec.vanity t.number) e es) ∧
    ∀ c, t.context = some c → p.code.source = .plus ∧
      ∃ cs, Spec.Digitised (Spec.vanity t.number) c cs ∧ cs ≠ [] ∧ p.code.value = decVal cs ∧ (db.byCode (decVal cs)).isSome := by
  obtain ⟨n0, n1, md, n2, h0, hv, h1, post, h2, h3, h4⟩ := parseWith_stages h
  have hc : n1.carrier = none := by rw [post.carrier]; exact (readNumber_ok h0).1
  obtain ⟨k1, k2, k3, _⟩ := stripNational_ok post.norm.national hc h3
  obtain ⟨_, _, g1, g2, _, g3, _⟩ := finishParse_ok h4
  rw [tel_read ht] at h0
  cases h0
  refine ⟨?_, ?_⟩
  · rw [g3, k3, post.extension]
    simp only
    cases t.last (str% "ext") with
    | none => rfl
    | some e => exact ⟨_, rfl, act_iff_digitised.1 rfl⟩
  · intro c hctx
    have hsome : ({ national := t.number, pref := t.context, extension := t.last (str% "ext") } : Number).pref.isSome := by
      simp [hctx]
    have hplus := post.withPref hsome
    refine ⟨by rw [g2, k1]; exact hplus, _, act_iff_digitised.1 rfl, ?_⟩
    have hpref := post.keepPref hsome
    obtain ⟨p', code, e1, e2, e3⟩ := post.intl (.inl hplus)
    rw [hpref] at e1
    simp only [hctx, Option.map_some, Option.some.injEq] at e1
    unfold prefixCode at g1
    rw [k2, hpref] at g1
    simp only [hctx, Option.map_some] at g1
    rw [e1] at g1
    rw [e2] at g1
    cases g1
    obtain ⟨_, ds, hds, hne, _, hval⟩ := parseUInt_eq_some e2
    have hdig : Digits p' := by rw [← e1]; exact act_digits (digitMap_mapFor _) _
    rw [e1]
    rcases hds with hds | hds
    · subst hds
      refine ⟨hne, hval.symm, by rw [hval]; exact e3⟩
    · rw [hds] at hdig
      simp [isDigit] at hdig

example : let t : Spec.Tel := ⟨none, str% "912-345.67.89", [(str% "isub", str% "9"), (str% "ext", str% "1"),
      (str% "phone-context", str% "+7"), (str% "ext", str% "2-3")]⟩
    t.WellFormed ∧ t.text = (str% "912-345.67.89;isub=9;ext=1;phone-context=+7;ext=2-3") ∧
    t.context = some (str% "7") ∧ t.last (str% "ext") = some (str% "2-3") ∧
    parseWith Sample.db (some .US) t.text =
      .ok { code := ⟨7, .plus⟩, national := ⟨9123456789⟩, extension := some (str% "23"), carrier := none } := by
  refine ⟨⟨by simp, ⟨by simp, by decide⟩, by decide⟩, by decide, by decide, by decide, by kernel_rfl⟩

/-! ## C19 -/

omit [UnicodeTables] in
theorem optTel_scheme {sch s : Str} (h : Spec.telScheme sch) : Rfc3966.optTel (sch ++ s) = s := by
  obtain ⟨a, b, c, rfl, h1, h2, h3⟩ := h
  rcases h1 with rfl | rfl <;> rcases h2 with rfl | rfl <;> rcases h3 with rfl | rfl <;> rfl

omit [UnicodeTables] in
theorem optTel_none {s : Str} (h : ∀ sch r, Spec.telScheme sch → s ≠ sch ++ r) : Rfc3966.optTel s = s := by
  have low : ∀ x y z : Char, Rfc3966.lower x = y → (97 ≤ y.toNat ∧ y.toNat ≤ 122) → z.toNat + 32 = y.toNat → x = y ∨ x = z := by
    intro x y z hx hy hz
    unfold Rfc3966.lower at hx
    split at hx
    · right
      rename_i hc
      rw [eq_char_iff, toNat_ofNat_small (by omega)] at hx
      rw [eq_char_iff]; omega
    · exact .inl hx
  unfold Rfc3966.optTel
  split
  · rename_i a b c d r
    rw [if_neg]
    rintro ⟨h1, h2, h3, rfl⟩
    exact h [a, b, c, ':'] r ⟨a, b, c, rfl, low a 't' 'T' h1 (by decide) rfl, low b 'e' 'E' h2 (by decide) rfl,
      low c 'l' 'L' h3 (by decide) rfl⟩ rfl
  · rfl

/-- C19: a `tel:` in any letter case in front of a text that does not itself start with one changes nothing. -/
theorem C19_scheme_optional (db : Database) (country : Option Id) (sch s : Str) (h : Spec.telScheme sch)
    (hs : ∀ sch' r, Spec.telScheme sch' → s ≠ sch' ++ r) : parseWith db country (sch ++ s) = parseWith db country s := by
  have hsp : containsChar (sch ++ s) ' ' = containsChar s ' ' := by
    rw [Bool.eq_iff_iff, containsChar_iff, containsChar_iff, List.mem_append]
    constructor
    · rintro (h' | h')
      · exfalso
        obtain ⟨a, b, c, rfl, h1, h2, h3⟩ := h
        rcases h1 with rfl | rfl <;> rcases h2 with rfl | rfl <;> rcases h3 with rfl | rfl <;> revert h' <;> decide
      · exact h'
    · exact .inr
  have hr : Rfc3966.phoneNumber (sch ++ s) = Rfc3966.phoneNumber s := by
    unfold Rfc3966.phoneNumber
    rw [hsp, optTel_scheme h, optTel_none hs]
  have hj : ∀ d ∈ sch, isNd d = false ∧ Spec.isPlus d = false := by
    have : (str% "tTeElL:").all (fun d => !isNd d && !Spec.isPlus d) = true := by kernel_rfl
    intro d hd
    have hmem : d ∈ (str% "tTeElL:") := by
      obtain ⟨a, b, c, rfl, h1, h2, h3⟩ := h
      simp only [List.mem_cons, List.not_mem_nil, or_false] at hd ⊢
      rcases hd with rfl | rfl | rfl | rfl
      · rcases h1 with h | h <;> simp [h]
      · rcases h2 with h | h <;> simp [h]
      · rcases h3 with h | h <;> simp [h]
      · simp
    simpa using List.all_eq_true.1 this d hmem
  have : readNumber (sch ++ s) = readNumber s := by
    simp only [readNumber, hr, Natural.phoneNumber, extract_junk hj]
  rw [parseWith_eq, parseWith_eq, this]

example : Spec.telScheme (str% "TeL:") ∧ ∀ sch' r, Spec.telScheme sch' → (str% "+1-650-253-0000;ext=4") ≠ sch' ++ r := by
  refine ⟨⟨'T', 'e', 'L', rfl, .inr rfl, .inl rfl, .inr rfl⟩, ?_⟩
  rintro sch r ⟨a, b, c, rfl, h, _⟩ he
  simp at he

/-- Two schemes are too many. -/
example : parseWith Sample.db none (str% "tel:+7-912-345-67-89") =
      .ok { code := ⟨7, .plus⟩, national := ⟨9123456789⟩, extension := none, carrier := none } ∧
    parseWith Sample.db none (str% "tel:tel:+7-912-345-67-89;ext=5") ≠ parseWith Sample.db none (str% "tel:+7-912-345-67-89;ext=5") := by
  refine ⟨by kernel_rfl, ?_⟩
  rw [show parseWith Sample.db none (str% "tel:+7-912-345-67-89;ext=5") =
      .ok { code := ⟨7, .plus⟩, national := ⟨9123456789⟩, extension := some (str% "5"), carrier := none } by kernel_rfl,
    show parseWith Sample.db none (str% "tel:tel:+7-912-345-67-89;ext=5") =
      .err .noNumber by kernel_rfl]
  simp

end Phone
