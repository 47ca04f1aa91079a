import Verif.Props.Read
import Verif.Props.Format
/-! # Theorems about the parser in terms of the text -/

namespace Phone
open Helper

variable [UnicodeTables]

/-- The parser after the number has been read from the text. -/
def afterRead (db : Database) (country : Option Id) (n : Number) : Outcome ParseErr PhoneNumber :=
  if !isViable n.national then .err .noNumber
  else do
    let n ← countryCode db country n
    let md ← parseMeta db country n
    let n ← stripNational md n
    finishParse n

theorem parseWith_eq (db : Database) (country : Option Id) (s : Str) :
    parseWith db country s = (readNumber s >>= afterRead db country) := rfl

/-! ## Plainly formatted numbers -/

omit [UnicodeTables] in
theorem plain_iff {s : Str} : Spec.Plain s ↔ ∀ c ∈ s, c ∈ plainChars ∧ c ≠ '+' := by
  constructor
  · intro h c hc
    rcases h c hc with h | h
    · exact ⟨mem_plain_of_digit h, by rintro rfl; revert h; decide⟩
    · have : (str% " -.()/").all (fun c => decide (c ∈ plainChars) && decide (c ≠ '+')) = true := by decide
      simpa using List.all_eq_true.1 this c h
  · intro h c hc
    obtain ⟨h1, h2⟩ := h c hc
    have : plainChars.all (fun c => c == '+' || isDigit c || decide (c ∈ (str% " -.()/"))) = true := by decide
    have := List.all_eq_true.1 this c h1
    simpa [h2] using this

omit [UnicodeTables] in
theorem split_first_digit {x : Str} {d : Char} {ds : Str} (h : x.filter isDigit = d :: ds) :
    ∃ f r, x = f ++ d :: r ∧ (∀ c ∈ f, isDigit c = false) ∧ isDigit d = true ∧ r.filter isDigit = ds := by
  obtain ⟨f, r, h1, h2, h3, h4⟩ := List.filter_eq_cons_iff.1 h
  exact ⟨f, r, h1, by simpa using h2, h3, h4⟩

omit [UnicodeTables] in
theorem viable_plain {pl x : Str} (hpl : pl = [] ∨ pl = ['+']) (hx : ∀ c ∈ x, c ∈ plainChars ∧ c ≠ '+')
    (h3 : 3 ≤ (x.filter isDigit).length) : isViable (pl ++ x) = true := by
  rw [C14_isViable_iff]
  right
  match hf : x.filter isDigit, h3 with
  | d1 :: d2 :: d3 :: ds, _ =>
    obtain ⟨f1, r1, rfl, g1, e1, hr1⟩ := split_first_digit hf
    obtain ⟨f2, r2, rfl, g2, e2, hr2⟩ := split_first_digit hr1
    obtain ⟨f3, r3, rfl, g3, e3, hr3⟩ := split_first_digit hr2
    have hfill : ∀ c, c ∈ plainChars ∧ c ≠ '+' → isDigit c = false → Spec.isFill c = true := by
      rintro c ⟨h1, h2⟩ h3
      have : plainChars.all (fun c => c == '+' || isDigit c || Spec.isFill c) = true := by decide
      have := List.all_eq_true.1 this c h1
      simpa [h2, h3] using this
    refine ⟨pl, f1, d1, f2, d2, f3, d3, r3, rfl, ?_, ?_, ?_, ?_, e1, e2, e3, ?_⟩
    · rcases hpl with rfl | rfl
      · simp
      · intro c hc; simp at hc; subst hc; rfl
    · intro c hc; exact hfill c (hx c (by simp [hc])) (g1 c hc)
    · intro c hc; exact hfill c (hx c (by simp [hc])) (g2 c hc)
    · intro c hc; exact hfill c (hx c (by simp [hc])) (g3 c hc)
    · intro c hc
      cases h : isDigit c with
      | true => exact .inr (.inl rfl)
      | false => exact .inl (hfill c (hx c (by simp [hc])) h)

omit [UnicodeTables] in
theorem act_plain {x : Str} (hx : ∀ c ∈ x, c ∈ plainChars) (v : Bool) : act (mapFor v) x = x.filter isDigit := by
  rw [act_eq_filterMap]
  have key : ∀ c ∈ plainChars, normChar (mapFor v) c = if isDigit c then some c else none := by
    have : plainChars.all (fun c => decide (normChar (mapFor v) c = if isDigit c then some c else none)) = true := by
      cases v <;> decide
    simpa using List.all_eq_true.1 this
  induction x with
  | nil => rfl
  | cons c x ih =>
    have h1 := key c (hx c (by simp))
    have h2 := ih fun d hd => hx d (by simp [hd])
    cases hc : isDigit c <;> simp [h1, h2, hc]

theorem alphaPhone_plain {x : Str} (hx : ∀ c ∈ x, c ∈ plainChars) : Consts.validAlphaPhone.isMatch x = false := by
  have h : Consts.validAlphaPhone.find x = none := find_none_of_dead (S := plainChars) (by kernel_rfl) hx
  simp [Regex.isMatch, h]

/-- The number after the plus has been removed. -/
theorem internationalPrefix_plain {ε : Type} (idd : Option Regex) {pl x : Str} (hpl : pl = [] ∨ pl = ['+'])
    (hx : ∀ c ∈ x, c ∈ plainChars ∧ c ≠ '+') :
    internationalPrefix idd { national := pl ++ x } =
      (if pl = [] then stripIdd idd { national := x.filter isDigit, country := .default }
      else if !((idd.map fun re => matchesAtStart re (x.filter isDigit)).getD false) then
        .ok { national := x.filter isDigit, country := .plus }
      else stripIdd idd { national := x.filter isDigit, country := .plus } : Outcome ε Number) := by
  have hx' : ∀ c ∈ x, c ∈ plainChars := fun c hc => (hx c hc).1
  have hall : ∀ c ∈ pl ++ x, c ∈ plainChars := by
    intro c hc
    rcases List.mem_append.1 hc with h | h
    · rcases hpl with rfl | rfl
      · cases h
      · simp at h; subst h; decide
    · exact hx' c h
  have hnp : ∀ c ∈ x, Valid.plus c = false := by
    intro c hc
    rw [plus_eq]
    have : plainChars.all (fun c => c == '+' || !Spec.isPlus c) = true := by decide
    have := List.all_eq_true.1 this c (hx' c hc)
    simpa [(hx c hc).2] using this
  have htw : x.takeWhile Valid.plus = [] := by
    cases x with
    | nil => rfl
    | cons c x => simp [hnp c (by simp)]
  unfold internationalPrefix
  simp only [alphaPhone_plain hall, Bool.false_eq_true, if_false, Option.isSome_none]
  have hm : Consts.asciiMappings = mapFor false := rfl
  rw [hm]
  rcases hpl with rfl | rfl
  · simp only [List.nil_append, htw, byteLen_nil, ne_eq, not_true_eq_false, if_false, normalize, act_plain hx',
      Option.map_none, if_true]
  · have h1 : (['+'] ++ x).takeWhile Valid.plus = ['+'] := by
      simp only [List.cons_append, List.nil_append, List.takeWhile_cons, htw]; rfl
    have h2 : byteLen ['+'] = 1 := by decide
    have h3 : dropBytes (['+'] ++ x) 1 = some x := by rw [← h2]; exact dropBytes_append _ _
    simp only [h1, h2, trim, h3, Outcome.slice_some, Outcome.bind_ok, normalize, act_plain hx', Option.map_none]
    simp

/-- After reading, only the presence of the plus and the digits matter. -/
theorem afterRead_plain (db : Database) (country : Option Id) {pl x y : Str} (hpl : pl = [] ∨ pl = ['+'])
    (hx : ∀ c ∈ x, c ∈ plainChars ∧ c ≠ '+') (hy : ∀ c ∈ y, c ∈ plainChars ∧ c ≠ '+')
    (h3 : 3 ≤ (x.filter isDigit).length) (he : x.filter isDigit = y.filter isDigit) :
    afterRead db country { national := pl ++ x } = afterRead db country { national := pl ++ y } := by
  unfold afterRead
  have h3' := h3
  rw [he] at h3'
  simp only [viable_plain hpl hx h3, viable_plain hpl hy h3', Bool.not_true, Bool.false_eq_true, if_false]
  unfold countryCode
  simp only [internationalPrefix_plain _ hpl hx, internationalPrefix_plain _ hpl hy, he]

omit [UnicodeTables] in
theorem filter_digits {s : Str} (h : Digits s) : s.filter isDigit = s := List.filter_eq_self.2 h

omit [UnicodeTables] in
theorem digits_filter (s : Str) : Digits (s.filter isDigit) := fun _ hc => (List.mem_filter.1 hc).2

/-- C13: a number written with an optional plus, digits and formatting characters parses like the same number with the
formatting characters removed, if it has at least three digits and, in case of a plus, contains a space. -/
theorem C13_formatting_ignored (db : Database) (country : Option Id) (pl b : Str) (hpl : pl = [] ∨ pl = ['+'])
    (hb : Spec.Plain b) (hspace : pl = ['+'] → ' ' ∈ b) (h3 : 3 ≤ (b.filter isDigit).length) :
    parseWith db country (pl ++ b) = parseWith db country (pl ++ b.filter isDigit) := by
  have hb' := plain_iff.1 hb
  have hd : Digits (b.filter isDigit) := digits_filter b
  have hd' : ∀ c ∈ b.filter isDigit, c ∈ plainChars ∧ c ≠ '+' := fun c hc => hb' c (List.mem_filter.1 hc).1
  have hex : ∃ c ∈ b, isDigit c = true := by
    match hf : b.filter isDigit, h3 with
    | c :: cs, _ =>
      have := List.mem_filter.1 (show c ∈ b.filter isDigit by rw [hf]; simp)
      exact ⟨c, this⟩
  have hex' : ∃ c ∈ b.filter isDigit, isDigit c = true := by
    obtain ⟨c, h1, h2⟩ := hex
    exact ⟨c, List.mem_filter.2 ⟨h1, h2⟩, h2⟩
  rw [parseWith_eq, parseWith_eq]
  rcases hpl with rfl | rfl
  · obtain ⟨x, h1, h2, e1⟩ := readNumber_bare hex hb'
    obtain ⟨y, h1', h2', e2⟩ := readNumber_bare hex' hd'
    simp only [List.nil_append, h1, h1', Outcome.bind_ok]
    exact afterRead_plain db country (pl := []) (.inl rfl) h2 h2' (by rw [e1]; exact h3) (by rw [e1, e2, filter_digits hd])
  · obtain ⟨x, h1, h2, e1⟩ := readNumber_plus hb' hex (.inl (hspace rfl))
    obtain ⟨y, h1', h2', e2⟩ := readNumber_plus hd' hex' (.inr hd)
    simp only [List.cons_append, List.nil_append, h1, h1', Outcome.bind_ok]
    exact afterRead_plain db country (pl := ['+']) (.inr rfl) h2 h2' (by rw [e1]; exact h3) (by rw [e1, e2, filter_digits hd])

example : Spec.Plain (str% "(650) 253-00/00.") ∧ Spec.Plain (str% "7 912/345.67-89") := by
  constructor <;> (unfold Spec.Plain; decide)
example : parseWith Sample.db none (str% "+7 912/345.67-89") =
    .ok { code := ⟨7, .plus⟩, national := ⟨9123456789⟩, extension := none, carrier := none } := by kernel_rfl

/-- Without a space it is false. -/
example : parseWith Sample.db none (str% "+1650-253-0000") = .err .invalidCountryCode ∧
    parseWith Sample.db none (str% "+16502530000") =
      .ok { code := ⟨1, .plus⟩, national := ⟨6502530000⟩, extension := none, carrier := none } :=
  ⟨by kernel_rfl, by kernel_rfl⟩

/-- C17: text before a number that contains a space is ignored if it contains no decimal digit and no plus. -/
theorem C17_leading_text_ignored (db : Database) (country : Option Id) (junk s : Str)
    (hj : ∀ d ∈ junk, isNd d = false ∧ Spec.isPlus d = false) (hs : ' ' ∈ s) :
    parseWith db country (junk ++ s) = parseWith db country s := by
  rw [parseWith_eq, parseWith_eq, readNumber_junk hj hs]

example : ∀ d ∈ (str% "Call me: ("), isNd d = false ∧ Spec.isPlus d = false := by
  have : (str% "Call me: (").all (fun d => !isNd d && !Spec.isPlus d) = true := by kernel_rfl
  intro d hd
  simpa using List.all_eq_true.1 this d hd
example : parseWith Sample.db (some .US) (str% "Call me: (650) 253 0000") =
    .ok { code := ⟨1, .default⟩, national := ⟨6502530000⟩, extension := none, carrier := none } := by kernel_rfl


/-! ## C07, C09, C10, C11 -/

/-- C07: the calling code of a parsed number is a code of the database (which was built from territories) with at least one
entry, and formatting it with that database never gives `fmt::Error`. -/
theorem C07_code_known (compile : Str → Option Regex) (ms : List Loader.Metadata) (db : Database)
    (hdb : Database.from compile ms = .ok db) (country : Option Id) (s : Str) (p : PhoneNumber)
    (h : parseWith db country s = .ok p) :
    (∃ m ∈ ms, m.countryCode = some p.code.value) ∧ (∃ l, db.byCode p.code.value = some l ∧ l ≠ []) ∧
    ∀ mode custom e, Formatter.fmt db p mode custom ≠ .err e := by
  obtain ⟨hc1, hc2, _, hc4⟩ := from_consistent hdb
  have hsome : (db.byCode p.code.value).isSome := by
    obtain ⟨h1, h2⟩ := parsed_code h
    cases hs : p.code.source with
    | plus => exact h1 (.inl hs)
    | idd => exact h1 (.inr hs)
    | number =>
      obtain ⟨c, md, _, hmd, he⟩ := h2 (.inl hs)
      rw [he]; exact (hc4 _ _ hmd).2
    | default =>
      obtain ⟨c, md, _, hmd, he⟩ := h2 (.inr hs)
      rw [he]; exact (hc4 _ _ hmd).2
  obtain ⟨_, _, _, hcode, _, _⟩ := C27_indexes ms db hdb
  obtain ⟨l, hl⟩ := Option.isSome_iff_exists.1 hsome
  have hne := (hc2 _ _ hl).1
  refine ⟨(hcode _).1 hsome, ⟨l, hl, hne⟩, ?_⟩
  intro mode custom e
  cases l with
  | nil => exact absurd rfl hne
  | cons md l =>
    simp only [Formatter.fmt, hl, Option.bind_some, List.head?_cons]
    exact body_ne_err

example : Database.from Sample.compile Sample.territories = .ok Sample.db ∧
    parseWith Sample.db none (str% "+800 1234 5678") =
      .ok { code := ⟨800, .plus⟩, national := ⟨12345678⟩, extension := none, carrier := none } :=
  ⟨Sample.from_territories, by kernel_rfl⟩


omit [UnicodeTables] in
theorem optPrefix_some {s p r : Str} (h : Rfc3966.optPrefix s = (some p, r)) : ∃ t, s = '+' :: t := by
  unfold Rfc3966.optPrefix at h
  split at h
  · exact ⟨_, rfl⟩
  · cases h

/-- A text that starts with a plus is read with a prefix or with a number that starts with a plus. -/
theorem readNumber_starts_plus {t : Str} {n : Number} (h : readNumber ('+' :: t) = .ok n) :
    n.pref.isSome ∨ n.national = [] ∨ ∃ u, n.national = '+' :: u := by
  unfold readNumber at h
  split at h
  · rename_i n' hr
    cases h
    unfold Rfc3966.phoneNumber at hr
    split at hr
    · cases hr
    · have hot : Rfc3966.optTel ('+' :: t) = '+' :: t := by
        unfold Rfc3966.optTel
        split
        · rename_i he
          cases he
          rw [if_neg]
          rintro ⟨h1, _⟩; revert h1; decide
        · rfl
      simp only [hot] at hr
      cases hp : Rfc3966.optPrefix ('+' :: t) with
      | mk pre rest =>
        simp only [hp] at hr
        cases pre with
        | some p =>
          split at hr
          · cases hr
          · split at hr
            · cases hr
            · cases hr; exact .inl rfl
        | none =>
          have : rest = '+' :: t := by
            unfold Rfc3966.optPrefix at hp
            simp only at hp
            split at hp
            · cases hp; rfl
            · cases hp
          subst this
          have hn : Rfc3966.number '+' = false := by decide
          simp [hn] at hr
  · cases h
  · cases h
  · split at h
    · rename_i n' hn
      cases h
      right
      have hex : ∀ r, extract ('+' :: t) = .ok r → ∃ u, r = '+' :: u := by
        intro r hr
        unfold extract at hr
        obtain ⟨m, hm, h0⟩ := startChar_plain (c := '+') (.inl rfl) t
        simp only [hm, h0, dropBytes_zero, Outcome.slice_some, Outcome.bind_ok] at hr
        obtain ⟨r1, b1, x1, y1⟩ := cutBefore_ok Consts.unwantedEndChars ('+' :: t)
        obtain ⟨r2, b2, x2, y2⟩ := cutBefore_ok Consts.secondNumberStart r1
        simp only [y1, y2, Outcome.bind_ok] at hr
        split at hr
        · cases hr
        · rename_i hne
          simp only [Outcome.bind_eq_ok, Outcome.pure_eq, Outcome.ok.injEq] at hr
          obtain ⟨_, _, rfl⟩ := hr
          cases r2 with
          | nil => simp at hne
          | cons c u =>
            rw [x2] at x1
            simp at x1
            exact ⟨u, by rw [x1.1]⟩
      unfold Natural.phoneNumber at hn
      simp only [Outcome.bind_eq_ok] at hn
      obtain ⟨r, hr, hn⟩ := hn
      obtain ⟨u, rfl⟩ := hex r hr
      split at hn
      · cases hn; exact .inr ⟨u, rfl⟩
      · rename_i m hm
        have f := find_eq_some hm
        split at hn
        · cases hn
        · simp only [f.stop_eq.2.2.2, Outcome.slice_some, Outcome.bind_ok, Outcome.pure_eq, Outcome.ok.injEq] at hn
          subst hn
          simp only
          have := f.split
          cases hp : m.pre with
          | nil => exact .inl rfl
          | cons c v =>
            rw [hp] at this
            simp at this
            exact .inr ⟨v, by rw [this.1]⟩
    · cases h
    · cases h

theorem stripIdd_plus {ε : Type} {idd : Option Regex} {n r : Number} (hc : n.country = .plus)
    (h : stripIdd idd n = (.ok r : Outcome ε Number)) : r.country = .plus := by
  rcases stripIdd_spec (ε := ε) idd n with h1 | ⟨_, _, _, _, _, _, h1⟩
  · rw [h1] at h; cases h; exact hc
  · rw [h1] at h; cases h; simp [hc]

/-- A number that starts with a plus or has a prefix gets source `Plus`. -/
theorem internationalPrefix_country {ε : Type} {idd : Option Regex} {n r : Number}
    (hn : n.pref.isSome ∨ ∃ c u, n.national = c :: u ∧ Spec.isPlus c = true)
    (h : internationalPrefix idd n = (.ok r : Outcome ε Number)) : r.country = .plus := by
  unfold internationalPrefix at h
  simp only at h
  split at h
  · cases h; rfl
  · rename_i hp
    rcases hn with hn | ⟨c, u, hu, hc⟩
    · exact absurd hn hp
    · have hpos : byteLen (n.national.takeWhile Valid.plus) ≠ 0 := by
        rw [hu, List.takeWhile_cons, plus_eq, hc]
        have := utf8Size_pos c
        simp; omega
      rw [if_pos hpos] at h
      simp only [Outcome.bind_eq_ok] at h
      obtain ⟨nat, _, h⟩ := h
      generalize hm : normalize _ _ = n' at h
      have hn' : n'.country = .plus := by rw [← hm]; rfl
      split at h
      · cases h; exact hn'
      · exact stripIdd_plus hn' h

omit [UnicodeTables] in
theorem codeLoop_country {db : Database} {n r : Number} {lens : List Nat} (h : codeLoop db n lens = .ok r) :
    r.country = n.country := by
  induction lens with
  | nil => cases h
  | cons l lens ih =>
    unfold codeLoop at h
    simp only [Outcome.bind_eq_ok] at h
    obtain ⟨_, _, _, _, h⟩ := h
    split at h
    · simp only [Outcome.bind_eq_ok] at h
      obtain ⟨_, _, h⟩ := h
      cases h; rfl
    · exact ih h

/-- The country source is not changed once it is not `Default`. -/
theorem countryCode_country {db : Database} {country : Option Id} {n r : Number} (h : countryCode db country n = .ok r)
    (hn : n.pref.isSome ∨ ∃ c u, n.national = c :: u ∧ Spec.isPlus c = true) : r.country = .plus := by
  unfold countryCode at h
  simp only [Outcome.bind_eq_ok] at h
  obtain ⟨n1, h1, h⟩ := h
  have hc := internationalPrefix_country hn h1
  simp only [hc] at h
  split at h
  · cases h
  · split at h
    · simp only [Outcome.bind_eq_ok] at h
      obtain ⟨_, _, h⟩ := h
      split at h
      · cases h
      · cases h; exact hc
    · split at h
      · cases h
      · rw [codeLoop_country h]; exact hc

/-- C09: the country source of a parsed number. Without reference country it is `Plus` or `Idd`; `Default` and `Number` need a
reference country; text that starts with a plus gives `Plus`. -/
theorem C09_source (db : Database) (country : Option Id) (s : Str) (p : PhoneNumber) (h : parseWith db country s = .ok p) :
    (country = none → p.code.source = .plus ∨ p.code.source = .idd) ∧
    (p.code.source = .default ∨ p.code.source = .number → country.isSome) ∧
    (∀ t, s = '+' :: t → p.code.source = .plus) := by
  refine ⟨?_, ?_, ?_⟩
  · rintro rfl
    cases hs : p.code.source with
    | plus => exact .inl rfl
    | idd => exact .inr rfl
    | number => obtain ⟨c, _, hc, _⟩ := (parsed_code h).2 (.inl hs); cases hc
    | default => obtain ⟨c, _, hc, _⟩ := (parsed_code h).2 (.inr hs); cases hc
  · intro hs
    obtain ⟨c, _, hc, _⟩ := (parsed_code h).2 hs.symm
    simp [hc]
  · rintro t rfl
    obtain ⟨n0, n1, md, n2, h0, hv, h1, post, h2, h3, h4⟩ := parseWith_stages h
    have hc : n1.carrier = none := by rw [post.carrier]; exact (readNumber_ok h0).1
    obtain ⟨k1, _⟩ := stripNational_ok post.norm.national hc h3
    obtain ⟨_, _, _, g2, _⟩ := finishParse_ok h4
    rw [g2, k1]
    apply countryCode_country h1
    rcases readNumber_starts_plus h0 with h | h | ⟨u, h⟩
    · exact .inl h
    · have := hv.two_digits
      rw [h] at this
      simp at this
    · exact .inr ⟨'+', u, h, rfl⟩

example : parseWith Sample.db none (str% "00 7 912 345 67 89") =
      .ok { code := ⟨7, .idd⟩, national := ⟨9123456789⟩, extension := none, carrier := none } ∧
    parseWith Sample.db (some .US) (str% "011 7 912 345 67 89") =
      .ok { code := ⟨7, .idd⟩, national := ⟨9123456789⟩, extension := none, carrier := none } ∧
    parseWith Sample.db none (str% "+011 7 912 345 67 89") = .err .invalidCountryCode ∧
    parseWith Sample.db (some .US) (str% "+011 7 912 345 67 89") =
      .ok { code := ⟨7, .plus⟩, national := ⟨9123456789⟩, extension := none, carrier := none } :=
  ⟨by kernel_rfl, by kernel_rfl, by kernel_rfl, by kernel_rfl⟩

theorem readNumber_of_digits {ds : Str} (hd : Digits ds) (hne : ds ≠ []) : readNumber ds = .ok { national := ds } := by
  have hnum : ∀ c ∈ ds, Rfc3966.number c = true := by
    intro c hc; simp [Rfc3966.number, Rfc3966.digit, hd c hc]
  have hplain : ∀ c ∈ ds, c ∈ plainChars ∧ c ≠ '+' := plain_iff.1 fun c hc => .inl (hd c hc)
  simp [readNumber, rfc_digits hne (fun c hc => (hplain c hc).1) hnum]

theorem readNumber_of_plus_digits {ds : Str} (hd : Digits ds) (hne : ds ≠ []) :
    readNumber ('+' :: ds) = .ok { national := '+' :: ds } := by
  have hplain : ∀ c ∈ ds, c ∈ plainChars ∧ c ≠ '+' := plain_iff.1 fun c hc => .inl (hd c hc)
  obtain ⟨c, cs, hds⟩ := List.exists_cons_of_ne_nil hne
  obtain ⟨a, d, t, hsp, hd', ht⟩ := split_last_digit (s := ds) ⟨c, by simp [hds], hd c (by simp [hds])⟩
  have ht0 : t = [] := by
    cases t with
    | nil => rfl
    | cons e t => exact absurd (hd e (by rw [hsp]; simp)) (by simp [ht e (by simp)])
  subst ht0
  have := natural_plain (c := '+') (s := ds) (.inl rfl) (by
    intro d hd
    simp only [List.mem_cons] at hd
    rcases hd with rfl | hd
    · decide
    · exact (hplain d hd).1) (a := '+' :: a) (d := d) (b := []) (by simp [hsp]) hd' ht
  simp only [readNumber, rfc_plus_digits hd, this]
  simp [hsp]

/-- C10: without a reference country a digit string that does not start with 00 is never accepted. -/
theorem C10_no_guess (db : Database) (ds : Str) (hd : Digits ds) (h0 : ¬ ['0', '0'] <+: ds) :
    parseWith db none ds = .err (if ds.length < 2 then .noNumber else .invalidCountryCode) := by
  rw [parseWith_eq]
  cases hds : ds with
  | nil =>
    have : readNumber [] = .err .noNumber := by kernel_rfl
    rw [this]; rfl
  | cons c cs =>
    rw [← hds]
    have hplain : ∀ c ∈ ds, c ∈ plainChars ∧ c ≠ '+' := plain_iff.1 fun c hc => .inl (hd c hc)
    have hr := readNumber_of_digits hd (by simp [hds] : ds ≠ [])
    rw [hr]
    simp only [Outcome.bind_ok]
    unfold afterRead
    by_cases hl : ds.length < 2
    · have : isViable ds = false := by
        unfold isViable
        rw [hd.byteLen]
        simp [Consts.minLengthForNsn, hl]
      simp [this, hl]
    · have hv : isViable ds = true := by
        by_cases h3 : 3 ≤ ds.length
        · have := viable_plain (pl := []) (x := ds) (.inl rfl) hplain (by rw [filter_digits hd]; exact h3)
          simpa using this
        · rw [C14_isViable_iff]
          match ds, hd, (show ds.length = 2 by omega) with
          | [a, b], hd, _ => exact .inl ⟨a, b, rfl, by simp at hd; exact hd⟩
      simp only [hv, Bool.not_true, Bool.false_eq_true, if_false, if_neg hl]
      unfold countryCode
      have hpre := internationalPrefix_plain (ε := ParseErr) (some Consts.defaultIdd) (pl := []) (x := ds) (.inl rfl) hplain
      simp only [List.nil_append, if_true, filter_digits hd] at hpre
      have hidd : stripIdd (some Consts.defaultIdd) { national := ds, country := .default } =
          (.ok { national := ds, country := .default } : Outcome ParseErr Number) := by
        rcases stripIdd_spec (ε := ParseErr) (some Consts.defaultIdd) { national := ds, country := .default } with
          h | ⟨_, _, re, hre, hm, _, _⟩
        · exact h
        · cases hre
          obtain ⟨w, q, hw, hl⟩ := hm
          obtain ⟨u, v, rfl, hu, hv⟩ := lang_cat.1 hl
          rw [lang_chr.1 hu, lang_chr.1 hv] at hw
          exact absurd ⟨q, by simpa using hw.symm⟩ h0
      simp [hpre, hidd]

example : Digits (str% "16502530000") ∧ ¬ ['0', '0'] <+: (str% "16502530000") := by
  refine ⟨by decide, by decide⟩

theorem matchesAtStart_iff {re : Regex} {s : Str} : matchesAtStart re s = true ↔ ∃ m, re.find s = some m ∧ m.start = 0 := by
  unfold matchesAtStart
  cases re.find s <;> simp

theorem internationalPrefix_plus_digits (db : Database) (c : Option Id) {ds : Str} (hd : Digits ds)
    (hc : ¬ Spec.BeginsWithIdd db c ds) :
    internationalPrefix (iddFor db c) { national := '+' :: ds } =
      (.ok { national := ds, country := .plus } : Outcome ParseErr Number) := by
  have hplain : ∀ c ∈ ds, c ∈ plainChars ∧ c ≠ '+' := plain_iff.1 fun c hc => .inl (hd c hc)
  have := internationalPrefix_plain (ε := ParseErr) (iddFor db c) (pl := ['+']) (x := ds) (.inr rfl) hplain
  simp only [List.cons_append, List.nil_append, filter_digits hd] at this
  rw [this, if_neg (by simp), if_pos]
  rw [Bool.not_eq_true', Bool.eq_false_iff]
  intro hm
  apply hc
  cases c with
  | none =>
    simp only [iddFor, Option.bind_none, Option.isNone_none, if_true, Option.none_or, Option.map_some, Option.getD_some,
      matchesAtStart_iff] at hm
    obtain ⟨m, hm, h0⟩ := hm
    obtain ⟨w, q, hw, hl⟩ := find_at_start_iff.1 ⟨m, hm, Match.start_eq_zero.1 h0⟩
    obtain ⟨u, v, rfl, hu, hv⟩ := lang_cat.1 hl
    rw [lang_chr.1 hu, lang_chr.1 hv] at hw
    exact ⟨q, by simpa using hw.symm⟩
  | some c =>
    simp only [iddFor, Option.bind_some, Option.isNone_some, Bool.false_eq_true, if_false, Option.or_none] at hm
    cases hmd : db.byId c.asRef with
    | none => simp [hmd] at hm
    | some md =>
      simp only [hmd, Option.bind_some] at hm
      cases hre : md.internationalPrefix with
      | none => simp [hre] at hm
      | some re =>
        simp only [hre, Option.map_some, Option.getD_some, matchesAtStart_iff] at hm
        obtain ⟨m, hm, h0⟩ := hm
        exact ⟨md, re, m, hmd, hre, hm, h0⟩

/-- C11: a plus and digits parse the same whatever the reference country, provided the digits do not begin with the dialling
prefix of the reference country. -/
theorem C11_reference_irrelevant (db : Database) (c1 c2 : Option Id) (ds : Str) (hd : Digits ds)
    (h1 : ¬ Spec.BeginsWithIdd db c1 ds) (h2 : ¬ Spec.BeginsWithIdd db c2 ds) :
    parseWith db c1 ('+' :: ds) = parseWith db c2 ('+' :: ds) := by
  have hafter : ∀ c, ¬ Spec.BeginsWithIdd db c ds →
      afterRead db c { national := '+' :: ds } =
        if !isViable ('+' :: ds) then .err .noNumber
        else
          (if byteLen ds ≤ Consts.minLengthForNsn then .err .tooShortNsn
          else if startsWith ds ['0'] then .err .invalidCountryCode
          else codeLoop db { national := ds, country := .plus } ((List.range Consts.maxLengthForCountryCode).map (· + 1))) >>= fun n =>
          (prefixCode n >>= fun code => sourceFor db code (n.national.dropWhile (· == '0')) >>= fun src =>
            pure (src.bind (sourceMeta db))) >>= fun md => stripNational md n >>= finishParse := by
    intro c hc
    unfold afterRead
    simp only
    split
    · rfl
    · unfold countryCode
      have hk := internationalPrefix_plus_digits db c hd hc
      simp only [iddFor] at hk
      simp only [hk, Outcome.bind_ok]
      generalize hX : (if byteLen ds ≤ Consts.minLengthForNsn then .err .tooShortNsn
          else if startsWith ds ['0'] then .err .invalidCountryCode
          else codeLoop db { national := ds, country := .plus } ((List.range Consts.maxLengthForCountryCode).map (· + 1)) :
          Outcome ParseErr Number) = X
      cases X with
      | err e => rfl
      | panic e => rfl
      | ok n =>
        simp only [Outcome.bind_ok]
        have hn : n.country = .plus := by
          split at hX
          · cases hX
          · split at hX
            · cases hX
            · exact codeLoop_country hX
        have : parseMeta db c n = (prefixCode n >>= fun code => sourceFor db code (n.national.dropWhile (· == '0')) >>= fun src =>
            pure (src.bind (sourceMeta db))) := by
          unfold parseMeta
          rw [hn]
          cases c <;> rfl
        rw [this]
  cases hds : ds with
  | nil =>
    have : readNumber ['+'] = .err .noNumber := by kernel_rfl
    rw [parseWith_eq, parseWith_eq, this]; rfl
  | cons c cs =>
    rw [← hds]
    have hr := readNumber_of_plus_digits hd (by simp [hds] : ds ≠ [])
    rw [parseWith_eq, parseWith_eq, hr]
    simp only [Outcome.bind_ok, hafter c1 h1, hafter c2 h2]

example : ¬ Spec.BeginsWithIdd Sample.db none (str% "16502530000") ∧
    ¬ Spec.BeginsWithIdd Sample.db (some .FI) (str% "16502530000") := by
  refine ⟨show ¬ ['0', '0'] <+: (str% "16502530000") by decide, ?_⟩
  rintro ⟨md, re, m, h1, h2, h3, h4⟩
  have : ((Sample.db.byId (Id.asRef .FI)).bind (·.internationalPrefix)).map (fun re => matchesAtStart re (str% "16502530000")) =
      some false := by kernel_rfl
  rw [h1] at this
  simp [h2, matchesAtStart, h3, h4] at this

/-- Without the condition it is false: with reference country FI the digits 990 after the plus are taken for a dialling
prefix. -/
example : parseWith Sample.db none (str% "+99071234567") = .err .invalidCountryCode ∧
    parseWith Sample.db (some .FI) (str% "+99071234567") =
      .ok { code := ⟨7, .plus⟩, national := ⟨1234567⟩, extension := none, carrier := none } :=
  ⟨by kernel_rfl, by kernel_rfl⟩

end Phone
