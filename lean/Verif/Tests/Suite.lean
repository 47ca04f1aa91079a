import Verif.Builtin.Examples
import Verif.Props.ErrorTextBuiltin
/-! # The crate's own tests, run on the model

These are no proofs of properties: they check that the model and the crate agree where the crate's authors wrote down what it does. Each
statement cites the test; texts are evaluated by the kernel, and by C76 the results with the territories of one calling code are those of
the whole shipped database. -/

namespace Phone.Suite
open Builtin

section
variable [UnicodeTables]

/-- Several texts read with the territories of one calling code and that of the reference country. -/
def reads (ms : List Loader.Metadata) (c : Nat) (country : Option Id) (l : List Str) : List (Bool × Outcome ParseErr PhoneNumber) :=
  l.map fun s => locally ms c country s

theorem reads_builtin {country : Option Id} {l : List Str} {q : PhoneNumber}
    (h : reads Data.territories q.code.value country l = l.map fun _ => (true, .ok q)) : ∀ s ∈ l, parse country s = .ok q := by
  intro s hs
  unfold reads at h
  exact locally_builtin country s q ((List.map_inj_left.1 h) s hs)

/-- What the territories of a calling code say about a number: validity, country, type, and the four forms. -/
def judged (ms : List Loader.Metadata) (p : PhoneNumber) :
    Bool × Outcome ParseErr Bool × Outcome ParseErr (Option Id) × Outcome ParseErr PType × List (Outcome Formatter.FmtErr Str) :=
  match Database.from compile (ms.filter (·.countryCode == some p.code.value)) with
  | .ok d => (d.sharedCheck, isValidWith d p, p.countryId d, p.numberTypeWith d,
      [Formatter.Mode.e164, .international, .national, .rfc3966].map (Formatter.fmt d p))
  | _ => (false, .ok false, .ok none, .ok .unknown, [])

theorem judged_builtin (p : PhoneNumber) (v : Outcome ParseErr Bool) (i : Outcome ParseErr (Option Id)) (t : Outcome ParseErr PType)
    (l : List (Outcome Formatter.FmtErr Str)) (h : judged Data.territories p = (true, v, i, t, l)) :
    isValid p = v ∧ countryId p = i ∧ Builtin.numberType p = t ∧ [Formatter.Mode.e164, .international, .national, .rfc3966].map (format p) = l := by
  revert h
  generalize hms : Data.territories.filter (·.countryCode == some p.code.value) = ms
  intro h
  unfold judged at h
  rw [hms] at h
  split at h
  · rename_i d hd
    simp only [Prod.mk.injEq] at h
    obtain ⟨h1, h2, h3, h4, h5⟩ := h
    obtain ⟨f1, f2⟩ := filtered Data.territories ids_nodup p.code.value
    rw [hms] at f1 f2
    obtain ⟨_, k1, k2, k3, k4⟩ := C76_number compile Data.territories ms db d from_builtin hd ids_nodup f2 shared (shared_of_check h1) p
      (by rw [hms]; exact f1)
    refine ⟨by rw [← h2]; exact k1 _, by rw [← h3]; exact k3, by rw [← h4]; exact k2 _, ?_⟩
    rw [← h5]
    exact List.map_congr_left fun m _ => k4 m none
  · cases h

/-- A number of New Zealand. -/
def nz (s : Source) : PhoneNumber := ⟨⟨64, s⟩, ⟨33316005⟩, none, none⟩

/-- `parse_1`, `/repo/src/parser/mod.rs:131-175`. The test compares without the source; the sources agree too. -/
example :
    (∀ s ∈ [str% "033316005", str% "33316005", str% "03-331 6005", str% "03 331 6005"], parse (some .NZ) s = .ok (nz .default)) ∧
    (∀ s ∈ [str% "tel:03-331-6005;phone-context=+64", str% "tel:03-331-6005;phone-context=+64;a=%A1",
      str% "tel:03-331-6005;isub=12345;phone-context=+64", str% "tel:+64-3-331-6005;isub=12345", str% "03-331-6005;phone-context=+64"],
      parse (some .NZ) s = .ok (nz .plus)) ∧
    (∀ s ∈ [str% "0064 3 331 6005"], parse (some .NZ) s = .ok (nz .idd)) ∧
    (∀ s ∈ [str% "01164 3 331 6005"], parse (some .US) s = .ok (nz .idd)) ∧
    (∀ s ∈ [str% "+64 3 331 6005", str% "+01164 3 331 6005"], parse (some .US) s = .ok (nz .plus)) ∧
    (∀ s ∈ [str% "+0064 3 331 6005", str% "+ 00 64 3 331 6005"], parse (some .NZ) s = .ok (nz .plus)) :=
  ⟨reads_builtin (by kernel_rfl), reads_builtin (by kernel_rfl), reads_builtin (by kernel_rfl), reads_builtin (by kernel_rfl),
    reads_builtin (by kernel_rfl), reads_builtin (by kernel_rfl)⟩

/-- `parse_2` to `parse_6`, `/repo/src/parser/mod.rs:177-265`. -/
example :
    parse (some .NZ) (str% "64(0)64123456") = .ok ⟨⟨64, .number⟩, ⟨64123456⟩, none, none⟩ ∧
    parse (some .DE) (str% "301/23456") = .ok ⟨⟨49, .default⟩, ⟨30123456⟩, none, none⟩ ∧
    parse (some .JP) (str% "+81 *2345") = .ok ⟨⟨81, .plus⟩, ⟨2345⟩, none, none⟩ ∧
    parse (some .NZ) (str% "12") = .ok ⟨⟨64, .default⟩, ⟨12⟩, none, none⟩ ∧
    parse (some .BR) (str% "012 3121286979") = .ok ⟨⟨55, .default⟩, ⟨3121286979⟩, none, some (str% "12")⟩ :=
  ⟨locally_builtin _ _ _ (by kernel_rfl), locally_builtin _ _ _ (by kernel_rfl), locally_builtin _ _ _ (by kernel_rfl),
    locally_builtin _ _ _ (by kernel_rfl), locally_builtin _ _ _ (by kernel_rfl)⟩

/-- `issue_29`, `issue_30`, `issue_100`, `/repo/src/parser/mod.rs:273-308`. -/
example :
    parse none (str% "0032474123456") = .ok ⟨⟨32, .idd⟩, ⟨474123456⟩, none, none⟩ ∧
    parse (some .US) (str% "+33142764978") = .ok ⟨⟨33, .plus⟩, ⟨142764978⟩, none, none⟩ ∧
    parse (some .FR) (str% "+33142764978") = .ok ⟨⟨33, .plus⟩, ⟨142764978⟩, none, none⟩ ∧
    parse none (str% "+3367a829916") = .ok ⟨⟨33, .plus⟩, ⟨67829916⟩, none, none⟩ ∧
    ∃ src, parse (some .US) (str% "1800FLOWERS") = .ok ⟨⟨1, src⟩, ⟨8003569377⟩, none, none⟩ :=
  ⟨locally_builtin _ _ _ (by kernel_rfl), locally_builtin _ _ _ (by kernel_rfl), locally_builtin _ _ _ (by kernel_rfl),
    locally_builtin _ _ _ (by kernel_rfl), .number, locally_builtin _ _ _ (by kernel_rfl)⟩

/-- `issue_43`, `advisory_1`, `advisory_2`, `email`, `/repo/src/parser/mod.rs:267-271,310-326`, and `advisory_pocs_are_errors`,
`/repo/tests/advisories.rs`: errors with every database. (That no text makes the parser panic is C05.) -/
theorem errors (d : Database) :
    parseWith d none (str% " 2 22#:") = .err .noNumber ∧
    parseWith d none (str% ".;phone-context=") = .err .noNumber ∧
    parseWith d none (str% "+dwPAA;phone-context=AA") = .err .noNumber ∧
    parseWith d (some .US) (str% "someletters1110@gmail.com") = .err .noNumber :=
  ⟨by kernel_rfl, by kernel_rfl, by kernel_rfl, by kernel_rfl⟩

/-- `fr_leading_zero`, `us`, `gb`, `/repo/src/formatter.rs:292-420`. -/
example :
    (parse (some .FR) (str% "+330631966543") = .ok ⟨⟨33, .plus⟩, ⟨631966543⟩, none, none⟩ ∧
      [Formatter.Mode.e164, .international, .national, .rfc3966].map (format ⟨⟨33, .plus⟩, ⟨631966543⟩, none, none⟩) =
        [.ok (str% "+33631966543"), .ok (str% "+33 6 31 96 65 43"), .ok (str% "06 31 96 65 43"), .ok (str% "tel:+33-6-31-96-65-43")]) ∧
    (parse (some .US) (str% "+1 6502530000") = .ok ⟨⟨1, .plus⟩, ⟨6502530000⟩, none, none⟩ ∧
      [Formatter.Mode.e164, .international, .national, .rfc3966].map (format ⟨⟨1, .plus⟩, ⟨6502530000⟩, none, none⟩) =
        [.ok (str% "+16502530000"), .ok (str% "+1 650-253-0000"), .ok (str% "(650) 253-0000"), .ok (str% "tel:+1-650-253-0000")]) ∧
    (parse (some .US) (str% "+1 8002530000") = .ok ⟨⟨1, .plus⟩, ⟨8002530000⟩, none, none⟩ ∧
      [Formatter.Mode.e164, .international, .national, .rfc3966].map (format ⟨⟨1, .plus⟩, ⟨8002530000⟩, none, none⟩) =
        [.ok (str% "+18002530000"), .ok (str% "+1 800-253-0000"), .ok (str% "(800) 253-0000"), .ok (str% "tel:+1-800-253-0000")]) ∧
    (parse (some .US) (str% "+1 9002530000") = .ok ⟨⟨1, .plus⟩, ⟨9002530000⟩, none, none⟩ ∧
      [Formatter.Mode.e164, .international, .national, .rfc3966].map (format ⟨⟨1, .plus⟩, ⟨9002530000⟩, none, none⟩) =
        [.ok (str% "+19002530000"), .ok (str% "+1 900-253-0000"), .ok (str% "(900) 253-0000"), .ok (str% "tel:+1-900-253-0000")]) ∧
    (parse (some .GB) (str% "+44 2070313000") = .ok ⟨⟨44, .plus⟩, ⟨2070313000⟩, none, none⟩ ∧
      [Formatter.Mode.e164, .international, .national, .rfc3966].map (format ⟨⟨44, .plus⟩, ⟨2070313000⟩, none, none⟩) =
        [.ok (str% "+442070313000"), .ok (str% "+44 20 7031 3000"), .ok (str% "020 7031 3000"), .ok (str% "tel:+44-20-7031-3000")]) ∧
    (parse (some .GB) (str% "+44 7912345678") = .ok ⟨⟨44, .plus⟩, ⟨7912345678⟩, none, none⟩ ∧
      [Formatter.Mode.e164, .international, .national, .rfc3966].map (format ⟨⟨44, .plus⟩, ⟨7912345678⟩, none, none⟩) =
        [.ok (str% "+447912345678"), .ok (str% "+44 7912 345678"), .ok (str% "07912 345678"), .ok (str% "tel:+44-7912-345678")]) :=
  ⟨⟨locally_builtin _ _ _ (by kernel_rfl), forms_builtin _ _ (by kernel_rfl)⟩, ⟨locally_builtin _ _ _ (by kernel_rfl), forms_builtin _ _ (by kernel_rfl)⟩,
    ⟨locally_builtin _ _ _ (by kernel_rfl), forms_builtin _ _ (by kernel_rfl)⟩, ⟨locally_builtin _ _ _ (by kernel_rfl), forms_builtin _ _ (by kernel_rfl)⟩,
    ⟨locally_builtin _ _ _ (by kernel_rfl), forms_builtin _ _ (by kernel_rfl)⟩, ⟨locally_builtin _ _ _ (by kernel_rfl), forms_builtin _ _ (by kernel_rfl)⟩⟩

/-- A text, its reference country and what it is read as. -/
abbrev Case := Option Id × Str × PhoneNumber

/-- The case is read as it says, and the number is valid or not. -/
def validates (ms : List Loader.Metadata) (v : Bool) : Case → Bool
  | (country, s, q) => locally ms q.code.value country s == (true, .ok q) &&
    match judged ms q with
    | (b, v', _) => b && v' == .ok v

theorem validates_builtin {v : Bool} {country : Option Id} {s : Str} {q : PhoneNumber} (h : validates Data.territories v (country, s, q) = true) :
    parse country s = .ok q ∧ isValid (ε := ParseErr) q = .ok v := by
  have hb := judged_builtin q
  have hl := locally_builtin country s q
  revert hb hl h
  generalize Data.territories = ms
  intro h hb hl
  unfold validates at h
  rw [Bool.and_eq_true] at h
  refine ⟨hl (beq_iff_eq.1 h.1), ?_⟩
  rcases hj : judged ms q with ⟨b, v', i, t, l⟩
  have h2 := h.2
  rw [hj, Bool.and_eq_true] at h2
  obtain ⟨rfl, h3⟩ := h2
  exact (hb _ _ _ _ hj).1.trans (beq_iff_eq.1 h3)

/-- The valid numbers of `validate`. -/
def validCases : List Case :=
  [(some .US, str% "+1 6502530000", ⟨⟨1, .plus⟩, ⟨6502530000⟩, none, none⟩),
   (some .IT, str% "+39 0236618300", ⟨⟨39, .plus⟩, ⟨(1 : UInt64) <<< 56 ||| 236618300⟩, none, none⟩),
   (some .FR, str% "+330631966543", ⟨⟨33, .plus⟩, ⟨631966543⟩, none, none⟩),
   (none, str% "+330631966543", ⟨⟨33, .plus⟩, ⟨631966543⟩, none, none⟩),
   (some .GB, str% "+44 7912345678", ⟨⟨44, .plus⟩, ⟨7912345678⟩, none, none⟩),
   (none, str% "+800 12345678", ⟨⟨800, .plus⟩, ⟨12345678⟩, none, none⟩),
   (none, str% "+979 123456789", ⟨⟨979, .plus⟩, ⟨123456789⟩, none, none⟩),
   (none, str% "+64 21387835", ⟨⟨64, .plus⟩, ⟨21387835⟩, none, none⟩)]

/-- The others. -/
def invalidCases : List Case :=
  [(none, str% "+1 2530000", ⟨⟨1, .plus⟩, ⟨2530000⟩, none, none⟩),
   (none, str% "+44 791234567", ⟨⟨44, .plus⟩, ⟨791234567⟩, none, none⟩),
   (none, str% "+49 1234", ⟨⟨49, .plus⟩, ⟨1234⟩, none, none⟩),
   (none, str% "+64 3316005", ⟨⟨64, .plus⟩, ⟨3316005⟩, none, none⟩),
   (none, str% "+3923 2366", ⟨⟨39, .plus⟩, ⟨232366⟩, none, none⟩),
   (none, str% "+800 123456789", ⟨⟨800, .plus⟩, ⟨123456789⟩, none, none⟩)]

/-- `validate`, `/repo/src/validator.rs:319-357`. -/
example : (∀ x ∈ validCases, parse x.1 x.2.1 = .ok x.2.2 ∧ isValid (ε := ParseErr) x.2.2 = .ok true) ∧
    ∀ x ∈ invalidCases, parse x.1 x.2.1 = .ok x.2.2 ∧ isValid (ε := ParseErr) x.2.2 = .ok false :=
  ⟨fun x hx => validates_builtin (List.all_eq_true.1 (by kernel_rfl : validCases.all (validates Data.territories true) = true) x hx),
    fun x hx => validates_builtin (List.all_eq_true.1 (by kernel_rfl : invalidCases.all (validates Data.territories false) = true) x hx)⟩

/-- The numbers of the tests in `/repo/src/phone_number.rs`, their country and type. -/
def typedCases : List (Str × PhoneNumber × Option Id × PType) :=
  [(str% "+80012340000", ⟨⟨800, .plus⟩, ⟨12340000⟩, none, none⟩, none, .tollFree),
   (str% "+61406823897", ⟨⟨61, .plus⟩, ⟨406823897⟩, none, none⟩, some .AU, .mobile),
   (str% "+611900123456", ⟨⟨61, .plus⟩, ⟨1900123456⟩, none, none⟩, some .AU, .premiumRate),
   (str% "+32474091150", ⟨⟨32, .plus⟩, ⟨474091150⟩, none, none⟩, some .BE, .mobile),
   (str% "+34666777888", ⟨⟨34, .plus⟩, ⟨666777888⟩, none, none⟩, some .ES, .mobile),
   (str% "+34612345678", ⟨⟨34, .plus⟩, ⟨612345678⟩, none, none⟩, some .ES, .mobile),
   (str% "+441212345678", ⟨⟨44, .plus⟩, ⟨1212345678⟩, none, none⟩, some .GB, .fixedLine),
   (str% "+13459492311", ⟨⟨1, .plus⟩, ⟨3459492311⟩, none, none⟩, some .KY, .fixedLine),
   (str% "+16137827274", ⟨⟨1, .plus⟩, ⟨6137827274⟩, none, none⟩, some .CA, .fixedLineOrMobile),
   (str% "+1 520 878 2491", ⟨⟨1, .plus⟩, ⟨5208782491⟩, none, none⟩, some .US, .fixedLineOrMobile),
   (str% "+1-520-878-2491", ⟨⟨1, .plus⟩, ⟨5208782491⟩, none, none⟩, some .US, .fixedLineOrMobile),
   (str% "+1 520-878-2491", ⟨⟨1, .plus⟩, ⟨5208782491⟩, none, none⟩, some .US, .fixedLineOrMobile),
   (str% "+1 800 723 3456", ⟨⟨1, .plus⟩, ⟨8007233456⟩, none, none⟩, some .US, .tollFree),
   (str% "+1 800-723-3456", ⟨⟨1, .plus⟩, ⟨8007233456⟩, none, none⟩, some .US, .tollFree),
   (str% "+1-800-723-3456", ⟨⟨1, .plus⟩, ⟨8007233456⟩, none, none⟩, some .US, .tollFree),
   (str% "+330631966543", ⟨⟨33, .plus⟩, ⟨631966543⟩, none, none⟩, some .FR, .mobile)]

/-- The country of a number, or the error where the test expects none. -/
def belongs : Option Id → Outcome ParseErr (Option Id)
  | some i => .ok (some i)
  | none => .err .invalidCountryCode

def typed (ms : List Loader.Metadata) : Str × PhoneNumber × Option Id × PType → Bool
  | (s, q, i, t) => locally ms q.code.value none s == (true, .ok q) &&
    match judged ms q with
    | (b, _, i', t', _) => b && i' == belongs i && t' == .ok t

theorem typed_builtin {s : Str} {q : PhoneNumber} {i : Option Id} {t : PType} (h : typed Data.territories (s, q, i, t) = true) :
    parse none s = .ok q ∧ countryId q = belongs i ∧ Builtin.numberType (ε := ParseErr) q = .ok t := by
  have hb := judged_builtin q
  have hl := locally_builtin none s q
  revert hb hl h
  generalize Data.territories = ms
  intro h hb hl
  unfold typed at h
  rw [Bool.and_eq_true] at h
  refine ⟨hl (beq_iff_eq.1 h.1), ?_⟩
  rcases hj : judged ms q with ⟨b, v', i', t', l⟩
  have h2 := h.2
  rw [hj, Bool.and_eq_true, Bool.and_eq_true] at h2
  obtain ⟨⟨rfl, h3⟩, h4⟩ := h2
  exact ⟨(hb _ _ _ _ hj).2.1.trans (beq_iff_eq.1 h3), (hb _ _ _ _ hj).2.2.1.trans (beq_iff_eq.1 h4)⟩

/-- `country_id` and `number_type`, `/repo/src/phone_number.rs:280-361`. Where the test expects no country it takes errors for no country; it is
an error that occurs. -/
example : ∀ x ∈ typedCases, parse none x.1 = .ok x.2.1 ∧
    countryId x.2.1 = belongs x.2.2.1 ∧
    Builtin.numberType (ε := ParseErr) x.2.1 = .ok x.2.2.2 :=
  fun x hx => typed_builtin (List.all_eq_true.1 (by kernel_rfl : typedCases.all (typed Data.territories) = true) x hx)

/-- `equality`, `/repo/src/phone_number.rs:363-369`. -/
example : ∃ a b, parse none (str% "+32474091150") = .ok a ∧ parse (some .BE) (str% "0474091150") = .ok b ∧ a.eq b = true :=
  ⟨⟨⟨32, .plus⟩, ⟨474091150⟩, none, none⟩, ⟨⟨32, .default⟩, ⟨474091150⟩, none, none⟩, locally_builtin _ _ _ (by kernel_rfl),
    locally_builtin _ _ _ (by kernel_rfl), rfl⟩

/-- The tests of the grammars, `/repo/src/parser/rfc3966.rs:140-177`, `/repo/src/parser/natural.rs:48-66`, `/repo/src/parser/valid.rs:46-74`. -/
theorem grammars :
    Rfc3966.phoneNumber (str% "tel:2034567890;ext=456;phone-context=+44") =
      .ok { national := str% "2034567890", pref := some (str% "44"), extension := some (str% "456") } ∧
    Rfc3966.phoneNumber (str% "tel:+64-3-331-6005;ext=1235") =
      .ok { national := str% "-3-331-6005", pref := some (str% "64"), extension := some (str% "1235") } ∧
    Natural.phoneNumber (str% "650 253 0000 extn. 4567") = .ok { national := str% "650 253 0000", extension := some (str% "4567") } ∧
    ([str% "00", str% "111", str% "0800-4-pizza", str% "0800-4-PIZZA"].all fun s => (Valid.phoneNumber s).isSome) = true ∧
    ([str% "1", str% "1+1+1", str% "80+0", str% "08-PIZZA", str% "8-PIZZA", str% "12. March", str% "1110@gmail.com"].all fun s =>
      (Valid.phoneNumber s).isNone) = true :=
  ⟨by kernel_rfl, by kernel_rfl, by kernel_rfl, by kernel_rfl, by kernel_rfl⟩


omit [UnicodeTables] in
/-- `punctuation`, `alpha`, `plus`, `/repo/src/parser/helper.rs:459-482`. -/
theorem characters : (['-', 'x', '―'].all Valid.punctuation && !Valid.punctuation 'a' && ['a', 'x', 'Z'].all Valid.alpha && !Valid.alpha '2' &&
    ['+', '＋'].all Valid.plus && !Valid.plus 'a') = true := by kernel_rfl

/-- `country_code`, `/repo/src/parser/helper.rs:534-665`, with the territories of the codes 1, 39, 64 and 800 only. -/
def countryCodes (ms : List Loader.Metadata) (l : List (Id × Str × Outcome ParseErr Number)) : Bool :=
  match Database.from compile (ms.filter fun m => m.countryCode == some 1 || m.countryCode == some 39 || m.countryCode == some 64 ||
    m.countryCode == some 800) with
  | .ok d => l.all fun (i, s, o) => Helper.countryCode d (some i) { national := s } == o
  | _ => false

theorem country_code : countryCodes Data.territories
    [(.US, str% "011112-3456789", .ok { country := .idd, national := str% "123456789", pref := some (str% "1") }),
     (.US, str% "+6423456789", .ok { country := .plus, national := str% "23456789", pref := some (str% "64") }),
     (.US, str% "+80012345678", .ok { country := .plus, national := str% "12345678", pref := some (str% "800") }),
     (.US, str% "2345-6789", .ok { country := .default, national := str% "23456789", pref := some (str% "1") }),
     (.US, str% "0119991123456789", .err .invalidCountryCode),
     (.US, str% "(1 610) 619 4466", .ok { country := .number, national := str% "6106194466", pref := some (str% "1") }),
     (.IT, str% "393298888888", .ok { country := .number, national := str% "3298888888", pref := some (str% "39") })] = true := by kernel_rfl

end

/-- Tables with the full-width digits only, for the tests that use them. -/
@[instance_reducible] def wide : UnicodeTables where
  nd c := decide (0xFF10 ≤ c.toNat ∧ c.toNat ≤ 0xFF19)
  n c := decide (0xFF10 ≤ c.toNat ∧ c.toNat ≤ 0xFF19)
  l _ := false
  nd_n _ h := h

/-- `extract`, `/repo/src/parser/helper.rs:484-532`. -/
theorem extract : letI := wide
    Helper.extract (str% "Tel:0800-345-600") = .ok (str% "0800-345-600") ∧
    Helper.extract (str% "Tel:0800 FOR PIZZA") = .ok (str% "0800 FOR PIZZA") ∧
    Helper.extract (str% "Tel:+800-345-600") = .ok (str% "+800-345-600") ∧
    Helper.extract ['０', '２', '３'] = .ok ['０', '２', '３'] ∧
    Helper.extract (str% "Num-" ++ ['１', '２', '３']) = .ok ['１', '２', '３'] ∧
    Helper.extract (str% "Num-....") = .err .error ∧
    Helper.extract (str% "(650) 253-0000") = .ok (str% "650) 253-0000") ∧
    Helper.extract (str% "(650) 253-0000..- ..") = .ok (str% "650) 253-0000") ∧
    Helper.extract (str% "(650) 253-0000.") = .ok (str% "650) 253-0000") ∧
    Helper.extract (str% "(650) 253-0000" ++ ['‏']) = .ok (str% "650) 253-0000") :=
  ⟨by kernel_rfl, by kernel_rfl, by kernel_rfl, by kernel_rfl, by kernel_rfl, by kernel_rfl, by kernel_rfl, by kernel_rfl, by kernel_rfl,
    by kernel_rfl⟩

/-- `normalize`, `/repo/src/parser/helper.rs:667-705`. -/
theorem normalize :
    (Helper.normalize { national := str% "034-56&+#2" } Consts.alphaPhoneMappings).national = str% "034562" ∧
    (Helper.normalize { national := str% "034-I-am-HUNGRY" } Consts.alphaPhoneMappings).national = str% "034426486479" ∧
    (Helper.normalize { national := ['４', '2', '０'] } Consts.alphaPhoneMappings).national = str% "420" :=
  ⟨by kernel_rfl, by kernel_rfl, by kernel_rfl⟩

/-- `international_prefix`, `/repo/src/parser/helper.rs:707-797`. -/
theorem international_prefix : letI := wide
    ∃ re, compile (str% "00[39]") = some re ∧
      ([(Source.idd, str% "0034567700-3898003"), (.idd, str% "00945677003898003"), (.idd, str% "00 9 45677003898003"),
        (.default, str% "45677003898003"), (.plus, str% "+45677003898003")].all fun (x : Source × Str) =>
        Helper.internationalPrefix (ε := ParseErr) (some re) { national := x.2 } == .ok { country := x.1, national := str% "45677003898003" }) = true :=
  ⟨_, rfl, by kernel_rfl⟩

end Phone.Suite
