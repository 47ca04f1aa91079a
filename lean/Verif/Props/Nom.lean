import Verif.Model.Nom
import Verif.Basic.StrLemmas
/-! # C80: the grammars as written with nom combinators -/

namespace Phone.Nom
open Helper

/-- The parser of one character that accepts the characters satisfying `f`. -/
def one (f : Char → Bool) : P Char
  | [] => .err .error
  | c :: cs => if f c then .ok (cs, c) else .err .error

theorem oneOf_eq (l : Str) : oneOf l = one (containsChar l) := by
  funext i; cases i <;> rfl

theorem char_eq (d : Char) : char d = one (· == d) := by
  funext i; cases i <;> simp [char, one]

theorem alt_one (f g : Char → Bool) : alt (one f) (one g) = one fun c => f c || g c := by
  funext i
  cases i with
  | nil => rfl
  | cons c cs => cases hf : f c <;> cases hg : g c <;> simp [alt, one, hf, hg]

theorem manyLoop_one (f : Char → Bool) (n : Nat) (i : Str) (h : i.length < n) :
    manyLoop (one f) n i = .ok (i.dropWhile f, i.takeWhile f) := by
  induction n generalizing i with
  | zero => omega
  | succ n ih =>
    cases i with
    | nil => rfl
    | cons c cs =>
      have hl : ¬ c.utf8Size = 0 := by have := Char.utf8Size_pos c; omega
      cases hf : f c
      · simp [manyLoop, one, hf]
      · simp [manyLoop, one, hf, hl, ih cs (by simpa using h), bind, Outcome.bind, pure]

theorem many0_one (f : Char → Bool) (i : Str) : many0 (one f) i = .ok (i.dropWhile f, i.takeWhile f) :=
  manyLoop_one f _ i (by omega)

theorem punctuation_eq : punctuation = one Phone.Valid.punctuation := oneOf_eq _
theorem alpha_eq : alpha = one Phone.Valid.alpha := oneOf_eq _
theorem digit_eq : digit = one Phone.Valid.digit := oneOf_eq _
theorem plus_eq : plus = one Phone.Valid.plus := oneOf_eq _
theorem star_eq : star = one Phone.Valid.star := by
  refine (oneOf_eq _).trans (congrArg one ?_)
  funext c
  simp [containsChar, Phone.Valid.star, Bool.beq_comm]

theorem oneDigit_eq (i : Str) : ∃ l : List Char, count digit 1 i =
    (match Phone.Valid.oneDigit i with | some r => .ok (r, l) | none => .err .error) := by
  rw [digit_eq]
  cases i with
  | nil => exact ⟨[], rfl⟩
  | cons c cs =>
    refine ⟨[c], ?_⟩
    cases h : Phone.Valid.digit c <;> simp [count, one, h, Phone.Valid.oneDigit, bind, Outcome.bind, pure]

/-- `ieof` succeeds at the end only, and then nothing is left. -/
theorem ieof_eq (i : Str) : ieof i =
    (match Phone.Valid.ieof i with | some _ => .ok ([], ()) | none => .err .error) := by
  cases i <;> rfl

theorem short_eq (i : Str) : Valid.short i =
    (match Phone.Valid.short i with | some _ => .ok ([], ()) | none => .err .error) := by
  unfold Valid.short Phone.Valid.short
  rw [show count digit Consts.minLengthForNsn i = (do
      let (i, a) ← count digit 1 i
      let (i, b) ← count digit 1 i
      pure (i, a ++ b)) from by
    simp only [Consts.minLengthForNsn, count, bind, pure]
    cases digit i with
    | ok r => cases digit r.1 <;> rfl
    | err e => rfl
    | panic e => rfl]
  obtain ⟨l, h⟩ := oneDigit_eq i
  rw [h]
  cases h1 : Phone.Valid.oneDigit i with
  | none => rfl
  | some j =>
    obtain ⟨l', h'⟩ := oneDigit_eq j
    simp only [bind, Outcome.bind, pure, h', Option.bind]
    cases h2 : Phone.Valid.oneDigit j with
    | none => rfl
    | some k =>
      simp only [ieof_eq]
      cases Phone.Valid.ieof k <;> rfl

theorem firstGroup_eq (i : Str) : Valid.firstGroup i =
    (match Phone.Valid.firstGroup i with | some r => .ok (r, ()) | none => .err .error) := by
  unfold Valid.firstGroup Phone.Valid.firstGroup
  rw [punctuation_eq, star_eq, alt_one, many0_one]
  obtain ⟨l, h⟩ := oneDigit_eq (i.dropWhile fun c => Phone.Valid.punctuation c || Phone.Valid.star c)
  simp only [bind, Outcome.bind, pure, h]
  cases Phone.Valid.oneDigit (i.dropWhile fun c => Phone.Valid.punctuation c || Phone.Valid.star c) <;> rfl

theorem long_eq (i : Str) : Valid.long i =
    (match Phone.Valid.long i with | some _ => .ok ([], ()) | none => .err .error) := by
  unfold Valid.long Phone.Valid.long
  rw [punctuation_eq, star_eq, digit_eq, alpha_eq, plus_eq, alt_one, alt_one, alt_one, alt_one, alt_one, many0_one]
  simp only [count, bind, Outcome.bind, pure, Option.bind, firstGroup_eq]
  cases Phone.Valid.firstGroup (i.dropWhile Phone.Valid.plus) with
  | none => rfl
  | some a =>
    simp only
    cases Phone.Valid.firstGroup a with
    | none => rfl
    | some b =>
      simp only
      cases Phone.Valid.firstGroup b with
      | none => rfl
      | some d =>
        simp only [many0_one, ieof_eq, Bool.or_assoc]
        cases Phone.Valid.ieof ((d.dropWhile fun c => Phone.Valid.punctuation c || (Phone.Valid.star c || Phone.Valid.digit c)).dropWhile
          fun c => Phone.Valid.punctuation c || (Phone.Valid.star c || (Phone.Valid.digit c || Phone.Valid.alpha c))) <;> rfl

/-- **C80** (viability). The grammar of possible numbers, as written with nom combinators, never runs into nom's guard against
endless repetition, accepts a text if and only if the expanded grammar does, and then consumes all of it. -/
theorem C80_valid (s : Str) : Valid.phoneNumber s =
    (match Phone.Valid.phoneNumber s with | some _ => .ok ([], s) | none => .err .error) := by
  unfold Valid.phoneNumber Phone.Valid.phoneNumber recognize alt
  rw [short_eq, long_eq]
  cases Phone.Valid.short s with
  | some _ => simp [Option.orElse]
  | none => cases Phone.Valid.long s <;> simp [Option.orElse]

/-! ## RFC 3966 -/

theorem lower_ascii {c d : Char} (h : Phone.Rfc3966.lower c = d) (hd : d.toNat < 128) : c.utf8Size = 1 := by
  apply utf8Size_of_ascii
  unfold Phone.Rfc3966.lower at h
  split at h
  · omega
  · rw [h]; exact hd

theorem lower_colon (d : Char) : Phone.Rfc3966.lower d = ':' ↔ d = ':' := by
  constructor
  · intro h
    unfold Phone.Rfc3966.lower at h
    split at h
    · rename_i hr
      have h2 := congrArg Char.toNat h
      rw [toNat_ofNat_small (by omega)] at h2
      have : (':' : Char).toNat = 58 := rfl
      omega
    · exact h
  · rintro rfl; decide

theorem opt_tel (i : Str) : ∃ o, opt (tagNoCase (str% "Tel:")) i = .ok (Phone.Rfc3966.optTel i, o) := by
  have ht : Phone.Rfc3966.lower 'T' = 't' := by decide
  have he : Phone.Rfc3966.lower 'e' = 'e' := by decide
  have hl : Phone.Rfc3966.lower 'l' = 'l' := by decide
  have hc : Phone.Rfc3966.lower ':' = ':' := by decide
  have hsz : byteLen (str% "Tel:") = 4 := by decide
  unfold opt tagNoCase
  rw [hsz]
  match i with
  | a :: b :: c :: d :: rest =>
    simp only [List.zip, List.zipWith, List.all, ht, he, hl, hc, Bool.and_true, Phone.Rfc3966.optTel]
    by_cases h : Phone.Rfc3966.lower a = 't' ∧ Phone.Rfc3966.lower b = 'e' ∧ Phone.Rfc3966.lower c = 'l' ∧ d = ':'
    · obtain ⟨h1, h2, h3, h4⟩ := h
      have s1 := lower_ascii h1 (by decide)
      have s2 := lower_ascii h2 (by decide)
      have s3 := lower_ascii h3 (by decide)
      have s4 := lower_ascii ((lower_colon d).mpr h4) (by decide)
      have hlen : 4 ≤ byteLen (a :: b :: c :: d :: rest) := by simp [s1, s2, s3, s4]; omega
      refine ⟨some [a, b, c, d], ?_⟩
      have h4' := (lower_colon d).mpr h4
      have e1 : dropBytes (a :: b :: c :: d :: rest) 4 = some rest := by
        cases rest <;> simp [dropBytes, s1, s2, s3, s4]
      have e2 : takeBytes (a :: b :: c :: d :: rest) 4 = some [a, b, c, d] := by
        cases rest <;> simp [takeBytes, s1, s2, s3, s4]
      have hcond : (Phone.Rfc3966.lower a == 't' && (Phone.Rfc3966.lower b == 'e' && (Phone.Rfc3966.lower c == 'l' &&
          Phone.Rfc3966.lower d == ':'))) = true := by simp [h1, h2, h3, h4']
      rw [if_pos hcond, if_pos hlen, if_pos ⟨h1, h2, h3, h4⟩, e1, e2]
      rfl
    · refine ⟨none, ?_⟩
      have hn : (Phone.Rfc3966.lower a == 't' && (Phone.Rfc3966.lower b == 'e' && (Phone.Rfc3966.lower c == 'l' &&
          Phone.Rfc3966.lower d == ':'))) = false := by
        rw [← lower_colon d] at h
        simpa [← Bool.not_eq_true] using h
      simp [hn, h]
  | [] => exact ⟨none, rfl⟩
  | [a] =>
    refine ⟨none, ?_⟩
    by_cases h : Phone.Rfc3966.lower a = 't'
    · have s1 := lower_ascii h (by decide)
      simp [h, ht, s1, Phone.Rfc3966.optTel]
    · simp [h, ht, Phone.Rfc3966.optTel]
  | [a, b] =>
    refine ⟨none, ?_⟩
    by_cases h : Phone.Rfc3966.lower a = 't' ∧ Phone.Rfc3966.lower b = 'e'
    · have s1 := lower_ascii h.1 (by decide)
      have s2 := lower_ascii h.2 (by decide)
      simp [h, ht, he, s1, s2, Phone.Rfc3966.optTel]
    · simp [h, ht, he, Phone.Rfc3966.optTel]
  | [a, b, c] =>
    refine ⟨none, ?_⟩
    by_cases h : Phone.Rfc3966.lower a = 't' ∧ Phone.Rfc3966.lower b = 'e' ∧ Phone.Rfc3966.lower c = 'l'
    · have s1 := lower_ascii h.1 (by decide)
      have s2 := lower_ascii h.2.1 (by decide)
      have s3 := lower_ascii h.2.2 (by decide)
      simp [h, ht, he, hl, s1, s2, s3, Phone.Rfc3966.optTel]
    · simp [h, ht, he, hl, Phone.Rfc3966.optTel]

theorem opt_prefix (i : Str) :
    opt Rfc3966.prefix_ i = .ok ((Phone.Rfc3966.optPrefix i).2, (Phone.Rfc3966.optPrefix i).1) := by
  unfold opt Rfc3966.prefix_ Phone.Rfc3966.optPrefix
  cases i with
  | nil => rfl
  | cons c cs =>
    by_cases hc : c = '+'
    · subst hc
      simp only [char, if_true, bind, Outcome.bind, takeTill1, takeWhile1]
      by_cases h : (cs.takeWhile fun c => !Phone.Rfc3966.separator c).isEmpty
      · simp [h]
      · simp [h]
    · simp [char, hc, bind, Outcome.bind]

theorem parameter_eq (i : Str) : Rfc3966.parameter i =
    (match Phone.Rfc3966.parameter i with | some (kv, rest) => .ok (rest, kv) | none => .err .error) := by
  unfold Rfc3966.parameter Phone.Rfc3966.parameter
  cases i with
  | nil => rfl
  | cons c cs =>
    by_cases hc : c = ';'
    · subst hc
      simp only [char, if_true, bind, Outcome.bind, takeWhile]
      cases h : cs.dropWhile Phone.Rfc3966.pname with
      | nil => rfl
      | cons d ds =>
        by_cases hd : d = '='
        · subst hd; simp [pure]
        · simp [hd]
    · simp [char, hc, bind, Outcome.bind]

theorem parameter_shorter {i rest : Str} {kv : Str × Str} (h : Phone.Rfc3966.parameter i = some (kv, rest)) :
    rest.length < i.length ∧ byteLen rest ≠ byteLen i := by
  unfold Phone.Rfc3966.parameter at h
  split at h
  · rename_i cs
    split at h
    · rename_i ds hd
      simp only [Option.some.injEq, Prod.mk.injEq] at h
      have e1 : cs = cs.takeWhile Phone.Rfc3966.pname ++ '=' :: ds := by
        rw [← hd]; exact (List.takeWhile_append_dropWhile ..).symm
      have e2 : ds = ds.takeWhile Phone.Rfc3966.pchar ++ rest := by
        rw [← h.2]; exact (List.takeWhile_append_dropWhile ..).symm
      have l1 := congrArg List.length e1
      have l2 := congrArg List.length e2
      have b1 := congrArg byteLen e1
      have b2 := congrArg byteLen e2
      simp only [List.length_append, List.length_cons, byteLen_append, byteLen_cons] at l1 l2 b1 b2 ⊢
      have hsc : (';' : Char).utf8Size = 1 := rfl
      omega
    · cases h
  · cases h

/-- What is left after all parameters. -/
def afterParams : Nat → Str → Str
  | 0, s => s
  | f + 1, s =>
    match Phone.Rfc3966.parameter s with
    | none => s
    | some (_, rest) => afterParams f rest

theorem manyLoop_parameter (n m : Nat) (i : Str) (h : i.length < n) (hm : i.length ≤ m) :
    manyLoop Rfc3966.parameter n i = .ok (afterParams m i, Phone.Rfc3966.params m i) := by
  induction n generalizing i m with
  | zero => omega
  | succ n ih =>
    unfold manyLoop
    rw [parameter_eq]
    cases hp : Phone.Rfc3966.parameter i with
    | none => cases m <;> simp [afterParams, Phone.Rfc3966.params, hp]
    | some r =>
      obtain ⟨kv, rest⟩ := r
      have hs := parameter_shorter hp
      cases m with
      | zero => omega
      | succ m =>
        simp [hs.2, ih m rest (by omega) (by omega), afterParams, Phone.Rfc3966.params, hp, bind, Outcome.bind, pure]

theorem get_collect (ps : List (Str × Str)) (key : Str) :
    Rfc3966.get (ps.foldl Rfc3966.insert []) key = Phone.Rfc3966.getParam ps key := by
  have gen : ∀ (ps acc : List (Str × Str)),
      Rfc3966.get (ps.foldl Rfc3966.insert acc) key = (Phone.Rfc3966.getParam ps key).or (Rfc3966.get acc key) := by
    intro ps
    induction ps with
    | nil => intro acc; rfl
    | cons p ps ih =>
      intro acc
      rw [List.foldl_cons, ih]
      have hins : Rfc3966.get (Rfc3966.insert acc p) key = if p.1 = key then some p.2 else Rfc3966.get acc key := by
        unfold Rfc3966.get Rfc3966.insert
        by_cases hk : p.1 = key
        · simp [hk]
        · rw [List.find?_cons_of_neg (by simpa using hk), List.find?_filter, if_neg hk]
          congr 2
          funext q
          by_cases hq : q.1 = key
          · have : q.1 ≠ p.1 := by rw [hq]; exact fun e => hk e.symm
            simp [hq, Ne.symm hk]
          · simp [hq]
      have hget : Phone.Rfc3966.getParam (p :: ps) key =
          (Phone.Rfc3966.getParam ps key).or (if p.1 = key then some p.2 else none) := by
        unfold Phone.Rfc3966.getParam
        rw [List.reverse_cons, List.find?_append]
        cases (ps.reverse.find? fun q => q.1 == key) with
        | some q => simp
        | none => by_cases hk : p.1 = key <;> simp [hk]
      rw [hins, hget]
      cases Phone.Rfc3966.getParam ps key with
      | some v => rfl
      | none => by_cases hk : p.1 = key <;> simp [hk]
  have := gen ps []
  rw [this]
  cases Phone.Rfc3966.getParam ps key <;> rfl

/-- **C80** (RFC 3966). The grammar of RFC 3966 numbers, as written with nom combinators and a hash map for the parameters,
returns what the expanded grammar returns. -/
theorem C80_rfc3966 (i : Str) :
    (match Rfc3966.phoneNumber i with | .ok r => .ok r.2 | .err e => .err e | .panic p => .panic p) =
      Phone.Rfc3966.phoneNumber i := by
  unfold Rfc3966.phoneNumber Phone.Rfc3966.phoneNumber
  by_cases hsp : containsChar i ' ' = true
  · simp [hsp]
  · rw [if_neg hsp, if_neg hsp]
    obtain ⟨o, h⟩ := opt_tel i
    simp only [h, bind, Outcome.bind, opt_prefix, takeWhile1]
    generalize (Phone.Rfc3966.optPrefix (Phone.Rfc3966.optTel i)).1 = pre
    generalize (Phone.Rfc3966.optPrefix (Phone.Rfc3966.optTel i)).2 = j
    by_cases h1 : (j.takeWhile Phone.Rfc3966.number).isEmpty
    · simp [h1]
    · generalize hk : j.dropWhile Phone.Rfc3966.number = k
      by_cases h2 : (k.isEmpty || k.head? == some ';') = true
      · simp only [h1, Rfc3966.check, h2, if_true, Bool.not_true, Bool.false_eq_true, if_false]
        have hp : ∃ r m, opt Rfc3966.parameters k = .ok (r, m) ∧
            ∀ key, (m.bind fun m => Rfc3966.get m key) =
              Phone.Rfc3966.getParam (Phone.Rfc3966.params k.length k) key := by
          unfold opt Rfc3966.parameters many1
          rw [parameter_eq]
          cases hpar : Phone.Rfc3966.parameter k with
          | none =>
            refine ⟨k, none, rfl, fun key => ?_⟩
            cases k <;> simp [Phone.Rfc3966.params, hpar, Phone.Rfc3966.getParam]
          | some q =>
            obtain ⟨kv, rest⟩ := q
            have hs := parameter_shorter hpar
            obtain ⟨m, hm⟩ : ∃ m, k.length = m + 1 := ⟨k.length - 1, by omega⟩
            refine ⟨afterParams m rest, some ((kv :: Phone.Rfc3966.params m rest).foldl Rfc3966.insert []), ?_, fun key => ?_⟩
            · simp [manyLoop_parameter (rest.length + 1) m rest (by omega) (by omega), bind, Outcome.bind, pure]
            · rw [Option.bind_some, get_collect, hm]
              simp [Phone.Rfc3966.params, hpar]
        obtain ⟨r, m, e, hg⟩ := hp
        simp only [e, hg, pure]
      · rw [Bool.not_eq_true] at h2
        have hn : ¬ (k = [] ∨ k.head? = some ';') := by simpa [Bool.or_eq_false_iff] using h2
        simp [h1, Rfc3966.check, hn]
        exact not_or.mp hn

/-- **C80** (leading plus characters). `ignore_plus` recognises the longest run of plus characters and fails if there is
none. -/
theorem C80_ignore_plus (i : Str) : ignorePlus i =
    (if (i.takeWhile Phone.Valid.plus).isEmpty then .err .error
     else .ok (i.dropWhile Phone.Valid.plus, i.takeWhile Phone.Valid.plus)) := by
  unfold ignorePlus recognize many1
  rw [plus_eq]
  cases i with
  | nil => rfl
  | cons c cs =>
    cases hc : Phone.Valid.plus c
    · simp [one, hc]
    · have hl : (cs.takeWhile Phone.Valid.plus).length + (cs.dropWhile Phone.Valid.plus).length = cs.length := by
        rw [← List.length_append, List.takeWhile_append_dropWhile]
      have hcs : cs.take (cs.length - (cs.dropWhile Phone.Valid.plus).length) = cs.takeWhile Phone.Valid.plus := by
        have : cs.length - (cs.dropWhile Phone.Valid.plus).length = (cs.takeWhile Phone.Valid.plus).length := by omega
        rw [this]
        have e := List.take_left' (l₁ := cs.takeWhile Phone.Valid.plus) (l₂ := cs.dropWhile Phone.Valid.plus) rfl
        rwa [List.takeWhile_append_dropWhile] at e
      have hsub : cs.length + 1 - (cs.dropWhile Phone.Valid.plus).length =
          (cs.length - (cs.dropWhile Phone.Valid.plus).length) + 1 := by omega
      simp [one, hc, manyLoop_one, bind, Outcome.bind, pure, hsub, hcs]

section
variable [UnicodeTables]

/-- **C80** (reading). Reading a text with `alt((rfc3966::phone_number, natural::phone_number))` gives what the model of
`parse_with` works with, and so does the check for viability. -/
theorem C80_read (i : Str) : readNumber i = Phone.readNumber i ∧ isViable i = Phone.isViable i := by
  constructor
  · unfold readNumber Phone.readNumber phoneNumber alt
    rw [← C80_rfc3966 i]
    cases Rfc3966.phoneNumber i with
    | ok r => rfl
    | panic p => rfl
    | err e =>
      cases e with
      | failure => rfl
      | error =>
        simp only [natural]
        cases Natural.phoneNumber i <;> rfl
  · unfold isViable Phone.isViable
    rw [C80_valid]
    split
    · rfl
    · cases Phone.Valid.phoneNumber i <;> rfl

end

/-! Texts that go through the grammars. -/
example : Valid.phoneNumber (str% "0800-4-pizza") = .ok ([], str% "0800-4-pizza") := by decide +kernel
example : Valid.phoneNumber (str% "08-PIZZA") = .err .error := by decide +kernel
example : Rfc3966.phoneNumber (str% "tEL:2034567890;ext=456;ext=7;phone-context=+44;x") =
    .ok (str% ";x", ⟨.default, str% "2034567890", some (str% "44"), some (str% "7"), none⟩) := by decide +kernel
example : ignorePlus (str% "++1") = .ok (str% "1", str% "++") := by decide +kernel

end Phone.Nom
