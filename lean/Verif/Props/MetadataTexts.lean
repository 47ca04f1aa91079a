import Verif.Model.MetadataErrorText
import Verif.Props.Faults
import Verif.Model.Loader
/-! # C99: the texts of metadata errors -/

namespace Phone
variable [DebugTables]

/-- The parts of the metadata that errors name. -/
def Spec.places : List Str :=
  [str% "metadata", str% "territories", str% "territory", str% "formats", str% "format", str% "descriptor",
    str% "descriptor::possibleLength", str% "ignore", str% "text"]

/-- The part of the metadata that the error names. -/
def Spec.placeOf : MetadataErr → Option Str
  | .unexpectedEof | .mismatchedTag _ => none
  | .missingValue p _ | .unhandledElement p _ | .unhandledAttribute p _ _ | .unhandledEvent p => some p

/-- The character is no control character, as line breaks are, and no separator of lines or paragraphs. -/
def Spec.OnLine (c : Char) : Prop := 32 ≤ c.toNat ∧ ¬ (127 ≤ c.toNat ∧ c.toNat < 160) ∧ c.toNat ≠ 0x2028 ∧ c.toNat ≠ 0x2029

instance (c : Char) : Decidable (Spec.OnLine c) := by unfold Spec.OnLine; infer_instance

def hexVal (c : Char) : Nat := if c.toNat < 58 then c.toNat - 48 else c.toNat - 87

omit [DebugTables] in
theorem hexVal_hexDigit : ∀ n, n < 16 → hexVal (hexDigit n) = n ∧ hexDigit n ≠ '}' ∧ 32 ≤ (hexDigit n).toNat ∧ (hexDigit n).toNat < 127 := by decide

omit [DebugTables] in
theorem hexAux_eq : ∀ (k n : Nat) (acc : Str), n < 16 ^ k → 0 < k → ∃ w, hexAux k n acc = w ++ acc ∧
    w.foldl (fun v c => 16 * v + hexVal c) 0 = n ∧ ∀ c ∈ w, c ≠ '}' ∧ 32 ≤ c.toNat ∧ c.toNat < 127
  | 0, _, _, _, h => absurd h (by omega)
  | k + 1, n, acc, h, _ => by
    rw [hexAux]
    split
    · rename_i hn
      have := hexVal_hexDigit n hn
      exact ⟨[hexDigit n], rfl, by simp [this.1], fun c hc => by rw [List.mem_singleton.1 hc]; exact this.2⟩
    · rename_i hn
      have hk : 0 < k := by
        rcases Nat.eq_zero_or_pos k with rfl | h'
        · simp at h; omega
        · exact h'
      have := hexVal_hexDigit (n % 16) (by omega)
      obtain ⟨w, e, hv, hw⟩ := hexAux_eq k (n / 16) (hexDigit (n % 16) :: acc) (by rw [Nat.pow_succ] at h; omega) hk
      refine ⟨w ++ [hexDigit (n % 16)], by simp [e], ?_, ?_⟩
      · rw [List.foldl_append, hv]; simp [this.1]; omega
      · intro c hc
        rcases List.mem_append.1 hc with hc | hc
        · exact hw c hc
        · rw [List.mem_singleton.1 hc]; exact this.2

/-- The character that a letter after a backslash stands for. -/
def escaped (k : Char) : Char :=
  if k = '0' then Char.ofNat 0 else if k = 't' then '\t' else if k = 'r' then '\r' else if k = 'n' then '\n' else k

/-- The three ways in which a character is written. -/
inductive Escape : Char → Str → Prop
  | plain {c} : c ≠ '\\' → c ≠ '"' → 32 ≤ c.toNat ∧ c.toNat ≠ 127 → Escape c [c]
  | letter {c k} : escaped k = c → k ≠ 'u' → 32 ≤ k.toNat ∧ k.toNat < 127 → Escape c ['\\', k]
  | code {c w} : w.foldl (fun v c => 16 * v + hexVal c) 0 = c.toNat → (∀ c ∈ w, c ≠ '}' ∧ 32 ≤ c.toNat ∧ c.toNat < 127) →
      Escape c ('\\' :: 'u' :: '{' :: (w ++ ['}']))

theorem escape_escapeChar (c : Char) : Escape c (escapeChar c) := by
  unfold escapeChar
  split
  · rename_i h
    exact .letter (by rw [show escaped '0' = Char.ofNat 0 by decide, ← h, Char.ofNat_toNat]) (by decide) (by decide)
  split
  · rename_i h; subst h; exact .letter (by decide) (by decide) (by decide)
  split
  · rename_i h; subst h; exact .letter (by decide) (by decide) (by decide)
  split
  · rename_i h; subst h; exact .letter (by decide) (by decide) (by decide)
  split
  · rename_i h
    rcases h with rfl | rfl
    · exact .letter (by decide) (by decide) (by decide)
    · exact .letter (by decide) (by decide) (by decide)
  rename_i h
  split
  · rename_i hp
    refine .plain (fun e => h (.inl e)) (fun e => h (.inr e)) ?_
    unfold shown at hp
    split at hp
    · exact of_decide_eq_true hp
    · omega
  · obtain ⟨w, e, hv, hw⟩ := hexAux_eq 6 c.toNat ['}'] (by
      have := c.valid
      have : c.toNat < 0x110000 := by
        rcases this with h | h
        · exact Nat.lt_trans h (by decide)
        · exact h.2
      omega) (by decide)
    rw [e]
    exact .code hv hw

omit [DebugTables] in
theorem upto_brace {w w' x y : Str} (hw : ∀ c ∈ w, c ≠ '}') (hw' : ∀ c ∈ w', c ≠ '}') (h : w ++ '}' :: x = w' ++ '}' :: y) :
    w = w' ∧ x = y := by
  induction w generalizing w' with
  | nil =>
    cases w' with
    | nil => simpa using h
    | cons d w' => simp at h; exact absurd h.1.symm (hw' d (by simp))
  | cons c w ih =>
    cases w' with
    | nil => simp at h; exact absurd h.1 (hw c (by simp))
    | cons d w' =>
      simp only [List.cons_append, List.cons.injEq] at h
      obtain ⟨rfl, h⟩ := h
      obtain ⟨e, h⟩ := ih (fun c hc => hw c (by simp [hc])) (fun c hc => hw' c (by simp [hc])) h
      exact ⟨by rw [e], h⟩

omit [DebugTables] in
theorem Escape.told {c d : Char} {u v x y : Str} (hu : Escape c u) (hv : Escape d v) (h : u ++ x = v ++ y) : c = d ∧ x = y := by
  cases hu with
  | plain h1 h2 h3 =>
    cases hv with
    | plain => simpa using h
    | letter => simp at h; exact absurd h.1 h1
    | code => simp at h; exact absurd h.1 h1
  | letter e1 n1 =>
    cases hv with
    | plain h1 => simp at h; exact absurd h.1.symm h1
    | letter e2 => simp at h; obtain ⟨rfl, rfl⟩ := h; exact ⟨e1.symm.trans e2, rfl⟩
    | code => simp at h; exact absurd h.1 n1
  | code e1 w1 =>
    cases hv with
    | plain h1 => simp at h; exact absurd h.1.symm h1
    | letter _ n1 => simp at h; exact absurd h.1.symm n1
    | code e2 w2 =>
      simp only [List.cons_append, List.append_assoc, List.cons.injEq, true_and, List.nil_append] at h
      obtain ⟨rfl, rfl⟩ := upto_brace (fun c hc => (w1 c hc).1) (fun c hc => (w2 c hc).1) h
      have : c.toNat = d.toNat := e1.symm.trans e2
      exact ⟨Char.toNat_inj.1 this, rfl⟩

omit [DebugTables] in
theorem Escape.begins {c : Char} {u : Str} (h : Escape c u) : ∃ k t, u = k :: t ∧ k ≠ '"' := by
  cases h with
  | plain _ h => exact ⟨_, _, rfl, h⟩
  | letter => exact ⟨_, _, rfl, by decide⟩
  | code => exact ⟨_, _, rfl, by decide⟩

/-- C99: a quoted text tells the text, whatever follows. -/
theorem C99_quoted (a b x y : Str) (h : quoted a ++ x = quoted b ++ y) : a = b ∧ x = y := by
  simp only [quoted, List.cons_append, List.append_assoc, List.cons.injEq, true_and, List.nil_append] at h
  induction a generalizing b with
  | nil =>
    cases b with
    | nil => simpa using h
    | cons d b =>
      obtain ⟨k, t, e, hk⟩ := (escape_escapeChar d).begins
      simp [e] at h
      exact absurd h.1.symm hk
  | cons c a ih =>
    cases b with
    | nil =>
      obtain ⟨k, t, e, hk⟩ := (escape_escapeChar c).begins
      simp [e] at h
      exact absurd h.1 hk
    | cons d b =>
      simp only [List.flatMap_cons, List.append_assoc] at h
      obtain ⟨e, h⟩ := (escape_escapeChar c).told (escape_escapeChar d) h
      obtain ⟨e', h⟩ := ih b h
      exact ⟨by rw [e, e'], h⟩

theorem quoted_inj {a b : Str} (h : quoted a = quoted b) : a = b := (C99_quoted a b [] [] (by rw [h])).1

/-- The text has no colon followed by a space. -/
def noSep : Str → Bool
  | [] => true
  | c :: s => !(c == ':' && s.head? == some ' ') && noSep s

omit [DebugTables] in
theorem noSep_sep (p x : Str) : noSep (p ++ ':' :: ' ' :: x) = false := by
  induction p with
  | nil => simp [noSep]
  | cons c p ih => simp [noSep, ih]

omit [DebugTables] in
theorem sep_told {p q x y : Str} (hp : noSep p = true) (hq : noSep q = true) (h : p ++ ':' :: ' ' :: x = q ++ ':' :: ' ' :: y) : p = q ∧ x = y := by
  induction p generalizing q with
  | nil =>
    cases q with
    | nil => simpa using h
    | cons d q =>
      simp only [List.nil_append, List.cons_append, List.cons.injEq] at h
      obtain ⟨rfl, h⟩ := h
      cases q with
      | nil => simp at h
      | cons d q => simp at h; obtain ⟨rfl, _⟩ := h; simp [noSep] at hq
  | cons c p ih =>
    cases q with
    | nil =>
      simp only [List.nil_append, List.cons_append, List.cons.injEq] at h
      obtain ⟨rfl, h⟩ := h
      cases p with
      | nil => simp at h
      | cons d p => simp at h; obtain ⟨rfl, _⟩ := h; simp [noSep] at hp
    | cons d q =>
      simp only [List.cons_append, List.cons.injEq] at h
      obtain ⟨rfl, h⟩ := h
      simp only [noSep, Bool.and_eq_true] at hp hq
      obtain ⟨e, h⟩ := ih hp.2 hq.2 h
      exact ⟨by rw [e], h⟩

omit [DebugTables] in
theorem places_noSep : ∀ p ∈ Spec.places, noSep p = true := by decide

/-- The text of an error other than the end of the file: a part, a colon and a space, and the rest. -/
def splitText (event : Str) : MetadataErr → Option (Str × Str)
  | .unexpectedEof => none
  | .mismatchedTag n => some (str% "mismatched tag", quoted n)
  | .missingValue p n => some (p, (str% "missing value: ") ++ quoted n)
  | .unhandledElement p n => some (p, (str% "unhandled element: ") ++ quoted n)
  | .unhandledAttribute p n v => some (p, (str% "unhandled attribute: ") ++ (quoted n ++ '=' :: quoted v))
  | .unhandledEvent p => some (p, (str% "unhandled event: ") ++ quoted event)

theorem splitText_eq {event : Str} {e : MetadataErr} {p x : Str} (h : splitText event e = some (p, x)) :
    e.text event = p ++ ':' :: ' ' :: x := by
  cases e <;> simp [splitText] at h <;> obtain ⟨rfl, rfl⟩ := h <;> simp [MetadataErr.text]

/-- C99: from the text of a metadata error one can tell the error. -/
theorem C99_told (e e' : MetadataErr) (v v' : Str) (he : ∀ p, Spec.placeOf e = some p → p ∈ Spec.places)
    (he' : ∀ p, Spec.placeOf e' = some p → p ∈ Spec.places) (h : e.text v = e'.text v') : e = e' := by
  have key : ∀ (e : MetadataErr) (v p x : Str), (∀ p, Spec.placeOf e = some p → p ∈ Spec.places) → splitText v e = some (p, x) → noSep p = true := by
    intro e v p x he hs
    cases e <;> simp [splitText] at hs
    · rw [← hs.1]; decide
    all_goals
      obtain ⟨rfl, _⟩ := hs
      exact places_noSep _ (he _ rfl)
  have none_eof : ∀ (e : MetadataErr) (v : Str), splitText v e = none → e = .unexpectedEof := by
    intro e v h; cases e <;> simp [splitText] at h; rfl
  have eof : ∀ v : Str, noSep (MetadataErr.text v .unexpectedEof) = true := by
    intro v; rw [MetadataErr.text]; decide
  rcases hs : splitText v e with _ | ⟨p, x⟩
  · obtain rfl := none_eof _ _ hs
    rcases hs' : splitText v' e' with _ | ⟨p', x'⟩
    · exact (none_eof _ _ hs').symm
    · have := eof v
      rw [h, splitText_eq hs', noSep_sep] at this
      cases this
  · rcases hs' : splitText v' e' with _ | ⟨p', x'⟩
    · obtain rfl := none_eof _ _ hs'
      have := eof v'
      rw [← h, splitText_eq hs, noSep_sep] at this
      cases this
    · have hp := key e v p x he hs
      have hp' := key e' v' p' x' he' hs'
      rw [splitText_eq hs, splitText_eq hs'] at h
      obtain ⟨rfl, rfl⟩ := sep_told hp hp' h
      cases e <;> cases e' <;> simp [splitText] at hs hs' <;>
        (obtain ⟨e1, e2⟩ := hs; obtain ⟨e3, e4⟩ := hs'; have e5 := e2.trans e4.symm; try (simp [quoted] at e5; done))
      · rw [quoted_inj e5]
      · rw [e1, e3, quoted_inj (List.append_cancel_left (as := str% "missing value: ") e5)]
      · rw [e1, e3, quoted_inj (List.append_cancel_left (as := str% "unhandled element: ") e5)]
      · obtain ⟨e6, e7⟩ := C99_quoted _ _ _ _ (List.append_cancel_left (as := str% "unhandled attribute: ") e5)
        rw [e1, e3, e6, quoted_inj (List.cons.inj e7).2]
      · rw [e1, e3]

omit [DebugTables] in
theorem onLine_ascii {c : Char} (h : 32 ≤ c.toNat ∧ c.toNat < 127) : Spec.OnLine c := by unfold Spec.OnLine; omega

theorem onLine_escapeChar (c : Char) : ∀ k ∈ escapeChar c, Spec.OnLine k := by
  have h := escape_escapeChar c
  have hs : escapeChar c = [c] → c ≠ '\\' → shown c = true → Spec.OnLine c := by
    intro _ _ h
    unfold shown at h
    split at h
    · have := of_decide_eq_true h
      exact onLine_ascii (by omega)
    · have := DebugTables.plain_shown c h
      unfold Spec.OnLine
      omega
  unfold escapeChar
  repeat' split
  · decide
  · decide
  · decide
  · decide
  · rename_i hc
    rcases hc with rfl | rfl <;> decide
  · rename_i h0 h1 h2 h3 h4 h5
    intro k hk
    rw [List.mem_singleton.1 hk]
    exact hs (by simp [escapeChar, h0, h1, h2, h3, h4, h5]) (fun e => h4 (.inl e)) h5
  · obtain ⟨w, e, hv, hw⟩ := hexAux_eq 6 c.toNat ['}'] (by
      have : c.toNat < 0x110000 := by
        rcases c.valid with h | h
        · exact Nat.lt_trans h (by decide)
        · exact h.2
      omega) (by decide)
    rw [e]
    intro k hk
    simp only [List.cons_append, List.nil_append, List.mem_cons, List.mem_append, List.not_mem_nil, or_false] at hk
    rcases hk with rfl | rfl | rfl | hk | rfl
    · decide
    · decide
    · decide
    · exact onLine_ascii (hw k hk).2
    · decide

theorem onLine_quoted (s : Str) : ∀ k ∈ quoted s, Spec.OnLine k := by
  intro k hk
  simp only [quoted, List.mem_cons, List.mem_append, List.mem_flatMap, List.not_mem_nil, or_false] at hk
  rcases hk with rfl | ⟨c, _, hk⟩ | rfl
  · decide
  · exact onLine_escapeChar c k hk
  · decide

/-- C99: the text of a metadata error is a single line, whatever names and values the document has. -/
theorem C99_line (e : MetadataErr) (v : Str) (he : ∀ p, Spec.placeOf e = some p → p ∈ Spec.places) : ∀ c ∈ e.text v, Spec.OnLine c := by
  have hq := onLine_quoted
  have hp : ∀ p ∈ Spec.places, ∀ c ∈ p, Spec.OnLine c := by decide
  have h1 : ∀ c ∈ (str% "unexpected end of file"), Spec.OnLine c := by decide
  have h2 : ∀ c ∈ (str% "mismatched tag: "), Spec.OnLine c := by decide
  have h3 : ∀ c ∈ (str% ": missing value: "), Spec.OnLine c := by decide
  have h4 : ∀ c ∈ (str% ": unhandled element: "), Spec.OnLine c := by decide
  have h5 : ∀ c ∈ (str% ": unhandled attribute: "), Spec.OnLine c := by decide
  have h6 : ∀ c ∈ (str% ": unhandled event: "), Spec.OnLine c := by decide
  have h7 : ∀ c ∈ ['='], Spec.OnLine c := by decide
  intro c hc
  cases e with
  | unexpectedEof => exact h1 c hc
  | mismatchedTag n =>
    rcases List.mem_append.1 hc with hc | hc
    · exact h2 c hc
    · exact hq n c hc
  | missingValue p n =>
    rcases List.mem_append.1 hc with hc | hc
    · rcases List.mem_append.1 hc with hc | hc
      · exact hp p (he p rfl) c hc
      · exact h3 c hc
    · exact hq n c hc
  | unhandledElement p n =>
    rcases List.mem_append.1 hc with hc | hc
    · rcases List.mem_append.1 hc with hc | hc
      · exact hp p (he p rfl) c hc
      · exact h4 c hc
    · exact hq n c hc
  | unhandledAttribute p n w =>
    rcases List.mem_append.1 hc with hc | hc
    · rcases List.mem_append.1 hc with hc | hc
      · rcases List.mem_append.1 hc with hc | hc
        · rcases List.mem_append.1 hc with hc | hc
          · exact hp p (he p rfl) c hc
          · exact h5 c hc
        · exact hq n c hc
      · exact h7 c hc
    · exact hq w c hc
  | unhandledEvent p =>
    rcases List.mem_append.1 hc with hc | hc
    · rcases List.mem_append.1 hc with hc | hc
      · exact hp p (he p rfl) c hc
      · exact h6 c hc
    · exact hq v c hc

/-- An error with a name and a value that need escapes: the hypotheses of
`C99_told` and `C99_line` hold, and this is its text. -/
example : (∀ p, Spec.placeOf (.unhandledAttribute (str% "format") (str% "a\"b") (str% "1\n\\ü")) = some p → p ∈ Spec.places) ∧
    (DebugTables.plain 'ü' = false → MetadataErr.text [] (.unhandledAttribute (str% "format") (str% "a\"b") (str% "1\n\\ü")) =
      (str% "format: unhandled attribute: \"a\\\"b\"=\"1\\n\\\\\\u{fc}\"")) := by
  refine ⟨fun p h => by cases h; decide, fun h => ?_⟩
  have e : ∀ c : Char, c.toNat < 128 → escapeChar c = if c.toNat = 0 then ['\\', '0'] else if c = '\t' then ['\\', 't']
      else if c = '\r' then ['\\', 'r'] else if c = '\n' then ['\\', 'n'] else if c = '\\' ∨ c = '"' then ['\\', c]
      else if 32 ≤ c.toNat ∧ c.toNat ≠ 127 then [c] else ['\\', 'u', '{'] ++ hexAux 6 c.toNat ['}'] := by
    intro c hc; simp [escapeChar, shown, hc]
  have e2 : escapeChar 'ü' = (str% "\\u{fc}") := by simp [escapeChar, shown, h]; decide
  simp only [MetadataErr.text, quoted, List.flatMap_cons, List.flatMap_nil, e 'a' (by decide), e '"' (by decide), e 'b' (by decide), e '1' (by decide),
    e '\n' (by decide), e '\\' (by decide), e2]
  decide

section
omit [DebugTables]

/-- If the outcome is a metadata error, it names one of the parts. -/
def Placed {α : Type} (o : Outcome LoadErr α) : Prop := ∀ e, o = .err (.metadata e) → ∀ p, Spec.placeOf e = some p → p ∈ Spec.places

theorem placed_ok {α : Type} (a : α) : Placed (.ok a) := fun _ h => by cases h
theorem placed_panic {α : Type} (p : Panic) : Placed (.panic p : Outcome LoadErr α) := fun _ h => by cases h
theorem placed_err {α : Type} {e : LoadErr} (he : ∀ m, e = .metadata m → ∀ p, Spec.placeOf m = some p → p ∈ Spec.places) :
    Placed (.err e : Outcome LoadErr α) := fun m h => by cases h; exact he m rfl
theorem placed_bind {α β : Type} {o : Outcome LoadErr α} {f : α → Outcome LoadErr β} (ho : Placed o) (hf : ∀ a, Placed (f a)) :
    Placed (o >>= f) := by
  intro e h p hp
  cases o with
  | ok a => exact hf a e h p hp
  | err e' =>
    have h : (Outcome.err e' : Outcome LoadErr β) = .err (.metadata e) := h
    cases h
    exact ho e rfl p hp
  | panic q => cases (show (Outcome.panic q : Outcome LoadErr β) = .err (.metadata e) from h)

namespace Loader

theorem placed_utf8 (r : Raw) : Placed (fromUtf8 r) := by
  cases r
  · exact placed_ok _
  · exact placed_err fun _ h => by cases h

theorem placed_mismatched {α : Type} (r : Raw) : Placed (mismatched (α := α) r) :=
  placed_bind (placed_utf8 r) fun _ => placed_err fun m h p hp => by cases h; cases hp

theorem placed_element {α : Type} {q : Str} (hq : q ∈ Spec.places) (r : Raw) : Placed (unhandledElement (α := α) q r) :=
  placed_bind (placed_utf8 r) fun _ => placed_err fun m h p hp => by cases h; cases hp; exact hq

theorem placed_event {α : Type} {q : Str} (hq : q ∈ Spec.places) : Placed (.err (.metadata (.unhandledEvent q)) : Outcome LoadErr α) :=
  placed_err fun m h p hp => by cases h; cases hp; exact hq

theorem placed_attribute {α : Type} {q k v : Str} (hq : q ∈ Spec.places) :
    Placed (.err (.metadata (.unhandledAttribute q k v)) : Outcome LoadErr α) :=
  placed_err fun m h p hp => by cases h; cases hp; exact hq

theorem placed_eof {α : Type} : Placed (.err (.metadata .unexpectedEof) : Outcome LoadErr α) :=
  placed_err fun m h p hp => by cases h; cases hp

theorem placed_option {α : Type} {e : LoadErr} (he : ∀ m, e ≠ .metadata m) (o : Option α) : Placed (Outcome.okOr e o) := by
  cases o
  · exact placed_err fun m h => absurd h (he m)
  · exact placed_ok _

theorem placed_slice {α : Type} (o : Option α) : Placed (Outcome.slice (ε := LoadErr) o) := by
  cases o
  · exact placed_panic _
  · exact placed_ok _

theorem placed_ite {α : Type} {c : Prop} [Decidable c] {a b : Outcome LoadErr α} (ha : Placed a) (hb : Placed b) : Placed (if c then a else b) := by
  split
  · exact ha
  · exact hb

/-- One step of the proofs below. -/
macro "placed" : tactic => `(tactic| first
  | exact placed_ok _ | exact placed_panic _ | exact placed_eof | exact placed_mismatched _ | exact placed_utf8 _
  | exact placed_element (by decide) _ | exact placed_event (by decide) | exact placed_attribute (by decide)
  | exact placed_err (fun _ h => by cases h) | exact placed_option (by intro m h; cases h) _ | exact placed_slice _
  | (refine placed_bind ?_ fun _ => ?_) | split)

theorem placed_bool (s : Str) : Placed (parseBool s) := by unfold parseBool; repeat placed
theorem placed_attr (a : Attr) : Placed (attrStr a) := by unfold attrStr; repeat placed

theorem placed_lengthPart (s : Str) : Placed (lengthPart s) := by
  unfold lengthPart
  repeat placed

theorem placed_lengthParts : ∀ l, Placed (lengthParts l)
  | [] => placed_ok _
  | _ :: ps => placed_bind (placed_lengthPart _) fun _ => placed_bind (placed_lengthParts ps) fun _ => placed_ok _

theorem placed_lengths (s : Str) : Placed (lengths s) := placed_lengthParts _

theorem placed_lengthAttrs : ∀ (as : List Attr) (d : Descriptor), Placed (lengthAttrs d as)
  | [], d => placed_ok _
  | a :: as, d => by
    unfold lengthAttrs
    repeat first | exact placed_attr _ | exact placed_lengths _ | exact placed_lengthAttrs as _ | placed

theorem placed_ignore : ∀ (f : Nat) (n : Raw) (es : List Event), Placed (ignore f n es)
  | 0, _, _ => placed_err fun _ h => by cases h
  | _ + 1, _, [] => placed_eof
  | f + 1, name, e :: es => by
    unfold ignore
    repeat first | exact placed_ignore f _ _ | placed

theorem placed_text (n : Raw) : ∀ (es : List Event) (acc : Str), Placed (text n acc es)
  | [], _ => placed_eof
  | e :: es, acc => by
    unfold text
    repeat first | exact placed_text n es _ | placed

theorem placed_descriptor : ∀ (f : Nat) (n : Raw) (d : Descriptor) (es : List Event), Placed (descriptor f n d es)
  | 0, _, _, _ => placed_err fun _ h => by cases h
  | _ + 1, _, _, [] => placed_eof
  | f + 1, name, d, e :: es => by
    unfold descriptor
    repeat first | exact placed_descriptor f _ _ _ | exact placed_text _ _ _ | exact placed_lengthAttrs _ _ | placed

theorem placed_formatAttrs : ∀ (as : List Attr) (fm : Format), Placed (formatAttrs fm as)
  | [], _ => placed_ok _
  | a :: as, fm => by
    unfold formatAttrs
    repeat first | exact placed_attr _ | exact placed_bool _ | exact placed_formatAttrs as _ | placed

theorem placed_formatLoop : ∀ (f : Nat) (n : Raw) (fm : Format) (i : Option Str) (es : List Event), Placed (formatLoop f n fm i es)
  | 0, _, _, _, _ => placed_err fun _ h => by cases h
  | _ + 1, _, _, _, [] => placed_eof
  | f + 1, name, fm, i, e :: es => by
    unfold formatLoop
    repeat first | exact placed_formatLoop f _ _ _ _ | exact placed_text _ _ _ | placed

theorem placed_formats : ∀ (f : Nat) (md : Metadata) (n : Raw) (a b : List Format) (es : List Event), Placed (formats f md n a b es)
  | 0, _, _, _, _, _ => placed_err fun _ h => by cases h
  | _ + 1, _, _, _, _, [] => placed_eof
  | f + 1, md, name, a, b, e :: es => by
    unfold formats
    repeat first | exact placed_formats f _ _ _ _ _ | exact placed_bind (placed_formatAttrs _ _) fun _ => placed_formatLoop _ _ _ _ _ | placed

theorem placed_territoryAttr (m : Metadata) (k v : Str) : Placed (territoryAttr m k v) := by
  unfold territoryAttr
  repeat first | exact placed_bool _ | refine placed_ite ?_ ?_ | placed

theorem placed_territoryAttrs : ∀ (as : List Attr) (m : Metadata), Placed (territoryAttrs m as)
  | [], _ => placed_ok _
  | a :: as, m => by
    unfold territoryAttrs
    repeat first | exact placed_attr _ | exact placed_territoryAttr _ _ _ | exact placed_territoryAttrs as _ | placed

theorem placed_territoryLoop : ∀ (f : Nat) (m : Metadata) (es : List Event), Placed (territoryLoop f m es)
  | 0, _, _ => placed_err fun _ h => by cases h
  | _ + 1, _, [] => placed_eof
  | f + 1, m, e :: es => by
    unfold territoryLoop
    repeat first | exact placed_territoryLoop f _ _ | exact placed_ignore _ _ _ | exact placed_descriptor _ _ _ _ | exact placed_formats _ _ _ _ _ _ | placed

theorem placed_territories : ∀ (f : Nat) (acc : List Metadata) (es : List Event), Placed (territories f acc es)
  | 0, _, _ => placed_err fun _ h => by cases h
  | _ + 1, _, [] => placed_eof
  | f + 1, acc, e :: es => by
    unfold territories
    repeat first
      | exact placed_territories f _ _ | exact placed_ignore _ _ _
      | exact placed_bind (placed_territoryAttrs _ _) fun _ => placed_territoryLoop _ _ _ | placed

theorem placed_metadata : ∀ (f : Nat) (acc : List Metadata) (es : List Event), Placed (metadata f acc es)
  | 0, _, _ => placed_err fun _ h => by cases h
  | _ + 1, _, [] => placed_event (by decide)
  | f + 1, acc, e :: es => by
    unfold metadata
    repeat first | exact placed_metadata f _ _ | exact placed_ignore _ _ _ | exact placed_territories _ _ _ | placed

/-- C99: the metadata errors of loading name one of the parts, whatever the XML reader delivers. -/
theorem C99_load (es : List Event) (e : MetadataErr) (h : load es = .err (.metadata e)) (p : Str) (hp : Spec.placeOf e = some p) :
    p ∈ Spec.places := placed_metadata _ _ es e h p hp

/-- An empty input, and an unknown element in a territory. -/
example : load [] = .err (.metadata (.unhandledEvent (str% "metadata"))) ∧
    load [.start (.utf8 (str% "phoneNumberMetadata")) [], .start (.utf8 (str% "territories")) [], .start (.utf8 (str% "territory")) [],
      .start (.utf8 (str% "fax")) []] = .err (.metadata (.unhandledElement (str% "territory") (str% "fax"))) := by decide +kernel

end Loader

/-- C99: so do those of building a database. -/
theorem C99_from (compile : Str → Option Regex) (ms : List Loader.Metadata) (e : MetadataErr) (h : Database.from compile ms = .err (.metadata e)) (p : Str)
    (hp : Spec.placeOf e = some p) : p ∈ Spec.places := by
  rcases C96_errors (compile := compile) ms _ h with h | ⟨x, hx, h⟩
  · cases h
  · cases h
    cases hp
    exact (by decide : ∀ x ∈ [(str% "metadata", str% "generalDesc"), (str% "metadata", str% "id"), (str% "metadata", str% "countryCode"),
      (str% "format", str% "pattern"), (str% "format", str% "format")], x.1 ∈ Spec.places) x hx
end

end Phone
