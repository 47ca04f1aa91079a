import Verif.Props.ValidNational
import Verif.Builtin.Examples
/-! # C86: valid numbers dialled from abroad -/

namespace Phone
variable [UnicodeTables]

/-- The most characters a pattern without repetition and anchors can match. -/
def Re.maxLen : Re → Option Nat
  | .eps => some 0
  | .cls _ => some 1
  | .cat a b => a.maxLen.bind fun n => b.maxLen.map (n + ·)
  | .alt a b => a.maxLen.bind fun n => b.maxLen.map (max n ·)
  | .grp _ a => a.maxLen
  | _ => none

theorem lang_maxLen {r : Re} {p : Nat} {w q : Str} (h : Lang r p w q) {n : Nat} (hn : r.maxLen = some n) : w.length ≤ n := by
  induction h generalizing n with
  | eps => simp
  | cls _ => simp only [Re.maxLen, Option.some.injEq] at hn; simp [← hn]
  | cat _ _ i1 i2 =>
    simp only [Re.maxLen, Option.bind_eq_some_iff, Option.map_eq_some_iff] at hn
    obtain ⟨a, h1, b, h2, rfl⟩ := hn
    have := i1 h1
    have := i2 h2
    rw [List.length_append]; omega
  | altL _ i =>
    simp only [Re.maxLen, Option.bind_eq_some_iff, Option.map_eq_some_iff] at hn
    obtain ⟨a, h1, b, h2, rfl⟩ := hn
    have := i h1
    omega
  | altR _ i =>
    simp only [Re.maxLen, Option.bind_eq_some_iff, Option.map_eq_some_iff] at hn
    obtain ⟨a, h1, b, h2, rfl⟩ := hn
    have := i h2
    omega
  | starNil => cases hn
  | starCons => cases hn
  | grp _ i => exact i hn
  | bos => cases hn
  | eos => cases hn

/-- Without anchors what follows does not matter. -/
theorem lang_follow {r : Re} {p : Nat} {w q : Str} (h : Lang r p w q) {n : Nat} (hn : r.maxLen = some n) (q' : Str) : Lang r p w q' := by
  induction h generalizing n q' with
  | eps => exact .eps
  | cls h => exact .cls h
  | cat _ _ i1 i2 =>
    simp only [Re.maxLen, Option.bind_eq_some_iff, Option.map_eq_some_iff] at hn
    obtain ⟨a, h1, b, h2, rfl⟩ := hn
    exact .cat (i1 h1 _) (i2 h2 _)
  | altL _ i =>
    simp only [Re.maxLen, Option.bind_eq_some_iff, Option.map_eq_some_iff] at hn
    obtain ⟨a, h1, b, h2, rfl⟩ := hn
    exact .altL (i h1 _)
  | altR _ i =>
    simp only [Re.maxLen, Option.bind_eq_some_iff, Option.map_eq_some_iff] at hn
    obtain ⟨a, h1, b, h2, rfl⟩ := hn
    exact .altR (i h2 _)
  | starNil => cases hn
  | starCons => cases hn
  | grp _ i => exact .grp (i hn _)
  | bos => cases hn
  | eos => cases hn

/-- No word of digits that one of the patterns matches is continued by more digits to one the other matches. -/
def unextended (a b : Re) : Bool :=
  match b.maxLen with
  | none => false
  | some n => a.maxLen.isSome && !clash n [some [.cat b .eos], some [.cat a (Re.set [.range '0' '9'])]]

theorem unextended_sound {a b : Re} (h : unextended a b = true) {u : Str} {d : Char} {v q q' : Str} (hd : ∀ c ∈ u ++ d :: v, isDigit c = true)
    (ha : Lang a 0 u q) (hb : Lang b 0 (u ++ d :: v) q') : False := by
  unfold unextended at h
  split at h
  · cases h
  · rename_i n hn
    rw [Bool.and_eq_true, Option.isSome_iff_exists, Bool.not_eq_true'] at h
    obtain ⟨⟨k, hk⟩, h⟩ := h
    rw [clash_of_fits hd (lang_maxLen hb hn)] at h
    · cases h
    · intro r hr
      simp only [List.mem_cons, List.not_mem_nil, or_false] at hr
      rcases hr with rfl | rfl
      · refine ⟨0, _, List.mem_cons_self, u ++ d :: v, [], by simp, ?_⟩
        have := Lang.cat (v := []) (q := []) (lang_follow hb hn _) .eos
        rwa [List.append_nil] at this
      · refine ⟨0, _, List.mem_cons_self, u ++ [d], v, by simp, ?_⟩
        refine .cat (lang_follow ha hk _) (lang_set.2 ⟨d, rfl, ?_⟩)
        have := hd d (by simp)
        rw [isDigit_iff] at this
        simp [CItem.mem, this]

/-- A dialling prefix followed by other digits is found as such, if no dialling prefix continues it and it continues none. -/
theorem dialled_append {db : Database} {c : Id} {md : Metadata} {re : Regex} (hmd : db.byId c.asRef = some md)
    (hre : md.internationalPrefix = some re) {a : Re} (h1 : unextended a re.re = true) (h2 : unextended re.re a = true) {p rest : Str}
    (hd : ∀ c ∈ p, isDigit c = true) (hr : ∀ c ∈ rest, isDigit c = true) {q : Str} (ha : Lang a 0 p q) (hp : Spec.Dialled db (some c) p []) :
    Spec.Dialled db (some c) (p ++ rest) rest := by
  obtain ⟨md', re', m, k1, k2, k3, k4, k5⟩ := hp
  rw [hmd, Option.some.injEq] at k1
  subst k1
  rw [hre, Option.some.injEq] at k2
  subst k2
  have f := find_eq_some k3
  have hl := f.lang
  have hs := f.split
  rw [k4, k5] at hl hs
  rw [List.nil_append, List.append_nil] at hs
  rw [← hs] at hl
  have hk : ∃ k, re.re.maxLen = some k := by
    unfold unextended at h1
    split at h1
    · cases h1
    · exact ⟨_, by assumption⟩
  obtain ⟨k, hk⟩ := hk
  obtain ⟨m', hm', hpre⟩ := find_at_start_iff.2 ⟨p, rest, rfl, lang_follow hl hk rest⟩
  refine ⟨md, re, m', hmd, hre, hm', hpre, ?_⟩
  have f' := find_eq_some hm'
  have hl' := f'.lang
  have hs' := f'.split
  rw [hpre] at hl' hs'
  rw [List.nil_append] at hs'
  rcases List.append_eq_append_iff.1 hs' with ⟨x, e1, e2⟩ | ⟨x, e1, e2⟩
  · cases x with
    | nil => rw [List.nil_append] at e2; exact e2.symm
    | cons d x =>
      rw [e1] at hl'
      refine absurd (unextended_sound h1 ?_ ha hl') id
      intro c hc
      rcases List.mem_append.1 hc with hc | hc
      · exact hd c hc
      · exact hr c (by rw [e2]; exact List.mem_append_left _ hc)
  · cases x with
    | nil => rw [List.nil_append] at e2; exact e2
    | cons d x =>
      rw [e1] at ha
      exact absurd (unextended_sound h2 (e1 ▸ hd) hl' ha) id

/-- Digits dialled are read like the digits after the prefix with a plus and no reference country. -/
theorem dialled_as_plus (db : Database) (country : Option Id) (ds rest : Str) (hd : ∀ c ∈ ds, isDigit c = true)
    (h : Spec.Dialled db country ds rest) (h0 : ¬ ['0'] <+: rest) (h3 : 3 ≤ rest.length) :
    parseWith db country ds = parseWith db none ('+' :: rest) >>= fun p => .ok (Spec.withSource .idd p) := by
  obtain ⟨hdr, hle⟩ := dialled_digits hd h
  have hne : ds ≠ [] := by rintro rfl; simp at hle; simp [hle] at h3
  have hner : rest ≠ [] := by rintro rfl; simp at h3
  have hidd : ¬ Spec.BeginsWithIdd db none rest := by
    rintro ⟨t, ht⟩
    exact h0 ⟨'0' :: t, by simpa using ht⟩
  rw [parseWith_digits db country hd hne, parseWith_plus_digits db none hdr hner]
  have e1 := internationalPrefix_dialled (ε := ParseErr) hd h
  rw [if_neg h0] at e1
  rw [afterRead_international db country _ _ (show isViable ds = true from viable_digits hd (by omega)) e1 (.inr rfl) rfl,
    afterRead_international db none _ _ (show isViable ('+' :: rest) = true from viable_plus_digits hdr h3)
      (internationalPrefix_plus_digits db none hdr hidd) (.inl rfl) rfl]
  exact afterSource_from db .idd { national := rest, country := .plus }

namespace Builtin

/-- Apart from those of Bolivia, Hong Kong and the Seychelles no dialling prefix of a country continues another one. -/
def diallingPrefixCheck (m : Loader.Metadata) : Bool :=
  [str% "BO", str% "HK", str% "SC"].any (fun i => m.id == some i) ||
    match m.internationalPrefix with
    | none => true
    | some p => match compile p with
      | none => false
      | some re => unextended re.re re.re

omit [UnicodeTables] in
theorem dialling_prefix_check : Data.territories.all diallingPrefixCheck = true := by kernel_rfl

/-- C86: with any dialling prefix of the reference country, or 00 without one, digits that do not begin with zero are read as they are
after a plus without reference country, except that the source of the calling code is the dialling prefix. Bolivia, Hong Kong and the
Seychelles are excepted. -/
theorem C86_dialled (country : Option Id) (hx : ∀ c, country = some c → c ∉ [Id.BO, .HK, .SC]) (p rest b : Str)
    (hp : Spec.Dialled db country p []) (hd : ∀ c ∈ p, isDigit c = true) (hr : ∀ c ∈ rest, isDigit c = true) (h0 : ¬ ['0'] <+: rest)
    (h3 : 3 ≤ rest.length) (hb : Spec.Plain b) (hbd : b.filter isDigit = p ++ rest) :
    parse country b = parse none ('+' :: rest) >>= fun n => .ok (Spec.withSource .idd n) := by
  have hall : ∀ c ∈ p ++ rest, isDigit c = true := fun c hc => (List.mem_append.1 hc).elim (hd c) (hr c)
  have hc13 := C13_formatting_ignored db country [] b (.inl rfl) hb (by simp) (by rw [hbd, List.length_append]; omega)
  rw [List.nil_append, List.nil_append, hbd] at hc13
  rw [parse, hc13]
  refine dialled_as_plus db country _ rest hall ?_ h0 h3
  cases country with
  | none =>
    have hp : p = ['0', '0'] := hp
    rw [hp]; rfl
  | some c =>
    obtain ⟨md, re, m, k1, k2, k3, k4, k5⟩ := hp
    obtain ⟨t, ht, htt⟩ := entry_of_territory from_builtin (.inl ⟨_, k1⟩)
    have he := metadata_rel _ _ htt
    have hid : t.id = some c.asRef := by rw [he.id, ((from_consistent from_builtin).2.2.2 _ _ k1).1]
    have hchk := List.all_eq_true.1 dialling_prefix_check t ht
    rcases compiled_pattern he.internationalPrefix with ⟨_, e⟩ | ⟨s, re', e1, e2, e3⟩
    · rw [k2] at e; cases e
    rw [k2, Option.some.injEq] at e2
    subst e2
    rw [diallingPrefixCheck, e1] at hchk
    simp only [e3] at hchk
    rw [Bool.or_eq_true] at hchk
    have hun : unextended re.re re.re = true := by
      refine hchk.resolve_left fun h => ?_
      obtain ⟨i, hi, hii⟩ := List.any_eq_true.1 h
      rw [hid] at hii
      have hii : c.asRef = i := by simpa using hii
      have hx := hx c rfl
      simp only [List.mem_cons, List.not_mem_nil, or_false] at hi hx
      refine hx ?_
      rcases hi with rfl | rfl | rfl
      · exact .inl ((C43_names c .BO).2 hii)
      · exact .inr (.inl ((C43_names c .HK).2 hii))
      · exact .inr (.inr ((C43_names c .SC).2 hii))
    have hl : Lang re.re 0 p [] := by
      have f := find_eq_some k3
      have hl := f.lang
      have hs := f.split
      rw [k4, k5] at hl hs
      rw [List.nil_append, List.append_nil] at hs
      rwa [← hs] at hl
    exact dialled_append k1 k2 hun hun hd hr hl ⟨md, re, m, k1, k2, k3, k4, k5⟩

/-- C86: hence a valid number whose calling code is not one of the twelve exceptions of C81 is read when dialled from any of these
countries. -/
theorem C86_valid {ε : Type} (n : PhoneNumber) (hv : isValid (ε := ε) n = .ok true) (hz : n.national.value ≠ 0)
    (hc : n.code.value ∉ [7, 55, 62, 66, 81, 82, 91, 250, 359, 370, 375, 598]) (country : Option Id)
    (hx : ∀ c, country = some c → c ∉ [Id.BO, .HK, .SC]) (p b : Str)
    (hp : Spec.Dialled db country p []) (hd : ∀ c ∈ p, isDigit c = true)
    (hb : Spec.Plain b) (hbd : b.filter isDigit = p ++ decStr n.code.value ++ n.national.display) :
    parse country b = .ok ⟨⟨n.code.value, .idd⟩, n.national, none, none⟩ := by
  obtain ⟨s, hs, hps⟩ := C81_e164 n hv hz hc none (fun _ h => by cases h)
  have ht := e164_text hs
  rw [show Formatter.fmt db n .e164 none = _ from hs, Outcome.ok.injEq] at ht
  obtain ⟨hl, hk, _⟩ := valid_facts n hv
  have hcr := code_range (c := n.code.value) hk
  have hz := decStr_head_ne_zero (n := n.code.value) (by omega)
  have hne := decStr_ne_nil n.code.value
  have := C86_dialled country hx p (decStr n.code.value ++ n.national.display) b hp hd
    (fun c hc => (List.mem_append.1 hc).elim (digits_decStr _ c) (digits_display _ c)) (by
      rintro ⟨t, ht⟩
      cases hdec : decStr n.code.value with
      | nil => exact hne hdec
      | cons x xs =>
        rw [hdec] at ht hz
        simp only [List.cons_append, List.nil_append, List.cons.injEq] at ht
        exact absurd ht.1.symm (by simpa using hz))
    (by rw [List.length_append]; omega) hb (by rw [hbd, List.append_assoc])
  rw [this, show ('+' :: (decStr n.code.value ++ n.national.display)) = s by rw [ht], hps]
  rfl

/-! ## The three exceptions -/

/-- The dialling prefixes of the three countries, with the digits that may follow. -/
def ambiguous : List (Id × Str × Str × Str) :=
  [(.BO, str% "00(?:1\\d)?", str% "0010", str% "123456789"), (.BO, str% "00(?:1\\d)?", str% "0011", str% "123456789"),
    (.BO, str% "00(?:1\\d)?", str% "0012", str% "123456789"), (.BO, str% "00(?:1\\d)?", str% "0013", str% "123456789"),
    (.BO, str% "00(?:1\\d)?", str% "0014", str% "123456789"), (.BO, str% "00(?:1\\d)?", str% "0015", str% "123456789"),
    (.BO, str% "00(?:1\\d)?", str% "0016", str% "123456789"), (.BO, str% "00(?:1\\d)?", str% "0017", str% "123456789"),
    (.BO, str% "00(?:1\\d)?", str% "0018", str% "123456789"), (.BO, str% "00(?:1\\d)?", str% "0019", str% "123456789"),
    (.BO, str% "00(?:1\\d)?", str% "00", str% "23456789"),
    (.HK, str% "00(?:30|5[09]|[126-9]?)", str% "001", str% "123456789"), (.HK, str% "00(?:30|5[09]|[126-9]?)", str% "002", str% "123456789"),
    (.HK, str% "00(?:30|5[09]|[126-9]?)", str% "006", str% "123456789"), (.HK, str% "00(?:30|5[09]|[126-9]?)", str% "007", str% "123456789"),
    (.HK, str% "00(?:30|5[09]|[126-9]?)", str% "008", str% "123456789"), (.HK, str% "00(?:30|5[09]|[126-9]?)", str% "009", str% "123456789"),
    (.HK, str% "00(?:30|5[09]|[126-9]?)", str% "0030", str% "123456789"), (.HK, str% "00(?:30|5[09]|[126-9]?)", str% "0050", str% "123456789"),
    (.HK, str% "00(?:30|5[09]|[126-9]?)", str% "0059", str% "123456789"), (.HK, str% "00(?:30|5[09]|[126-9]?)", str% "00", str% "4"),
    (.SC, str% "010|0[0-2]", str% "010", str% "123456789"), (.SC, str% "010|0[0-2]", str% "00", str% "123456789"),
    (.SC, str% "010|0[0-2]", str% "01", str% "123456789"), (.SC, str% "010|0[0-2]", str% "02", str% "123456789")]

def ambiguousCases : List (Str × Str × Char) := ambiguous.flatMap fun x => x.2.2.2.map fun d => (x.2.1, x.2.2.1, d)

theorem ambiguous_find (rest : Str) :
    (ambiguousCases.map fun x => ((compile x.1).bind (·.find (x.2.1 ++ x.2.2 :: rest))).map fun m => (m.pre, m.post)) =
      ambiguousCases.map fun x => some ([], x.2.2 :: rest) := by kernel_rfl

/-- The dialling prefixes of the three countries are those. -/
def ambiguousCheck (m : Loader.Metadata) : Bool :=
  ambiguous.all fun x => m.id != some x.1.asRef || m.internationalPrefix == some x.2.1

omit [UnicodeTables] in
theorem ambiguous_check : Data.territories.all ambiguousCheck = true := by kernel_rfl

/-- For the three countries: the prefixes listed, followed by a digit listed, are read like a plus without reference country. -/
theorem ambiguous_read {c : Id} {pat p next : Str} (hx : (c, pat, p, next) ∈ ambiguous) (d : Char) (hdn : d ∈ next) (rest b : Str)
    (hd : ∀ c ∈ p, isDigit c = true) (hr : ∀ c ∈ d :: rest, isDigit c = true) (h0 : d ≠ '0') (h3 : 2 ≤ rest.length) (hb : Spec.Plain b)
    (hbd : b.filter isDigit = p ++ d :: rest) :
    parse (some c) b = parse none ('+' :: d :: rest) >>= fun n => .ok (Spec.withSource .idd n) := by
  have hall : ∀ c ∈ p ++ d :: rest, isDigit c = true := fun c hc => (List.mem_append.1 hc).elim (hd c) (hr c)
  have hc13 := C13_formatting_ignored db (some c) [] b (.inl rfl) hb (by simp)
    (by rw [hbd, List.length_append, List.length_cons]; omega)
  rw [List.nil_append, List.nil_append, hbd] at hc13
  rw [parse, hc13]
  refine dialled_as_plus db (some c) _ (d :: rest) hall ?_ (fun ⟨t, ht⟩ => h0 (by simp at ht; exact ht.1.symm))
    (by rw [List.length_cons]; omega)
  obtain ⟨md, k1⟩ := Option.isSome_iff_exists.1 (id_present c)
  obtain ⟨t, ht, htt⟩ := entry_of_territory from_builtin (.inl ⟨_, k1⟩)
  have he := metadata_rel _ _ htt
  have hid : t.id = some c.asRef := by rw [he.id, ((from_consistent from_builtin).2.2.2 _ _ k1).1]
  have hchk := List.all_eq_true.1 (List.all_eq_true.1 ambiguous_check t ht) _ hx
  rw [Bool.or_eq_true, hid] at hchk
  have hpat : t.internationalPrefix = some pat := eq_of_beq (hchk.resolve_left (by simp))
  have hm : (pat, p, d) ∈ ambiguousCases := List.mem_flatMap.2 ⟨_, hx, List.mem_map.2 ⟨d, hdn, rfl⟩⟩
  have hf := List.map_inj_left.1 (ambiguous_find rest) _ hm
  rcases compiled_pattern he.internationalPrefix with ⟨e, _⟩ | ⟨s, re, e1, e2, e3⟩
  · rw [hpat] at e; cases e
  rw [hpat, Option.some.injEq] at e1
  subst e1
  simp only [e3, Option.bind_some, Option.map_eq_some_iff, Prod.mk.injEq] at hf
  obtain ⟨m, hm, h1, h2⟩ := hf
  exact ⟨md, re, m, k1, e2, hm, h1, h2⟩

/-- C86 for the three countries: all dialling prefixes of the Seychelles, those of Bolivia and Hong Kong but 00, and 00 in Bolivia
unless a 1 follows, in Hong Kong if a 4 follows, are read like a plus without reference country. -/
theorem C86_ambiguous (c : Id) (p : Str) (d : Char) (rest b : Str)
    (h : c = .SC ∧ p ∈ [str% "00", str% "01", str% "02", str% "010"] ∨
      c = .BO ∧ (p ∈ [str% "0010", str% "0011", str% "0012", str% "0013", str% "0014", str% "0015", str% "0016", str% "0017", str% "0018",
        str% "0019"] ∨ p = str% "00" ∧ d ≠ '1') ∨
      c = .HK ∧ (p ∈ [str% "001", str% "002", str% "006", str% "007", str% "008", str% "009", str% "0030", str% "0050", str% "0059"] ∨
        p = str% "00" ∧ d = '4'))
    (hr : ∀ c ∈ d :: rest, isDigit c = true) (h0 : d ≠ '0') (h3 : 2 ≤ rest.length) (hb : Spec.Plain b)
    (hbd : b.filter isDigit = p ++ d :: rest) :
    parse (some c) b = parse none ('+' :: d :: rest) >>= fun n => .ok (Spec.withSource .idd n) := by
  have hd : d ∈ (str% "123456789") := by
    have := digit_listed (hr d (by simp))
    simp only [List.mem_cons, List.not_mem_nil, or_false] at this ⊢
    exact this.resolve_left h0
  have key : ∀ {pat next : Str}, (c, pat, p, next) ∈ ambiguous → d ∈ next → (∀ c ∈ p, isDigit c = true) → 
      parse (some c) b = parse none ('+' :: d :: rest) >>= fun n => .ok (Spec.withSource .idd n) :=
    fun h1 h2 h4 => ambiguous_read h1 d h2 rest b h4 hr h0 h3 hb hbd
  simp only [List.mem_cons, List.not_mem_nil, or_false] at h
  rcases h with ⟨rfl, rfl | rfl | rfl | rfl⟩ | ⟨rfl, (rfl | rfl | rfl | rfl | rfl | rfl | rfl | rfl | rfl | rfl) | ⟨rfl, hd1⟩⟩ |
    ⟨rfl, (rfl | rfl | rfl | rfl | rfl | rfl | rfl | rfl | rfl) | ⟨rfl, rfl⟩⟩
  all_goals first
    | exact key (pat := str% "010|0[0-2]") (next := str% "123456789") (by decide) hd (by decide)
    | exact key (pat := str% "00(?:1\\d)?") (next := str% "123456789") (by decide) hd (by decide)
    | exact key (pat := str% "00(?:30|5[09]|[126-9]?)") (next := str% "123456789") (by decide) hd (by decide)
    | exact key (pat := str% "00(?:30|5[09]|[126-9]?)") (next := str% "4") (by decide) (by decide) (by decide)
    | exact key (pat := str% "00(?:1\\d)?") (next := str% "23456789") (by decide)
        (by simp only [List.mem_cons, List.not_mem_nil, or_false] at hd ⊢; exact hd.resolve_left hd1) (by decide)

/-- C86: the excluded cases are misread. Dialled with 00 from Bolivia, whose dialling prefix is 00 or 00 with 1 and another digit, the
Californian number 1 650-253-0000 is read as a number of Guatemala; from Hong Kong, whose dialling prefix is 00 or 001 among others, the
number 1 212-736-5000 of New York is read as one of Morocco. -/
theorem C86_misread :
    parse (some .BO) (str% "00 1 650 253 0000") = .ok ⟨⟨502, .idd⟩, ⟨530000⟩, none, none⟩ ∧
    parse (some .HK) (str% "00 1 212 736 5000") = .ok ⟨⟨212, .idd⟩, ⟨7365000⟩, none, none⟩ :=
  ⟨locally_builtin (some .BO) _ ⟨⟨502, .idd⟩, ⟨530000⟩, none, none⟩ (by kernel_rfl),
    locally_builtin (some .HK) _ ⟨⟨212, .idd⟩, ⟨7365000⟩, none, none⟩ (by kernel_rfl)⟩

/-- The territory of the country has the text as dialling prefix. -/
def dialsWith (ms : List Loader.Metadata) (c : Id) (p : Str) : Bool :=
  ms.all fun m => m.id != some c.asRef || match m.internationalPrefix.bind compile with
    | none => false
    | some re => match re.find p with
      | some m => m.pre.isEmpty && m.post.isEmpty
      | none => false

theorem dialsWith_builtin {c : Id} {p : Str} (h : dialsWith Data.territories c p = true) : Spec.Dialled db (some c) p [] := by
  obtain ⟨md, k1⟩ := Option.isSome_iff_exists.1 (id_present c)
  obtain ⟨t, ht, htt⟩ := entry_of_territory from_builtin (.inl ⟨_, k1⟩)
  have he := metadata_rel _ _ htt
  have hid : t.id = some c.asRef := by rw [he.id, ((from_consistent from_builtin).2.2.2 _ _ k1).1]
  have hchk := List.all_eq_true.1 h t ht
  rw [Bool.or_eq_true, hid] at hchk
  have hchk := hchk.resolve_left (by simp)
  rcases compiled_pattern he.internationalPrefix with ⟨e, _⟩ | ⟨s, re, e1, e2, e3⟩
  · rw [e] at hchk; cases hchk
  rw [e1, Option.bind_some, e3] at hchk
  cases hf : re.find p with
  | none => simp [hf] at hchk
  | some m =>
    simp only [hf, Bool.and_eq_true, List.isEmpty_iff] at hchk
    exact ⟨md, re, m, k1, e2, hf, hchk.1, hchk.2⟩

/-- Dialling prefixes of some countries. -/
def someDialling : List (Id × Str) :=
  [(.US, str% "011"), (.DE, str% "00"), (.AU, str% "0011"), (.BR, str% "0015"), (.RU, str% "810"), (.FI, str% "990"), (.JP, str% "010"),
    (.CL, str% "1230"), (.SG, str% "001"), (.TD, str% "16")]

theorem some_dialling : (someDialling.all fun x => dialsWith Data.territories x.1 x.2) = true := by kernel_rfl

/-- The hypotheses are met: the Californian number dialled from the United States, Germany, Australia, Brazil, Russia, Finland, Japan, Chile,
Singapore and Chad. -/
example (c : Id) (p : Str) (h : (c, p) ∈ someDialling) :
    parse (some c) (p ++ str% " 1 (650) 253-0000") = .ok ⟨⟨1, .idd⟩, ⟨6502530000⟩, none, none⟩ := by
  obtain ⟨h1, _⟩ := nationally_builtin ⟨⟨1, .plus⟩, ⟨6502530000⟩, none, none⟩ _ _ nationally_examples.2.2
  have hd := dialsWith_builtin (List.all_eq_true.1 some_dialling _ h)
  have hf : ((c, p).1 ∉ [Id.BO, .HK, .SC]) ∧ (∀ x ∈ p, isDigit x = true) ∧ (p ++ str% " 1 (650) 253-0000").all (fun c => isDigit c || c == ' ' || c == '-' || c == '(' || c == ')') = true := by
    revert h
    generalize hx : (c, p) = x
    intro h
    have : ∀ x ∈ someDialling, (x.1 ∉ [Id.BO, .HK, .SC]) ∧ (∀ y ∈ x.2, isDigit y = true) ∧
      (x.2 ++ str% " 1 (650) 253-0000").all (fun c => isDigit c || c == ' ' || c == '-' || c == '(' || c == ')') = true := by decide
    subst hx
    exact this _ h
  refine C86_valid ⟨⟨1, .plus⟩, ⟨6502530000⟩, none, none⟩ h1 (fun h => absurd (congrArg UInt64.toNat h) (by decide +kernel)) (by decide) (some c)
    (by rintro _ ⟨⟩; exact hf.1) p _ hd hf.2.1 ?_ ?_
  · intro x hx
    have := List.all_eq_true.1 hf.2.2 x hx
    simp only [Bool.or_eq_true, beq_iff_eq] at this
    rcases this with (((h | h) | h) | h) | h
    · exact .inl h
    all_goals exact .inr (by rw [h]; decide)
  · rw [List.filter_append, filter_digits hf.2.1, List.append_assoc]
    kernel_rfl

end Builtin
end Phone
