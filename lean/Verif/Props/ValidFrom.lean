import Verif.Props.ValidNational
import Verif.Props.ValidNationalExceptions
import Verif.Builtin.Examples
/-! # C85: with which reference countries valid international numbers are read -/

namespace Phone
variable [UnicodeTables]
namespace Builtin

/-- The dialling prefixes that may begin with another digit than zero, and the calling codes of numbers that may begin with them. -/
def oddPrefixes : List (Str × List Nat) :=
  [(str% "001[14-689]|14(?:1[14]|34|4[17]|[56]6|7[47]|88)0011", []),
    (str% "00|99(?:[01469]|5(?:[14]1|3[23]|5[59]|77|88|9[09]))", [994, 995, 996]), (str% "810", [81]),
    (str% "(?:0|1(?:1[0-69]|2[02-5]|5[13-58]|69|7[0167]|8[018]))0", [1]), (str% "00|1(?:[12]\\d|79)\\d\\d00", [1]), (str% "119", []),
    (str% "00|1(?:0(?:01|[12]0)|100)", []), (str% "00|99", [992, 993, 994, 995, 996, 998]), (str% "00|19(?:1[124]|77|90)00", []),
    (str% "00|140[1-3]", [1]), (str% "00|10(?:22|66|88|99)", []), (str% "00|16", [1])]

/-- Reference countries and calling codes of numbers that may begin with the dialling prefix of the country. -/
def spoiled : List (Id × Nat) :=
  [(.AX, 994), (.AX, 995), (.AX, 996), (.CL, 1), (.CN, 1), (.FI, 994), (.FI, 995), (.FI, 996), (.KP, 992), (.KP, 993), (.KP, 994), (.KP, 995),
    (.KP, 996), (.KP, 998), (.PG, 1), (.TD, 1)]

/-- The dialling prefix of the territory begins with zero, or it is one of those listed and the territory is listed with their codes. -/
def prefixCheck (m : Loader.Metadata) : Bool :=
  match m.internationalPrefix with
  | none => true
  | some p => (oddPrefixes.any fun x => p == x.1 && x.2.all fun c => Nat.beq c 81 || spoiled.any fun y => m.id == some y.1.asRef && Nat.beq y.2 c) ||
    match compile p with
    | none => false
    | some re => ['1', '2', '3', '4', '5', '6', '7', '8', '9'].all fun c => (Run.step c (some [re.re])).dead

/-- No number of the territory begins, with its calling code, with the prefix. -/
def apartFrom (m : Loader.Metadata) (p : Str) : Bool :=
  match m.countryCode, compile p with
  | some c, some re => (Run.steps (decStr c) (some [re.re])).dead || apart m [] (Run.steps (decStr c) (some [re.re]))
  | _, _ => false

def fromCheckOf (m : Loader.Metadata) : Bool :=
  prefixCheck m && oddPrefixes.all fun x => x.2.any (fun c => m.countryCode == some c) || apartFrom m x.1

omit [UnicodeTables] in
theorem from_check1 : ((Data.territories.drop 0).take 50).all fromCheckOf = true := by kernel_rfl
omit [UnicodeTables] in
theorem from_check2 : ((Data.territories.drop 50).take 50).all fromCheckOf = true := by kernel_rfl
omit [UnicodeTables] in
theorem from_check3 : ((Data.territories.drop 100).take 50).all fromCheckOf = true := by kernel_rfl
omit [UnicodeTables] in
theorem from_check4 : ((Data.territories.drop 150).take 50).all fromCheckOf = true := by kernel_rfl
omit [UnicodeTables] in
theorem from_check5 : (Data.territories.drop 200).all fromCheckOf = true := by kernel_rfl

omit [UnicodeTables] in
theorem from_check : Data.territories.all fromCheckOf = true := in_parts from_check1 from_check2 from_check3 from_check4 from_check5

omit [UnicodeTables] in
theorem steps_dead (u : Str) : Run.steps u (some []) = some [] := by
  induction u with
  | nil => rfl
  | cons c u ih => exact ih

omit [UnicodeTables] in
theorem dead_eq {r : Run} (h : r.dead = true) : r = some [] := by
  unfold Run.dead at h
  split at h
  · rfl
  · cases h

omit [UnicodeTables] in
theorem nonzero_digit {c : Char} (h : isDigit c = true) (h0 : c ≠ '0') : c ∈ ['1', '2', '3', '4', '5', '6', '7', '8', '9'] := by
  rw [isDigit_iff] at h
  have h1 : c.toNat ≠ '0'.toNat := fun e => h0 (Char.toNat_inj.1 e)
  have : c = Char.ofNat c.toNat := by simp
  simp only [Char.reduceToNat] at h1
  generalize c.toNat = k at *
  subst this
  have : k = 49 ∨ k = 50 ∨ k = 51 ∨ k = 52 ∨ k = 53 ∨ k = 54 ∨ k = 55 ∨ k = 56 ∨ k = 57 := by omega
  rcases this with rfl | rfl | rfl | rfl | rfl | rfl | rfl | rfl | rfl <;> decide

/-- The digits of a valid number with its calling code do not begin with the dialling prefix of a country, with the exceptions listed. -/
theorem not_dialled {ε : Type} (n : PhoneNumber) (hv : isValid (ε := ε) n = .ok true) (h81 : n.code.value ≠ 81) (c : Id)
    (hx : (c, n.code.value) ∉ spoiled) : ¬ Spec.BeginsWithIdd db (some c) (decStr n.code.value ++ n.national.display) := by
  obtain ⟨md, hr, hg, _, ho, d, rfl, ha⟩ := (C63_valid ε compile Data.territories db from_builtin ids_nodup shared n).1 hv
  have hd : Digits n.national.display := digits_display _
  obtain ⟨l, hl, hmd⟩ := region_mem hr
  obtain ⟨m, hm, he, hc⟩ := territory_of_region hl hmd
  obtain ⟨hlen, _⟩ := valid_facts n hv
  obtain ⟨hlc, _⟩ := validCheck_mem valid_check hm hc
  obtain ⟨e, he1, he2⟩ := typed_of_entry he ho
  have hne : d.possibleLength ≠ [] := by
    have := List.all_eq_true.1 hlc e he1
    rw [Bool.and_eq_true, ← he2.possibleLength] at this
    simpa using this.1
  rintro ⟨md₂, re, f, k1, k2, k3, k4⟩
  obtain ⟨m₂, hm₂, hmm₂⟩ := entry_of_territory from_builtin (.inl ⟨_, k1⟩)
  have he₂ := metadata_rel _ _ hmm₂
  have hid : m₂.id = some c.asRef := by rw [he₂.id, ((from_consistent from_builtin).2.2.2 _ _ k1).1]
  have hfit : Run.Fits 0 (decStr n.code.value ++ n.national.display) (some [re.re]) := by
    have f' := find_eq_some k3
    have hl := f'.lang
    have hs := f'.split
    have hpre : f.pre = [] := by
      have : byteLen f.pre = 0 := k4
      exact byteLen_eq_zero.1 this
    rw [hpre] at hl hs
    exact ⟨_, by simp, _, _, hs, hl⟩
  rcases compiled_pattern he₂.internationalPrefix with ⟨_, e⟩ | ⟨p, re', e1, e2, e3⟩
  · rw [k2] at e; cases e
  rw [k2, Option.some.injEq] at e2
  subst e2
  have h1 := List.all_eq_true.1 from_check m₂ hm₂
  have h2 := List.all_eq_true.1 from_check m hm
  rw [fromCheckOf, Bool.and_eq_true] at h1 h2
  have h1 := h1.1
  have h2 := List.all_eq_true.1 h2.2
  rw [prefixCheck, e1] at h1
  simp only [e3] at h1
  rw [Bool.or_eq_true] at h1
  rcases h1 with h1 | h1
  · obtain ⟨x, hx1, hx2⟩ := List.any_eq_true.1 h1
    rw [Bool.and_eq_true] at hx2
    obtain ⟨hpx, hx2⟩ := hx2
    have h2 := h2 x hx1
    rw [← eq_of_beq hpx, Bool.or_eq_true] at h2
    rcases h2 with h2 | h2
    · obtain ⟨k, hk, hck⟩ := List.any_eq_true.1 h2
      rw [hc] at hck
      have hck : n.code.value = k := by simpa using hck
      subst hck
      have := List.all_eq_true.1 hx2 _ hk
      rw [Bool.or_eq_true] at this
      rcases this with h | h
      · exact h81 (Nat.eq_of_beq_eq_true h)
      · obtain ⟨y, hy, hyy⟩ := List.any_eq_true.1 h
        rw [Bool.and_eq_true, hid] at hyy
        have e4 : c.asRef = y.1.asRef := by simpa using hyy.1
        have e5 : y.2 = n.code.value := Nat.eq_of_beq_eq_true hyy.2
        have e6 : c = y.1 := (C43_names c y.1).2 e4
        exact hx (by rw [e6, ← e5]; exact hy)
    · rw [apartFrom, hc] at h2
      simp only [e3] at h2
      obtain ⟨p', hp'⟩ := Run.fits_steps (digits_decStr _) hfit
      rw [Bool.or_eq_true] at h2
      rcases h2 with h2 | h2
      · rw [dead_eq h2] at hp'
        obtain ⟨_, h, _⟩ := hp'
        cases h
      · exact apart_sound he h2 hd hlen.2 hg ho ha hne (by simp) p' hp'
  · have hcr := code_range (c := n.code.value) (by rw [hl]; rfl)
    have hz := decStr_head_ne_zero (n := n.code.value) (by omega)
    have hdd := digits_decStr n.code.value
    cases hs : decStr n.code.value with
    | nil => exact decStr_ne_nil _ hs
    | cons a u =>
      rw [hs] at hz hdd hfit
      have ha := hdd a (by simp)
      have hdead := dead_eq (List.all_eq_true.1 h1 a (nonzero_digit ha fun e => hz (by rw [e]; rfl)))
      have := Run.fits_step ha hfit
      rw [hdead] at this
      obtain ⟨_, h, _⟩ := this
      cases h

/-- C85: a valid number, whose calling code is not one of the twelve exceptions of C81, is read back from its E.164 form with every
reference country but those listed for its calling code. -/
theorem C85_e164 {ε : Type} (n : PhoneNumber) (hv : isValid (ε := ε) n = .ok true) (hz : n.national.value ≠ 0)
    (hc : n.code.value ∉ [7, 55, 62, 66, 81, 82, 91, 250, 359, 370, 375, 598]) (country : Option Id)
    (hx : ∀ c, country = some c → (c, n.code.value) ∉ [(Id.AX, 994), (.AX, 995), (.AX, 996), (.CL, 1), (.CN, 1), (.FI, 994), (.FI, 995),
      (.FI, 996), (.KP, 992), (.KP, 993), (.KP, 994), (.KP, 995), (.KP, 996), (.KP, 998), (.PG, 1), (.TD, 1)]) :
    ∃ s, format n .e164 = .ok s ∧
      parse country s = .ok { n with code := ⟨n.code.value, .plus⟩, extension := none, carrier := none } := by
  refine C81_e164 n hv hz hc country fun c h => ?_
  subst h
  exact not_dialled n hv (fun h => hc (by rw [h]; decide)) c (hx c rfl)

/-- C85: so is its international form, with an extension of one to seven digits. -/
theorem C85_international {ε : Type} (n : PhoneNumber) (hv : isValid (ε := ε) n = .ok true) (hz : n.national.value ≠ 0)
    (hc : n.code.value ∉ [7, 55, 62, 66, 81, 82, 91, 250, 359, 370, 375, 598])
    (hext : ∀ e, n.extension = some e → e ≠ [] ∧ e.length ≤ 7 ∧ ∀ c ∈ e, isDigit c = true) (country : Option Id)
    (hx : ∀ c, country = some c → (c, n.code.value) ∉ [(Id.AX, 994), (.AX, 995), (.AX, 996), (.CL, 1), (.CN, 1), (.FI, 994), (.FI, 995),
      (.FI, 996), (.KP, 992), (.KP, 993), (.KP, 994), (.KP, 995), (.KP, 996), (.KP, 998), (.PG, 1), (.TD, 1)]) :
    ∃ s, format n .international = .ok s ∧ parse country s = .ok { n with code := ⟨n.code.value, .plus⟩, carrier := none } := by
  refine C81_international n hv hz hc hext country fun c h => ?_
  subst h
  exact not_dialled n hv (fun h => hc (by rw [h]; decide)) c (hx c rfl)

/-- A valid number whose E.164 form is read as a number with the code `k` with the reference country, according to the territories of the
two codes and of the country. -/
def spoils (ms : List Loader.Metadata) (i : Id) (k : Nat) (p : PhoneNumber) : Bool :=
  match Database.from compile (ms.filter fun m => m.countryCode == some p.code.value || (m.countryCode == some k || m.id == some i.asRef)) with
  | .ok d => d.sharedCheck && !Nat.beq k p.code.value && !Nat.beq p.national.value.toNat 0 &&
    match isValidWith (ε := ParseErr) d p, parseWith d (some i) ('+' :: (decStr p.code.value ++ p.national.display)) with
    | .ok true, .ok q => Nat.beq q.code.value k
    | _, _ => false
  | _ => false

theorem spoils_builtin (i : Id) (k : Nat) (p : PhoneNumber) (h : spoils Data.territories i k p = true) :
    isValid (ε := ParseErr) p = .ok true ∧ p.national.value ≠ 0 ∧ k ≠ p.code.value ∧
      ∃ q, parse (some i) ('+' :: (decStr p.code.value ++ p.national.display)) = .ok q ∧ q.code.value = k := by
  revert h
  have hnd := ids_nodup
  have hfrom := from_builtin
  generalize Data.territories = ms at *
  intro h
  unfold spoils at h
  generalize hms : (ms.filter fun m => m.countryCode == some p.code.value || (m.countryCode == some k || m.id == some i.asRef)) = ms' at h
  have hmem : ∀ m ∈ ms', m ∈ ms := by
    intro m hm
    rw [← hms] at hm
    exact (List.mem_filter.1 hm).1
  split at h
  · rename_i d hd
    rw [Bool.and_eq_true, Bool.and_eq_true, Bool.and_eq_true, Bool.not_eq_true', Bool.not_eq_true'] at h
    obtain ⟨⟨⟨h1, h2⟩, h3⟩, h⟩ := h
    have hs := shared_of_check h1
    have hid' : ((ms'.filterMap (·.id)).filter (· ≠ worldId)).Nodup := by
      rw [← hms]
      exact hnd.sublist ((List.filter_sublist.filterMap _).filter _)
    have hcode : ms'.filter (·.countryCode == some p.code.value) = ms.filter (·.countryCode == some p.code.value) := by
      rw [← hms]
      exact filter_filter_of fun a _ ha => by rw [ha]; rfl
    obtain ⟨_, n2, _⟩ := C76_number compile ms ms' db d hfrom hd hnd hid' shared hs p hcode.symm
    split at h
    · rename_i q e1 e2
      have hq := Nat.eq_of_beq_eq_true h
      refine ⟨(n2 _).trans e1, fun e => ?_, fun e => ?_, q, ?_, hq⟩
      · rw [e] at h3; cases h3
      · rw [e] at h2; simp at h2
      · refine C76_some compile ms' ms d db hd hfrom hid' hnd hs shared prefixFree (some i) _ q e2 hmem ?_ ?_
        · rintro _ ⟨⟩
          rw [← hms]
          exact filter_filter_of fun a _ ha => by rw [ha]; simp
        · rw [hq, ← hms]
          exact filter_filter_of fun a _ ha => by rw [ha]; simp
    · cases h
  · cases h

/-- For each exception the code as which a number is read, and the national number (with the calling code of the exception). -/
def spoiledNumbers : List ((Id × Nat) × Nat × UInt64) :=
  [((.AX, 994), 40, 401234567), ((.AX, 995), 212, 322123456), ((.AX, 996), 31, 312123456), ((.CL, 1), 234, 2402345678),
    ((.CN, 1), 45, 2123004567), ((.FI, 994), 40, 401234567), ((.FI, 995), 212, 322123456), ((.FI, 996), 31, 312123456),
    ((.KP, 992), 237, 372123456), ((.KP, 993), 31, 12123456), ((.KP, 994), 44, 401234567), ((.KP, 995), 53, 322123456),
    ((.KP, 996), 63, 312123456), ((.KP, 998), 86, 669050123), ((.PG, 1), 234, 4012345678), ((.TD, 1), 502, 6502530000)]

theorem spoiled_numbers : spoiledNumbers.all (fun x => spoils Data.territories x.1.1 x.2.1 ⟨⟨x.1.2, .plus⟩, ⟨x.2.2⟩, none, none⟩) = true := by
  kernel_rfl

omit [UnicodeTables] in
theorem spoiled_numbers_pairs : spoiledNumbers.map Prod.fst = [(Id.AX, 994), (.AX, 995), (.AX, 996), (.CL, 1), (.CN, 1), (.FI, 994),
    (.FI, 995), (.FI, 996), (.KP, 992), (.KP, 993), (.KP, 994), (.KP, 995), (.KP, 996), (.KP, 998), (.PG, 1), (.TD, 1)] := rfl

/-- C85: with each of the reference countries listed, some valid number with the calling code is read as a number with another calling
code: the digits after the plus begin with the dialling prefix of the country, and what follows is taken for the number. -/
theorem C85_exceptions (c : Id) (k : Nat) (h : (c, k) ∈ [(Id.AX, 994), (.AX, 995), (.AX, 996), (.CL, 1), (.CN, 1), (.FI, 994), (.FI, 995),
      (.FI, 996), (.KP, 992), (.KP, 993), (.KP, 994), (.KP, 995), (.KP, 996), (.KP, 998), (.PG, 1), (.TD, 1)]) :
    ∃ (n : PhoneNumber) (s : Str) (q : PhoneNumber), n.code.value = k ∧ isValid (ε := ParseErr) n = .ok true ∧ n.national.value ≠ 0 ∧
      format n .e164 = .ok s ∧ parse (some c) s = .ok q ∧ q.code.value ≠ k := by
  rw [← spoiled_numbers_pairs] at h
  obtain ⟨⟨⟨c', k'⟩, j, v⟩, hx, e⟩ := List.mem_map.1 h
  cases e
  obtain ⟨h1, h2, h3, q, h4, h5⟩ := spoils_builtin _ _ _ (List.all_eq_true.1 spoiled_numbers _ hx)
  obtain ⟨s, hs⟩ := valid_formats h1 .e164
  have ht := e164_text hs
  exact ⟨_, _, q, rfl, h1, h2, ht, h4, by rw [h5]; exact h3⟩

/-- Chad is one of them: its dialling prefix is 00 or 16, and with Chad as reference country the Californian number +1 650-253-0000 is
read as a number of Guatemala. (It meets the hypotheses of `C85_e164` with every other reference country but Chile, China and Papua New
Guinea.) -/
theorem C85_chad : parse (some .TD) (str% "+16502530000") = .ok ⟨⟨502, .plus⟩, ⟨530000⟩, none, none⟩ ∧
    ∀ c : Id, c ∉ [Id.CL, .CN, .PG, .TD] → parse (some c) (str% "+16502530000") = .ok ⟨⟨1, .plus⟩, ⟨6502530000⟩, none, none⟩ := by
  constructor
  · exact locally_builtin (some .TD) _ ⟨⟨502, .plus⟩, ⟨530000⟩, none, none⟩ (by kernel_rfl)
  · intro c hc
    obtain ⟨h1, _⟩ := nationally_builtin ⟨⟨1, .plus⟩, ⟨6502530000⟩, none, none⟩ _ _ nationally_examples.2.2
    obtain ⟨s, hs, hp⟩ := C85_e164 ⟨⟨1, .plus⟩, ⟨6502530000⟩, none, none⟩ h1
      (fun h => absurd (congrArg UInt64.toNat h) (by decide +kernel)) (by decide) (some c) (by
        rintro _ ⟨⟩
        simp only [List.mem_cons, List.not_mem_nil, or_false, not_or, Prod.mk.injEq] at hc ⊢
        simp [hc])
    have ht := e164_text hs
    rw [show Formatter.fmt db _ .e164 none = _ from hs, Outcome.ok.injEq] at ht
    rw [← hp, ht]
    rfl

end Builtin
end Phone
