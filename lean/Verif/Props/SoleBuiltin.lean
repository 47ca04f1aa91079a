import Verif.Props.Sole
import Verif.Props.BuiltinPrefix
import Verif.Props.ParseText
/-! # C71 for the shipped database: Belgium and New Caledonia -/

namespace Phone.Builtin
open Database

/-- What the shipped territories say about a calling code that occurs once: the id and the national prefix; there is no parsing
pattern. -/
def soleCheck (ts : List Loader.Metadata) (c : Nat) (i : Id) (np : Option Str) : Bool :=
  (ts.filter (·.countryCode == some c)).length == 1 &&
  ts.all fun m => m.countryCode != some c || (m.id == some i.asRef && m.nationalPrefix == np && m.nationalPrefixForParsing.isNone)

variable [UnicodeTables]

omit [UnicodeTables] in
theorem sole_of_check {c : Nat} {i : Id} {np : Option Str} (h : soleCheck Data.territories c i np = true) :
    ∃ md, Spec.SoleRegion db c i md ∧ md.nationalPrefix = np := by
  simp only [soleCheck, Bool.and_eq_true, beq_iff_eq, List.all_eq_true, Bool.or_eq_true, bne_iff_ne, Option.isNone_iff_eq_none] at h
  obtain ⟨h1, h2⟩ := h
  obtain ⟨mds, hmap, _, hc, hl, _⟩ := C27_indexes _ _ from_builtin
  have hlen : (mds.filter (·.countryCode == c)).length = 1 := by
    have e := congrArg (fun l => (l.filter (fun p => p.2.1 == some c)).length) hmap
    simp only [List.filter_map, List.length_map] at e
    rw [← h1]
    exact e
  have hex : ∃ m ∈ Data.territories, m.countryCode = some c := by
    obtain ⟨m, hm⟩ := List.exists_mem_of_length_pos (by omega : 0 < (Data.territories.filter (·.countryCode == some c)).length)
    obtain ⟨h3, h4⟩ := List.mem_filter.1 hm
    exact ⟨m, h3, by simpa using h4⟩
  obtain ⟨hl', _⟩ := hl c hex
  have hll : (Spec.listed (fun x : Metadata => x.mainCountryForCode) (mds.filter (·.countryCode == c))).length = 1 := by
    simp only [Spec.listed, List.length_append, List.length_reverse]
    rw [← hlen, ← List.length_append]
    exact (List.filter_append_perm _ _).length_eq
  obtain ⟨md, hmd⟩ := List.length_eq_one_iff.1 hll
  rw [hmd] at hl'
  have he : Spec.Entry db md := .inr ⟨c, _, hl', by simp⟩
  obtain ⟨m, hm, hmm⟩ := entry_of_territory from_builtin he
  obtain ⟨f1, f2, _, f3, _, _, f4, _⟩ := metadata_fields hmm
  have hcode := ((from_consistent from_builtin).2.1 c _ hl').2 md (by simp)
  rw [hcode] at f2
  obtain ⟨⟨g1, g2⟩, g3⟩ := (h2 m hm).resolve_left (by rw [f2]; simp)
  rw [g1, Option.some.injEq] at f1
  rw [g3] at f4
  exact ⟨md, ⟨hl', f1.symm, f4, (good_iff he).2.2.2.2.2.2.2.1⟩, by rw [f3, g2]⟩

/-- C71 for the shipped database: four to sixteen digits after the calling code of a country that has it alone, has no parsing pattern
and whose national prefix, if any, is zero, are a number of that country exactly if they are not all zero. -/
theorem C71_builtin (c : Nat) (i : Id) (np : Option Str) (h : soleCheck Data.territories c i np = true) (hnp : np = none ∨ np = some ['0'])
    (r : Str) (hr : ∀ x ∈ r, isDigit x = true) (h4 : 4 ≤ r.length) (h16 : r.length ≤ 16) :
    ((∃ x ∈ r, x ≠ '0') → ∃ p, parse none ('+' :: (decStr c ++ r)) = .ok p ∧ countryId p = .ok (some i)) ∧
    ((∀ x ∈ r, x = '0') → parse none ('+' :: (decStr c ++ r)) = .err (.malformedInteger .empty)) := by
  obtain ⟨md, h1, h2⟩ := sole_of_check h
  exact C71_sole_iff compile Data.territories db from_builtin ids_nodup shared prefixFree (fun _ => digitTemplates) c i md h1
    (code_range (by simp [h1.only])) (h2 ▸ hnp) r hr h4 h16 none (fun _ h => by cases h)

omit [UnicodeTables] in
theorem be_sole : soleCheck Data.territories 32 .BE (some ['0']) = true := by kernel_rfl
omit [UnicodeTables] in
theorem nc_sole : soleCheck Data.territories 687 .NC none = true := by kernel_rfl

/-- C71: the project's property test `parse_belgian_phonenumbers` in `/repo/tests/prop.rs:52-57` – `+32` and eight or nine digits parse
to a number of Belgium – holds exactly for digits that are not all zero. -/
theorem C71_belgian (r : Str) (hr : ∀ x ∈ r, isDigit x = true) (hlen : r.length = 8 ∨ r.length = 9) :
    (∃ p, parse none ((str% "+32") ++ r) = .ok p ∧ countryId p = .ok (some .BE)) ↔ ∃ x ∈ r, x ≠ '0' := by
  obtain ⟨h1, h2⟩ := C71_builtin 32 .BE _ be_sole (.inr rfl) r hr (by omega) (by omega)
  refine ⟨fun ⟨p, hp, _⟩ => ?_, h1⟩
  apply Classical.byContradiction
  intro hn
  have := h2 fun x hx => Classical.byContradiction fun h => hn ⟨x, hx, h⟩
  have e : '+' :: (decStr 32 ++ r) = (str% "+32") ++ r := rfl
  rw [e, hp] at this
  cases this

/-- C71: the property test `issue82`, `/repo/tests/prop.rs:46-50`, for all digits and all punctuation: a plus, `687`, a space somewhere
and four to sixteen digits, not all zero, grouped in any way, are a number of New Caledonia. -/
theorem C71_new_caledonia (b r : Str) (hb : Spec.Plain b) (hsp : ' ' ∈ b) (hbd : b.filter isDigit = (str% "687") ++ r)
    (h4 : 4 ≤ r.length) (h16 : r.length ≤ 16) (h0 : ∃ x ∈ r, x ≠ '0') :
    ∃ p, parse none ('+' :: b) = .ok p ∧ countryId p = .ok (some .NC) := by
  have hr : ∀ x ∈ r, isDigit x = true := fun x hx => (List.mem_filter.1 (show x ∈ b.filter isDigit by rw [hbd]; simp [hx])).2
  have := C13_formatting_ignored db none ['+'] b (.inr rfl) hb (fun _ => hsp) (by rw [hbd]; simp)
  rw [hbd] at this
  obtain ⟨p, h1, h2⟩ := (C71_builtin 687 .NC _ nc_sole (.inl rfl) r hr h4 h16).1 h0
  exact ⟨p, this.trans h1, h2⟩

/-- Texts meeting the hypotheses. -/
example : Spec.Plain (str% "687 11.11 11") ∧ ' ' ∈ (str% "687 11.11 11") ∧ (str% "687 11.11 11").filter isDigit = (str% "687") ++ (str% "111111") ∧
    ∃ x ∈ (str% "111111"), x ≠ '0' := ⟨by unfold Spec.Plain; decide, by decide, by decide, by decide⟩

end Phone.Builtin
