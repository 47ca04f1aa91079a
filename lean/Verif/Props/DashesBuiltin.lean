import Verif.Props.Dashes
import Verif.Props.LocalBuiltin
/-! # C77 for the shipped database -/

namespace Phone

/-- The digits after a plus are read alike with two databases that have the same territories of the calling code. -/
theorem parse_plus_local [UnicodeTables] {compile : Str → Option Regex} {ms ms' : List Loader.Metadata} {db db' : Database}
    (hdb : Database.from compile ms = .ok db) (hdb' : Database.from compile ms' = .ok db')
    (hid : ((ms.filterMap (·.id)).filter (· ≠ worldId)).Nodup) (hid' : ((ms'.filterMap (·.id)).filter (· ≠ worldId)).Nodup)
    (hs : Spec.SharedAreCountries db) (hs' : Spec.SharedAreCountries db') (hp : Spec.PrefixFree db) (hp' : Spec.PrefixFree db')
    {c : Nat} (hc : ms.filter (·.countryCode == some c) = ms'.filter (·.countryCode == some c)) (hk : (db.byCode c).isSome)
    (hr : 1 ≤ c ∧ c ≤ 999) {r : Str} (hd : Digits r) (hlen : 3 ≤ (decStr c ++ r).length) :
    parseWith db none ('+' :: (decStr c ++ r)) = parseWith db' none ('+' :: (decStr c ++ r)) := by
  have hb := byCode_local hdb hdb' hc
  rw [parse_plus_code hp hk hr hd hlen (by simp), parse_plus_code hp' (hb ▸ hk) hr hd hlen (by simp)]
  congr 1
  have hpc : prefixCode { national := r, country := .plus, pref := some (decStr c) } = .ok c :=
    prefixCode_decStr rfl (by omega)
  obtain ⟨src, src', h1, h2, h3⟩ := source_local compile ms ms' db db' hdb hdb' hid hid' hs hs' ParseErr hb (r.dropWhile (· == '0'))
  unfold parseMeta
  simp only [hpc, Outcome.bind_ok, h1, h2, h3]

namespace Builtin
variable [UnicodeTables]

/-- C77 for the shipped database: without reference country, an international number with a known calling code and at least three
national digits is read alike whether it is written without formatting, with formatting characters and a space, or with separators. -/
theorem C77_builtin (c : Nat) (hk : (db.byCode c).isSome) (r : Str) (hr : Digits r) (h3 : 3 ≤ r.length) (t : Str)
    (ht : Spec.Written c r t) : parse none t = parse none ('+' :: (decStr c ++ r)) :=
  C77_written db prefixFree none c hk (code_range hk) r hr h3 (by simp) t ht

omit [UnicodeTables] in
/-- The territories of a calling code alone. -/
theorem filtered (ms : List Loader.Metadata) (hid : ((ms.filterMap (·.id)).filter (· ≠ worldId)).Nodup) (c : Nat) :
    ms.filter (·.countryCode == some c) = (ms.filter (·.countryCode == some c)).filter (·.countryCode == some c) ∧
    (((ms.filter (·.countryCode == some c)).filterMap (·.id)).filter (· ≠ worldId)).Nodup := by
  refine ⟨by rw [List.filter_filter]; simp, ?_⟩
  exact hid.sublist ((List.filter_sublist.filterMap _).filter _)

omit [UnicodeTables] in
theorem alone {compile : Str → Option Regex} {ms : List Loader.Metadata} {db' : Database} {c : Nat}
    (h : Database.from compile (ms.filter (·.countryCode == some c)) = .ok db') : Spec.PrefixFree db' := by
  have key : ∀ d, (db'.byCode d).isSome → d = c := by
    intro d hd
    obtain ⟨l, hl⟩ := Option.isSome_iff_exists.1 hd
    obtain ⟨hne, hcode⟩ := (from_consistent h).2.1 d l hl
    obtain ⟨md, hm⟩ := List.exists_mem_of_ne_nil l hne
    obtain ⟨m, hm', hmd⟩ := entry_of_territory h (.inr ⟨d, l, hl, hm⟩)
    have h1 := (metadata_fields hmd).2.1
    have h2 : m.countryCode = some c := by simpa using (List.mem_filter.1 hm').2
    have h3 := hcode md hm
    rw [h2] at h1
    have h1 := Option.some.inj h1
    omega
  intro a b ha hb _
  rw [key a ha, key b hb]

/-- What a database of some territories says about a text. -/
def says (ms : List Loader.Metadata) (s : Str) (p : PhoneNumber) : Bool × Outcome ParseErr PhoneNumber × Outcome ParseErr (Option Id) :=
  match Database.from compile ms with
  | .ok d => (d.sharedCheck, parseWith d none s, p.countryId d)
  | _ => (false, .err .noNumber, .ok none)

/-- The digits after a plus are read by the built-in database as by one of the territories of their calling code. -/
theorem parse_plus_builtin (c : Nat) (r : Str) (hd : Digits r) (hlen : 3 ≤ (decStr c ++ r).length) (p : PhoneNumber) (i : Option Id)
    (hpc : p.code.value = c)
    (h : says (Data.territories.filter (·.countryCode == some c)) ('+' :: (decStr c ++ r)) p = (true, .ok p, .ok i)) :
    (db.byCode c).isSome ∧ parse none ('+' :: (decStr c ++ r)) = .ok p ∧ countryId p = .ok i := by
  revert h
  generalize hms : Data.territories.filter (·.countryCode == some c) = ms
  intro h
  unfold says at h
  split at h
  · rename_i d hd'
    simp only [Prod.mk.injEq] at h
    obtain ⟨h1, h2, h3⟩ := h
    obtain ⟨f1, f2⟩ := filtered Data.territories ids_nodup c
    rw [hms] at f1 f2
    have hb := byCode_local from_builtin hd' (c := c) (by rw [hms]; exact f1)
    have hk : (db.byCode c).isSome := by
      rw [hb]
      obtain ⟨_, ⟨l, hl, _⟩, _⟩ := C07_code_known _ _ _ hd' none _ p h2
      rw [hpc] at hl
      rw [hl]; rfl
    have hs := shared_of_check h1
    refine ⟨hk, ?_, ?_⟩
    · rw [← h2]
      exact parse_plus_local from_builtin hd' ids_nodup f2 shared hs prefixFree (alone (hms ▸ hd')) (by rw [hms]; exact f1) hk
        (code_range hk) hd hlen
    · rw [← h3]
      exact (C76_builtin_number ms d hd' f2 hs p (by rw [hpc, hms]; exact f1)).2.1
  · cases h

theorem us_number : says (Data.territories.filter (·.countryCode == some 1)) ('+' :: (decStr 1 ++ (str% "6502530000")))
    ⟨⟨1, .plus⟩, ⟨6502530000⟩, none, none⟩ = (true, .ok ⟨⟨1, .plus⟩, ⟨6502530000⟩, none, none⟩, .ok (some .US)) := by kernel_rfl

/-- C77: the number of the property test `parse_mixed_spaces_and_dashes` (`/repo/tests/prop.rs:31-37`), however it is written. -/
theorem C77_us (t : Str) (ht : Spec.Written 1 (str% "6502530000") t) :
    parse none t = .ok ⟨⟨1, .plus⟩, ⟨6502530000⟩, none, none⟩ ∧ countryId ⟨⟨1, .plus⟩, ⟨6502530000⟩, none, none⟩ = .ok (some .US) := by
  obtain ⟨h1, h2, h3⟩ := parse_plus_builtin 1 (str% "6502530000") (by decide) (by decide) _ _ rfl us_number
  exact ⟨(C77_builtin 1 h1 (str% "6502530000") (by decide) (by decide) t ht).trans h2, h3⟩

/-- Texts the property test draws, and others. -/
example : Spec.Written 1 (str% "6502530000") (str% "+1-650-253-0000") ∧ Spec.Written 1 (str% "6502530000") (str% "+1 650-253 0000") ∧
    Spec.Written 1 (str% "6502530000") (str% "+1-650 253-0000") ∧ Spec.Written 1 (str% "6502530000") (str% "+1(650)253.00-00") :=
  ⟨.grouped _ ⟨by decide, by decide, '-', str% "650-253-0000", rfl, by decide, by decide, by decide⟩,
    .spaced (str% "1 650-253 0000") (by unfold Spec.Plain; decide) (by decide) (by decide),
    .spaced (str% "1-650 253-0000") (by unfold Spec.Plain; decide) (by decide) (by decide),
    .grouped _ ⟨by decide, by decide, '(', str% "650)253.00-00", rfl, by decide, by decide, by decide⟩⟩

end Builtin
end Phone
