import Verif.Props.Builtin
import Verif.Props.NationalPrefix
/-! # National prefix and carrier with the shipped database -/

namespace Phone.Builtin
open Database

theorem entry_of_id {i : Str} {md : Metadata} (h : db.byId i = some md) :
    ∃ m ∈ Data.territories, Database.metadata compile m = .ok md ∧ m.id = some i := by
  obtain ⟨m, hm, hmd⟩ := entry_of_territory from_builtin (.inl ⟨i, h⟩)
  refine ⟨m, hm, hmd, ?_⟩
  have := ((from_consistent from_builtin).2.2.2 i md h).1
  rw [← this]
  exact (metadata_fields hmd).1

section
variable [UnicodeTables]

/-- C58 for the shipped database: whatever the reference country, digits that begin with its calling code are read as if a plus stood
before them. -/
theorem C58_builtin (c : Id) (md : Metadata) (hmd : db.byId c.asRef = some md) (r : Str) (hr : ∀ x ∈ r, isDigit x = true)
    (h3 : 3 ≤ (decStr md.countryCode ++ r).length) (hidd : ¬ Spec.BeginsWithIdd db (some c) (decStr md.countryCode ++ r)) :
    parse (some c) (decStr md.countryCode ++ r) =
      (parse none ('+' :: (decStr md.countryCode ++ r)) >>= fun p => .ok { p with code := ⟨p.code.value, .number⟩ }) := by
  have hk := ((from_consistent from_builtin).2.2.2 _ md hmd).2
  exact C58_own_code db prefixFree c md hmd hk (code_range hk) (good_iff (.inl ⟨_, hmd⟩)).2.2.2.2.2.2.2.1 r hr h3 hidd

/-- C46 for the shipped database: with a national prefix and without parsing pattern, the form with the prefix and the bare form of a
nationally written number are the same number. -/
theorem C46_builtin (c : Id) (md : Metadata) (hmd : db.byId c.asRef = some md) (np : Str) (hnp : md.nationalPrefix = some np)
    (hpat : md.nationalPrefixForParsing = none) (r : Str) (hr : Spec.WrittenNationally db c md r) (hn : ¬ np <+: r)
    (hr2 : Spec.WrittenNationally db c md (np ++ r)) : parse (some c) (np ++ r) = parse (some c) r :=
  C46_national_bare db c md hmd np ⟨hnp, hpat, (good_iff (.inl ⟨_, hmd⟩)).2.2.2.2.2.2.2.1⟩ r hr hn hr2

/-- C45 for the shipped database: the prefix is removed twice. -/
theorem C45_builtin (c : Id) (md : Metadata) (hmd : db.byId c.asRef = some md) (np : Str) (hnp : md.nationalPrefix = some np)
    (hpat : md.nationalPrefixForParsing = none) (r : Str) (hr : Spec.WrittenNationally db c md r) (hn : ¬ np <+: r)
    (hr2 : Spec.WrittenNationally db c md (np ++ (np ++ r))) : parse (some c) (np ++ (np ++ r)) = parse (some c) r :=
  C45_twice db c md hmd np ⟨hnp, hpat, (good_iff (.inl ⟨_, hmd⟩)).2.2.2.2.2.2.2.1⟩ r hr hn hr2

omit [UnicodeTables] in
theorem gb_fields : Data.territories.all (fun m => m.id != some (str% "GB") ||
    (m.nationalPrefixForParsing == some (str% "0|180020") && m.internationalPrefix == some (str% "00") && m.nationalPrefixTransformRule.isNone &&
      m.countryCode == some 44)) = true := by kernel_rfl

theorem find_zero (ds : Str) (re : Regex) (b : Re) (hre : re.re = .alt (.chr '0') b) :
    re.find ('0' :: ds) = some ⟨[], ['0'], ds, []⟩ := by
  unfold Regex.find
  simp [hre, searchFrom, matchAt, run, Re.chr, Cls.mem, CItem.mem, byteLen]

/-- C49 for the shipped database: every nationally written British number with its leading zero is reported to have the carrier
code 0. -/
theorem C49_gb (ds : Str) (hd : ∀ x ∈ ds, isDigit x = true) (hne : ds ≠ []) (h0 : ds.head? ≠ some '0') (p : PhoneNumber)
    (h : parse (some .GB) ('0' :: ds) = .ok p) : p.carrier = some ['0'] := by
  obtain ⟨md, hmd⟩ := Option.isSome_iff_exists.1 (id_present .GB)
  obtain ⟨m, hm, hmm, hi⟩ := entry_of_id hmd
  have hf := List.all_eq_true.1 gb_fields m hm
  have hi' : m.id = some (str% "GB") := hi
  simp only [hi', bne_self_eq_false, Bool.false_or, Bool.and_eq_true, beq_iff_eq, Option.isNone_iff_eq_none] at hf
  obtain ⟨⟨⟨f1, f2⟩, f3⟩, f4⟩ := hf
  obtain ⟨_, e1, _, _, e2, _, e3, e4, _⟩ := metadata_fields hmm
  have hc0 : ∃ b, compile (str% "0|180020") = some ⟨str% "0|180020", .alt (.chr '0') b, 0⟩ := 
    ⟨match compile (str% "0|180020") with | some ⟨_, .alt _ b, _⟩ => b | _ => .eps, by kernel_rfl⟩
  have hc00 : compile (str% "00") = some ⟨str% "00", .cat (.chr '0') (.chr '0'), 0⟩ := by kernel_rfl
  obtain ⟨b, hc0⟩ := hc0
  rw [f1, Option.bind_some, hc0] at e3
  rw [f2, Option.bind_some, hc00] at e4
  rw [f3] at e2
  rw [f4, Option.some.injEq] at e1
  refine C49_prefix_as_carrier db .GB md hmd _ e3 rfl e2 (good_iff (.inl ⟨_, hmd⟩)).2.2.2.2.2.2.2.1 ('0' :: ds) ⟨?_, ?_, ?_, ?_⟩ _
    (find_zero ds _ b rfl) rfl p h
  · intro x hx
    rcases List.mem_cons.1 hx with rfl | hx
    · decide
    · exact hd x hx
  · have := List.length_pos_iff.2 hne
    simp; omega
  · rw [beginsWithIdd_iff hmd]
    rintro ⟨re, m, k1, k2, k3⟩
    rw [e4] at k1
    cases k1
    obtain ⟨w, q, hw, hl⟩ := find_at_start_iff.1 ⟨m, k2, Match.start_eq_zero.1 k3⟩
    obtain ⟨u, v, rfl, hu, hv⟩ := lang_cat.1 hl
    rw [lang_chr.1 hu, lang_chr.1 hv] at hw
    simp only [List.cons_append, List.nil_append, List.cons.injEq, true_and] at hw
    rw [hw] at h0; exact h0 rfl
  · rw [← e1]
    rintro ⟨t, ht⟩
    have : decStr 44 = ['4', '4'] := by decide
    rw [this] at ht
    simp at ht

end

end Phone.Builtin
