import Verif.Props.ValidNational
import Verif.Props.LocalMore
/-! # C82: valid numbers whose national form is not read back -/

namespace Phone.Builtin
variable [UnicodeTables]

/-- The territories of a calling code, and the international freephone service. -/
def withFreephone (ms : List Loader.Metadata) (c : Nat) : List Loader.Metadata :=
  ms.filter fun m => m.countryCode == some c || m.countryCode == some 800

/-- A valid number without leading zeros or of a calling code with one region, whose national form begins with its calling code (`own`)
or not, and which is read as another number, according to the territories of its calling code and the freephone service. -/
def misreadNational (ms : List Loader.Metadata) (own : Bool) (p : PhoneNumber) : Bool :=
  match Database.from compile (withFreephone ms p.code.value) with
  | .ok d => d.sharedCheck && (Nat.beq p.national.zeros.toNat 0 || (match d.byCode p.code.value with | some [_] => true | _ => false)) &&
    match isValidWith (ε := ParseErr) d p, p.countryId d, Formatter.fmt d p .national with
    | .ok true, .ok (some i), .ok s => ((decStr p.code.value).isPrefixOf (s.filter isDigit) == own) &&
      (ms.all fun m => m.id != some i.asRef || (m.countryCode == some p.code.value || m.countryCode == some 800)) &&
      match parseWith d (some i) s with
      | .ok q => !Nat.beq q.national.raw.toNat p.national.raw.toNat && (Nat.beq q.code.value p.code.value || Nat.beq q.code.value 800)
      | _ => false
    | _, _, _ => false
  | _ => false

omit [UnicodeTables] in
theorem filter_filter_of {α : Type} {p q : α → Bool} {l : List α} (h : ∀ a ∈ l, p a = true → q a = true) :
    (l.filter q).filter p = l.filter p := by
  rw [List.filter_filter]
  refine List.filter_congr fun a ha => ?_
  cases hp : p a
  · rfl
  · rw [h a ha hp]; rfl

theorem misreadNational_builtin {own : Bool} (p : PhoneNumber) (h : misreadNational Data.territories own p = true) :
    (p.national.zeros = 0 ∨ ∀ l, db.byCode p.code.value = some l → l.length = 1) ∧
    isValid (ε := ParseErr) p = .ok true ∧ ∃ i s q, countryId p = .ok (some i) ∧ format p .national = .ok s ∧
      (decStr p.code.value <+: s.filter isDigit ↔ own = true) ∧ parse (some i) s = .ok q ∧ q.national ≠ p.national := by
  revert h
  have hnd := ids_nodup
  have hfrom := from_builtin
  generalize Data.territories = ms at *
  intro h
  unfold misreadNational at h
  generalize hms : withFreephone ms p.code.value = ms' at h
  have hmem : ∀ m ∈ ms', m ∈ ms := by
    intro m hm
    rw [← hms] at hm
    exact (List.mem_filter.1 hm).1
  have hcode : ∀ c, (c = p.code.value ∨ c = 800) → ms'.filter (·.countryCode == some c) = ms.filter (·.countryCode == some c) := by
    intro c hc
    rw [← hms]
    refine filter_filter_of fun a _ ha => ?_
    rw [Bool.or_eq_true]
    rcases hc with rfl | rfl
    · exact .inl ha
    · exact .inr ha
  split at h
  · rename_i d hd
    rw [Bool.and_eq_true, Bool.and_eq_true] at h
    obtain ⟨⟨h1, h2⟩, h⟩ := h
    have hs := shared_of_check h1
    have hid' : ((ms'.filterMap (·.id)).filter (· ≠ worldId)).Nodup := by
      rw [← hms]
      exact hnd.sublist ((List.filter_sublist.filterMap _).filter _)
    obtain ⟨_, n2, _, n4, n5⟩ := C76_number compile ms ms' db d hfrom hd hnd hid' shared hs p (hcode _ (.inl rfl)).symm
    refine ⟨?_, ?_⟩
    · rw [Bool.or_eq_true] at h2
      rcases h2 with h2 | h2
      · exact .inl (UInt8.toNat_inj.1 (Nat.eq_of_beq_eq_true h2))
      · right
        intro l hl
        rw [byCode_local hfrom hd (hcode _ (.inl rfl)).symm] at hl
        rw [hl] at h2
        split at h2
        · rename_i e
          rw [Option.some.injEq] at e
          rw [e]; rfl
        · cases h2
    · split at h
      · rename_i i s e1 e2 e3
        rw [Bool.and_eq_true, Bool.and_eq_true] at h
        obtain ⟨⟨k1, k2⟩, k3⟩ := h
        split at k3
        · rename_i q hq
          rw [Bool.and_eq_true, Bool.not_eq_true', Bool.or_eq_true] at k3
          obtain ⟨k3, k4⟩ := k3
          refine ⟨(n2 _).trans e1, i, s, q, n4.trans e2, (n5 .national none).trans e3, ?_, ?_, ?_⟩
          · rw [← List.isPrefixOf_iff_prefix, eq_of_beq k1]
          · refine C76_some compile ms' ms d db hd hfrom hid' hnd hs shared prefixFree (some i) s q hq hmem ?_ (hcode _ ?_)
            · rintro _ ⟨⟩
              rw [← hms]
              refine filter_filter_of fun a ha hai => ?_
              have := List.all_eq_true.1 k2 a ha
              rw [Bool.or_eq_true] at this
              refine this.resolve_left fun hne => ?_
              rw [eq_of_beq hai] at hne
              simp at hne
            · rcases k4 with k4 | k4
              · exact .inl (Nat.eq_of_beq_eq_true k4)
              · exact .inr (Nat.eq_of_beq_eq_true k4)
          · intro e
            rw [e] at k3
            simp at k3
        · cases k3
      · cases h
  · cases h

/-- A number of each exception: leading zeros in the top byte, value below. -/
def nationallyMisread : List (Nat × UInt64) :=
  [(7, 8001234567), (54, 1115345678), (62, 144115188256155872), (66, 144115206077090439), (81, 144115188076632872), (82, 144115188383855872), (91, 216172790113783808), (241, 2345678), (250, 72057594043927936), (359, 144115196077090439), (375, 8011234567), (507, 144115188875979328), (598, 216172782113784208), (974, 144115188875979328)]

theorem nationally_misread : nationallyMisread.all (fun x => misreadNational Data.territories false ⟨⟨x.1, .plus⟩, ⟨x.2⟩, none, none⟩ &&
    !Nat.beq (⟨x.2⟩ : NationalNumber).value.toNat 0) = true := by kernel_rfl

omit [UnicodeTables] in
theorem nationally_misread_codes : nationallyMisread.map Prod.fst = [7, 54, 62, 66, 81, 82, 91, 241, 250, 359, 375, 507, 598, 974] := rfl

/-- C82: every excepted calling code has a valid number, meeting the conditions of `C82_valid`, whose national form is read as another
number. -/
theorem C82_exceptions (c : Nat) (hc : c ∈ [7, 54, 62, 66, 81, 82, 91, 241, 250, 359, 375, 507, 598, 974]) :
    ∃ (n : PhoneNumber) (i : Id) (s : Str) (q : PhoneNumber), n.code.value = c ∧ isValid (ε := ParseErr) n = .ok true ∧
      countryId n = .ok (some i) ∧ (n.national.zeros = 0 ∨ ∀ l, db.byCode n.code.value = some l → l.length = 1) ∧ n.national.value ≠ 0 ∧
      n.carrier = none ∧ n.extension = none ∧ format n .national = .ok s ∧ ¬ decStr n.code.value <+: s.filter isDigit ∧
      parse (some i) s = .ok q ∧ q.national ≠ n.national := by
  rw [← nationally_misread_codes] at hc
  obtain ⟨⟨c', v⟩, hx, rfl⟩ := List.mem_map.1 hc
  have h := List.all_eq_true.1 nationally_misread _ hx
  rw [Bool.and_eq_true, Bool.not_eq_true'] at h
  obtain ⟨h0, hv, i, s, q, h1, h2, h3, h4, h5⟩ := misreadNational_builtin _ h.1
  refine ⟨_, i, s, q, rfl, hv, h1, h0, ?_, rfl, rfl, h2, fun hp => by simpa using h3.1 hp, h4, h5⟩
  intro e
  have := h.2
  rw [show ((⟨v⟩ : NationalNumber).value) = 0 from e] at this
  cases this

theorem own_misread : misreadNational Data.territories true ⟨⟨47, .plus⟩, ⟨47123456⟩, none, none⟩ = true := by kernel_rfl

/-- C82: nor can the condition on the calling code be left out: a valid Norwegian number begins with 47, and is read without these
digits. -/
theorem C82_own_code : ∃ (n : PhoneNumber) (i : Id) (s : Str) (q : PhoneNumber), n.code.value = 47 ∧ isValid (ε := ParseErr) n = .ok true ∧
    countryId n = .ok (some i) ∧ n.extension = none ∧ n.carrier = none ∧ format n .national = .ok s ∧ decStr 47 <+: s.filter isDigit ∧
    parse (some i) s = .ok q ∧ q.national ≠ n.national := by
  obtain ⟨_, hv, i, s, q, h1, h2, h3, h4, h5⟩ := misreadNational_builtin _ own_misread
  exact ⟨_, i, s, q, rfl, hv, h1, rfl, rfl, h2, h3.2 rfl, h4, h5⟩

end Phone.Builtin
