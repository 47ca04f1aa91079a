import Verif.Props.ValidFull
/-! # C88: which countries are the country of a valid number -/

namespace Phone
namespace Builtin
variable [UnicodeTables]

/-- For every country but two whose calling code others have as well, the national digits of a number. -/
def countries1 : List (Id × Nat × Str) :=
  [(.US, 1, str% "2012000000"), (.AG, 1, str% "2684060000"), (.AI, 1, str% "2642350000"), (.AS, 1, str% "6842480000"),
    (.BB, 1, str% "2462270000"), (.BM, 1, str% "4412000000"), (.BS, 1, str% "2422250000"), (.CA, 1, str% "3100000"),
    (.DM, 1, str% "7672250000"), (.DO, 1, str% "8001400000"), (.GD, 1, str% "4732300000"), (.GU, 1, str% "6712000000"),
    (.JM, 1, str% "6582000000")]
def countries2 : List (Id × Nat × Str) :=
  [(.KN, 1, str% "8692290000"), (.KY, 1, str% "3452220000"), (.LC, 1, str% "7582340000"), (.MP, 1, str% "6702330000"),
    (.MS, 1, str% "6643490000"), (.PR, 1, str% "7872000000"), (.SX, 1, str% "7215100000"), (.TC, 1, str% "6492310000"),
    (.TT, 1, str% "8682010000"), (.VC, 1, str% "7842660000"), (.VG, 1, str% "2842290000"), (.VI, 1, str% "3402000000")]
def countries3 : List (Id × Nat × Str) :=
  [(.AU, 61, str% "16300"), (.CC, 61, str% "851002000"), (.CX, 61, str% "851001000"), (.FI, 358, str% "19100"),
    (.AX, 358, str% "181000"), (.GP, 590, str% "590010000"), (.BL, 590, str% "590270000"), (.MF, 590, str% "590000000"),
    (.CW, 599, str% "6000000"), (.BQ, 599, str% "3180000"), (.MA, 212, str% "518000000"), (.GB, 44, str% "8001111"),
    (.GG, 44, str% "1481200000"), (.IM, 44, str% "1624230000"), (.JE, 44, str% "1534000000"), (.IT, 39, str% "3123456789"),
    (.RU, 7, str% "3010000000"), (.KZ, 7, str% "7000000000"), (.NO, 47, str% "21234567"), (.SJ, 47, str% "79000000"),
    (.RE, 262, str% "262000000"), (.YT, 262, str% "268900000"), (.SH, 290, str% "20000"), (.TA, 290, str% "8000")]

/-- The check of one number: it is valid and its country is the one given. -/
def countryOk (ms : List Loader.Metadata) (w : Id × Nat × Str) : Bool :=
  match Database.from compile (ms.filter (·.countryCode == some w.2.1)) with
  | .ok d => d.sharedCheck && (match NationalNumber.fromStr w.2.2 with
    | .ok n => (match isValidWith (ε := Unit) d ⟨⟨w.2.1, .plus⟩, n, none, none⟩ with
      | .ok b => b
      | _ => false) && (match PhoneNumber.countryId ⟨⟨w.2.1, .plus⟩, n, none, none⟩ d with
      | .ok (some c) => decide (c = w.1)
      | _ => false)
    | _ => false)
  | _ => false

theorem country_check1 : countries1.all (countryOk Data.territories) = true := by kernel_rfl
theorem country_check2 : countries2.all (countryOk Data.territories) = true := by kernel_rfl
theorem country_check3 : countries3.all (countryOk Data.territories) = true := by kernel_rfl

/-- A territory is not a country, or the only one of its calling code and with an example of a fixed line, or one of those above. -/
def aloneOk (ms : List Loader.Metadata) (m : Loader.Metadata) : Bool :=
  decide (m.id = some (str% "001")) || decide (m.id = some (str% "EH")) || decide (m.id = some (str% "VA")) ||
  ((countries1 ++ (countries2 ++ countries3)).any fun w => decide (m.id = some w.1.asRef)) ||
  ((match ms.filter (·.countryCode == m.countryCode) with
    | [_] => true
    | _ => false) && (m.fixedLine.bind (·.example?)).isSome)

omit [UnicodeTables] in
theorem alone_check : Data.territories.all (aloneOk Data.territories) = true := by kernel_rfl

theorem countryOk_sound {w : Id × Nat × Str} (hok : countryOk Data.territories w = true) : ∃ n : PhoneNumber,
    (∀ ε : Type, isValid (ε := ε) n = .ok true) ∧ countryId n = .ok (some w.1) := by
  have hnd := ids_nodup
  have hfrom := from_builtin
  generalize Data.territories = ms at *
  obtain ⟨f1, f2⟩ := filtered ms hnd w.2.1
  unfold countryOk at hok
  generalize hms : ms.filter (·.countryCode == some w.2.1) = ms' at *
  split at hok
  · rename_i d hd
    rw [Bool.and_eq_true] at hok
    obtain ⟨h1, h2⟩ := hok
    split at h2
    · rename_i n hn
      rw [Bool.and_eq_true] at h2
      obtain ⟨h2, h3⟩ := h2
      obtain ⟨_, g1, _, g2, _⟩ := C76_number compile ms ms' db d hfrom hd hnd f2 shared (shared_of_check h1)
        ⟨⟨w.2.1, .plus⟩, n, none, none⟩ (by rw [hms]; exact f1)
      refine ⟨⟨⟨w.2.1, .plus⟩, n, none, none⟩, ?_, ?_⟩
      · intro ε
        rw [← g1 Unit] at h2
        rw [isValid, C63_valid ε compile ms db hfrom hnd shared, ← C63_valid Unit compile ms db hfrom hnd shared]
        split at h2
        · rename_i b hb
          rw [hb, h2]
        · cases h2
      · rw [countryId, g2]
        split at h3
        · rename_i c hc
          rw [hc, of_decide_eq_true h3]
        · cases h3
    · cases h2
  · cases hok

omit [UnicodeTables] in
theorem length_one {l : List Loader.Metadata} (h : (match l with
    | [_] => true
    | _ => false) = true) : l.length = 1 := by
  split at h
  · rfl
  · cases h

omit [UnicodeTables] in
theorem byCode_length {compile : Str → Option Regex} {ms : List Loader.Metadata} {db : Database}
    (hdb : Database.from compile ms = .ok db) {c : Nat} (hc : ∃ m ∈ ms, m.countryCode = some c) {l : List Metadata}
    (hl : db.byCode c = some l) : l.length = (ms.filter (·.countryCode == some c)).length := by
  obtain ⟨mds, hmap, _, _, hlist, _⟩ := C27_indexes _ _ hdb
  have := (hlist c hc).1
  rw [hl, Option.some.injEq] at this
  have hf : (Spec.listed (·.mainCountryForCode) (mds.filter (·.countryCode == c))).length = (mds.filter (·.countryCode == c)).length := by
    generalize mds.filter (·.countryCode == c) = l
    rw [Spec.listed, List.length_append, List.length_reverse, ← List.countP_eq_length_filter, ← List.countP_eq_length_filter]
    rw [List.length_eq_countP_add_countP (·.mainCountryForCode)]
    congr 2
    funext e
    cases e.mainCountryForCode <;> rfl
  rw [this, hf]
  have e := congrArg (fun l => (l.filter fun p => p.2.1 == some c).length) hmap
  simp only [List.filter_map, List.length_map] at e
  exact e

/-- C88: every country but Western Sahara and the Vatican is the country of a valid number. -/
theorem C88_some (c : Id) (h : c ≠ .EH ∧ c ≠ .VA) : ∃ n : PhoneNumber,
    (∀ ε : Type, isValid (ε := ε) n = .ok true) ∧ countryId n = .ok (some c) := by
  obtain ⟨md, hmd⟩ := Option.isSome_iff_exists.1 (id_present c)
  obtain ⟨code, l, hl, hml, hid⟩ := (byId_iff from_builtin ids_nodup (asRef_ne_world c)).1 hmd
  obtain ⟨m, hm, he, hmc⟩ := territory_of_region hl hml
  have hmi : m.id = some c.asRef := by rw [he.id, hid]
  have hok := List.all_eq_true.1 alone_check m hm
  have hinj : ∀ {i : Id}, m.id = some i.asRef → c = i := fun hi => (C43_names c _).2 (Option.some.inj (hmi.symm.trans hi))
  simp only [aloneOk, Bool.or_eq_true, Bool.and_eq_true, decide_eq_true_eq] at hok
  rcases hok with (((hok | hok) | hok) | hok) | hok
  · exact absurd (Option.some.inj (hmi.symm.trans hok)) (asRef_ne_world c)
  · exact absurd (hinj (i := .EH) hok) h.1
  · exact absurd (hinj (i := .VA) hok) h.2
  · obtain ⟨w, hw, hi⟩ := List.any_eq_true.1 hok
    rw [hinj (of_decide_eq_true hi)]
    refine countryOk_sound ?_
    rcases List.mem_append.1 hw with hw | hw
    · exact List.all_eq_true.1 country_check1 w hw
    rcases List.mem_append.1 hw with hw | hw
    · exact List.all_eq_true.1 country_check2 w hw
    · exact List.all_eq_true.1 country_check3 w hw
  · obtain ⟨h1, h2⟩ := hok
    have hlen := length_one h1
    obtain ⟨e, hx⟩ := Option.isSome_iff_exists.1 h2
    obtain ⟨f, hf, hfe⟩ := Option.bind_eq_some_iff.1 hx
    have hfl := he.fixedLine
    rw [hf] at hfl
    generalize hg : md.descriptors.fixedLine = o at hfl
    cases hfl with
    | some hfl =>
      rename_i desc
      obtain ⟨⟨n, _, hn⟩, _⟩ := C83_accepted code l hl md hml .fixedLine (by decide) desc hg e (hfl.example?.trans hfe)
      have hv := fun ε => (C83_valid (ε := ε) code l hl md hml .fixedLine (by decide) desc hg e (hfl.example?.trans hfe)
        ⟨⟨code, .plus⟩, n, none, none⟩ rfl hn).1
      refine ⟨⟨⟨code, .plus⟩, n, none, none⟩, hv, ?_⟩
      refine ((C54_queries_no_panic Unit compile _ db from_builtin shared _).2.2.2.2.1 c).2 ⟨md, ?_, hid⟩
      refine (C63_metadata _ compile _ db from_builtin ids_nodup shared _ _).2 (.only ?_ (.inr ⟨c, hid⟩))
      have hll : l.length = 1 := by
        rw [hmc] at hlen
        exact (byCode_length from_builtin ⟨m, hm, hmc⟩ hl).trans hlen
      obtain ⟨x, rfl⟩ := List.length_eq_one_iff.1 hll
      rw [List.mem_singleton.1 hml]
      exact hl

/-- The check of the countries of no number: they come second in their calling code; and either the first one has leading digits and
all the digits the second describes begin with them, or the leading digits of the second begin with zero. -/
def neverOk (ms : List Loader.Metadata) (c : Nat) (i : Str) : Bool :=
  match Database.from compile (ms.filter (·.countryCode == some c)) with
  | .ok d => (match d.byCode c with
    | some [a, b] => decide (a.id ≠ i) && (match a.leadingDigits, b.leadingDigits with
      | some re, none => (Spec.typed b.descriptors).all fun o => match o with
        | some e => !e.possibleLength.isEmpty && e.possibleLength.all fun n =>
            covered n ([some [b.descriptors.general.nationalNumber.re], some [e.nationalNumber.re]],
              [.cat re.re (.star true (.cls ⟨true, []⟩))])
        | none => true
      | _, some re => Nat.ble 2 re.re.minLen && !(clash 25 [some [re.re], some [.cls ⟨true, [.range '0' '0']⟩]])
      | _, _ => false)
    | _ => false)
  | _ => false

theorem neverOk_sound {c : Nat} {i : Id} (hok : neverOk Data.territories c i.asRef = true) (hc : ∀ md, db.byId i.asRef = some md → md.countryCode = c)
    (n : PhoneNumber) : countryId n ≠ .ok (some i) := by
  intro h
  obtain ⟨md, h1, hid⟩ := ((C54_queries_no_panic Unit compile _ db from_builtin shared _).2.2.2.2.1 i).1 h
  have hr := (C63_metadata _ compile _ db from_builtin ids_nodup shared _ _).1 h1
  obtain ⟨l, hl, hml⟩ := region_mem hr
  have hby := listed_by_id from_builtin ids_nodup hl hml (hid ▸ asRef_ne_world i)
  have hcode := ((from_consistent from_builtin).2.1 _ l hl).2 md hml
  rw [hc md (hid ▸ hby)] at hcode
  rw [← hcode] at hr hl
  clear h h1 hby hcode hc
  have hnd := ids_nodup
  have hfrom := from_builtin
  generalize Data.territories = ms at *
  obtain ⟨f1, f2⟩ := filtered ms hnd c
  unfold neverOk at hok
  generalize hms : ms.filter (·.countryCode == some c) = ms' at *
  have hd : Digits (decStr n.national.value.toNat) := digits_decStr _
  have hlen : (decStr n.national.value.toNat).length ≤ 20 :=
    length_decStr_lt (Nat.lt_trans n.national.value.toNat_lt (by decide)) (by decide)
  split at hok
  · rename_i d hdd
    rw [← byCode_local hfrom hdd (c := c) (by rw [hms]; exact f1)] at hok
    split at hok
    · rename_i a b hab
      rw [Bool.and_eq_true, decide_eq_true_eq] at hok
      obtain ⟨hne, hok⟩ := hok
      obtain ⟨hs, hns⟩ : Spec.Suits b (decStr n.national.value.toNat) ∧ ¬ Spec.Suits a (decStr n.national.value.toNat) := by
        cases hr with
        | only hx _ => rw [hab] at hx; cases hx
        | @first _ before after hx _ h2 h3 =>
          rw [hab, Option.some.injEq] at hx
          match before, hx, h3 with
          | [], hx, _ =>
            rw [List.nil_append, List.cons.injEq] at hx
            exact absurd (hx.1 ▸ hid) hne
          | [x], hx, h3 =>
            simp only [List.cons_append, List.nil_append, List.cons.injEq] at hx
            rw [hx.1, hx.2.1]
            exact ⟨h2, h3 x (by simp)⟩
          | _ :: _ :: _, hx, _ => simp at hx
      split at hok
      · rename_i re ha hb
        rw [Spec.Suits, hb] at hs
        obtain ⟨hg, o, ho, e, rfl, hacc⟩ := hs
        have := List.all_eq_true.1 hok _ ho
        simp only [Bool.and_eq_true] at this
        have hl' := hacc.1.resolve_left (by simpa using this.1)
        rw [hd.byteLen, Nat.mod_eq_of_lt (by omega)] at hl'
        have hcov := List.all_eq_true.1 this.2 _ hl'
        obtain ⟨r, hr', hlang⟩ := covered_sound hd hcov (by
          intro r hr
          rcases List.mem_cons.1 hr with rfl | hr
          · exact ⟨0, _, List.mem_singleton.2 rfl, hg.2⟩
          · rw [List.mem_singleton.1 hr]; exact ⟨0, _, List.mem_singleton.2 rfl, hacc.2⟩) 0
        rw [List.mem_singleton.1 hr'] at hlang
        obtain ⟨u, v, huv, h1, _⟩ := lang_cat.1 hlang
        refine hns ?_
        rw [Spec.Suits, ha]
        exact ⟨u, v, huv, by simpa using h1⟩
      · rename_i re hb
        rw [Spec.Suits, hb] at hs
        obtain ⟨w, q, hwq, hlang⟩ := hs
        rw [Bool.and_eq_true, Bool.not_eq_true'] at hok
        have hmin := Nat.le_trans (Nat.le_of_ble_eq_true hok.1) (lang_minLen hlang)
        refine clash_false hd (n := 25) (rs := [re.re, .cls ⟨true, [.range '0' '0']⟩]) (by omega) hok.2 ?_
        intro r hr
        rcases List.mem_cons.1 hr with rfl | hr
        · exact ⟨w, q, hwq, hlang⟩
        · rw [List.mem_singleton.1 hr]
          cases hw : decStr n.national.value.toNat with
          | nil => rw [hw] at hwq; simp at hwq; simp [hwq.1] at hmin
          | cons x s =>
            refine ⟨[x], s, rfl, lang_cls.2 ⟨x, rfl, ?_⟩⟩
            have hx : x ≠ '0' := by
              intro hx
              by_cases h0 : n.national.value.toNat = 0
              · have := length_decStr_lt (n := n.national.value.toNat) (k := 1) (by omega) (by omega)
                rw [hwq, List.length_append] at this
                omega
              · have := decStr_head_ne_zero h0
                rw [hw, hx] at this
                exact this rfl
            show (Cls.mem _ x) = true
            rw [← hasDigit_eq (hd x (hw ▸ List.mem_cons_self ..))]
            have hx : x.toNat ≠ 48 := fun h => hx (Char.toNat_inj.1 h)
            simp only [Cls.hasDigit, List.any_cons, List.any_nil, Bool.or_false, bne_iff_ne, ne_eq, Bool.and_eq_true]
            intro h
            rw [Nat.ble_eq, Nat.ble_eq] at h
            have e : '0'.toNat = 48 := rfl
            omega
      · cases hok
    · cases hok
  · cases hok

omit [UnicodeTables] in
theorem never_EH : neverOk Data.territories 212 (str% "EH") = true := by kernel_rfl
omit [UnicodeTables] in
theorem never_VA : neverOk Data.territories 39 (str% "VA") = true := by kernel_rfl

omit [UnicodeTables] in
theorem codes_never : Data.territories.all (fun m => (!decide (m.id = some (str% "EH")) || m.countryCode == some 212) &&
    (!decide (m.id = some (str% "VA")) || m.countryCode == some 39)) = true := by kernel_rfl

/-- C88: Western Sahara and the Vatican are the country of no number, valid or not. -/
theorem C88_none (n : PhoneNumber) : countryId n ≠ .ok (some .EH) ∧ countryId n ≠ .ok (some .VA) := by
  constructor
  · refine neverOk_sound (i := .EH) never_EH (fun md h => ?_) n
    obtain ⟨m, hm, h1, h2⟩ := entry_of_id h
    have := List.all_eq_true.1 codes_never m hm
    rw [Bool.and_eq_true, h2] at this
    have := (metadata_rel _ _ h1).countryCode.symm.trans (by simpa [Id.asRef] using this.1)
    exact Option.some.inj this
  · refine neverOk_sound (i := .VA) never_VA (fun md h => ?_) n
    obtain ⟨m, hm, h1, h2⟩ := entry_of_id h
    have := List.all_eq_true.1 codes_never m hm
    rw [Bool.and_eq_true, h2] at this
    have := (metadata_rel _ _ h1).countryCode.symm.trans (by simpa [Id.asRef] using this.2)
    exact Option.some.inj this

end Builtin
end Phone
