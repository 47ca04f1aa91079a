import Verif.Spec.Parse
import Verif.Spec.Sample
/-! # Checking conditions on all entries of a database -/

namespace Phone

/-- All entries of a database. -/
def Database.entries (db : Database) : List Metadata := db.byIdMap.map Prod.snd ++ db.byCodeMap.flatMap Prod.snd

theorem lookup_mem {κ α : Type} [DecidableEq κ] {k : κ} {a : α} {l : List (κ × α)} (h : Database.lookup k l = some a) :
    ∃ k', (k', a) ∈ l := by
  induction l with
  | nil => cases h
  | cons p l ih =>
    unfold Database.lookup at h
    split at h
    · cases h; exact ⟨p.1, by simp⟩
    · obtain ⟨k', hk⟩ := ih h; exact ⟨k', by simp [hk]⟩

theorem mem_entries {db : Database} {md : Metadata} (h : Spec.Entry db md) : md ∈ db.entries := by
  unfold Database.entries
  rw [List.mem_append, List.mem_map, List.mem_flatMap]
  rcases h with ⟨i, h⟩ | ⟨c, l, h, hm⟩
  · obtain ⟨k, hk⟩ := lookup_mem h
    exact .inl ⟨_, hk, rfl⟩
  · obtain ⟨k, hk⟩ := lookup_mem h
    exact .inr ⟨_, hk, hm⟩

theorem forall_entry {db : Database} {p : Metadata → Bool} (h : db.entries.all p = true) {md : Metadata} (hm : Spec.Entry db md) :
    p md = true := List.all_eq_true.1 h md (mem_entries hm)

/-- Decides `SharedAreCountries`. -/
def Database.sharedCheck (db : Database) : Bool :=
  db.regionsMap.all fun p => p.2.length == 1 || p.2.all fun r => (Id.fromStr r).isSome

theorem shared_of_check {db : Database} (h : db.sharedCheck = true) : Spec.SharedAreCountries db := by
  intro c rs hr hl r hm
  obtain ⟨k, hk⟩ := lookup_mem hr
  have := List.all_eq_true.1 h _ hk
  simp only [Bool.or_eq_true, beq_iff_eq, List.all_eq_true] at this
  rcases this with h | h
  · exact absurd h hl
  · exact h r hm

/-- Decides `DigitTemplate`. -/
def digitTemplate : Str → Bool
  | [] => true
  | ['$'] => false
  | '$' :: d :: s => isDigit d && digitTemplate s
  | c :: s => isDigit c && digitTemplate s

theorem digitTemplate_sound : ∀ {s : Str}, digitTemplate s = true → Spec.DigitTemplate s := by
  intro s
  fun_induction digitTemplate s with
  | case1 => exact fun _ => .nil
  | case2 => intro h; cases h
  | case3 d s ih => simp only [Bool.and_eq_true]; exact fun ⟨h1, h2⟩ => .ref h1 (ih h2)
  | case4 c s _ _ ih => simp only [Bool.and_eq_true]; exact fun ⟨h1, h2⟩ => .digit h1 (ih h2)

/-- Sufficient for `FirstWithLast`: no transform rule, no parsing pattern, or one with at most one group. -/
def oneGroup (md : Metadata) : Bool :=
  md.nationalPrefixTransformRule.isNone || (match md.nationalPrefixForParsing with | some re => re.ngroups == 1 | none => true)

theorem firstWithLast_of_oneGroup [UnicodeTables] {md : Metadata} (h : oneGroup md = true) : Spec.FirstWithLast md := by
  intro h1 re hre s m _ hm
  unfold oneGroup at h
  rw [hre] at h
  cases ht : md.nationalPrefixTransformRule with
  | none => rw [ht] at h1; cases h1
  | some t =>
    simp only [ht, Option.isNone_some, Bool.false_or, beq_iff_eq] at h
    rwa [h] at hm

end Phone

namespace Phone.Sample

theorem db_shared : Spec.SharedAreCountries db := shared_of_check (by kernel_rfl)
theorem db_firstWithLast [UnicodeTables] : ∀ md, Spec.Entry db md → Spec.FirstWithLast md :=
  fun _ h => firstWithLast_of_oneGroup (forall_entry (p := oneGroup) (by kernel_rfl) h)
theorem db_templates : ∀ md, Spec.Entry db md → ∀ t, md.nationalPrefixTransformRule = some t → Spec.DigitTemplate t := by
  intro md h t ht
  have := forall_entry (p := fun md => (md.nationalPrefixTransformRule.map digitTemplate).getD true) (db := db) (by kernel_rfl) h
  rw [ht] at this
  exact digitTemplate_sound this

/-- A database without transform rules. -/
def plainDb : Database :=
  match Database.from compile [ca, fi, ru, us, freephone] with
  | .ok d => d
  | _ => Database.empty

theorem from_plain : Database.from compile [ca, fi, ru, us, freephone] = .ok plainDb := by kernel_rfl
theorem plainDb_noTransform : ∀ md, Spec.Entry plainDb md → md.nationalPrefixTransformRule = none := by
  intro md h
  have := forall_entry (p := fun md => md.nationalPrefixTransformRule.isNone) (db := plainDb) (by kernel_rfl) h
  simpa using this
theorem plainDb_codes : ∀ md, Spec.Entry plainDb md → md.countryCode < 65536 := by
  intro md h
  have := forall_entry (p := fun md => decide (md.countryCode < 65536)) (db := plainDb) (by kernel_rfl) h
  simpa using this

end Phone.Sample
