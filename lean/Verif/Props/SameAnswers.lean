import Verif.Spec.SameAnswers
import Verif.Props.Database
import Verif.Model.Parse
import Verif.Model.Formatter
/-! # C29: results depend only on the answers of the database, not on how its maps are laid out -/

namespace Phone
variable [UnicodeTables]

theorem sourceLoop_congr {ε : Type} {a b : Database} (h : Spec.SameAnswers a b) (v : Str) (rs : List Str) :
    sourceLoop (ε := ε) a v rs = sourceLoop b v rs := by
  induction rs with
  | nil => rfl
  | cons r rs ih => simp only [sourceLoop, h.byId, ih]

theorem sourceFor_congr {ε : Type} {a b : Database} (h : Spec.SameAnswers a b) (code : Nat) (v : Str) :
    sourceFor (ε := ε) a code v = sourceFor b code v := by
  simp only [sourceFor, h.region, sourceLoop_congr h]

omit [UnicodeTables] in
theorem sourceMeta_congr {a b : Database} (h : Spec.SameAnswers a b) : sourceMeta a = sourceMeta b := by
  funext x
  cases x <;> simp only [sourceMeta, h.byId, h.byCode]

omit [UnicodeTables] in
theorem codeLoop_congr {a b : Database} (h : Spec.SameAnswers a b) (n : Number) (ls : List Nat) :
    Helper.codeLoop a n ls = Helper.codeLoop b n ls := by
  induction ls with
  | nil => rfl
  | cons l ls ih => simp only [Helper.codeLoop, h.byCode, ih]

theorem countryCode_congr {a b : Database} (h : Spec.SameAnswers a b) (country : Option Id) (n : Number) :
    Helper.countryCode a country n = Helper.countryCode b country n := by
  simp only [Helper.countryCode, h.byCode, h.byId, codeLoop_congr h]

/-- C29: two databases that answer `by_id`, `by_code` and `region` alike give the same result for every operation. -/
theorem C29_same_results (a b : Database) (h : Spec.SameAnswers a b) :
    (∀ country s, parseWith a country s = parseWith b country s) ∧
    (∀ (ε : Type) n, isValidWith (ε := ε) a n = isValidWith b n) ∧
    (∀ (ε : Type) (n : PhoneNumber), n.metadata (ε := ε) a = n.metadata b) ∧
    (∀ (ε : Type) (n : PhoneNumber), n.numberTypeWith (ε := ε) a = n.numberTypeWith b) ∧
    (∀ n : PhoneNumber, n.countryId a = n.countryId b) ∧
    (∀ n mode custom, Formatter.fmt a n mode custom = Formatter.fmt b n mode custom) := by
  have hm : ∀ (ε : Type) (n : PhoneNumber), n.metadata (ε := ε) a = n.metadata b := by
    intro ε n; simp only [PhoneNumber.metadata, sourceFor_congr h, sourceMeta_congr h]
  refine ⟨?_, ?_, hm, ?_, ?_, ?_⟩
  · intro country s
    have hp : ∀ n, parseMeta a country n = parseMeta b country n := by
      intro n; simp only [parseMeta, h.byId, sourceFor_congr h, sourceMeta_congr h]
    simp only [parseWith, countryCode_congr h, hp]
  · intro ε n; simp only [isValidWith, sourceFor_congr h, sourceMeta_congr h]
  · intro ε n; simp only [PhoneNumber.numberTypeWith, hm]
  · intro n; simp only [PhoneNumber.countryId, hm]
  · intro n mode custom; simp only [Formatter.fmt, h.byCode]

omit [UnicodeTables] in
/-- C29: changing the order of the entries inside the maps does not change the answers. -/
theorem C29_layout_irrelevant (a b : Database) (h1 : a.byIdMap.Perm b.byIdMap) (h2 : a.byCodeMap.Perm b.byCodeMap)
    (h3 : a.regionsMap.Perm b.regionsMap) (k1 : (a.byIdMap.map Prod.fst).Nodup) (k2 : (a.byCodeMap.map Prod.fst).Nodup)
    (k3 : (a.regionsMap.map Prod.fst).Nodup) : Spec.SameAnswers a b := by
  have key : ∀ {κ α : Type} [DecidableEq κ] (l l' : List (κ × α)) (k : κ), l.Perm l' → (l.map Prod.fst).Nodup →
      Database.lookup k l = Database.lookup k l' := by
    intro κ α _ l l' k hp hn
    have hn' : (l'.map Prod.fst).Nodup := (hp.map Prod.fst).nodup_iff.1 hn
    cases hl : Database.lookup k l with
    | some x => exact (lookup_of_mem hn' (hp.mem_iff.1 (lookup_eq_some_mem hl))).symm
    | none =>
      cases hl' : Database.lookup k l' with
      | none => rfl
      | some x =>
        have := lookup_of_mem hn (hp.mem_iff.2 (lookup_eq_some_mem hl'))
        rw [hl] at this
        cases this
  exact ⟨fun i => key _ _ i h1 k1, fun c => key _ _ c h2 k2, fun c => key _ _ c h3 k3⟩

/-- The hypotheses are met by the sample database and the same database with its maps reversed. -/
example : (Sample.db.byIdMap.map Prod.fst).Nodup ∧ (Sample.db.byCodeMap.map Prod.fst).Nodup ∧ (Sample.db.regionsMap.map Prod.fst).Nodup ∧
    Sample.db.byIdMap.Perm Sample.db.byIdMap.reverse ∧ Sample.db.byIdMap ≠ Sample.db.byIdMap.reverse := by
  have e1 : Sample.db.byIdMap.map Prod.fst = [str% "AR", str% "CA", str% "FI", str% "RU", str% "US", str% "001"] := by kernel_rfl
  have e2 : Sample.db.byCodeMap.map Prod.fst = [54, 1, 358, 7, 800] := by kernel_rfl
  have e3 : Sample.db.regionsMap.map Prod.fst = [54, 1, 358, 7, 800] := by kernel_rfl
  refine ⟨by rw [e1]; decide, by rw [e2]; decide, by rw [e3]; decide, (List.reverse_perm _).symm, ?_⟩
  intro h
  have := congrArg (List.map Prod.fst) h
  rw [List.map_reverse, e1] at this
  revert this
  decide

end Phone
