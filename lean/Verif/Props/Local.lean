import Verif.Props.SameAnswers
import Verif.Props.Trunk
/-! # C76: what a result depends on -/

namespace Phone
open Database

theorem collect_filter {α β : Type} {f : α → Outcome LoadErr β} {p : α → Bool} {q : β → Bool} (h : ∀ a b, f a = .ok b → q b = p a)
    {l : List α} {r : List β} (hc : collect f l = .ok r) : collect f (l.filter p) = .ok (r.filter q) := by
  induction l generalizing r with
  | nil => simp only [collect, Outcome.ok.injEq] at hc; subst hc; rfl
  | cons a l ih =>
    simp only [collect, Outcome.bind_eq_ok, Outcome.ok.injEq] at hc
    obtain ⟨b, hb, bs, hbs, rfl⟩ := hc
    have := h a b hb
    rw [List.filter_cons, List.filter_cons, this]
    split
    · simp [collect, hb, ih hbs]
    · exact ih hbs

section
variable {compile : Str → Option Regex} {ms ms' : List Loader.Metadata} {db db' : Database}

/-- `by_code` depends on the territories of the code and their order. -/
theorem byCode_local (h : Database.from compile ms = .ok db) (h' : Database.from compile ms' = .ok db') {c : Nat}
    (hc : ms.filter (·.countryCode == some c) = ms'.filter (·.countryCode == some c)) : db.byCode c = db'.byCode c := by
  obtain ⟨mds, h1, rfl⟩ := from_eq_ok.1 h
  obtain ⟨mds', h1', rfl⟩ := from_eq_ok.1 h'
  have key : ∀ {ms mds}, collect (Database.metadata compile) ms = .ok mds →
      collect (Database.metadata compile) (ms.filter (·.countryCode == some c)) = .ok (mds.filter (·.countryCode == c)) :=
    fun hx => collect_filter (fun a b hb => by rw [(metadata_fields hb).2.1]; simp) hx
  have e1 := key h1
  rw [hc, key h1', Outcome.ok.injEq] at e1
  rw [(foldl_byCode mds c).1, (foldl_byCode mds' c).1, e1]

/-- Apart from the world, the territory with an id is the one found under its calling code. -/
theorem byId_iff (h : Database.from compile ms = .ok db) (hid : ((ms.filterMap (·.id)).filter (· ≠ worldId)).Nodup) {i : Str}
    (hi : i ≠ worldId) {md : Metadata} : db.byId i = some md ↔ ∃ c l, db.byCode c = some l ∧ md ∈ l ∧ md.id = i := by
  constructor
  · intro hx
    obtain ⟨mds, h1, rfl⟩ := from_eq_ok.1 h
    rw [foldl_byId] at hx
    have hm : md ∈ mds.filter (·.id == i) := by
      cases hl : (mds.filter (·.id == i)).getLast? with
      | none => rw [hl] at hx; cases hx
      | some x =>
        rw [hl, Option.some_or, Option.some.injEq] at hx
        subst hx
        exact List.mem_of_getLast? hl
    obtain ⟨hm, hmi⟩ := List.mem_filter.1 hm
    have hf : md ∈ mds.filter (·.countryCode == md.countryCode) := List.mem_filter.2 ⟨hm, by simp⟩
    refine ⟨_, _, (foldl_byCode mds _).1.trans (if_neg (List.ne_nil_of_mem hf)), ?_, by simpa using hmi⟩
    simp only [Spec.listed, List.mem_append, List.mem_reverse, List.mem_filter, beq_self_eq_true, hm, true_and]
    cases md.mainCountryForCode <;> simp
  · rintro ⟨c, l, h1, h2, rfl⟩
    exact listed_by_id h hid h1 h2 hi

theorem region_local (h : Database.from compile ms = .ok db) (h' : Database.from compile ms' = .ok db') {c : Nat}
    (hc : db.byCode c = db'.byCode c) : db.region c = db'.region c := by
  have key : ∀ {ms db}, Database.from compile ms = .ok db → db.region c = (db.byCode c).map (·.map (·.id)) := by
    intro ms db h
    obtain ⟨mds, _, rfl⟩ := from_eq_ok.1 h
    rw [(foldl_byCode mds c).1, (foldl_byCode mds c).2]
    split <;> rfl
  rw [key h, key h', hc]

end

variable [UnicodeTables]

theorem regionOf_local {db db' : Database} {c : Nat} (hc : db.byCode c = db'.byCode c) {ds : Str} {o : Option Metadata}
    (h : Spec.RegionOf db c ds o) : Spec.RegionOf db' c ds o := by
  cases h with
  | unknown h => exact .unknown (hc ▸ h)
  | only h h2 => exact .only (hc ▸ h) h2
  | other h h2 h3 => exact .other (hc ▸ h) h2 h3
  | first h h2 h3 h4 => exact .first (hc ▸ h) h2 h3 h4
  | nobody h h2 h3 => exact .nobody (hc ▸ h) h2 h3

section
variable (compile : Str → Option Regex) (ms ms' : List Loader.Metadata) (db db' : Database)
  (hdb : Database.from compile ms = .ok db) (hdb' : Database.from compile ms' = .ok db')
  (hid : ((ms.filterMap (·.id)).filter (· ≠ worldId)).Nodup) (hid' : ((ms'.filterMap (·.id)).filter (· ≠ worldId)).Nodup)
  (hs : Spec.SharedAreCountries db) (hs' : Spec.SharedAreCountries db')

include hdb hdb' hid hid' hs hs'

theorem source_local (ε : Type) {c : Nat} (hc : db.byCode c = db'.byCode c) (v : Str) :
    ∃ src src', sourceFor (ε := ε) db c v = .ok src ∧ sourceFor (ε := ε) db' c v = .ok src' ∧
      src.bind (sourceMeta db) = src'.bind (sourceMeta db') := by
  obtain ⟨src, h1, h2⟩ := sourceFor_chosen ε hdb hid hs c v
  obtain ⟨src', h1', h2'⟩ := sourceFor_chosen ε hdb' hid' hs' c v
  exact ⟨src, src', h1, h1', (regionOf_local hc h2).unique h2'⟩

/-- C76: what can be asked about a number depends on the territories of its calling code only: two databases that have the same
territories of that code in the same order agree on its metadata, validity, type, country and every way of writing it. -/
theorem C76_number (n : PhoneNumber)
    (hc : ms.filter (·.countryCode == some n.code.value) = ms'.filter (·.countryCode == some n.code.value)) :
    (∀ ε : Type, n.metadata (ε := ε) db = n.metadata db') ∧ (∀ ε : Type, isValidWith (ε := ε) db n = isValidWith db' n) ∧
    (∀ ε : Type, n.numberTypeWith (ε := ε) db = n.numberTypeWith db') ∧ n.countryId db = n.countryId db' ∧
    ∀ mode custom, Formatter.fmt db n mode custom = Formatter.fmt db' n mode custom := by
  have hb := byCode_local hdb hdb' hc
  have hm : ∀ ε : Type, n.metadata (ε := ε) db = n.metadata db' := by
    intro ε
    obtain ⟨src, src', h1, h2, h3⟩ := source_local compile ms ms' db db' hdb hdb' hid hid' hs hs' ε hb (decStr n.national.value.toNat)
    simp only [PhoneNumber.metadata, h1, h2, Outcome.bind_ok, h3]
  refine ⟨hm, ?_, ?_, ?_, ?_⟩
  · intro ε
    obtain ⟨src, src', h1, h2, h3⟩ := source_local compile ms ms' db db' hdb hdb' hid hid' hs hs' ε hb n.national.display
    simp only [isValidWith, h1, h2, Outcome.bind_ok, h3]
  · intro ε; simp only [PhoneNumber.numberTypeWith, hm]
  · simp only [PhoneNumber.countryId, hm]
  · intro mode custom; simp only [Formatter.fmt, hb]

omit hdb hdb' hid hid' hs hs' in
theorem nationalNumber_pref {md : Metadata} {n r : Number} (h : Helper.nationalNumber (ε := ParseErr) md n = .ok r) : r.pref = n.pref := by
  unfold Helper.nationalNumber at h
  split at h
  · split at h
    · split at h
      · simp only [Outcome.bind_eq_ok, Outcome.ok.injEq] at h
        obtain ⟨_, _, rfl⟩ := h; rfl
      · cases h; rfl
    · cases h; rfl
  · split at h
    · cases h; rfl
    · split at h
      · cases h; rfl
      · simp only at h
        split at h
        · split at h
          · cases h; rfl
          · simp only [Outcome.bind_eq_ok, Outcome.ok.injEq] at h
            obtain ⟨_, _, rfl⟩ := h; rfl
        · simp only [Outcome.bind_eq_ok] at h
          obtain ⟨_, _, h⟩ := h
          split at h
          · cases h; rfl
          · simp only [Outcome.bind_eq_ok, Outcome.ok.injEq] at h
            obtain ⟨_, _, rfl⟩ := h; rfl

omit hdb hdb' hid hid' hs hs' in
theorem stripNational_pref {md : Option Metadata} {n r : Number} (h : stripNational md n = .ok r) : r.pref = n.pref := by
  unfold stripNational at h
  split at h
  · cases h; rfl
  · simp only [Outcome.bind_eq_ok] at h
    obtain ⟨p, hp, q, hq, h⟩ := h
    have hq' : q.pref = p.pref := by
      unfold dropNationalPrefix at hq
      split at hq
      · split at hq
        · simp only [Outcome.bind_eq_ok, Outcome.pure_eq, Outcome.ok.injEq] at hq
          obtain ⟨_, _, rfl⟩ := hq; rfl
        · cases hq; rfl
      · cases hq; rfl
    simp only [Outcome.pure_eq, Outcome.ok.injEq] at h
    split at h
    · subst h; rw [hq', nationalNumber_pref hp]
    · subst h; rfl

omit hdb hdb' hid hid' hs hs' in
theorem countryCode_local {country : Option Id} (hk : ∀ k, (db.byCode k).isSome = (db'.byCode k).isSome)
    (hcountry : ∀ i : Id, country = some i → db.byId i.asRef = db'.byId i.asRef) (n : Number) :
    Helper.countryCode db country n = Helper.countryCode db' country n := by
  have hn : ∀ k, (db.byCode k).isNone = (db'.byCode k).isNone := fun k => by
    have := hk k
    cases h1 : db.byCode k <;> cases h2 : db'.byCode k <;> simp_all
  have hl : ∀ n ls, Helper.codeLoop db n ls = Helper.codeLoop db' n ls := by
    intro n ls
    induction ls with
    | nil => rfl
    | cons l ls ih => simp only [Helper.codeLoop, hk, ih]
  cases country with
  | none => simp only [Helper.countryCode, Option.bind_none, hn, hl]
  | some i => simp only [Helper.countryCode, Option.bind_some, hn, hl, hcountry i rfl]

omit [UnicodeTables] hdb hdb' hid hid' hs hs' in
theorem codes_local (h : Database.from compile ms = .ok db) (h' : Database.from compile ms' = .ok db')
    (hk : ∀ k, (∃ m ∈ ms, m.countryCode = some k) ↔ ∃ m ∈ ms', m.countryCode = some k) (k : Nat) :
    (db.byCode k).isSome = (db'.byCode k).isSome := by
  obtain ⟨_, _, _, h1, _⟩ := C27_indexes ms db h
  obtain ⟨_, _, _, h2, _⟩ := C27_indexes ms' db' h'
  rw [Bool.eq_iff_iff, h1, h2, hk]

omit [UnicodeTables] hdb hdb' hid hid' hs hs' in
/-- `by_id` depends on the territories of the id. -/
theorem byId_local (h : Database.from compile ms = .ok db) (h' : Database.from compile ms' = .ok db') {i : Str}
    (hi : ms.filter (·.id == some i) = ms'.filter (·.id == some i)) : db.byId i = db'.byId i := by
  obtain ⟨mds, h1, rfl⟩ := from_eq_ok.1 h
  obtain ⟨mds', h1', rfl⟩ := from_eq_ok.1 h'
  have key : ∀ {ms mds}, collect (Database.metadata compile) ms = .ok mds →
      collect (Database.metadata compile) (ms.filter (·.id == some i)) = .ok (mds.filter (·.id == i)) :=
    fun hx => collect_filter (fun a b hb => by rw [(metadata_fields hb).1]; simp) hx
  have e1 := key h1
  rw [hi, key h1', Outcome.ok.injEq] at e1
  rw [foldl_byId, foldl_byId, e1]

/-- C76: the number a text is read as depends on which calling codes there are, on the reference country and on the territories of the
number's calling code: a database that agrees in these reads the text as the same number. -/
theorem C76_parse (country : Option Id) (s : Str) (p : PhoneNumber) (h : parseWith db country s = .ok p)
    (hk : ∀ k, (∃ m ∈ ms, m.countryCode = some k) ↔ ∃ m ∈ ms', m.countryCode = some k)
    (hcountry : ∀ i : Id, country = some i → ms.filter (·.id == some i.asRef) = ms'.filter (·.id == some i.asRef))
    (hc : ms.filter (·.countryCode == some p.code.value) = ms'.filter (·.countryCode == some p.code.value)) :
    parseWith db' country s = .ok p := by
  have hb := byCode_local hdb hdb' hc
  have hcn : ∀ i : Id, country = some i → db.byId i.asRef = db'.byId i.asRef := fun i hi => byId_local compile ms ms' db db' hdb hdb' (hcountry i hi)
  unfold parseWith at h ⊢
  simp only [Outcome.bind_eq_ok] at h
  obtain ⟨n, h1, h⟩ := h
  rw [h1]
  simp only [Outcome.bind_ok]
  split at h
  · cases h
  · rename_i hv
    rw [if_neg hv]
    simp only [Outcome.bind_eq_ok] at h
    obtain ⟨n1, h2, md, h3, n2, h4, h5⟩ := h
    rw [← countryCode_local db db' (codes_local compile ms ms' db db' hdb hdb' hk) hcn, h2]
    simp only [Outcome.bind_ok]
    have hcode : prefixCode n1 = .ok p.code.value := by
      have hp : prefixCode n2 = .ok p.code.value := by
        unfold finishParse at h5
        split at h5
        · cases h5
        · split at h5
          · cases h5
          · simp only [Outcome.bind_eq_ok, Outcome.pure_eq, Outcome.ok.injEq] at h5
            obtain ⟨c, hcc, _, _, rfl⟩ := h5
            exact hcc
      rw [← hp, prefixCode, prefixCode, stripNational_pref h4]
    have hmd : parseMeta db' country n1 = .ok md := by
      unfold parseMeta at h3 ⊢
      split at h3
      · rw [← hcn _ rfl]; exact h3
      · obtain ⟨src, src', e1, e2, e3⟩ := source_local compile ms ms' db db' hdb hdb' hid hid' hs hs' ParseErr hb
          (n1.national.dropWhile (· == '0'))
        simp only [hcode, Outcome.bind_ok, e1, Outcome.pure_eq, Outcome.ok.injEq] at h3
        simp only [hcode, Outcome.bind_ok, e2, Outcome.pure_eq, Outcome.ok.injEq]
        rw [← e3]; exact h3
    rw [hmd]
    simp only [Outcome.bind_ok]
    rw [h4]
    simp only [Outcome.bind_ok]
    exact h5

end

/-- C76: the order of the territories of different calling codes does not matter: if two metadata files contain the same territories,
and those of each calling code in the same order, every operation gives the same result with both. -/
theorem C76_order (compile : Str → Option Regex) (ms ms' : List Loader.Metadata) (db : Database)
    (hdb : Database.from compile ms = .ok db) (hid : ((ms.filterMap (·.id)).filter (· ≠ worldId)).Nodup)
    (hs : Spec.SharedAreCountries db) (hperm : ms.Perm ms')
    (hc : ∀ c, ms.filter (·.countryCode == some c) = ms'.filter (·.countryCode == some c)) :
    ∃ db', Database.from compile ms' = .ok db' ∧
      (∀ country s, parseWith db country s = parseWith db' country s) ∧
      (∀ ε : Type, ∀ n : PhoneNumber, n.metadata (ε := ε) db = n.metadata db') ∧
      (∀ ε : Type, ∀ n : PhoneNumber, isValidWith (ε := ε) db n = isValidWith db' n) ∧
      (∀ ε : Type, ∀ n : PhoneNumber, n.numberTypeWith (ε := ε) db = n.numberTypeWith db') ∧
      (∀ n : PhoneNumber, n.countryId db = n.countryId db') ∧
      ∀ n mode custom, Formatter.fmt db n mode custom = Formatter.fmt db' n mode custom := by
  obtain ⟨mds, hcol, _⟩ := from_eq_ok.1 hdb
  obtain ⟨mds', hcol'⟩ := collect_isOk.2 fun m hm => collect_isOk.1 ⟨mds, hcol⟩ m (hperm.mem_iff.2 hm)
  refine ⟨_, from_eq_ok.2 ⟨mds', hcol', rfl⟩, ?_⟩
  generalize hd : mds'.foldl add empty = db'
  have hdb' : Database.from compile ms' = .ok db' := from_eq_ok.2 ⟨mds', hcol', hd.symm⟩
  have hid' : ((ms'.filterMap (·.id)).filter (· ≠ worldId)).Nodup := ((hperm.filterMap _).filter _).nodup_iff.1 hid
  have hb : ∀ c, db.byCode c = db'.byCode c := fun c => byCode_local hdb hdb' (hc c)
  have hs' : Spec.SharedAreCountries db' := by
    intro c rs hr
    rw [← region_local hdb hdb' (hb c)] at hr
    exact hs c rs hr
  have hi : ∀ i : Id, db.byId i.asRef = db'.byId i.asRef := by
    intro i
    apply Option.ext
    intro md
    rw [byId_iff hdb hid (asRef_ne_world i), byId_iff hdb' hid' (asRef_ne_world i)]
    simp only [hb]
  have key := fun n : PhoneNumber => C76_number compile ms ms' db db' hdb hdb' hid hid' hs hs' n (hc _)
  refine ⟨fun country s => ?_, fun ε n => (key n).1 ε, fun ε n => (key n).2.1 ε, fun ε n => (key n).2.2.1 ε, fun n => (key n).2.2.2.1,
    fun n => (key n).2.2.2.2⟩
  unfold parseWith
  simp only [countryCode_local db db' (fun k => by rw [hb]) (fun i _ => hi i)]
  have hm : ∀ n, parseMeta db country n = parseMeta db' country n := by
    intro n
    unfold parseMeta
    split
    · rw [hi]
    · congr 1
      funext c
      obtain ⟨src, src', e1, e2, e3⟩ := source_local compile ms ms' db db' hdb hdb' hid hid' hs hs' ParseErr (hb c)
        (n.national.dropWhile (· == '0'))
      simp only [e1, e2, Outcome.bind_ok, e3]
  simp only [hm]

/-- Argentina first or last: the same results. -/
example : ∃ db', Database.from Sample.compile [Sample.ca, Sample.fi, Sample.ru, Sample.us, Sample.freephone, Sample.ar] = .ok db' ∧
    ∀ country s, parseWith Sample.db country s = parseWith db' country s := by
  obtain ⟨db', h1, h2, _⟩ := C76_order Sample.compile Sample.territories
    [Sample.ca, Sample.fi, Sample.ru, Sample.us, Sample.freephone, Sample.ar] Sample.db Sample.from_territories (by decide) Sample.db_shared
    (List.perm_append_comm (l₁ := [Sample.ar])) fun c => by
      simp only [Sample.territories, List.filter, Sample.ar, Sample.ca, Sample.fi, Sample.ru, Sample.us, Sample.freephone]
      by_cases h : c = 54
      · subst h; rfl
      · have : (some 54 == some c) = false := by simpa using fun h' => h h'.symm
        simp only [this]
  exact ⟨db', h1, h2⟩

/-- Without Argentina and Russia a number of the United States is read alike, though not one of Argentina. -/
example : ∃ db', Database.from Sample.compile [Sample.ca, Sample.us] = .ok db' ∧
    (∀ n : PhoneNumber, n.code.value = 1 → ∀ mode custom, Formatter.fmt Sample.db n mode custom = Formatter.fmt db' n mode custom) ∧
    Formatter.fmt Sample.db ⟨⟨54, .plus⟩, ⟨1123456789⟩, none, none⟩ .e164 ≠ Formatter.fmt db' ⟨⟨54, .plus⟩, ⟨1123456789⟩, none, none⟩ .e164 := by
  obtain ⟨db', h⟩ : ∃ db', Database.from Sample.compile [Sample.ca, Sample.us] = .ok db' := by
    obtain ⟨mds, hcol, _⟩ := from_eq_ok.1 Sample.from_territories
    obtain ⟨mds', hcol'⟩ := (collect_isOk (f := Database.metadata Sample.compile) (l := [Sample.ca, Sample.us])).2
      fun m hm => collect_isOk.1 ⟨mds, hcol⟩ m (by simp only [Sample.territories, List.mem_cons] at hm ⊢; grind)
    exact ⟨_, from_eq_ok.2 ⟨mds', hcol', rfl⟩⟩
  have hshared : Spec.SharedAreCountries db' := by
    intro c rs hr
    by_cases hc : c = 1
    · subst hc
      rw [← region_local Sample.from_territories h (byCode_local Sample.from_territories h (by decide))] at hr
      exact Sample.db_shared 1 rs hr
    · obtain ⟨_, _, _, h1, _, h2⟩ := C27_indexes _ _ h
      have h3 := (h1 c).1 ((h2 c).1 (by simp [hr]))
      obtain ⟨m, hm, hm'⟩ := h3
      simp only [List.mem_cons, List.not_mem_nil, or_false] at hm
      rcases hm with rfl | rfl <;> exact absurd (Option.some.inj hm'.symm) hc
  refine ⟨db', h, fun n hn => (C76_number Sample.compile Sample.territories [Sample.ca, Sample.us] Sample.db db' Sample.from_territories h
    (by decide) (by decide) Sample.db_shared hshared n (by rw [hn]; decide)).2.2.2.2, ?_⟩
  have e : db'.byCode 54 = none := by
    obtain ⟨_, _, _, h1, _⟩ := C27_indexes _ _ h
    rw [← Option.not_isSome_iff_eq_none, h1]
    decide
  have e2 : Formatter.fmt Sample.db ⟨⟨54, .plus⟩, ⟨1123456789⟩, none, none⟩ .e164 = .ok (str% "+541123456789") := by kernel_rfl
  rw [e2, Formatter.fmt, e]
  simp

/-- The sample territories with Argentina changed: without national prefix and parsing pattern. -/
def Sample.changed : List Loader.Metadata :=
  [{ Sample.ar with nationalPrefix := none, nationalPrefixForParsing := none }, Sample.ca, Sample.fi, Sample.ru, Sample.us, Sample.freephone]

/-- The database made from them. -/
def Sample.changedDb : Database :=
  match Database.from Sample.compile Sample.changed with
  | .ok d => d
  | _ => Database.empty

/-- What is read as a number of the United States or Canada is read alike with the changed database. -/
example (s : Str) (p : PhoneNumber) (hp : p.code.value = 1) (h : parseWith Sample.db (some .US) s = .ok p) :
    parseWith Sample.changedDb (some .US) s = .ok p :=
  C76_parse Sample.compile Sample.territories Sample.changed Sample.db Sample.changedDb Sample.from_territories (by kernel_rfl) (by decide)
    (by decide) Sample.db_shared (shared_of_check (by kernel_rfl)) (some .US) s p h
    (fun k => by simp [Sample.territories, Sample.changed, Sample.ar])
    (fun i hi => by cases hi; decide) (by rw [hp]; decide)

/-- There is such a text. -/
example : parseWith Sample.db (some .US) (str% "650-253-0000") = .ok ⟨⟨1, .default⟩, ⟨6502530000⟩, none, none⟩ := by kernel_rfl

end Phone
