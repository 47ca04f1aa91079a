import Verif.Props.Fields
import Verif.Spec.Sample
import Verif.Spec.Used
import Verif.Model.Parse
import Verif.Model.Validator
import Verif.Model.Formatter
/-! # C103: what in the metadata no result depends on -/

namespace Phone
open Helper Formatter

theorem lookup_map {κ α β : Type} [DecidableEq κ] (f : α → β) (k : κ) (l : List (κ × α)) :
    Database.lookup k (l.map fun x => (x.1, f x.2)) = (Database.lookup k l).map f := by
  induction l with
  | nil => rfl
  | cons x xs ih =>
    obtain ⟨k', a⟩ := x
    simp only [List.map_cons, Database.lookup]
    split
    · rfl
    · exact ih

theorem used_byId (db : Database) (id : Str) : (Spec.usedDatabase db).byId id = (db.byId id).map Spec.usedMetadata := lookup_map _ _ _
theorem used_byCode (db : Database) (c : Nat) : (Spec.usedDatabase db).byCode c = (db.byCode c).map (List.map Spec.usedMetadata) :=
  lookup_map _ _ _
theorem used_region (db : Database) (c : Nat) : (Spec.usedDatabase db).region c = db.region c := rfl

section
variable [UnicodeTables]

theorem used_descMatch (d : Option Descriptor) (s : Str) : descMatch (d.map Spec.usedDescriptor) s = descMatch d s := by
  cases d <;> rfl

theorem used_general (md : Metadata) (s : Str) : (Spec.usedMetadata md).descriptors.general.isMatch s = md.descriptors.general.isMatch s := rfl

omit [UnicodeTables] in
theorem used_src (d : Option Descriptor) : (d.map Spec.usedDescriptor).map (·.nationalNumber.src) = d.map (·.nationalNumber.src) := by
  cases d <;> rfl

theorem used_numberType (md : Metadata) (s : Str) : numberType (Spec.usedMetadata md) s = numberType md s := by
  unfold numberType
  simp only [Spec.usedMetadata, Spec.usedDescriptors, used_descMatch, used_src]
  rfl

omit [UnicodeTables] in
theorem used_length (md : Metadata) (s : Str) : length (Spec.usedMetadata md) s .unknown = length md s .unknown := rfl

theorem used_regionHit (md : Metadata) (s : Str) : regionHit (Spec.usedMetadata md) s = regionHit md s := by
  unfold regionHit
  rw [used_numberType]
  rfl

omit [UnicodeTables] in
theorem unwrap_map {ε α β : Type} (f : α → β) (o : Option α) :
    (Outcome.unwrap (o.map f) : Outcome ε β) = (Outcome.unwrap o).bind fun a => .ok (f a) := by cases o <;> rfl

theorem used_sourceLoop {ε : Type} (db : Database) (s : Str) (l : List Str) :
    sourceLoop (ε := ε) (Spec.usedDatabase db) s l = sourceLoop db s l := by
  induction l with
  | nil => rfl
  | cons r more ih =>
    unfold sourceLoop
    rw [used_byId, ih]
    cases db.byId r with
    | none => rfl
    | some md =>
      simp only [Option.map_some, Outcome.unwrap, Outcome.bind_ok, used_regionHit]

theorem used_sourceFor {ε : Type} (db : Database) (c : Nat) (s : Str) : sourceFor (ε := ε) (Spec.usedDatabase db) c s = sourceFor db c s := by
  unfold sourceFor
  simp only [used_sourceLoop]
  rfl

omit [UnicodeTables] in
theorem used_sourceMeta (db : Database) (x : Id ⊕ Nat) : sourceMeta (Spec.usedDatabase db) x = (sourceMeta db x).map Spec.usedMetadata := by
  cases x with
  | inl r => exact used_byId db _
  | inr c =>
    simp only [sourceMeta, used_byCode]
    cases db.byCode c with
    | none => rfl
    | some l => cases l <;> rfl

omit [UnicodeTables] in
theorem used_source (db : Database) (o : Option (Id ⊕ Nat)) :
    o.bind (sourceMeta (Spec.usedDatabase db)) = (o.bind (sourceMeta db)).map Spec.usedMetadata := by
  cases o with
  | none => rfl
  | some x => exact used_sourceMeta db x

theorem used_isValid {ε : Type} (db : Database) (p : PhoneNumber) : isValidWith (ε := ε) (Spec.usedDatabase db) p = isValidWith db p := by
  unfold isValidWith
  simp only [used_sourceFor, used_source]
  congr 1
  funext o
  cases o.bind (sourceMeta db) with
  | none => rfl
  | some md => simp only [Option.map_some, used_numberType]

theorem used_metadata {ε : Type} (db : Database) (p : PhoneNumber) : p.metadata (ε := ε) (Spec.usedDatabase db) =
    (p.metadata db >>= fun o => .ok (o.map Spec.usedMetadata)) := by
  unfold PhoneNumber.metadata
  simp only [used_sourceFor, used_source]
  cases sourceFor (ε := ε) db p.code.value (decStr p.national.value.toNat) <;> rfl

theorem used_numberTypeWith {ε : Type} (db : Database) (p : PhoneNumber) :
    p.numberTypeWith (ε := ε) (Spec.usedDatabase db) = p.numberTypeWith db := by
  unfold PhoneNumber.numberTypeWith
  rw [used_metadata]
  cases p.metadata (ε := ε) db with
  | ok o => cases o with
    | none => rfl
    | some md => simp only [Outcome.bind_ok, Option.map_some, used_numberType]
  | err e => rfl
  | panic e => rfl

theorem used_countryId (db : Database) (p : PhoneNumber) : p.countryId (Spec.usedDatabase db) = p.countryId db := by
  unfold PhoneNumber.countryId
  rw [used_metadata]
  cases p.metadata (ε := ParseErr) db with
  | ok o => cases o <;> rfl
  | err e => rfl
  | panic e => rfl

theorem used_nationalNumber {ε : Type} (md : Metadata) (n : Number) : nationalNumber (ε := ε) (Spec.usedMetadata md) n = nationalNumber md n := rfl

theorem used_stripNational (o : Option Metadata) (n : Number) : stripNational (o.map Spec.usedMetadata) n = stripNational o n := by
  cases o <;> rfl

omit [UnicodeTables] in
theorem used_codeLoop (db : Database) (n : Number) (l : List Nat) : codeLoop (Spec.usedDatabase db) n l = codeLoop db n l := by
  induction l with
  | nil => rfl
  | cons x xs ih =>
    unfold codeLoop
    simp only [ih, used_byCode, Option.isSome_map]

theorem used_countryCode (db : Database) (country : Option Id) (n : Number) :
    countryCode (Spec.usedDatabase db) country n = countryCode db country n := by
  unfold countryCode
  have h : ((country.bind fun c => (Spec.usedDatabase db).byId c.asRef).bind (·.internationalPrefix)) =
      ((country.bind fun c => db.byId c.asRef).bind (·.internationalPrefix)) := by
    cases country with
    | none => rfl
    | some c =>
      simp only [Option.bind_some, used_byId]
      cases db.byId c.asRef <;> rfl
  simp only [h, used_codeLoop, used_byCode, Option.isNone_map]
  congr 1
  funext n'
  cases n'.country <;> try rfl
  cases country with
  | none => rfl
  | some c =>
    simp only [used_byId]
    cases db.byId c.asRef <;> rfl

theorem used_parseMeta (db : Database) (country : Option Id) (n : Number) :
    parseMeta (Spec.usedDatabase db) country n = (parseMeta db country n >>= fun o => .ok (o.map Spec.usedMetadata)) := by
  unfold parseMeta
  simp only [used_sourceFor, used_source]
  split
  · rw [used_byId]; rfl
  · cases prefixCode n with
    | ok c =>
      simp only [Outcome.bind_ok]
      cases sourceFor (ε := ParseErr) db c (n.national.dropWhile (· == '0')) <;> rfl
    | err e => rfl
    | panic e => rfl

theorem used_parse (db : Database) (country : Option Id) (s : Str) : parseWith (Spec.usedDatabase db) country s = parseWith db country s := by
  unfold parseWith
  congr 1
  funext n
  split
  · rfl
  · rw [used_countryCode]
    congr 1
    funext n
    rw [used_parseMeta]
    cases parseMeta db country n with
    | ok o => simp only [Outcome.bind_ok, used_stripNational]
    | err e => rfl
    | panic e => rfl

theorem used_formatter (s : Str) (l : List Format) : formatter s (l.map Spec.usedFormat) = (formatter s l).map Spec.usedFormat := by
  induction l with
  | nil => rfl
  | cons f fs ih =>
    simp only [List.map_cons, formatter, ih]
    have : meantFor s (Spec.usedFormat f) = meantFor s f := rfl
    rw [this]
    split <;> rfl

omit [UnicodeTables] in
theorem used_candidates (md : Metadata) (mode : Mode) : candidates (Spec.usedMetadata md) mode = (candidates md mode).map Spec.usedFormat := by
  unfold candidates
  simp only [Spec.usedMetadata, List.map_eq_nil_iff]
  split <;> rfl

theorem used_body (md : Metadata) (p : PhoneNumber) (mode : Mode) (custom : Option Format) :
    body (Spec.usedMetadata md) p mode custom = body md p mode custom := by
  unfold body
  simp only [used_candidates, used_formatter]
  cases custom with
  | some f => cases mode <;> rfl
  | none =>
    generalize formatter p.national.display (candidates md mode) = o
    cases o <;> cases mode <;> rfl

theorem used_fmt (db : Database) (p : PhoneNumber) (mode : Mode) (custom : Option Format) :
    fmt (Spec.usedDatabase db) p mode custom = fmt db p mode custom := by
  unfold fmt
  rw [used_byCode]
  cases db.byCode p.code.value with
  | none => rfl
  | some l =>
    cases l with
    | nil => rfl
    | cons md l => exact used_body md p mode custom

/-- C103: two databases that agree in what is used of them give the same results. -/
theorem C103_unused (db db' : Database) (h : Spec.usedDatabase db = Spec.usedDatabase db') :
    (∀ country s, parseWith db country s = parseWith db' country s) ∧
    (∀ p mode custom, fmt db p mode custom = fmt db' p mode custom) ∧
    (∀ ε p, isValidWith (ε := ε) db p = isValidWith db' p) ∧
    (∀ ε (p : PhoneNumber), p.numberTypeWith (ε := ε) db = p.numberTypeWith db') ∧
    (∀ p : PhoneNumber, p.countryId db = p.countryId db') := by
  refine ⟨fun c s => ?_, fun p m c => ?_, fun ε p => ?_, fun ε p => ?_, fun p => ?_⟩
  · rw [← used_parse db, h, used_parse]
  · rw [← used_fmt db, h, used_fmt]
  · rw [← used_isValid db, h, used_isValid]
  · rw [← used_numberTypeWith db, h, used_numberTypeWith]
  · rw [← used_countryId db, h, used_countryId]

end

/-! ### From the document -/

section
variable {compile : Str → Option Regex}
open Database (transpose collect)

theorem lean_transpose {α β : Type} {g : α → Outcome LoadErr β} {f : α → α} {f' : β → β} (hg : ∀ a b, g a = .ok b → g (f a) = .ok (f' b))
    {o : Option α} {r : Option β} (h : transpose g o = .ok r) : transpose g (o.map f) = .ok (r.map f') := by
  cases o with
  | none => simp only [transpose, Outcome.ok.injEq] at h; subst h; rfl
  | some a =>
    simp only [transpose, Outcome.bind_eq_ok, Outcome.ok.injEq] at h
    obtain ⟨b, hb, rfl⟩ := h
    simp only [Option.map_some, transpose, hg a b hb, Outcome.bind_ok]

theorem lean_collect {α β : Type} {g : α → Outcome LoadErr β} {f : α → α} {f' : β → β} (hg : ∀ a b, g a = .ok b → g (f a) = .ok (f' b))
    {l : List α} {r : List β} (h : collect g l = .ok r) : collect g (l.map f) = .ok (r.map f') := by
  induction l generalizing r with
  | nil => simp only [collect, Outcome.ok.injEq] at h; subst h; rfl
  | cons a l ih =>
    simp only [collect, Outcome.bind_eq_ok, Outcome.ok.injEq] at h
    obtain ⟨b, hb, bs, hbs, rfl⟩ := h
    simp only [List.map_cons, collect, hg a b hb, ih hbs, Outcome.bind_ok]

theorem lean_descriptor (d : Loader.Descriptor) (e : Descriptor) (h : Database.descriptor compile d = .ok e) :
    Database.descriptor compile (Spec.leanDescriptor d) = .ok (Spec.usedDescriptor e) := by
  simp only [Database.descriptor, Outcome.bind_eq_ok, Outcome.ok.injEq] at h
  obtain ⟨s, hs, r, hr, rfl⟩ := h
  simp only [Database.descriptor, Spec.leanDescriptor, hs, hr, Outcome.bind_ok, Spec.usedDescriptor]

theorem lean_format (f : Loader.Format) (g : Format) (h : Database.format compile f = .ok g) :
    Database.format compile (Spec.leanFormat f) = .ok (Spec.usedFormat g) := by
  simp only [Database.format, Outcome.bind_eq_ok, Outcome.ok.injEq] at h
  obtain ⟨s, hs, r, hr, t, ht, l, hl, rfl⟩ := h
  simp only [Database.format, Spec.leanFormat, hs, hr, ht, hl, Outcome.bind_ok, Spec.usedFormat]

/-- The entry of a territory without what is not used. -/
def leanEntry (md : Metadata) : Metadata := { Spec.usedMetadata md with mainCountryForCode := md.mainCountryForCode }

theorem lean_metadata (m : Loader.Metadata) (md : Metadata) (h : Database.metadata compile m = .ok md) :
    Database.metadata compile (Spec.leanTerritory m) = .ok (leanEntry md) := by
  simp only [Database.metadata, Outcome.bind_eq_ok, Outcome.ok.injEq] at h
  obtain ⟨g, hg, gd, hgd, _, h1, _, h2, _, h3, _, h4, _, h5, _, h6, _, h7, _, h8, _, h9, _, h10, _, h11, _, h12, _, h13,
    _, h14, _, h15, _, hid, _, hcode, _, hip, _, hpf, _, hfs, _, hifs, _, hld, rfl⟩ := h
  have hg' : Outcome.okOr (Database.missing (str% "metadata") (str% "generalDesc"))
      (m.general.map fun d => ({ d with example? := none } : Loader.Descriptor)) = .ok { g with example? := none } := by
    rw [Outcome.okOr_eq_ok] at hg ⊢
    rw [hg]; rfl
  have hgd' : Database.descriptor compile { g with example? := none } = .ok { gd with example? := none } := by
    simp only [Database.descriptor, Outcome.bind_eq_ok, Outcome.ok.injEq] at hgd
    obtain ⟨s, hs, r, hr, rfl⟩ := hgd
    simp only [Database.descriptor, hs, hr, Outcome.bind_ok]
  have hn : transpose (Database.descriptor compile) none = .ok none := rfl
  have d := fun {o r} h => lean_transpose (o := o) (r := r) (lean_descriptor (compile := compile)) h
  have f := fun {o r} h => lean_collect (l := o) (r := r) (lean_format (compile := compile)) h
  simp only [Database.metadata, Spec.leanTerritory, hg', hgd', d h1, d h2, d h3, d h4, d h5, d h6, d h7, d h8, d h9, d h11,
    hid, hcode, hip, hpf, f hfs, f hifs, hld, Outcome.bind_ok, hn]
  rfl

theorem insert_map {κ α β : Type} [DecidableEq κ] (f : α → β) (k : κ) (a : α) (l : List (κ × α)) :
    (Database.insert k a l).map (fun x => (x.1, f x.2)) = Database.insert k (f a) (l.map fun x => (x.1, f x.2)) := by
  induction l with
  | nil => rfl
  | cons x xs ih =>
    obtain ⟨k', a'⟩ := x
    simp only [List.map_cons, Database.insert]
    split
    · rfl
    · simp only [List.map_cons, ih]

theorem upsert_map {κ α β : Type} [DecidableEq κ] (f : α → β) (k : κ) (g : List α → List α) (g' : List β → List β)
    (hg : ∀ l, (g l).map f = g' (l.map f)) (l : List (κ × List α)) :
    (Database.upsert k g l).map (fun x => (x.1, x.2.map f)) = Database.upsert k g' (l.map fun x => (x.1, x.2.map f)) := by
  induction l with
  | nil => simp only [Database.upsert, List.map_cons, List.map_nil, hg]
  | cons x xs ih =>
    obtain ⟨k', a'⟩ := x
    simp only [List.map_cons, Database.upsert]
    split
    · simp only [List.map_cons, hg]
    · simp only [List.map_cons, ih]

theorem used_lean (md : Metadata) : Spec.usedMetadata (leanEntry md) = Spec.usedMetadata md := by
  have hd : ∀ o : Option Descriptor, (o.map Spec.usedDescriptor).map Spec.usedDescriptor = o.map Spec.usedDescriptor := by
    intro o; cases o <;> rfl
  have hf : ∀ l : List Format, (l.map Spec.usedFormat).map Spec.usedFormat = l.map Spec.usedFormat := by
    intro l; rw [List.map_map]; rfl
  simp only [leanEntry, Spec.usedMetadata, Spec.usedDescriptors, hd, hf]

theorem used_add (db : Database) (md : Metadata) : Spec.usedDatabase (db.add md) =
    { byIdMap := Database.insert md.id (Spec.usedMetadata md) (Spec.usedDatabase db).byIdMap
      byCodeMap := Database.upsert md.countryCode
        (fun l => if md.mainCountryForCode then Spec.usedMetadata md :: l else l ++ [Spec.usedMetadata md]) (Spec.usedDatabase db).byCodeMap
      regionsMap := Database.upsert md.countryCode (fun l => if md.mainCountryForCode then md.id :: l else l ++ [md.id]) db.regionsMap } := by
  simp only [Spec.usedDatabase, Database.add, insert_map]
  congr 1
  refine upsert_map _ _ _ _ ?_ _
  intro l
  split <;> simp

theorem used_fromLoop (ms : List Loader.Metadata) (d d' db : Database) (hd : Spec.usedDatabase d' = Spec.usedDatabase d)
    (h : Database.fromLoop compile d ms = .ok db) :
    ∃ db', Database.fromLoop compile d' (ms.map Spec.leanTerritory) = .ok db' ∧ Spec.usedDatabase db' = Spec.usedDatabase db := by
  induction ms generalizing d d' with
  | nil =>
    simp only [Database.fromLoop, Outcome.ok.injEq] at h
    subst h
    exact ⟨d', rfl, hd⟩
  | cons m ms ih =>
    simp only [Database.fromLoop, Outcome.bind_eq_ok] at h
    obtain ⟨md, hm, h⟩ := h
    simp only [List.map_cons, Database.fromLoop, lean_metadata m md hm, Outcome.bind_ok]
    refine ih _ _ ?_ h
    rw [used_add, used_add, used_lean, hd]
    have : d'.regionsMap = d.regionsMap := by
      show (Spec.usedDatabase d').regionsMap = (Spec.usedDatabase d).regionsMap
      rw [hd]
    rw [this]
    rfl

/-- C103: a document without what is not used gives a database with the same results. -/
theorem C103_document [UnicodeTables] (ms : List Loader.Metadata) (db : Database) (h : Database.from compile ms = .ok db) :
    ∃ db', Database.from compile (ms.map Spec.leanTerritory) = .ok db' ∧
    (∀ country s, parseWith db' country s = parseWith db country s) ∧
    (∀ p mode custom, fmt db' p mode custom = fmt db p mode custom) ∧
    (∀ ε p, isValidWith (ε := ε) db' p = isValidWith db p) ∧
    (∀ ε (p : PhoneNumber), p.numberTypeWith (ε := ε) db' = p.numberTypeWith db) ∧
    (∀ p : PhoneNumber, p.countryId db' = p.countryId db) := by
  obtain ⟨db', h1, h2⟩ := used_fromLoop ms _ _ db rfl h
  exact ⟨db', h1, C103_unused db' db h2⟩

end

/-! ### Everything else is used -/

section
variable [UnicodeTables]

/-- Does the text or the number give another result without the field? -/
def changes (ms : List Loader.Metadata) (f : Spec.Field) (country : Option Id) (s : Str) (p : PhoneNumber) (mode : Mode) : Bool :=
  match Database.from Sample.compile ms, Database.from Sample.compile (ms.map (Spec.without · f)) with
  | .ok d, .ok d' => decide (parseWith d country s ≠ parseWith d' country s) || decide (fmt d p mode ≠ fmt d' p mode) ||
      decide (isValidWith (ε := Unit) d p ≠ isValidWith d' p)
  | _, _ => false

/-- A Finnish number. -/
def finnish (n : Nat) : PhoneNumber := ⟨⟨358, .plus⟩, ⟨UInt64.ofNat n⟩, none, none⟩

/-- A territory with one type. -/
def oneType (t : PType) : Loader.Metadata :=
  let d : Loader.Descriptor := { nationalNumber := some (str% "[1-9]\\d{6}") }
  let m : Loader.Metadata := { general := some d, id := some (str% "FI"), countryCode := some 358 }
  match t with
  | .fixedLine => { m with fixedLine := some d }
  | .mobile => { m with mobile := some d }
  | .tollFree => { m with tollFree := some d }
  | .premiumRate => { m with premiumRate := some d }
  | .sharedCost => { m with sharedCost := some d }
  | .personalNumber => { m with personalNumber := some d }
  | .voip => { m with voip := some d }
  | .pager => { m with pager := some d }
  | .uan => { m with uan := some d }
  | .voicemail => { m with voicemail := some d }
  | _ => m

/-- Territories and a text or number that tell whether a field is there. -/
def telling : Spec.Field → List Loader.Metadata × Option Id × Str × PhoneNumber × Mode
  | .internationalPrefix => (Sample.territories, some .US, str% "011 7 9123456789", finnish 0, .e164)
  | .nationalPrefix => (Sample.territories, some .RU, str% "89123456789", finnish 0, .e164)
  | .preferredExtensionPrefix => (Sample.territories, none, [], ⟨⟨800, .plus⟩, ⟨12345678⟩, some (str% "9"), none⟩, .national)
  | .nationalPrefixForParsing => (Sample.territories, some .AR, str% "0111523456789", finnish 0, .e164)
  | .nationalPrefixTransformRule => (Sample.territories, some .AR, str% "0111523456789", finnish 0, .e164)
  | .formats => (Sample.territories, none, [], ⟨⟨1, .plus⟩, ⟨6502530000⟩, none, none⟩, .national)
  | .internationalFormats => (Sample.territories, none, [], ⟨⟨1, .plus⟩, ⟨6502530000⟩, none, none⟩, .international)
  | .mainCountryForCode => (Sample.territories, none, [], ⟨⟨1, .plus⟩, ⟨6502530000⟩, none, none⟩, .national)
  | .leadingDigits => ([Sample.us, { Sample.ca with leadingDigits := some (str% "613") }], none, [], ⟨⟨1, .plus⟩, ⟨2042530000⟩, none, none⟩, .e164)
  | .generalLength => ([{ oneType .mobile with general := some { nationalNumber := some (str% "[1-9]\\d{6}"), possibleLength := [7] } }],
      none, [], finnish 12345678, .e164)
  | .generalLocalLength => ([{ Sample.fi with general := some { nationalNumber := some (str% "[1-9]\\d{6}"), possibleLength := [7], possibleLocalLength := [5] } }],
      some .FI, str% "012345", finnish 0, .e164)
  | .type t => ([oneType t], none, [], finnish 1234567, .e164)
  | .typeLength => ([Sample.ru], none, [], ⟨⟨7, .plus⟩, ⟨91234567890⟩, none, none⟩, .e164)
  | .formatLeadingDigits => (Sample.territories, none, [], ⟨⟨1, .plus⟩, ⟨1502530000⟩, none, none⟩, .national)
  | .formatNationalPrefix => (Sample.territories, none, [], ⟨⟨7, .plus⟩, ⟨9123456789⟩, none, none⟩, .national)
  | .formatDomesticCarrier => (Sample.territories, none, [], ⟨⟨54, .plus⟩, ⟨91123456789⟩, none, some (str% "11")⟩, .national)

theorem telling_check (f : Spec.Field) (hf : ∀ t, f = .type t → t ∈ Spec.keptTypes) :
    changes (telling f).1 f (telling f).2.1 (telling f).2.2.1 (telling f).2.2.2.1 (telling f).2.2.2.2 = true := by
  cases f with
  | type t =>
    have ht := hf t rfl
    simp only [Spec.keptTypes, List.mem_cons, List.not_mem_nil, or_false] at ht
    rcases ht with rfl | rfl | rfl | rfl | rfl | rfl | rfl | rfl | rfl | rfl <;> kernel_rfl
  | _ => kernel_rfl

omit [UnicodeTables] in
/-- Two databases that differ, though not in what is used. -/
example : ∃ db', Database.from Sample.compile (Sample.territories.map Spec.leanTerritory) = .ok db' ∧ db' ≠ Sample.db ∧
    Spec.usedDatabase db' = Spec.usedDatabase Sample.db := by
  have h : (match Database.from Sample.compile (Sample.territories.map Spec.leanTerritory) with
    | .ok d => decide (d ≠ Sample.db) && decide (Spec.usedDatabase d = Spec.usedDatabase Sample.db)
    | _ => false) = true := by kernel_rfl
  split at h
  · rename_i d hd
    simp only [Bool.and_eq_true, decide_eq_true_eq] at h
    exact ⟨d, hd, h.1, h.2⟩
  · cases h

/-- C103: everything else is used: without any other field some text or number gets another result with some territories. (Without id,
calling code, general description, the pattern of a description, or pattern and text of a format no database is built, C96.) -/
theorem C103_used (f : Spec.Field) (hf : ∀ t, f = .type t → t ∈ Spec.keptTypes) :
    ∃ ms db db', Database.from Sample.compile ms = .ok db ∧ Database.from Sample.compile (ms.map (Spec.without · f)) = .ok db' ∧
      ((∃ country s, parseWith db country s ≠ parseWith db' country s) ∨ (∃ p mode, fmt db p mode ≠ fmt db' p mode) ∨
        ∃ p, isValidWith (ε := Unit) db p ≠ isValidWith db' p) := by
  have h := telling_check f hf
  generalize telling f = x at h
  obtain ⟨ms, country, s, p, mode⟩ := x
  unfold changes at h
  split at h
  · rename_i d d' h1 h2
    simp only [Bool.or_eq_true, decide_eq_true_eq] at h
    refine ⟨ms, d, d', h1, h2, ?_⟩
    rcases h with (h | h) | h
    · exact .inl ⟨_, _, h⟩
    · exact .inr (.inl ⟨_, _, h⟩)
    · exact .inr (.inr ⟨_, h⟩)
  · cases h

end
end Phone
