import Verif.Props.Database
import Verif.Spec.Fields
/-! # C60: the database keeps what the document says -/

namespace Phone
open Database

section
variable {compile : Str → Option Regex}

theorem transpose_rel {α β : Type} {f : α → Outcome LoadErr β} {R : α → β → Prop} (hf : ∀ a b, f a = .ok b → R a b)
    {o : Option α} {r : Option β} (h : transpose f o = .ok r) : Spec.OptionRel R o r := by
  cases o with
  | none => simp [transpose] at h; subst h; exact .none
  | some a =>
    simp only [transpose, Outcome.bind_eq_ok, Outcome.ok.injEq] at h
    obtain ⟨b, hb, rfl⟩ := h
    exact .some (hf _ _ hb)

theorem collect_rel {α β : Type} {f : α → Outcome LoadErr β} {R : α → β → Prop} (hf : ∀ a b, f a = .ok b → R a b)
    {l : List α} {r : List β} (h : collect f l = .ok r) : Spec.ListRel R l r := by
  induction l generalizing r with
  | nil => simp [collect] at h; subst h; exact .nil
  | cons a l ih =>
    simp only [collect, Outcome.bind_eq_ok, Outcome.ok.injEq] at h
    obtain ⟨b, hb, bs, hbs, rfl⟩ := h
    exact .cons (hf _ _ hb) (ih hbs)

theorem regex_rel (s : Str) (r : Regex) (h : regex compile s = .ok r) : Spec.Compiled compile s r := by
  simpa only [regex, Outcome.okOr_eq_ok, Spec.Compiled] using h

theorem descriptor_rel (d : Loader.Descriptor) (e : Descriptor) (h : Database.descriptor compile d = .ok e) :
    Spec.DescriptorOf compile d e := by
  simp only [Database.descriptor, Outcome.bind_eq_ok, Outcome.unwrap_eq_ok, Outcome.ok.injEq] at h
  obtain ⟨s, hs, r, hr, rfl⟩ := h
  exact ⟨⟨s, hs, regex_rel _ _ hr⟩, rfl, rfl, rfl⟩

theorem format_rel (f : Loader.Format) (g : Format) (h : Database.format compile f = .ok g) : Spec.FormatOf compile f g := by
  simp only [Database.format, Outcome.bind_eq_ok, Outcome.okOr_eq_ok, Outcome.ok.injEq] at h
  obtain ⟨s, hs, r, hr, t, ht, l, hl, rfl⟩ := h
  exact ⟨⟨s, hs, regex_rel _ _ hr⟩, ht, collect_rel regex_rel hl, rfl, rfl, rfl⟩

theorem metadata_rel (m : Loader.Metadata) (md : Metadata) (h : Database.metadata compile m = .ok md) :
    Spec.EntryOf compile m md := by
  simp only [Database.metadata, Outcome.bind_eq_ok, Outcome.ok.injEq, Outcome.okOr_eq_ok] at h
  obtain ⟨g, hg, gd, hgd, _, h1, _, h2, _, h3, _, h4, _, h5, _, h6, _, h7, _, h8, _, h9, _, h10, _, h11, _, h12, _, h13,
    _, h14, _, h15, _, hid, _, hcode, _, hip, _, hpf, _, hfs, _, hifs, _, hld, rfl⟩ := h
  have d := fun {o r} h => transpose_rel (o := o) (r := r) (descriptor_rel (compile := compile)) h
  have t := fun {o r} h => transpose_rel (o := o) (r := r) (regex_rel (compile := compile)) h
  exact ⟨hid, hcode, rfl, rfl, rfl, rfl, rfl, rfl, t hip, t hpf, t hld, ⟨g, hg, descriptor_rel _ _ hgd⟩, d h1, d h2, d h3, d h4,
    d h5, d h6, d h7, d h8, d h9, d h10, d h11, d h12, d h13, d h14, d h15, collect_rel format_rel hfs,
    collect_rel format_rel hifs⟩

/-- C60: whatever list of territories `Database::from` accepts, the entries it can be asked for are the territories of the list
with every field kept: texts, numbers and flags as they are, patterns compiled. They are found by id (the last territory with the
id) and by calling code (main countries first). -/
theorem C60_entries (ms : List Loader.Metadata) (db : Database) (h : Database.from compile ms = .ok db) :
    ∃ mds : List Metadata, Spec.ListRel (Spec.EntryOf compile) ms mds ∧
      (∀ i, db.byId i = (mds.filter (·.id == i)).getLast?) ∧
      (∀ c, (∃ m ∈ ms, m.countryCode = some c) →
        db.byCode c = some (Spec.listed (·.mainCountryForCode) (mds.filter (·.countryCode == c)))) := by
  obtain ⟨mds, hc, rfl⟩ := from_eq_ok.1 h
  have hr := collect_rel metadata_rel hc
  refine ⟨mds, hr, ?_, ?_⟩
  · intro i; rw [foldl_byId]; simp [empty, byId, lookup]
  · intro c hm
    rw [(foldl_byCode mds c).1, if_neg]
    have : ∃ md ∈ mds, md.countryCode = c := by
      clear h hc
      obtain ⟨m, hm, hmc⟩ := hm
      induction hr with
      | nil => cases hm
      | cons hab _ ih =>
        rcases List.mem_cons.1 hm with rfl | hm
        · rw [hab.countryCode, Option.some.injEq] at hmc
          exact ⟨_, by simp, hmc⟩
        · obtain ⟨md, h1, h2⟩ := ih hm
          exact ⟨md, by simp [h1], h2⟩
    obtain ⟨md, h1, h2⟩ := this
    intro he
    have : md ∈ mds.filter (·.countryCode == c) := by simp [h1, h2]
    rw [he] at this
    cases this

/-- C60 for one territory: a territory whose id no later one repeats is found by its id with all its fields. -/
theorem C60_by_id (pre post : List Loader.Metadata) (m : Loader.Metadata) (i : Str) (db : Database)
    (h : Database.from compile (pre ++ m :: post) = .ok db) (hi : m.id = some i) (hp : ∀ m' ∈ post, m'.id ≠ some i) :
    ∃ md, db.byId i = some md ∧ Spec.EntryOf compile m md := by
  obtain ⟨mds, hr, hb, hc⟩ := C60_entries _ _ h
  clear hc
  have split : ∀ (l l' : List Loader.Metadata) (r : List Metadata), Spec.ListRel (Spec.EntryOf compile) (l ++ l') r →
      ∃ r1 r2, r = r1 ++ r2 ∧ Spec.ListRel (Spec.EntryOf compile) l r1 ∧ Spec.ListRel (Spec.EntryOf compile) l' r2 := by
    intro l
    induction l with
    | nil => intro l' r h; exact ⟨[], r, rfl, .nil, h⟩
    | cons a l ih =>
      intro l' r h
      cases h with
      | cons hab h =>
        obtain ⟨r1, r2, rfl, h1, h2⟩ := ih _ _ h
        exact ⟨_ :: r1, r2, rfl, .cons hab h1, h2⟩
  obtain ⟨r1, r2, rfl, _, h2⟩ := split _ _ _ hr
  cases h2 with
  | @cons _ md _ rs hab h2 =>
    refine ⟨md, ?_, hab⟩
    have hmd : md.id = i := by have := hab.id; rw [hi, Option.some.injEq] at this; exact this.symm
    have hnil : rs.filter (·.id == i) = [] := by
      clear hb h hr
      induction h2 with
      | nil => rfl
      | cons hab' _ ih =>
        rw [List.filter_cons_of_neg, ih (fun m' hm' => hp m' (by simp [hm']))]
        intro he
        exact hp _ List.mem_cons_self (by rw [hab'.id]; simpa using he)
    rw [hb]
    simp [List.filter_append, hmd, hnil]

/-- The sample list is accepted, and the entry found for the United States carries the fields of its territory. -/
example : ∃ md, Sample.db.byId (str% "US") = some md ∧ Spec.EntryOf Sample.compile Sample.us md :=
  C60_by_id (compile := Sample.compile) [Sample.ar, Sample.ca, Sample.fi, Sample.ru] [Sample.freephone] Sample.us _ Sample.db Sample.from_territories rfl (by decide)

end
end Phone
