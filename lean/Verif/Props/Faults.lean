import Verif.Spec.Faults
import Verif.Props.Database
/-! # C96: what building a database comes to -/

namespace Phone
open Database

/-- The outcome is decided by the first of the faults. -/
def FirstFault {α : Type} (o : Outcome LoadErr α) : List Spec.Fault → Prop
  | [] => ∃ a, o = .ok a
  | f :: _ => o = f.effect

theorem FirstFault.pure {α : Type} (a : α) : FirstFault (.ok a) [] := ⟨a, rfl⟩

theorem FirstFault.bind {α β : Type} {o : Outcome LoadErr α} {g : α → Outcome LoadErr β} {fs gs : List Spec.Fault}
    (h : FirstFault o fs) (hg : ∀ a, o = .ok a → FirstFault (g a) gs) : FirstFault (o >>= g) (fs ++ gs) := by
  cases fs with
  | nil =>
    obtain ⟨a, rfl⟩ := h
    exact hg a rfl
  | cons f fs =>
    have h : o = f.effect := h
    subst h
    cases f <;> rfl

theorem FirstFault.last {α β : Type} {o : Outcome LoadErr α} {g : α → β} {fs : List Spec.Fault}
    (h : FirstFault o fs) : FirstFault (o >>= fun a => .ok (g a)) fs := by
  have := h.bind (g := fun a => .ok (g a)) (gs := []) fun a _ => .pure _
  rwa [List.append_nil] at this

theorem okOr_fault {α : Type} (kind name : Str) (o : Option α) :
    FirstFault (Outcome.okOr (missing kind name) o) (if o.isNone then [.missing kind name] else []) := by
  cases o with
  | none => rfl
  | some a => exact ⟨a, rfl⟩

section
variable {compile : Str → Option Regex}

theorem regex_fault (s : Str) : FirstFault (regex compile s) (Spec.patternFaults (fun s => (compile s).isSome) s) := by
  unfold regex Spec.patternFaults
  cases h : compile s with
  | none => rw [if_neg (by simp [h])]; rfl
  | some r => rw [if_pos (by simp [h])]; exact ⟨r, rfl⟩

theorem collect_fault {α β : Type} {f : α → Outcome LoadErr β} {k : α → List Spec.Fault} (h : ∀ a, FirstFault (f a) (k a))
    (l : List α) : FirstFault (collect f l) (l.flatMap k) := by
  induction l with
  | nil => exact .pure _
  | cons a l ih =>
    rw [List.flatMap_cons]
    exact (h a).bind fun _ _ => ih.last

theorem optional_fault (o : Option Str) :
    FirstFault (transpose (regex compile) o) (Spec.optionalFaults (fun s => (compile s).isSome) o) := by
  cases o with
  | none => exact .pure _
  | some s => exact (regex_fault s).last

theorem descriptor_fault (d : Loader.Descriptor) :
    FirstFault (Database.descriptor compile d) (Spec.descriptionFaults (fun s => (compile s).isSome) d) := by
  unfold Database.descriptor Spec.descriptionFaults
  cases d.nationalNumber with
  | none => rfl
  | some s => exact (regex_fault s).last

theorem optionalDescriptor_fault (o : Option Loader.Descriptor) :
    FirstFault (transpose (Database.descriptor compile) o)
      (Spec.optionalDescriptionFaults (fun s => (compile s).isSome) o) := by
  cases o with
  | none => exact .pure _
  | some d => exact (descriptor_fault d).last

theorem format_fault (f : Loader.Format) :
    FirstFault (Database.format compile f) (Spec.formatFaults (fun s => (compile s).isSome) f) := by
  unfold Database.format Spec.formatFaults
  rw [List.append_assoc]
  cases f.pattern with
  | none => rfl
  | some s => exact (regex_fault s).bind fun _ _ => (okOr_fault _ _ _).bind fun _ _ => (collect_fault regex_fault _).last

theorem metadata_fault (m : Loader.Metadata) :
    FirstFault (Database.metadata compile m) (Spec.territoryFaults (fun s => (compile s).isSome) m) := by
  unfold Database.metadata Spec.territoryFaults
  simp only [List.append_assoc, List.flatMap_cons, List.flatMap_nil, List.nil_append]
  cases m.general with
  | none => rfl
  | some d =>
    refine (descriptor_fault d).bind fun _ _ => ?_
    iterate 15 refine (optionalDescriptor_fault _).bind fun _ _ => ?_
    refine (okOr_fault _ _ _).bind fun _ _ => ?_
    refine (okOr_fault _ _ _).bind fun _ _ => ?_
    refine (optional_fault _).bind fun _ _ => ?_
    refine (optional_fault _).bind fun _ _ => ?_
    refine (collect_fault format_fault _).bind fun _ _ => ?_
    refine (collect_fault format_fault _).bind fun _ _ => ?_
    exact (optional_fault _).last

theorem from_fault (ms : List Loader.Metadata) :
    FirstFault (Database.from compile ms) (Spec.faults (fun s => (compile s).isSome) ms) := by
  have key : ∀ ms db, FirstFault (fromLoop compile db ms) (Spec.faults (fun s => (compile s).isSome) ms) := by
    intro ms
    induction ms with
    | nil => exact fun _ => .pure _
    | cons m ms ih =>
      intro db
      rw [Spec.faults, List.flatMap_cons]
      exact (metadata_fault m).bind fun _ _ => ih _
  exact key ms _

/-- C96: building a database succeeds exactly if the territories have no faults. -/
theorem C96_ok (ms : List Loader.Metadata) :
    (∃ db, Database.from compile ms = .ok db) ↔ Spec.faults (fun s => (compile s).isSome) ms = [] := by
  have h := from_fault (compile := compile) ms
  cases hf : Spec.faults (fun s => (compile s).isSome) ms with
  | nil => rw [hf] at h; exact ⟨fun _ => rfl, fun _ => h⟩
  | cons f fs =>
    rw [hf] at h
    have h : Database.from compile ms = f.effect := h
    refine ⟨fun ⟨db, hd⟩ => ?_, fun h => by cases h⟩
    rw [h] at hd
    cases f <;> cases hd

/-- C96: otherwise the first fault decides what happens, whatever comes after it. -/
theorem C96_fault (ms : List Loader.Metadata) (f : Spec.Fault) (later : List Spec.Fault)
    (h : Spec.faults (fun s => (compile s).isSome) ms = f :: later) : Database.from compile ms = f.effect := by
  have := from_fault (compile := compile) ms
  rwa [h] at this

/-- C96: the only errors are five missing values and patterns that do not compile. In particular the error for a description without
pattern (kind `descriptor`, name `national_number`) is never returned: such a description makes the call panic before. -/
theorem C96_errors (ms : List Loader.Metadata) (e : LoadErr) (h : Database.from compile ms = .err e) :
    e = .regex ∨ ∃ x ∈ [(str% "metadata", str% "generalDesc"), (str% "metadata", str% "id"), (str% "metadata", str% "countryCode"),
      (str% "format", str% "pattern"), (str% "format", str% "format")], e = .metadata (.missingValue x.1 x.2) := by
  have hp : ∀ s, ∀ f ∈ Spec.patternFaults (fun s => (compile s).isSome) s, f = .pattern s := by
    intro s f hf
    unfold Spec.patternFaults at hf
    split at hf
    · cases hf
    · simpa using hf
  have ho : ∀ o, ∀ f ∈ Spec.optionalFaults (fun s => (compile s).isSome) o, ∃ s, f = .pattern s := by
    intro o f hf
    cases o with
    | none => cases hf
    | some s => exact ⟨s, hp s f hf⟩
  have hd : ∀ d, ∀ f ∈ Spec.descriptionFaults (fun s => (compile s).isSome) d, f = .bare ∨ ∃ s, f = .pattern s := by
    intro d f hf
    unfold Spec.descriptionFaults at hf
    split at hf
    · exact .inl (by simpa using hf)
    · exact .inr ⟨_, hp _ f hf⟩
  have hod : ∀ o, ∀ f ∈ Spec.optionalDescriptionFaults (fun s => (compile s).isSome) o, f = .bare ∨ ∃ s, f = .pattern s := by
    intro o f hf
    cases o with
    | none => cases hf
    | some d => exact hd d f hf
  have hfm : ∀ x, ∀ f ∈ Spec.formatFaults (fun s => (compile s).isSome) x, f = .missing (str% "format") (str% "pattern") ∨
      f = .missing (str% "format") (str% "format") ∨ ∃ s, f = .pattern s := by
    intro x f hf
    simp only [Spec.formatFaults, List.mem_append, List.mem_flatMap] at hf
    rcases hf with (hf | hf) | ⟨s, _, hf⟩
    · split at hf
      · exact .inl (by simpa using hf)
      · exact .inr (.inr ⟨_, hp _ f hf⟩)
    · split at hf
      · exact .inr (.inl (by simpa using hf))
      · cases hf
    · exact .inr (.inr ⟨_, hp _ f hf⟩)
  have all : ∀ f ∈ Spec.faults (fun s => (compile s).isSome) ms, f = .bare ∨ (∃ s, f = .pattern s) ∨
      ∃ x ∈ [(str% "metadata", str% "generalDesc"), (str% "metadata", str% "id"), (str% "metadata", str% "countryCode"),
        (str% "format", str% "pattern"), (str% "format", str% "format")], f = .missing x.1 x.2 := by
    intro f hf
    simp only [Spec.faults, List.mem_flatMap, Spec.territoryFaults, List.mem_append] at hf
    obtain ⟨m, _, hf⟩ := hf
    rcases hf with (((((((hf | ⟨_, _, hf⟩) | hf) | hf) | hf) | hf) | ⟨_, _, hf⟩) | ⟨_, _, hf⟩) | hf
    · split at hf
      · exact .inr (.inr ⟨(str% "metadata", str% "generalDesc"), by simp, by simpa using hf⟩)
      · rcases hd _ f hf with h | h
        · exact .inl h
        · exact .inr (.inl h)
    · rcases hod _ f hf with h | h
      · exact .inl h
      · exact .inr (.inl h)
    · split at hf
      · exact .inr (.inr ⟨(str% "metadata", str% "id"), by simp, by simpa using hf⟩)
      · cases hf
    · split at hf
      · exact .inr (.inr ⟨(str% "metadata", str% "countryCode"), by simp, by simpa using hf⟩)
      · cases hf
    · exact .inr (.inl (ho _ f hf))
    · exact .inr (.inl (ho _ f hf))
    · rcases hfm _ f hf with h | h | h
      · exact .inr (.inr ⟨(str% "format", str% "pattern"), by simp, h⟩)
      · exact .inr (.inr ⟨(str% "format", str% "format"), by simp, h⟩)
      · exact .inr (.inl h)
    · rcases hfm _ f hf with h | h | h
      · exact .inr (.inr ⟨(str% "format", str% "pattern"), by simp, h⟩)
      · exact .inr (.inr ⟨(str% "format", str% "format"), by simp, h⟩)
      · exact .inr (.inl h)
    · exact .inr (.inl (ho _ f hf))
  cases hf : Spec.faults (fun s => (compile s).isSome) ms with
  | nil =>
    obtain ⟨db, hdb⟩ := (C96_ok ms).2 hf
    rw [hdb] at h; cases h
  | cons f fs =>
    rw [C96_fault ms f fs hf] at h
    rcases all f (by simp [hf]) with rfl | ⟨s, rfl⟩ | ⟨x, hx, rfl⟩
    · cases h
    · exact .inl (Outcome.err.inj h).symm
    · exact .inr ⟨x, hx, (Outcome.err.inj h).symm⟩

end

/-- Three faults in two territories: a pattern that does not compile, a missing calling code, a description without pattern. The first
decides; without it the second does, and without both the call panics. -/
example :
    let bad := { Sample.ar with leadingDigits := some (str% "(2") }
    let noCode := { Sample.ca with countryCode := none }
    let bare := { Sample.ca with mobile := some {} }
    let isRegex := fun s => (Sample.compile s).isSome
    Spec.faults isRegex [bad, noCode, bare] =
      [.pattern (str% "(2"), .missing (str% "metadata") (str% "countryCode"), .bare] ∧
    Database.from Sample.compile [bad, noCode, bare] = .err .regex ∧
    Database.from Sample.compile [Sample.ar, noCode, bare] =
      .err (.metadata (.missingValue (str% "metadata") (str% "countryCode"))) ∧
    Database.from Sample.compile [Sample.ar, bare] = .panic .unwrap ∧ Spec.faults isRegex Sample.territories = [] :=
  ⟨by kernel_rfl, by kernel_rfl, by kernel_rfl, by kernel_rfl, by kernel_rfl⟩

end Phone
