import Verif.Props.BuiltinPrefix
import Verif.Props.LocalMore
import Verif.Props.DashesBuiltin
/-! # Concrete cases for the theorems about the shipped database

Evaluated by the kernel with the territories of one calling code; by C76 the results are those of the whole database. -/

namespace Phone.Builtin
variable [UnicodeTables]

/-- What is read with the territories of one calling code and that of the reference country. -/
def locally (ms : List Loader.Metadata) (c : Nat) (country : Option Id) (s : Str) : Bool × Outcome ParseErr PhoneNumber :=
  match Database.from compile (ms.filter fun m => m.countryCode == some c || country.any fun i => m.id == some i.asRef) with
  | .ok d => (d.sharedCheck, parseWith d country s)
  | _ => (false, .err .noNumber)

theorem locally_builtin (country : Option Id) (s : Str) (q : PhoneNumber)
    (h : locally Data.territories q.code.value country s = (true, .ok q)) : parse country s = .ok q := by
  revert h
  have hnd := ids_nodup
  have hfrom := from_builtin
  generalize Data.territories = ms at *
  intro h
  unfold locally at h
  split at h
  · rename_i d hd
    rw [Prod.mk.injEq] at h
    refine C76_some compile _ ms d db hd hfrom (hnd.sublist ((List.filter_sublist.filterMap _).filter _)) hnd (shared_of_check h.1) shared
      prefixFree country s q h.2 (fun m hm => (List.mem_filter.1 hm).1) ?_ ?_
    · rintro i rfl
      rw [List.filter_filter]
      refine List.filter_congr fun m _ => ?_
      cases e : (m.id == some i.asRef) <;> simp [e]
    · rw [List.filter_filter]
      refine List.filter_congr fun m _ => ?_
      cases m.countryCode == some q.code.value <;> simp
  · cases h

/-- The four forms of a number with the territories of its calling code. -/
def forms (ms : List Loader.Metadata) (p : PhoneNumber) : Bool × List (Outcome Formatter.FmtErr Str) :=
  match Database.from compile (ms.filter (·.countryCode == some p.code.value)) with
  | .ok d => (d.sharedCheck, [Formatter.Mode.e164, .international, .national, .rfc3966].map (Formatter.fmt d p))
  | _ => (false, [])

theorem forms_builtin (p : PhoneNumber) (l : List (Outcome Formatter.FmtErr Str)) (h : forms Data.territories p = (true, l)) :
    [Formatter.Mode.e164, .international, .national, .rfc3966].map (format p) = l := by
  revert h
  generalize hms : Data.territories.filter (·.countryCode == some p.code.value) = ms
  intro h
  unfold forms at h
  rw [hms] at h
  split at h
  · rename_i d hd
    rw [Prod.mk.injEq] at h
    obtain ⟨f1, f2⟩ := filtered Data.territories ids_nodup p.code.value
    rw [hms] at f1 f2
    obtain ⟨_, _, k⟩ := C76_builtin_number ms d hd f2 (shared_of_check h.1) p (by rw [hms]; exact f1)
    rw [← h.2]
    exact List.map_congr_left fun m _ => k m
  · cases h

/-- A Swiss number: parsing succeeds, so the hypotheses of `C06_builtin` and `C57_parsed_formats` are met, and all modes succeed
(hypotheses of `C34_builtin` and `C38_builtin`). -/
example :
    parse none (str% "+41 44 668 18 00 ext. 7") = .ok ⟨⟨41, .plus⟩, ⟨446681800⟩, some (str% "7"), none⟩ ∧
    [Formatter.Mode.e164, .international, .national, .rfc3966].map (format ⟨⟨41, .plus⟩, ⟨446681800⟩, some (str% "7"), none⟩) =
      [.ok (str% "+41446681800"), .ok (str% "+41 44 668 18 00 ext. 7"), .ok (str% "044 668 18 00 ext. 7"),
       .ok (str% "tel:+41-44-668-18-00;ext=7")] :=
  ⟨locally_builtin none _ ⟨⟨41, .plus⟩, ⟨446681800⟩, some (str% "7"), none⟩ (by kernel_rfl),
    forms_builtin ⟨⟨41, .plus⟩, ⟨446681800⟩, some (str% "7"), none⟩ _ (by kernel_rfl)⟩

/-- National prefixes and carriers: the leading zero of a British number is reported as carrier (`C49_gb`); a Russian number with the
prefix 8 once, twice and not at all (`C45_builtin`, `C46_builtin`); and a number of Aurich in Germany, area code 4941, dialled
without the leading zero, loses the digits 49 (`C58_builtin`). -/
example :
    parse (some .GB) (str% "02070313000") = .ok ⟨⟨44, .default⟩, ⟨2070313000⟩, none, some (str% "0")⟩ ∧
    parse (some .RU) (str% "89123456789") = .ok ⟨⟨7, .default⟩, ⟨9123456789⟩, none, none⟩ ∧
    parse (some .RU) (str% "889123456789") = .ok ⟨⟨7, .default⟩, ⟨9123456789⟩, none, none⟩ ∧
    parse (some .RU) (str% "9123456789") = .ok ⟨⟨7, .default⟩, ⟨9123456789⟩, none, none⟩ ∧
    parse (some .DE) (str% "49415678") = .ok ⟨⟨49, .number⟩, ⟨415678⟩, none, none⟩ ∧
    parse none (str% "+49415678") = .ok ⟨⟨49, .plus⟩, ⟨415678⟩, none, none⟩ :=
  ⟨locally_builtin (some .GB) _ ⟨⟨44, .default⟩, ⟨2070313000⟩, none, some (str% "0")⟩ (by kernel_rfl),
    locally_builtin (some .RU) _ ⟨⟨7, .default⟩, ⟨9123456789⟩, none, none⟩ (by kernel_rfl),
    locally_builtin (some .RU) _ ⟨⟨7, .default⟩, ⟨9123456789⟩, none, none⟩ (by kernel_rfl),
    locally_builtin (some .RU) _ ⟨⟨7, .default⟩, ⟨9123456789⟩, none, none⟩ (by kernel_rfl),
    locally_builtin (some .DE) _ ⟨⟨49, .number⟩, ⟨415678⟩, none, none⟩ (by kernel_rfl),
    locally_builtin none _ ⟨⟨49, .plus⟩, ⟨415678⟩, none, none⟩ (by kernel_rfl)⟩

end Phone.Builtin
