import Verif.Props.Default
/-! # A bound for the number of bytes

The exact number of bytes of the shipped database would be costly to compute in the kernel; a bound is enough. -/

namespace Phone.Postcard
open Wire

/-- A bound for the number of bytes of a value. -/
class Bounded (α : Type) [Wire α] where
  size : α → Nat
  le : ∀ a : α, (put a).length ≤ size a

open Bounded

theorem varint_length (n : Nat) : (varint n).length ≤ n + 1 := by
  induction n using Nat.strongRecOn with
  | ind n ih =>
    rw [varint]
    split
    · simp
    · have := ih (n / 128) (by omega)
      simp only [List.length_cons]
      omega

theorem utf8_length (c : Char) : (utf8 c).length ≤ 4 := by
  unfold utf8
  simp only
  split
  · simp
  · split
    · simp
    · split <;> simp

theorem utf8s_length : ∀ s : Str, (s.flatMap utf8).length ≤ 4 * s.length
  | [] => Nat.le_refl _
  | c :: cs => by
    have := utf8_length c
    have := utf8s_length cs
    simp only [List.flatMap_cons, List.length_append, List.length_cons]
    omega

instance : Bounded Nat := ⟨fun n => n + 1, varint_length⟩
instance : Bounded Bool := ⟨fun _ => 1, fun b => by cases b <;> simp [put]⟩
instance : Bounded Str := ⟨fun s => 8 * s.length + 1, fun s => by
  have := utf8s_length s
  have := varint_length (s.flatMap utf8).length
  simp only [put, List.length_append]
  omega⟩

/-- The size of an option. -/
def optionSize {α : Type} [Wire α] [Bounded α] : Option α → Nat
  | none => 1
  | some a => size a + 1

instance {α : Type} [Wire α] [Bounded α] : Bounded (Option α) := ⟨optionSize, fun o => by
  cases o with
  | none => simp [put, optionSize]
  | some a =>
    have := le a
    simp only [put, optionSize, List.length_cons]
    omega⟩

/-- The size of the elements of a list, with one more for each. -/
def listSize {α : Type} [Wire α] [Bounded α] : List α → Nat
  | [] => 1
  | a :: l => size a + 1 + listSize l

theorem list_le {α : Type} [Wire α] [Bounded α] (l : List α) : (putList l).length ≤ listSize l := by
  have h : ∀ l : List α, (l.flatMap put).length + l.length + 1 ≤ listSize l := by
    intro l
    induction l with
    | nil => simp [listSize]
    | cons a l ih =>
      have := le a
      simp only [List.flatMap_cons, List.length_append, List.length_cons, listSize]
      omega
  have := h l
  have := varint_length l.length
  simp only [putList, List.length_append]
  omega

instance : Bounded (List Nat) := ⟨listSize, list_le⟩
instance : Bounded (List Str) := ⟨listSize, list_le⟩

theorem flatten_le {a : List Nat} {l : List (List Nat)} {n m : Nat} (ha : a.length ≤ n) (hl : l.flatten.length ≤ m) :
    (a :: l).flatten.length ≤ n + m := by
  rw [List.flatten_cons, List.length_append]
  omega

/-- The size of the fields. -/
def sizeDescriptor (d : Loader.Descriptor) : Nat :=
  size d.nationalNumber + (size d.possibleLength + (size d.possibleLocalLength + (size d.example? + 0)))

theorem descriptor_le (d : Loader.Descriptor) : (putDescriptor d).length ≤ sizeDescriptor d :=
  flatten_le (le d.nationalNumber) <| flatten_le (le d.possibleLength) <| flatten_le (le
    d.possibleLocalLength) <| flatten_le (le d.example?) <| Nat.le_refl 0

instance : Bounded Loader.Descriptor := ⟨sizeDescriptor, descriptor_le⟩

/-- The size of the fields. -/
def sizeFormat (f : Loader.Format) : Nat :=
  size f.pattern + (size f.format + (size f.leadingDigits + (size f.nationalPrefixFormattingRule + (size
    f.nationalPrefixOptionalWhenFormatting + (size f.domesticCarrier + 0)))))

theorem format_le (f : Loader.Format) : (putFormat f).length ≤ sizeFormat f :=
  flatten_le (le f.pattern) <| flatten_le (le f.format) <| flatten_le (le f.leadingDigits) <| flatten_le (le
    f.nationalPrefixFormattingRule) <| flatten_le (le f.nationalPrefixOptionalWhenFormatting) <| flatten_le
    (le f.domesticCarrier) <| Nat.le_refl 0

instance : Bounded Loader.Format := ⟨sizeFormat, format_le⟩

instance : Bounded (List Loader.Format) := ⟨listSize, list_le⟩

/-- The size of the fields. -/
def sizeDefaults (d : Loader.Defaults) : Nat :=
  size d.format + (size d.descriptor + 0)

theorem defaults_le (d : Loader.Defaults) : (putDefaults d).length ≤ sizeDefaults d :=
  flatten_le (le d.format) <| flatten_le (le d.descriptor) <| Nat.le_refl 0

instance : Bounded Loader.Defaults := ⟨sizeDefaults, defaults_le⟩

/-- The size of the fields. -/
def sizeMetadata (m : Loader.Metadata) : Nat :=
  size m.general + (size m.fixedLine + (size m.mobile + (size m.tollFree + (size m.premiumRate + (size
    m.sharedCost + (size m.personalNumber + (size m.voip + (size m.pager + (size m.uan + (size m.emergency +
    (size m.voicemail + (size m.shortCode + (size m.standardRate + (size m.carrier + (size m.noInternational +
    (size m.id + (size m.countryCode + (size m.internationalPrefix + (size m.preferredInternationalPrefix +
    (size m.nationalPrefix + (size m.preferredExtensionPrefix + (size m.nationalPrefixForParsing + (size
    m.nationalPrefixTransformRule + (size m.formats + (size m.internationalFormats + (size
    m.mainCountryForCode + (size m.leadingDigits + (size m.mobileNumberPortable + (size m.defaults +
    0)))))))))))))))))))))))))))))

theorem metadata_le (m : Loader.Metadata) : (putMetadata m).length ≤ sizeMetadata m :=
  flatten_le (le m.general) <| flatten_le (le m.fixedLine) <| flatten_le (le m.mobile) <| flatten_le (le
    m.tollFree) <| flatten_le (le m.premiumRate) <| flatten_le (le m.sharedCost) <| flatten_le (le
    m.personalNumber) <| flatten_le (le m.voip) <| flatten_le (le m.pager) <| flatten_le (le m.uan) <|
    flatten_le (le m.emergency) <| flatten_le (le m.voicemail) <| flatten_le (le m.shortCode) <| flatten_le
    (le m.standardRate) <| flatten_le (le m.carrier) <| flatten_le (le m.noInternational) <| flatten_le (le
    m.id) <| flatten_le (le m.countryCode) <| flatten_le (le m.internationalPrefix) <| flatten_le (le
    m.preferredInternationalPrefix) <| flatten_le (le m.nationalPrefix) <| flatten_le (le
    m.preferredExtensionPrefix) <| flatten_le (le m.nationalPrefixForParsing) <| flatten_le (le
    m.nationalPrefixTransformRule) <| flatten_le (le m.formats) <| flatten_le (le m.internationalFormats) <|
    flatten_le (le m.mainCountryForCode) <| flatten_le (le m.leadingDigits) <| flatten_le (le
    m.mobileNumberPortable) <| flatten_le (le m.defaults) <| Nat.le_refl 0

instance : Bounded Loader.Metadata := ⟨sizeMetadata, metadata_le⟩

instance : Bounded (List Loader.Metadata) := ⟨listSize, list_le⟩

theorem toBytes_le (ms : List Loader.Metadata) : (toBytes ms).length ≤ listSize ms := list_le ms

theorem listSize_append (a b : List Loader.Metadata) : listSize (a ++ b) + 1 = listSize a + listSize b := by
  induction a with
  | nil => simp [listSize]; omega
  | cons m a ih => simp only [List.cons_append, listSize]; omega

end Phone.Postcard
