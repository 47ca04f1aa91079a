import Verif.Model.Postcard
/-! # Reading back what was written -/

namespace Phone.Postcard
open Wire

theorem takeVarint_varint (top : Nat) (htop : top < 128) : ∀ (k n : Nat) (r : List Nat), n < (top + 1) * 128 ^ k →
    takeVarint top (k + 1) (varint n ++ r) = some (n, r)
  | 0, n, r, h => by
    have h1 : n < 128 := by simp only [Nat.pow_zero, Nat.mul_one] at h; omega
    rw [varint, if_pos h1]
    simp only [Nat.pow_zero, Nat.mul_one] at h
    simp only [List.cons_append, List.nil_append, takeVarint, if_pos h1]
    rw [if_neg (by omega)]
  | k + 1, n, r, h => by
    rw [varint]
    split
    · rename_i h1
      simp [takeVarint, h1]
    · rename_i h1
      simp only [List.cons_append, takeVarint]
      rw [if_neg (by omega), takeVarint_varint top htop k (n / 128) r (by
        rw [Nat.pow_succ, ← Nat.mul_assoc] at h
        exact Nat.div_lt_of_lt_mul (by rw [Nat.mul_comm]; exact h))]
      simp only [Option.map_some, Option.some.injEq, Prod.mk.injEq, and_true]
      omega

theorem varint_ne (n : Nat) : varint n ≠ [] := by
  rw [varint]
  split <;> simp

theorem takeLength_varint (n : Nat) (h : n < 2 ^ 64) (r : List Nat) : takeLength (varint n ++ r) = some (n, r) :=
  takeVarint_varint 1 (by decide) 9 n r (by
    have : (1 + 1) * 128 ^ 9 = 2 ^ 64 := by decide
    omega)

theorem charFrom_toNat (low : Nat) (c : Char) (h : low ≤ c.toNat) : charFrom low c.toNat = some c := by
  rw [charFrom, if_pos ⟨h, c.valid⟩, Char.ofNat_toNat]

/-- A character is read back from its bytes. -/
theorem takeChar_utf8 (c : Char) (r : List Nat) : takeChar (utf8 c ++ r) = some (c, r) := by
  have hmax : c.toNat < 0x110000 := by
    have := c.valid
    have h2 : c.toNat = c.val.toNat := rfl
    simp only [UInt32.isValidChar, Nat.isValidChar] at this
    omega
  unfold utf8
  simp only
  split
  · rename_i h
    simp [takeChar, h]
  · rename_i h1
    split
    · rename_i h2
      simp only [List.cons_append, List.nil_append, takeChar]
      rw [if_neg (by omega), if_neg (by omega), if_pos (by omega)]
      have hc : cont (0x80 + c.toNat % 64) = true := by simp [cont]; omega
      rw [if_pos hc]
      have : (192 + c.toNat / 64 - 0xC0) * 64 + (128 + c.toNat % 64 - 0x80) = c.toNat := by omega
      rw [this, charFrom_toNat _ _ (by omega)]
      rfl
    · rename_i h2
      split
      · rename_i h3
        simp only [List.cons_append, List.nil_append, takeChar]
        rw [if_neg (by omega), if_neg (by omega), if_neg (by omega), if_pos (by omega)]
        have hc : (cont (0x80 + c.toNat / 64 % 64) && cont (0x80 + c.toNat % 64)) = true := by simp [cont]; omega
        rw [if_pos hc]
        have : (224 + c.toNat / 4096 - 0xE0) * 4096 + (128 + c.toNat / 64 % 64 - 0x80) * 64 + (128 + c.toNat % 64 - 0x80) =
          c.toNat := by omega
        rw [this, charFrom_toNat _ _ (by omega)]
        rfl
      · rename_i h3
        simp only [List.cons_append, List.nil_append, takeChar]
        rw [if_neg (by omega), if_neg (by omega), if_neg (by omega), if_neg (by omega)]
        have hc : (cont (0x80 + c.toNat / 4096 % 64) && cont (0x80 + c.toNat / 64 % 64) && cont (0x80 + c.toNat % 64)) =
          true := by simp [cont]; omega
        rw [if_pos hc]
        have : (240 + c.toNat / 262144 - 0xF0) * 262144 + (128 + c.toNat / 4096 % 64 - 0x80) * 4096 +
          (128 + c.toNat / 64 % 64 - 0x80) * 64 + (128 + c.toNat % 64 - 0x80) = c.toNat := by omega
        rw [this, charFrom_toNat _ _ (by omega)]
        rfl

theorem utf8_cons (c : Char) : ∃ b bs, utf8 c = b :: bs := by
  unfold utf8
  simp only
  split
  · exact ⟨_, _, rfl⟩
  · split
    · exact ⟨_, _, rfl⟩
    · split <;> exact ⟨_, _, rfl⟩

theorem fromUtf8_utf8 : ∀ (s : Str) (f : Nat), (s.flatMap utf8).length ≤ f → fromUtf8 f (s.flatMap utf8) = some s
  | [], f, _ => by cases f <;> rfl
  | c :: cs, f, h => by
    obtain ⟨b, bs, hb⟩ := utf8_cons c
    have h2 := takeChar_utf8 c (cs.flatMap utf8)
    rw [List.flatMap_cons] at h ⊢
    rw [hb] at h h2 ⊢
    rw [List.cons_append] at h h2 ⊢
    simp only [List.length_cons, List.length_append] at h
    obtain ⟨f, rfl⟩ : ∃ g, f = g + 1 := ⟨f - 1, by omega⟩
    rw [fromUtf8, h2]
    simp only
    rw [fromUtf8_utf8 cs f (by omega)]
    rfl

/-- Values are read back from their bytes, if they are of the type (`u16` is modelled by all natural numbers) and there are
fewer than 2^64 bytes. -/
class Lawful (α : Type) [Wire α] where
  /-- the value is one of the Rust type -/
  typed : α → Prop
  law : ∀ a, typed a → (put a).length < 2 ^ 64 → ∀ r, take (put a ++ r) = some (a, r)
  put_ne : ∀ a : α, put a ≠ []

open Lawful

instance : Lawful Nat where
  typed n := n < 65536
  law n h _ r := takeVarint_varint 3 (by decide) 2 n r h
  put_ne := varint_ne

instance : Lawful Bool where
  typed _ := True
  law b _ _ r := by cases b <;> rfl
  put_ne b := by cases b <;> simp [put]

instance : Lawful Str where
  typed _ := True
  law s _ h r := by
    simp only [put, List.length_append] at h
    simp only [put, take, List.append_assoc]
    rw [takeLength_varint _ (by omega)]
    simp only [List.length_append, Nat.le_add_right, if_true, List.take_left', List.drop_left']
    rw [fromUtf8_utf8 s _ (Nat.le_refl _)]
    rfl
  put_ne s := by simp [put, varint_ne]

instance {α : Type} [Wire α] [Lawful α] : Lawful (Option α) where
  typed o := ∀ a, o = some a → typed a
  law o h hl r := by
    cases o with
    | none => rfl
    | some a =>
      simp only [put, List.length_cons] at hl
      simp only [put, take, List.cons_append]
      rw [law a (h a rfl) (by omega)]
      rfl
  put_ne o := by cases o <;> simp [put]

theorem takeMany_law {α : Type} [Wire α] [Lawful α] (r : List Nat) : ∀ (l : List α), (∀ a ∈ l, typed a) →
    (l.flatMap put).length < 2 ^ 64 → takeMany l.length (l.flatMap put ++ r) = some (l, r)
  | [], _, _ => rfl
  | a :: l, h, hl => by
    simp only [List.flatMap_cons, List.length_append] at hl
    simp only [List.flatMap_cons, List.length_cons, takeMany, List.append_assoc]
    rw [law a (h a (List.mem_cons_self ..)) (by omega)]
    simp only
    rw [takeMany_law r l (fun a ha => h a (List.mem_cons_of_mem _ ha)) (by omega)]
    rfl

theorem length_le_bytes {α : Type} [Wire α] [Lawful α] : ∀ (l : List α), l.length ≤ (l.flatMap put).length
  | [] => Nat.le_refl _
  | a :: l => by
    have := length_le_bytes l
    have := List.length_pos_iff.2 (put_ne a)
    simp only [List.flatMap_cons, List.length_append, List.length_cons]
    omega

theorem list_law {α : Type} [Wire α] [Lawful α] (l : List α) (h : ∀ a ∈ l, typed a) (hl : (putList l).length < 2 ^ 64)
    (r : List Nat) : takeList (putList l ++ r) = some (l, r) := by
  simp only [putList, List.length_append] at hl
  have := length_le_bytes l
  simp only [putList, takeList, List.append_assoc]
  rw [takeLength_varint _ (by omega)]
  exact takeMany_law r l h (by omega)

theorem putList_ne {α : Type} [Wire α] (l : List α) : putList l ≠ [] := by simp [putList, varint_ne]

instance : Lawful (List Nat) where
  typed l := ∀ a ∈ l, typed a
  law := list_law
  put_ne := putList_ne

instance : Lawful (List Str) where
  typed l := ∀ a ∈ l, typed a
  law := list_law
  put_ne := putList_ne

theorem take_step {α β : Type} [Wire α] [Lawful α] (a : α) (h : typed a) (rest : List (List Nat))
    (hl : (put a :: rest).flatten.length < 2 ^ 64) (r : List Nat) (k : α × List Nat → Option β) :
    (take ((put a :: rest).flatten ++ r)).bind k = k (a, rest.flatten ++ r) := by
  rw [List.flatten_cons, List.length_append] at hl
  rw [List.flatten_cons, List.append_assoc, law a h (by omega)]
  rfl

theorem rest_lt {a : List Nat} {rest : List (List Nat)} (hl : (a :: rest).flatten.length < 2 ^ 64) :
    rest.flatten.length < 2 ^ 64 := by
  rw [List.flatten_cons, List.length_append] at hl
  omega

instance : Lawful Loader.Descriptor where
  typed d :=
    typed d.nationalNumber ∧ typed d.possibleLength ∧ typed d.possibleLocalLength ∧ typed d.example?
  law d h hl r := by
    obtain ⟨h0, h1, h2, h3⟩ := h
    replace hl : (putDescriptor d).length < 2 ^ 64 := hl
    show takeDescriptor (putDescriptor d ++ r) = _
    unfold putDescriptor at hl ⊢
    unfold takeDescriptor
    simp only [bind]
    refine (take_step _ h0 _ hl _ _).trans ?_
    replace hl := rest_lt hl
    refine (take_step _ h1 _ hl _ _).trans ?_
    replace hl := rest_lt hl
    refine (take_step _ h2 _ hl _ _).trans ?_
    replace hl := rest_lt hl
    exact take_step _ h3 _ hl _ _
  put_ne d := by
    show putDescriptor d ≠ []
    simp [putDescriptor, put_ne d.nationalNumber]

instance : Lawful Loader.Format where
  typed f :=
    typed f.pattern ∧ typed f.format ∧ typed f.leadingDigits ∧ typed f.nationalPrefixFormattingRule ∧ typed
      f.nationalPrefixOptionalWhenFormatting ∧ typed f.domesticCarrier
  law f h hl r := by
    obtain ⟨h0, h1, h2, h3, h4, h5⟩ := h
    replace hl : (putFormat f).length < 2 ^ 64 := hl
    show takeFormat (putFormat f ++ r) = _
    unfold putFormat at hl ⊢
    unfold takeFormat
    simp only [bind]
    refine (take_step _ h0 _ hl _ _).trans ?_
    replace hl := rest_lt hl
    refine (take_step _ h1 _ hl _ _).trans ?_
    replace hl := rest_lt hl
    refine (take_step _ h2 _ hl _ _).trans ?_
    replace hl := rest_lt hl
    refine (take_step _ h3 _ hl _ _).trans ?_
    replace hl := rest_lt hl
    refine (take_step _ h4 _ hl _ _).trans ?_
    replace hl := rest_lt hl
    exact take_step _ h5 _ hl _ _
  put_ne f := by
    show putFormat f ≠ []
    simp [putFormat, put_ne f.pattern]

instance : Lawful (List Loader.Format) where
  typed l := ∀ a ∈ l, typed a
  law := list_law
  put_ne := putList_ne

instance : Lawful Loader.Defaults where
  typed d :=
    typed d.format ∧ typed d.descriptor
  law d h hl r := by
    obtain ⟨h0, h1⟩ := h
    replace hl : (putDefaults d).length < 2 ^ 64 := hl
    show takeDefaults (putDefaults d ++ r) = _
    unfold putDefaults at hl ⊢
    unfold takeDefaults
    simp only [bind]
    refine (take_step _ h0 _ hl _ _).trans ?_
    replace hl := rest_lt hl
    exact take_step _ h1 _ hl _ _
  put_ne d := by
    show putDefaults d ≠ []
    simp [putDefaults, put_ne d.format]

/-- The territory is one of the Rust type. -/
def typedMetadata (m : Loader.Metadata) : Prop :=
    typed m.general ∧ typed m.fixedLine ∧ typed m.mobile ∧ typed m.tollFree ∧ typed m.premiumRate ∧ typed
      m.sharedCost ∧ typed m.personalNumber ∧ typed m.voip ∧ typed m.pager ∧ typed m.uan ∧ typed m.emergency ∧
      typed m.voicemail ∧ typed m.shortCode ∧ typed m.standardRate ∧ typed m.carrier ∧ typed m.noInternational
      ∧ typed m.id ∧ typed m.countryCode ∧ typed m.internationalPrefix ∧ typed m.preferredInternationalPrefix
      ∧ typed m.nationalPrefix ∧ typed m.preferredExtensionPrefix ∧ typed m.nationalPrefixForParsing ∧ typed
      m.nationalPrefixTransformRule ∧ typed m.formats ∧ typed m.internationalFormats ∧ typed
      m.mainCountryForCode ∧ typed m.leadingDigits ∧ typed m.mobileNumberPortable ∧ typed m.defaults

set_option maxHeartbeats 4000000 in
theorem metadata_law (m : Loader.Metadata) (h : typedMetadata m) (hl : (putMetadata m).length < 2 ^ 64) (r : List Nat) :
    takeMetadata (putMetadata m ++ r) = some (m, r) := by
  unfold typedMetadata at h
  unfold putMetadata at hl ⊢
  unfold takeMetadata
  simp only [bind]
  refine (take_step _ h.1 _ hl _ _).trans ?_
  replace h := h.2
  replace hl := rest_lt hl
  refine (take_step _ h.1 _ hl _ _).trans ?_
  replace h := h.2
  replace hl := rest_lt hl
  refine (take_step _ h.1 _ hl _ _).trans ?_
  replace h := h.2
  replace hl := rest_lt hl
  refine (take_step _ h.1 _ hl _ _).trans ?_
  replace h := h.2
  replace hl := rest_lt hl
  refine (take_step _ h.1 _ hl _ _).trans ?_
  replace h := h.2
  replace hl := rest_lt hl
  refine (take_step _ h.1 _ hl _ _).trans ?_
  replace h := h.2
  replace hl := rest_lt hl
  refine (take_step _ h.1 _ hl _ _).trans ?_
  replace h := h.2
  replace hl := rest_lt hl
  refine (take_step _ h.1 _ hl _ _).trans ?_
  replace h := h.2
  replace hl := rest_lt hl
  refine (take_step _ h.1 _ hl _ _).trans ?_
  replace h := h.2
  replace hl := rest_lt hl
  refine (take_step _ h.1 _ hl _ _).trans ?_
  replace h := h.2
  replace hl := rest_lt hl
  refine (take_step _ h.1 _ hl _ _).trans ?_
  replace h := h.2
  replace hl := rest_lt hl
  refine (take_step _ h.1 _ hl _ _).trans ?_
  replace h := h.2
  replace hl := rest_lt hl
  refine (take_step _ h.1 _ hl _ _).trans ?_
  replace h := h.2
  replace hl := rest_lt hl
  refine (take_step _ h.1 _ hl _ _).trans ?_
  replace h := h.2
  replace hl := rest_lt hl
  refine (take_step _ h.1 _ hl _ _).trans ?_
  replace h := h.2
  replace hl := rest_lt hl
  refine (take_step _ h.1 _ hl _ _).trans ?_
  replace h := h.2
  replace hl := rest_lt hl
  refine (take_step _ h.1 _ hl _ _).trans ?_
  replace h := h.2
  replace hl := rest_lt hl
  refine (take_step _ h.1 _ hl _ _).trans ?_
  replace h := h.2
  replace hl := rest_lt hl
  refine (take_step _ h.1 _ hl _ _).trans ?_
  replace h := h.2
  replace hl := rest_lt hl
  refine (take_step _ h.1 _ hl _ _).trans ?_
  replace h := h.2
  replace hl := rest_lt hl
  refine (take_step _ h.1 _ hl _ _).trans ?_
  replace h := h.2
  replace hl := rest_lt hl
  refine (take_step _ h.1 _ hl _ _).trans ?_
  replace h := h.2
  replace hl := rest_lt hl
  refine (take_step _ h.1 _ hl _ _).trans ?_
  replace h := h.2
  replace hl := rest_lt hl
  refine (take_step _ h.1 _ hl _ _).trans ?_
  replace h := h.2
  replace hl := rest_lt hl
  refine (take_step _ h.1 _ hl _ _).trans ?_
  replace h := h.2
  replace hl := rest_lt hl
  refine (take_step _ h.1 _ hl _ _).trans ?_
  replace h := h.2
  replace hl := rest_lt hl
  refine (take_step _ h.1 _ hl _ _).trans ?_
  replace h := h.2
  replace hl := rest_lt hl
  refine (take_step _ h.1 _ hl _ _).trans ?_
  replace h := h.2
  replace hl := rest_lt hl
  refine (take_step _ h.1 _ hl _ _).trans ?_
  replace h := h.2
  replace hl := rest_lt hl
  exact take_step _ h _ hl _ _

theorem metadata_ne (m : Loader.Metadata) : putMetadata m ≠ [] := by
  have := put_ne m.general
  unfold putMetadata
  rw [List.flatten_cons]
  intro h
  exact this (List.append_eq_nil_iff.1 h).1

instance : Lawful Loader.Metadata := ⟨typedMetadata, metadata_law, metadata_ne⟩

instance : Lawful (List Loader.Metadata) where
  typed l := ∀ a ∈ l, typed a
  law := list_law
  put_ne := putList_ne

/-- Territories are read back from their bytes, whatever follows. -/
theorem fromBytes_toBytes (ms : List Loader.Metadata) (h : ∀ m ∈ ms, typed m) (hl : (toBytes ms).length < 2 ^ 64) :
    fromBytes (toBytes ms) = some ms := by
  have := law ms h hl []
  rw [List.append_nil] at this
  rw [fromBytes, toBytes, this]
  rfl

end Phone.Postcard
