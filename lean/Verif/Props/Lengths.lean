import Verif.Spec.Loader
import Verif.Basic.StrLemmas
import Verif.Basic.KernelRfl
/-! # `possibleLengths` texts (C31) -/

namespace Phone.Xml
open Loader

theorem split_nosep {sep : Char} : ∀ {p : Str}, sep ∉ p → split sep p = [p]
  | [], _ => rfl
  | c :: p, h => by
    have h1 : c ≠ sep := fun e => h (e ▸ List.mem_cons_self ..)
    have h2 : sep ∉ p := fun e => h (List.mem_cons_of_mem _ e)
    simp [split, h1, split_nosep h2]

theorem split_cons {sep : Char} (s : Str) : ∀ {p : Str}, sep ∉ p → split sep (p ++ sep :: s) = p :: split sep s
  | [], _ => by simp [split]
  | c :: p, h => by
    have h1 : c ≠ sep := fun e => h (e ▸ List.mem_cons_self ..)
    have h2 : sep ∉ p := fun e => h (List.mem_cons_of_mem _ e)
    simp [split, h1, split_cons s h2]

theorem blank_white {c : Char} (h : blank c) : isWhite c = true := by
  simp only [blank, List.mem_cons, List.not_mem_nil, or_false] at h
  simp only [isWhite, Bool.or_eq_true, Bool.and_eq_true, decide_eq_true_eq, beq_iff_eq]
  omega

theorem blank_ne {c : Char} (h : blank c) : c ≠ ',' := by
  rintro rfl
  simp [blank] at h

theorem dropWhile_blank {w s : Str} (h : ∀ c ∈ w, blank c) : (w ++ s).dropWhile isWhite = s.dropWhile isWhite := by
  induction w with
  | nil => rfl
  | cons c w ih =>
    rw [List.cons_append, List.dropWhile_cons, if_pos (blank_white (h c (List.mem_cons_self ..)))]
    exact ih fun c hc => h c (List.mem_cons_of_mem _ hc)

/-- Starts and ends with something that is not white space. -/
def Solid (s : Str) : Prop := (∃ c t, s = c :: t ∧ isWhite c = false) ∧ ∃ t c, s = t ++ [c] ∧ isWhite c = false

theorem trim_blank {w s w' : Str} (hw : ∀ c ∈ w, blank c) (hw' : ∀ c ∈ w', blank c) (hs : Solid s) :
    trim (w ++ s ++ w') = s := by
  obtain ⟨⟨c, t, hc, hc'⟩, ⟨t', c', he, he'⟩⟩ := hs
  have h1 : (w ++ s ++ w').dropWhile isWhite = s ++ w' := by
    rw [List.append_assoc, dropWhile_blank hw, hc, List.cons_append, List.dropWhile_cons]
    simp [hc']
  have h2 : (s ++ w').reverse.dropWhile isWhite = s.reverse := by
    rw [List.reverse_append, dropWhile_blank fun c hc => hw' c (List.mem_reverse.mp hc), he]
    simp [he']
  rw [trim, h1, h2, List.reverse_reverse]

theorem trim_all_blank {w : Str} (hw : ∀ c ∈ w, blank c) : trim w = [] := by
  have h1 : w.dropWhile isWhite = [] := by
    have := dropWhile_blank (s := []) hw
    simpa using this
  simp [trim, h1]

theorem digit_not_white {c : Char} (h : isDigit c = true) : isWhite c = false := by
  rw [isDigit_iff] at h
  cases hw : isWhite c with
  | false => rfl
  | true =>
    simp only [isWhite, Bool.or_eq_true, Bool.and_eq_true, decide_eq_true_eq, beq_iff_eq] at hw
    omega

theorem show_solid (i : LengthItem) : Solid i.show := by
  cases i with
  | single n =>
    have hd := digits_decStr n
    simp only [LengthItem.show]
    refine ⟨?_, ?_⟩
    · cases h : decStr n with
      | nil => exact absurd h (decStr_ne_nil n)
      | cons c t => exact ⟨c, t, rfl, digit_not_white (hd c (h ▸ List.mem_cons_self ..))⟩
    · refine ⟨_, _, (List.dropLast_concat_getLast (decStr_ne_nil n)).symm, digit_not_white (hd _ (List.getLast_mem _))⟩
  | range a b =>
    exact ⟨⟨'[', _, rfl, by decide⟩, ⟨'[' :: decStr a ++ '-' :: decStr b, ']', by simp [LengthItem.show], by decide⟩⟩

theorem decStr_not_mem (n : Nat) {c : Char} (h : isDigit c = false) : c ∉ decStr n := by
  intro hm
  have := digits_decStr n c hm
  simp [this] at h

theorem show_no_comma (i : LengthItem) : ',' ∉ i.show := by
  cases i with
  | single n => exact decStr_not_mem n (by decide)
  | range a b =>
    simp only [LengthItem.show, List.cons_append, List.mem_cons, List.mem_append, List.not_mem_nil, or_false, not_or]
    exact ⟨by decide, ⟨decStr_not_mem a (by decide), by decide, decStr_not_mem b (by decide)⟩, by decide⟩

theorem parseUInt_decStr16 {n : Nat} (h : n < 65536) : parseUInt u16Bound (decStr n) = some n := parseUInt_decStr h

theorem range_values (a b : Nat) : (LengthItem.range a b).values = List.range' a (b + 1 - a) := by
  simp only [LengthItem.values]
  generalize b + 1 = k
  induction k with
  | zero => simp
  | succ k ih =>
    rw [List.range_succ, List.filter_append, ih]
    by_cases h : a ≤ k
    · have : k + 1 - a = (k - a) + 1 := by omega
      rw [this, List.range'_concat]
      simp [h]
    · have h1 : k + 1 - a = 0 := by omega
      have h2 : k - a = 0 := by omega
      simp [h, h1, h2]

theorem split_range (a b : Nat) : split '-' ('[' :: decStr a ++ '-' :: decStr b ++ [']']) = ['[' :: decStr a, decStr b ++ [']']] := by
  have h1 : '-' ∉ '[' :: decStr a := by
    simp only [List.mem_cons, not_or]
    exact ⟨by decide, decStr_not_mem a (by decide)⟩
  have h2 : '-' ∉ decStr b ++ [']'] := by
    simp only [List.mem_append, List.mem_cons, List.not_mem_nil, or_false, not_or]
    exact ⟨decStr_not_mem b (by decide), by decide⟩
  have : '[' :: decStr a ++ '-' :: decStr b ++ [']'] = ('[' :: decStr a) ++ '-' :: (decStr b ++ [']']) := by simp
  rw [this, split_cons _ h1, split_nosep h2]

theorem lengthPart_show (i : LengthItem) (h : i.Small) : lengthPart i.show = .ok i.values := by
  cases i with
  | single n =>
    simp only [LengthItem.show, LengthItem.values, lengthPart]
    cases hd : decStr n with
    | nil => exact absurd hd (decStr_ne_nil n)
    | cons c t =>
      have hc : c ≠ '[' := by
        rintro rfl
        exact decStr_not_mem n (c := '[') (by decide) (hd ▸ List.mem_cons_self ..)
      simp only [hc, if_false]
      rw [← hd, parseUInt_decStr16 h]
      rfl
  | range a b =>
    rw [range_values]
    have hs := split_range a b
    have h1 : dropBytes ('[' :: decStr a) 1 = some (decStr a) := dropBytes_append ['['] (decStr a)
    have h2 : takeBytes (decStr b ++ [']']) (byteLen (decStr b ++ [']']) - 1) = some (decStr b) := by
      have : byteLen (decStr b ++ [']']) - 1 = byteLen (decStr b) := by
        rw [byteLen_append]
        have : byteLen [']'] = 1 := by decide
        omega
      rw [this, takeBytes_append]
    simp only [LengthItem.show, lengthPart, List.cons_append]
    simp only [List.cons_append] at hs
    rw [if_pos trivial, hs]
    simp only [h1, h2, Outcome.slice_some, Outcome.bind_ok, parseUInt_decStr16 h.1, Outcome.okOr_some]
    have h3 : decStr b ++ [']'] ≠ [] := by simp
    rw [if_neg h3, parseUInt_decStr16 (Nat.lt_trans h.2 (by decide))]
    have h4 : ¬ b + 1 = u16Bound := by
      have := h.2
      simp only [u16Bound]
      omega
    simp only [Outcome.okOr_some, Outcome.bind_ok, if_neg h4]

/-- The white space around an item is blank and its numbers are small. -/
def ItemFine (x : Str × LengthItem × Str) : Prop := (∀ c ∈ x.1, blank c) ∧ x.2.1.Small ∧ ∀ c ∈ x.2.2, blank c

theorem item_no_comma {x : Str × LengthItem × Str} (h : ItemFine x) : ',' ∉ x.1 ++ x.2.1.show ++ x.2.2 := by
  simp only [List.mem_append, not_or]
  exact ⟨⟨fun hm => blank_ne (h.1 _ hm) rfl, show_no_comma _⟩, fun hm => blank_ne (h.2.2 _ hm) rfl⟩

theorem item_part {x : Str × LengthItem × Str} (h : ItemFine x) :
    lengthPart (trim (x.1 ++ x.2.1.show ++ x.2.2)) = .ok x.2.1.values := by
  rw [trim_blank h.1 h.2.2 (show_solid _), lengthPart_show _ h.2.1]

/-- The items, each with a comma after it. -/
def itemsComma (items : List (Str × LengthItem × Str)) : Str :=
  items.flatMap fun x => x.1 ++ x.2.1.show ++ x.2.2 ++ [',']

theorem lengths_itemsComma (s : Str) : ∀ (items : List (Str × LengthItem × Str)), (∀ x ∈ items, ItemFine x) →
    lengths (itemsComma items ++ s) = (lengths s >>= fun l => .ok (items.flatMap (fun x => x.2.1.values) ++ l))
  | [], _ => by
    simp only [itemsComma, List.flatMap_nil, List.nil_append]
    cases lengths s <;> rfl
  | x :: items, h => by
    have ih := lengths_itemsComma s items fun y hy => h y (List.mem_cons_of_mem _ hy)
    have hx := h x (List.mem_cons_self ..)
    have e : itemsComma (x :: items) ++ s = (x.1 ++ x.2.1.show ++ x.2.2) ++ ',' :: (itemsComma items ++ s) := by
      simp [itemsComma]
    rw [e, lengths, split_cons _ (item_no_comma hx), lengthParts, item_part hx]
    rw [lengths] at ih
    rw [Outcome.bind_ok, ih]
    cases lengths s <;> simp

theorem joinItems_concat : ∀ (items : List (Str × LengthItem × Str)) (x : Str × LengthItem × Str),
    joinItems (items ++ [x]) = itemsComma items ++ (x.1 ++ x.2.1.show ++ x.2.2)
  | [], x => by simp [joinItems, itemsComma]
  | [y], x => by simp [joinItems, itemsComma]
  | y :: z :: items, x => by
    have := joinItems_concat (z :: items) x
    simp only [List.cons_append, joinItems] at this ⊢
    rw [this]
    simp [itemsComma]

/-- **C31**: a comma separated list of numbers `a` and ranges `[a-b]`, with any white space around the items, is read as
exactly the listed lengths, in order. -/
theorem C31_lengths (items : List (Str × LengthItem × Str)) (hne : items ≠ [])
    (hb : ∀ x ∈ items, (∀ c ∈ x.1, blank c) ∧ ∀ c ∈ x.2.2, blank c) (hs : ∀ x ∈ items, x.2.1.Small) :
    lengths (joinItems items) = .ok (items.flatMap fun x => x.2.1.values) := by
  have hf : ∀ x ∈ items, ItemFine x := fun x hx => ⟨(hb x hx).1, hs x hx, (hb x hx).2⟩
  obtain ⟨init, x, rfl⟩ : ∃ init x, items = init ++ [x] :=
    ⟨_, _, (List.dropLast_concat_getLast hne).symm⟩
  have hx := hf x (by simp)
  rw [joinItems_concat, lengths_itemsComma _ _ fun y hy => hf y (by simp [hy])]
  have : lengths (x.1 ++ x.2.1.show ++ x.2.2) = .ok x.2.1.values := by
    rw [lengths, split_nosep (item_no_comma hx), lengthParts, item_part hx]
    simp [lengthParts]
  rw [this]
  simp

/-- **C31**: an item that is empty, or only white space, panics: wherever it comes after proper items. -/
theorem C31_empty_item (items : List (Str × LengthItem × Str))
    (hb : ∀ x ∈ items, (∀ c ∈ x.1, blank c) ∧ ∀ c ∈ x.2.2, blank c) (hs : ∀ x ∈ items, x.2.1.Small)
    (w rest : Str) (hw : ∀ c ∈ w, blank c) (hr : rest = [] ∨ ∃ r, rest = ',' :: r) :
    lengths (items.flatMap (fun x => x.1 ++ x.2.1.show ++ x.2.2 ++ [',']) ++ w ++ rest) = .panic .index := by
  have hf : ∀ x ∈ items, ItemFine x := fun x hx => ⟨(hb x hx).1, hs x hx, (hb x hx).2⟩
  rw [← itemsComma, List.append_assoc, lengths_itemsComma _ _ hf]
  have hc : ',' ∉ w := fun hm => blank_ne (hw _ hm) rfl
  have : lengths (w ++ rest) = .panic .index := by
    rcases hr with rfl | ⟨r, rfl⟩
    · rw [List.append_nil, lengths, split_nosep hc, lengthParts, trim_all_blank hw]
      rfl
    · rw [lengths, split_cons _ hc, lengthParts, trim_all_blank hw]
      rfl
  rw [this]
  rfl

/-- **C31**: a range that ends with 65535 panics (in builds with overflow checks), and so does one without an end. -/
theorem C31_range_overflow (a : Nat) (ha : a < 65536) :
    lengths ('[' :: decStr a ++ str% "-65535]") = .panic .overflow ∧
    lengths ('[' :: decStr a ++ str% "-") = .panic .overflow := by
  have hda : ∀ c, isDigit c = false → c ∉ decStr a := fun c h => decStr_not_mem a h
  have h1 : dropBytes ('[' :: decStr a) 1 = some (decStr a) := dropBytes_append ['['] (decStr a)
  have hm : '-' ∉ '[' :: decStr a := by
    simp only [List.mem_cons, not_or]
    exact ⟨by decide, hda _ (by decide)⟩
  constructor
  · have hc : ',' ∉ '[' :: decStr a ++ str% "-65535]" := by
      simp only [List.cons_append, List.mem_cons, List.mem_append, List.not_mem_nil, or_false, not_or]
      exact ⟨by decide, hda _ (by decide), by decide⟩
    have hso : Solid ('[' :: decStr a ++ str% "-65535]") :=
      ⟨⟨'[', _, rfl, by decide⟩, ⟨'[' :: decStr a ++ str% "-65535", ']', by simp, by decide⟩⟩
    have ht : trim ('[' :: decStr a ++ str% "-65535]") = '[' :: decStr a ++ str% "-65535]" := by
      have := trim_blank (w := []) (w' := []) (by simp) (by simp) hso
      simpa using this
    have hsp : split '-' ('[' :: decStr a ++ str% "-65535]") = ['[' :: decStr a, str% "65535]"] := by
      have e : '[' :: decStr a ++ str% "-65535]" = ('[' :: decStr a) ++ '-' :: str% "65535]" := by simp
      rw [e, split_cons _ hm]
      rfl
    rw [lengths, split_nosep hc, lengthParts, ht]
    have : lengthPart ('[' :: decStr a ++ str% "-65535]") = .panic .overflow := by
      simp only [List.cons_append] at hsp ⊢
      simp only [lengthPart, if_true]
      rw [hsp]
      simp only [h1, Outcome.slice_some, Outcome.bind_ok, parseUInt_decStr16 ha, Outcome.okOr_some]
      rfl
    rw [this]
    rfl
  · have hc : ',' ∉ '[' :: decStr a ++ str% "-" := by
      simp only [List.cons_append, List.mem_cons, List.mem_append, List.not_mem_nil, or_false, not_or]
      exact ⟨by decide, hda _ (by decide), by decide⟩
    have hso : Solid ('[' :: decStr a ++ str% "-") :=
      ⟨⟨'[', _, rfl, by decide⟩, ⟨'[' :: decStr a, '-', by simp, by decide⟩⟩
    have ht : trim ('[' :: decStr a ++ str% "-") = '[' :: decStr a ++ str% "-" := by
      have := trim_blank (w := []) (w' := []) (by simp) (by simp) hso
      simpa using this
    have hsp : split '-' ('[' :: decStr a ++ str% "-") = ['[' :: decStr a, []] := by
      have e : '[' :: decStr a ++ str% "-" = ('[' :: decStr a) ++ '-' :: [] := by simp
      rw [e, split_cons _ hm]
      rfl
    rw [lengths, split_nosep hc, lengthParts, ht]
    have : lengthPart ('[' :: decStr a ++ str% "-") = .panic .overflow := by
      simp only [List.cons_append] at hsp ⊢
      simp only [lengthPart, if_true]
      rw [hsp]
      simp only [h1, Outcome.slice_some, Outcome.bind_ok, parseUInt_decStr16 ha, Outcome.okOr_some]
      rfl
    rw [this]
    rfl

/-- The hypotheses of `C31_lengths` on the text ` 3,[5-8] , 10`, and the result. -/
example : let items : List (Str × LengthItem × Str) := [(str% " ", .single 3, []), ([], .range 5 8, str% " "), (str% " ", .single 10, [])]
    joinItems items = str% " 3,[5-8] , 10" ∧ (∀ x ∈ items, (∀ c ∈ x.1, blank c) ∧ ∀ c ∈ x.2.2, blank c) ∧
      (∀ x ∈ items, x.2.1.Small) ∧ lengths (joinItems items) = .ok [3, 5, 6, 7, 8, 10] := by
  refine ⟨by decide, ?_, ?_, by kernel_rfl⟩
  · simp [blank]
  · simp [LengthItem.Small]

end Phone.Xml
