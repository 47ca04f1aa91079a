import Verif.Spec.LengthText
import Verif.Props.Lengths
/-! # What any text of a length list comes to (C98) -/

namespace Phone.Xml
open Loader LengthText

theorem num_iff {t : Str} {n : Nat} : Num t n ↔ parseUInt u16Bound t = some n := by
  constructor
  · rintro ⟨hn, ds, ht, hne, hd, hv⟩
    have hD : Digits ds := fun c hc => by
      have := hd c hc
      rw [isDigit_iff]
      simp only [Char.le_def, UInt32.le_iff_toNat_le] at this
      exact ⟨this.1, this.2⟩
    have hv' : decVal ds = n := hv
    have hp : parseUInt u16Bound ds = some n := by
      rw [parseUInt_digits hD hne, hv', if_pos (show n < u16Bound from hn)]
    rcases ht with rfl | rfl
    · exact hp
    · cases ds with
      | nil => exact absurd rfl hne
      | cons c cs =>
        have h1 : optPlus ('+' :: c :: cs) = optPlus (c :: cs) := by
          rw [optPlus_digits hD]; rfl
        simp only [parseUInt, h1] at hp ⊢
        exact hp
  · intro h
    obtain ⟨hn, ds, ht, hne, hd, hv⟩ := parseUInt_eq_some h
    refine ⟨hn, ds, ht, hne, fun c hc => ?_, hv⟩
    have := isDigit_iff.1 (hd c hc)
    simp only [Char.le_def, UInt32.le_iff_toNat_le]
    exact this

theorem noNum_iff {t : Str} : NoNum t ↔ parseUInt u16Bound t = none := by
  constructor
  · intro h
    cases hp : parseUInt u16Bound t with
    | none => rfl
    | some n => exact absurd (num_iff.2 hp) (h n)
  · intro h n hn
    rw [num_iff, h] at hn
    cases hn

theorem white_iff {c : Char} : White c ↔ isWhite c = true := by
  simp only [White, isWhite, List.mem_cons, List.not_mem_nil, or_false, Bool.or_eq_true, Bool.and_eq_true, decide_eq_true_eq, beq_iff_eq]
  omega

theorem notWhite_iff {c : Char} : ¬ White c ↔ isWhite c = false := by
  rw [white_iff]; simp

theorem dropWhile_white {w s : Str} (h : ∀ c ∈ w, White c) : (w ++ s).dropWhile isWhite = s.dropWhile isWhite := by
  induction w with
  | nil => rfl
  | cons c w ih =>
    rw [List.cons_append, List.dropWhile_cons, if_pos (white_iff.1 (h c (List.mem_cons_self ..)))]
    exact ih fun c hc => h c (List.mem_cons_of_mem _ hc)

theorem dropWhile_head {s : Str} (h : ∀ c, s.head? = some c → ¬ White c) : s.dropWhile isWhite = s := by
  cases s with
  | nil => rfl
  | cons c s => rw [List.dropWhile_cons, notWhite_iff.1 (h c rfl)]; rfl

theorem trim_of_trimmed {s t : Str} (h : Trimmed s t) : trim s = t := by
  obtain ⟨w, w', rfl, hw, hw', h1, h2⟩ := h
  cases t with
  | nil =>
    have : (w ++ [] ++ w').dropWhile isWhite = [] := by
      have := dropWhile_white (w := w ++ w') (s := []) fun c hc => (List.mem_append.1 hc).elim (hw c) (hw' c)
      simpa using this
    rw [trim, this]; rfl
  | cons c t =>
    rw [trim, List.append_assoc, dropWhile_white hw]
    have : (c :: t ++ w').dropWhile isWhite = c :: t ++ w' := dropWhile_head (by simpa using h1)
    rw [this, List.reverse_append, dropWhile_white (fun c hc => hw' c (List.mem_reverse.1 hc)), dropWhile_head, List.reverse_reverse]
    intro d hd
    rw [List.head?_reverse] at hd
    exact h2 d hd

theorem takeWhile_white (s : Str) : ∀ c ∈ s.takeWhile isWhite, White c := by
  induction s with
  | nil => simp
  | cons d s ih =>
    intro c hc
    rw [List.takeWhile_cons] at hc
    split at hc
    · rename_i hd
      rcases List.mem_cons.1 hc with rfl | hc
      · exact white_iff.2 hd
      · exact ih c hc
    · cases hc

theorem head_dropWhile (s : Str) (c : Char) (h : (s.dropWhile isWhite).head? = some c) : ¬ White c := by
  induction s with
  | nil => cases h
  | cons d s ih =>
    rw [List.dropWhile_cons] at h
    split at h
    · exact ih h
    · rename_i hd
      cases h
      rw [white_iff]; exact hd

theorem trimmed_trim (s : Str) : Trimmed s (trim s) := by
  have e1 : s = s.takeWhile isWhite ++ s.dropWhile isWhite := List.takeWhile_append_dropWhile.symm
  have e2 : (s.dropWhile isWhite).reverse = _ ++ _ := (List.takeWhile_append_dropWhile (p := isWhite)).symm
  have e3 : s.dropWhile isWhite = trim s ++ ((s.dropWhile isWhite).reverse.takeWhile isWhite).reverse := by
    have := congrArg List.reverse e2
    rw [List.reverse_reverse, List.reverse_append] at this
    exact this
  refine ⟨s.takeWhile isWhite, ((s.dropWhile isWhite).reverse.takeWhile isWhite).reverse, ?_, takeWhile_white s, ?_, ?_, ?_⟩
  · rw [List.append_assoc, ← e3]; exact e1
  · intro c hc
    exact takeWhile_white _ c (List.mem_reverse.1 hc)
  · intro c hc
    refine head_dropWhile s c ?_
    rw [e3, List.head?_append, hc]; rfl
  · intro c hc
    refine head_dropWhile (s.dropWhile isWhite).reverse c ?_
    rw [trim, List.getLast?_reverse] at hc
    exact hc

theorem split_rest {r : Str} (h : Rest r) : ∃ ps, split '-' r = [] :: ps := by
  rcases h with rfl | ⟨r', rfl⟩
  · exact ⟨[], rfl⟩
  · exact ⟨split '-' r', by simp [split]⟩

theorem split_upto {p r : Str} (hp : '-' ∉ p) (h : Rest r) : ∃ ps, split '-' (p ++ r) = p :: ps := by
  rcases h with rfl | ⟨r', rfl⟩
  · exact ⟨[], by rw [List.append_nil, split_nosep hp]⟩
  · exact ⟨_, split_cons _ hp⟩

theorem range_filter (a b : Nat) : (List.range (b + 1)).filter (fun n => a ≤ n) = List.range' a (b + 1 - a) := range_values a b

theorem takeBytes_last (b : Str) (c : Char) :
    takeBytes (b ++ [c]) (byteLen (b ++ [c]) - 1) = if c.toNat < 128 then some b else none := by
  split
  · rename_i h
    have : byteLen (b ++ [c]) - 1 = byteLen b := by
      rw [byteLen_append, byteLen_cons, utf8Size_of_ascii h, byteLen_nil]; omega
    rw [this, takeBytes_append]
  · rename_i h
    have h1 : 1 < c.utf8Size := by
      have h2 := utf8Size_pos c
      have h3 : c.utf8Size ≠ 1 := by
        rw [Ne, Char.utf8Size_eq_one_iff]
        intro hle
        have : c.toNat ≤ 127 := by simpa [UInt32.le_iff_toNat_le] using hle
        omega
      omega
    induction b with
    | nil =>
      have h4 : byteLen ([] ++ [c]) - 1 = c.utf8Size - 1 := by simp
      rw [h4, List.nil_append, takeBytes, if_neg (by omega), if_neg (by omega)]
    | cons d b ih =>
      have h2 := utf8Size_pos d
      have h4 : byteLen (d :: b ++ [c]) - 1 - d.utf8Size = byteLen (b ++ [c]) - 1 := by
        simp only [List.cons_append, byteLen_cons, byteLen_append, byteLen_nil]; omega
      have h5 : ¬ byteLen (d :: b ++ [c]) - 1 = 0 := by
        simp only [List.cons_append, byteLen_cons, byteLen_append, byteLen_nil]; omega
      have h6 : d.utf8Size ≤ byteLen (d :: b ++ [c]) - 1 := by
        simp only [List.cons_append, byteLen_cons, byteLen_append, byteLen_nil]; omega
      rw [List.cons_append] at h4 h5 h6 ⊢
      rw [takeBytes, if_neg h5, if_pos h6, h4, ih]; rfl

/-- A range, in the words of the model. -/
theorem lengthPart_range {a r : Str} (ha : '-' ∉ a) :
    lengthPart ('[' :: a ++ '-' :: r) =
      (Outcome.okOr .integer (parseUInt u16Bound a) >>= fun s =>
        match split '-' r with
        | [] => .ok []
        | stop :: _ =>
          if stop = [] then .panic .overflow
          else Outcome.slice (takeBytes stop (byteLen stop - 1)) >>= fun e =>
            Outcome.okOr .integer (parseUInt u16Bound e) >>= fun e =>
            if e + 1 = u16Bound then .panic .overflow else .ok (List.range' s (e + 1 - s))) := by
  have h0 : '-' ∉ '[' :: a := by
    simp only [List.mem_cons, not_or]; exact ⟨by decide, ha⟩
  have hs : split '-' ('[' :: a ++ '-' :: r) = ('[' :: a) :: split '-' r := split_cons r h0
  have h1 : dropBytes ('[' :: a) 1 = some a := dropBytes_append ['['] a
  simp only [lengthPart, List.cons_append] at hs ⊢
  rw [if_pos trivial, hs]
  cases hr : split '-' r with
  | nil =>
    exfalso
    cases r with
    | nil => simp [split] at hr
    | cons c r =>
      simp only [split] at hr
      split at hr
      · cases hr
      · split at hr <;> cases hr
  | cons stop ps => simp only [h1, Outcome.slice_some, Outcome.bind_ok]

/-- **C98**: what one item says is what the loader makes of it. -/
theorem C98_item_sound {t : Str} {o : Outcome LoadErr (List Nat)} (h : Item t o) : lengthPart t = o := by
  cases h with
  | empty => rfl
  | single hc hn =>
    simp only [lengthPart, if_neg hc]
    rw [num_iff.1 hn]; rfl
  | noNumber hc hn =>
    simp only [lengthPart, if_neg hc]
    rw [noNum_iff.1 hn]; rfl
  | ignored ht =>
    rename_i t
    have h0 : '-' ∉ '[' :: t := by
      simp only [List.mem_cons, not_or]; exact ⟨by decide, ht⟩
    simp only [lengthPart, if_true, split_nosep h0]
  | badStart ha hn => rw [lengthPart_range ha, noNum_iff.1 hn]; rfl
  | noEnd ha hn hr =>
    obtain ⟨ps, hps⟩ := split_rest hr
    rw [lengthPart_range ha, num_iff.1 hn, hps]; rfl
  | wide ha hn hb hc hw hr =>
    rename_i a b r c x
    have hbc : '-' ∉ b ++ [c] := by simp [hb, Ne.symm hc]
    obtain ⟨ps, hps⟩ := split_upto hbc hr
    have e : '[' :: a ++ '-' :: b ++ c :: r = '[' :: a ++ '-' :: (b ++ [c] ++ r) := by simp
    rw [e, lengthPart_range ha, num_iff.1 hn, hps, Outcome.okOr_some, Outcome.bind_ok]
    simp only [takeBytes_last, if_neg (show ¬ c.toNat < 128 by omega)]
    rw [if_neg (by simp)]; rfl
  | badEnd ha hn hb hc hw hr hy =>
    rename_i a b r c x
    have hbc : '-' ∉ b ++ [c] := by simp [hb, Ne.symm hc]
    obtain ⟨ps, hps⟩ := split_upto hbc hr
    have e : '[' :: a ++ '-' :: b ++ c :: r = '[' :: a ++ '-' :: (b ++ [c] ++ r) := by simp
    rw [e, lengthPart_range ha, num_iff.1 hn, hps, Outcome.okOr_some, Outcome.bind_ok]
    simp only [takeBytes_last, if_pos hw, Outcome.slice_some, Outcome.bind_ok, noNum_iff.1 hy]
    rw [if_neg (by simp)]; rfl
  | overflow ha hn hb hc hw hr hy =>
    rename_i a b r c x
    have hbc : '-' ∉ b ++ [c] := by simp [hb, Ne.symm hc]
    obtain ⟨ps, hps⟩ := split_upto hbc hr
    have e : '[' :: a ++ '-' :: b ++ c :: r = '[' :: a ++ '-' :: (b ++ [c] ++ r) := by simp
    rw [e, lengthPart_range ha, num_iff.1 hn, hps, Outcome.okOr_some, Outcome.bind_ok]
    simp only [takeBytes_last, if_pos hw, Outcome.slice_some, Outcome.bind_ok, num_iff.1 hy, Outcome.okOr_some]
    rw [if_neg (by simp), if_pos (show 65535 + 1 = u16Bound from rfl)]
  | range ha hn hb hc hw hr hy hlt =>
    rename_i a b r c x y
    have hbc : '-' ∉ b ++ [c] := by simp [hb, Ne.symm hc]
    obtain ⟨ps, hps⟩ := split_upto hbc hr
    have e : '[' :: a ++ '-' :: b ++ c :: r = '[' :: a ++ '-' :: (b ++ [c] ++ r) := by simp
    rw [e, lengthPart_range ha, num_iff.1 hn, hps, Outcome.okOr_some, Outcome.bind_ok]
    simp only [takeBytes_last, if_pos hw, Outcome.slice_some, Outcome.bind_ok, num_iff.1 hy, Outcome.okOr_some]
    have h4 : ¬ y + 1 = u16Bound := by simp only [u16Bound]; omega
    rw [if_neg (by simp), if_neg h4, range_filter]

/-- A text up to its first hyphen. -/
theorem upto (sep : Char) (s : Str) : ∃ p r, s = p ++ r ∧ sep ∉ p ∧ (r = [] ∨ ∃ r', r = sep :: r') := by
  induction s with
  | nil => exact ⟨[], [], rfl, by simp, .inl rfl⟩
  | cons c s ih =>
    by_cases h : c = sep
    · exact ⟨[], c :: s, rfl, by simp, .inr ⟨s, by rw [h]⟩⟩
    · obtain ⟨p, r, rfl, hp, hr⟩ := ih
      exact ⟨c :: p, r, rfl, by simp [hp, Ne.symm h], hr⟩

/-- **C98**: every item says something. -/
theorem C98_item_total (t : Str) : ∃ o, Item t o := by
  have dec : ∀ t, (∃ n, Num t n) ∨ NoNum t := fun t => by
    cases hp : parseUInt u16Bound t with
    | none => exact .inr (noNum_iff.2 hp)
    | some n => exact .inl ⟨n, num_iff.2 hp⟩
  cases t with
  | nil => exact ⟨_, .empty⟩
  | cons c t =>
    by_cases hc : c = '['
    · subst hc
      obtain ⟨a, r, rfl, ha, rfl | ⟨r, rfl⟩⟩ := upto '-' t
      · exact ⟨_, .ignored (by simpa using ha)⟩
      rcases dec a with ⟨x, hx⟩ | hx
      · obtain ⟨p, r, rfl, hp, hr⟩ := upto '-' r
        rcases List.eq_nil_or_concat p with rfl | ⟨b, c, rfl⟩
        · exact ⟨_, .noEnd ha hx hr⟩
        · simp only [List.concat_eq_append, List.mem_append, List.mem_singleton, not_or] at hp
          have e : '[' :: (a ++ '-' :: (b.concat c ++ r)) = '[' :: a ++ '-' :: b ++ c :: r := by simp
          rw [e]
          by_cases hw : c.toNat < 128
          · rcases dec b with ⟨y, hy⟩ | hy
            · by_cases hl : y = 65535
              · subst hl
                exact ⟨_, .overflow ha hx hp.1 (Ne.symm hp.2) hw hr hy⟩
              · have := hy.1
                exact ⟨_, .range ha hx hp.1 (Ne.symm hp.2) hw hr hy (by omega)⟩
            · exact ⟨_, .badEnd ha hx hp.1 (Ne.symm hp.2) hw hr hy⟩
          · exact ⟨_, .wide ha hx hp.1 (Ne.symm hp.2) (by omega) hr⟩
      · exact ⟨_, .badStart ha hx⟩
    · rcases dec (c :: t) with ⟨n, hn⟩ | hn
      · exact ⟨_, .single hc hn⟩
      · exact ⟨_, .noNumber hc hn⟩

theorem lengths_last {s t : Str} (hs : ',' ∉ s) (ht : Trimmed s t) : lengths s = lengthPart t := by
  rw [lengths, split_nosep hs, lengthParts, trim_of_trimmed ht, lengthParts]
  cases lengthPart t <;> simp

theorem lengths_comma {s t r : Str} (hs : ',' ∉ s) (ht : Trimmed s t) :
    lengths (s ++ ',' :: r) = (lengthPart t >>= fun l => lengths r >>= fun m => .ok (l ++ m)) := by
  rw [lengths, split_cons _ hs, lengthParts, trim_of_trimmed ht]; rfl

theorem fail_bind {o : Outcome LoadErr (List Nat)} (h : ∀ l, o ≠ .ok l) (f : List Nat → Outcome LoadErr (List Nat)) : (o >>= f) = o := by
  cases o with
  | ok l => exact absurd rfl (h l)
  | err e => rfl
  | panic p => rfl

theorem reads_sound {s : Str} {o : Outcome LoadErr (List Nat)} (h : Reads s o) : lengths s = o := by
  induction h with
  | last hs ht hi => rw [lengths_last hs ht, C98_item_sound hi]
  | stop hs ht hi ho => rw [lengths_comma hs ht, C98_item_sound hi, fail_bind ho]
  | both hs ht hi _ ih => rw [lengths_comma hs ht, C98_item_sound hi, ih]; rfl
  | later hs ht hi _ ho ih => rw [lengths_comma hs ht, C98_item_sound hi, ih, Outcome.bind_ok, fail_bind ho]

theorem reads_total (n : Nat) : ∀ s : Str, s.length ≤ n → ∃ o, Reads s o := by
  induction n with
  | zero =>
    intro s hs
    obtain ⟨o, ho⟩ := C98_item_total (trim s)
    have : s = [] := List.eq_nil_of_length_eq_zero (by omega)
    exact ⟨o, .last (by simp [this]) (trimmed_trim s) ho⟩
  | succ n ih =>
    intro s hs
    obtain ⟨p, r, rfl, hp, rfl | ⟨r, rfl⟩⟩ := upto ',' s
    · obtain ⟨o, ho⟩ := C98_item_total (trim p)
      exact ⟨o, .last (by simpa using hp) (by simpa using trimmed_trim p) ho⟩
    · obtain ⟨o, ho⟩ := C98_item_total (trim p)
      obtain ⟨o', ho'⟩ := ih r (by simp at hs; omega)
      cases o with
      | ok l =>
        cases o' with
        | ok m => exact ⟨_, .both hp (trimmed_trim p) ho ho'⟩
        | err e => exact ⟨_, .later hp (trimmed_trim p) ho ho' (by simp)⟩
        | panic e => exact ⟨_, .later hp (trimmed_trim p) ho ho' (by simp)⟩
      | err e => exact ⟨_, .stop hp (trimmed_trim p) ho (by simp)⟩
      | panic e => exact ⟨_, .stop hp (trimmed_trim p) ho (by simp)⟩

/-- **C98**: any text at all is read as a list of lengths exactly as `Reads` says. -/
theorem C98_lengths (s : Str) (o : Outcome LoadErr (List Nat)) : lengths s = o ↔ Reads s o := by
  constructor
  · rintro rfl
    obtain ⟨o, ho⟩ := reads_total s.length s (Nat.le_refl _)
    rw [reads_sound ho]; exact ho
  · exact reads_sound

/-- **C98**: the same for one item. -/
theorem C98_item (t : Str) (o : Outcome LoadErr (List Nat)) : lengthPart t = o ↔ Item t o := by
  constructor
  · rintro rfl
    obtain ⟨o, ho⟩ := C98_item_total t
    rw [C98_item_sound ho]; exact ho
  · exact C98_item_sound

/-- A bracket without a hyphen says nothing, a range need not end in a bracket, what comes after a second hyphen is not looked at, a range that
runs backwards is empty: none of these is reported. -/
example : Reads (str% " 4,[5],[7-9) , [6-8]-x,[9-8]") (.ok [4, 7, 8, 9, 6, 7, 8]) ∧ Reads (str% "4,[5-x]") (.err .integer) ∧
    Reads (str% "4, ,x") (.panic .index) ∧ Reads (str% "[1-9é") (.panic .slice) := by
  refine ⟨(C98_lengths _ _).1 ?_, (C98_lengths _ _).1 ?_, (C98_lengths _ _).1 ?_, (C98_lengths _ _).1 ?_⟩ <;> kernel_rfl

end Phone.Xml
