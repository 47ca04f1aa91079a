import Verif.Props.NationalNumber
import Verif.Spec.FromStr
/-! # C95: reading a national number from any text -/

namespace Phone
open NationalNumber

/-- The zeros come off first. -/
theorem NationalNumber.fromStr_split {z : Nat} {r : Str} (h0 : r.head? ≠ some '0') :
    NationalNumber.fromStr (List.replicate z '0' ++ r) =
      (Outcome.okOr (.malformedInteger (intErr u64Bound r)) (parseUInt u64Bound r) >>= fun v =>
        NationalNumber.new (UInt64.ofNat v) (UInt8.ofNat z)) := by
  have htake : (List.replicate z '0' ++ r).takeWhile (· == '0') = List.replicate z '0' := by
    rw [List.takeWhile_append_of_pos (by simp)]
    cases r with
    | nil => simp
    | cons c s =>
      have : (c == '0') = false := by simpa using h0
      simp [this]
  have hlen : byteLen (List.replicate z '0') = z := by
    have : Digits (List.replicate z '0') := fun c hc => by rw [List.eq_of_mem_replicate hc]; rfl
    rw [this.byteLen]; simp
  have hdrop : dropBytes (List.replicate z '0' ++ r) z = some r := by
    have := dropBytes_append (List.replicate z '0') r
    rwa [hlen] at this
  unfold NationalNumber.fromStr
  simp only [htake, List.length_replicate, hdrop, Outcome.slice_some, Outcome.bind_ok]

theorem intScan_huge {b acc : Nat} {ds rest : Str} (h : Digits ds) (ha : acc < b)
    (hv : b ≤ ds.foldl (fun n c => 10 * n + digitVal c) acc) : intScan b acc (ds ++ rest) = .posOverflow := by
  induction ds generalizing acc with
  | nil => simp at hv; omega
  | cons c cs ih =>
    rw [List.cons_append, intScan, if_pos (h c (by simp))]
    split
    · rename_i hlt
      exact ih (fun x hx => h x (by simp [hx])) hlt hv
    · rfl

theorem le_foldl (ds : Str) (acc : Nat) : acc ≤ ds.foldl (fun n c => 10 * n + digitVal c) acc := by
  induction ds generalizing acc with
  | nil => simp
  | cons c cs ih => exact Nat.le_trans (by omega) (ih (10 * acc + digitVal c))

theorem intScan_character {b acc : Nat} {ds rest : Str} {c : Char} (h : Digits ds) (hc : isDigit c = false)
    (hv : ds.foldl (fun n c => 10 * n + digitVal c) acc < b) : intScan b acc (ds ++ c :: rest) = .invalidDigit := by
  induction ds generalizing acc with
  | nil => simp [intScan, hc]
  | cons d cs ih =>
    rw [List.cons_append, intScan, if_pos (h d (by simp)), if_pos]
    · exact ih (fun x hx => h x (by simp [hx])) hv
    · exact Nat.lt_of_le_of_lt (le_foldl cs _) hv

theorem optPlus_sign {sign ds : Str} (hs : sign = [] ∨ sign = ['+']) (hne : ds ≠ []) (h : ∀ c, ds.head? = some c → c ≠ '+') :
    optPlus (sign ++ ds) = ds := by
  cases ds with
  | nil => exact absurd rfl hne
  | cons c cs =>
    have := h c rfl
    rcases hs with rfl | rfl
    · unfold optPlus; split
      · simp_all
      · rfl
    · rfl

/-- C95: what `from_str` makes of any text. -/
theorem C95_sound (s : Str) (o : Outcome ParseErr NationalNumber) (h : Spec.NationalRead s o) : NationalNumber.fromStr s = o := by
  have plusNot : ∀ {d : Str}, Digits d → ∀ c, d.head? = some c → c ≠ '+' := by
    intro d hd c hc he
    have := hd c (List.mem_of_head? hc)
    rw [he] at this; simp [isDigit] at this
  have head : ∀ {sign d r : Str}, (sign = [] ∨ sign = ['+']) → (sign = [] → d.head? ≠ some '0') → (d = [] → r.head? ≠ some '0') →
      (sign ++ (d ++ r)).head? ≠ some '0' := by
    rintro sign d r (rfl | rfl) h1 h2
    · cases d with
      | nil => simpa using h2 rfl
      | cons c d => simpa using h1 rfl
    · simp
  cases h with
  | @number z sign ds n hs hne hd h0 hv h1 h2 =>
    have hh := head hs h0 (r := []) (by simp)
    rw [List.append_nil] at hh
    rw [fromStr_split hh]
    have hp : parseUInt u64Bound (sign ++ ds) = some (decVal ds) := by
      unfold parseUInt
      simp only [optPlus_sign hs hne (plusNot hd)]
      rw [if_pos ⟨hne, digits_iff_all.1 hd, by unfold u64Bound; omega⟩]
    rw [hp]
    have hval : (UInt64.ofNat (decVal ds)).toNat = decVal ds := UInt64.toNat_ofNat_of_lt' (show decVal ds < 2 ^ 64 by omega)
    have e1 : UInt64.ofNat (decVal ds) = n.value := UInt64.toNat_inj.1 (by rw [hval, h1])
    have e2 : UInt8.ofNat z = n.zeros := UInt8.toNat_inj.1 (by rw [h2]; simp)
    simp only [Outcome.okOr_some, Outcome.bind_ok, e1, e2, new_self]
  | @long z sign ds hs hne hd h0 hv hv' =>
    have hh := head hs h0 (r := []) (by simp)
    rw [List.append_nil] at hh
    rw [fromStr_split hh]
    have hp : parseUInt u64Bound (sign ++ ds) = some (decVal ds) := by
      unfold parseUInt
      simp only [optPlus_sign hs hne (plusNot hd)]
      rw [if_pos ⟨hne, digits_iff_all.1 hd, by unfold u64Bound; omega⟩]
    rw [hp]
    have hval : (UInt64.ofNat (decVal ds)).toNat = decVal ds := UInt64.toNat_ofNat_of_lt' (by simpa using hv')
    simp only [Outcome.okOr_some, Outcome.bind_ok]
    exact new_err (by rw [hval]; exact hv)
  | @huge z sign ds rest hs hd h0 hv =>
    have hne : ds ≠ [] := by rintro rfl; simp at hv
    rw [fromStr_split (head hs h0 fun e => absurd e hne)]
    have ho : optPlus (sign ++ (ds ++ rest)) = ds ++ rest := by
      refine optPlus_sign hs (by simp [hne]) fun c hc => ?_
      cases ds with
      | nil => exact absurd rfl hne
      | cons d ds => exact plusNot hd c hc
    have hp : parseUInt u64Bound (sign ++ (ds ++ rest)) = none := by
      unfold parseUInt
      simp only [ho]
      rw [if_neg]
      rintro ⟨_, h1, h2⟩
      rw [decVal_append] at h2
      have : 0 < 10 ^ rest.length := Nat.pow_pos (by omega)
      have := Nat.le_mul_of_pos_right (decVal ds) this
      unfold u64Bound at h2
      omega
    rw [hp, intErr, ho, intScan_huge hd (by decide) (by simpa [u64Bound, decVal] using hv)]
    rfl
  | @nothing z =>
    have := fromStr_split (z := z) (r := []) (by simp)
    rw [List.append_nil] at this
    rw [this]; rfl
  | @character z sign ds rest c hs hd h0 hv hc hplus =>
    rw [fromStr_split (head hs h0 fun _ e => by simp at e; rw [e] at hc; simp [isDigit] at hc)]
    have ho : ∃ d' r', Digits d' ∧ decVal d' < 2 ^ 64 ∧ optPlus (sign ++ (ds ++ c :: rest)) = d' ++ c :: r' := by
      by_cases hds : ds = []
      · subst hds
        refine ⟨[], rest, by simp [Digits], by simp, ?_⟩
        rcases hs with rfl | rfl
        · by_cases hcp : c = '+'
          · rw [hplus rfl rfl hcp, hcp]; rfl
          · exact optPlus_sign (.inl rfl) (by simp) (by simp [hcp])
        · rfl
      · refine ⟨ds, rest, hd, hv, optPlus_sign hs (by simp) fun x hx => ?_⟩
        cases ds with
        | nil => exact absurd rfl hds
        | cons d ds => exact plusNot hd x hx
    obtain ⟨d', r', hd', hv', ho⟩ := ho
    have hp : parseUInt u64Bound (sign ++ (ds ++ c :: rest)) = none := by
      unfold parseUInt
      simp only [ho]
      rw [if_neg]
      rintro ⟨_, h1, _⟩
      have := List.all_eq_true.1 h1 c (by simp)
      rw [this] at hc; cases hc
    rw [hp, intErr, ho, intScan_character hd' hc (by simpa [u64Bound, decVal] using hv')]
    rfl

/-- C95: every text is described. -/
theorem C95_total (s : Str) : ∃ o, Spec.NationalRead s o := by
  obtain ⟨z, r, rfl, h0⟩ : ∃ z r, s = List.replicate z '0' ++ r ∧ r.head? ≠ some '0' := by
    induction s with
    | nil => exact ⟨0, [], rfl, by simp⟩
    | cons c s ih =>
      by_cases hc : c = '0'
      · obtain ⟨z, r, rfl, h⟩ := ih
        exact ⟨z + 1, r, by rw [hc]; rfl, h⟩
      · exact ⟨0, c :: s, rfl, by simpa using hc⟩
  by_cases hr : r = []
  · subst hr; rw [List.append_nil]; exact ⟨_, .nothing⟩
  obtain ⟨sign, t, hs, rfl, ht, hplus⟩ : ∃ sign t, (sign = [] ∨ sign = ['+']) ∧ r = sign ++ t ∧ t ≠ [] ∧
      (sign = [] → t.head? = some '+' → t = ['+']) := by
    by_cases h : ∃ t, t ≠ [] ∧ r = '+' :: t
    · obtain ⟨t, ht, rfl⟩ := h
      exact ⟨['+'], t, .inr rfl, rfl, ht, by simp⟩
    · refine ⟨[], r, .inl rfl, rfl, hr, fun _ he => ?_⟩
      cases r with
      | nil => exact absurd rfl hr
      | cons c r =>
        simp at he
        subst he
        by_cases hr' : r = []
        · rw [hr']
        · exact absurd ⟨r, hr', rfl⟩ h
  have htz : sign = [] → t.head? ≠ some '0' := by rintro rfl; exact h0
  have hsp : t = t.takeWhile isDigit ++ t.dropWhile isDigit := List.takeWhile_append_dropWhile.symm
  have hd : Digits (t.takeWhile isDigit) := fun c hc => by
    have := List.all_takeWhile (p := isDigit) (l := t)
    exact List.all_eq_true.1 this c hc
  have hdz : sign = [] → (t.takeWhile isDigit).head? ≠ some '0' := by
    intro e h
    cases t with
    | nil => exact ht rfl
    | cons c t =>
      rw [List.takeWhile_cons] at h
      split at h
      · exact htz e h
      · simp at h
  rcases Nat.lt_or_ge (decVal (t.takeWhile isDigit)) (2 ^ 64) with hv | hv
  · cases hrest : t.dropWhile isDigit with
    | nil =>
      rw [hrest, List.append_nil] at hsp
      rw [hsp]
      have hne : t.takeWhile isDigit ≠ [] := by rw [← hsp]; exact ht
      rcases Nat.lt_or_ge (decVal (t.takeWhile isDigit)) (2 ^ 56) with hv' | hv'
      · have hval : (UInt64.ofNat (decVal (t.takeWhile isDigit))).toNat = decVal (t.takeWhile isDigit) :=
          UInt64.toNat_ofNat_of_lt' (by simpa using hv)
        have hn := new_ok (v := UInt64.ofNat (decVal (t.takeWhile isDigit))) (z := UInt8.ofNat z) (by rw [hval]; exact hv')
        obtain ⟨_, e1, e2⟩ := new_value hn
        exact ⟨_, .number hs hne hd hdz hv' (by rw [e1, hval]) (by rw [e2]; simp)⟩
      · exact ⟨_, .long hs hne hd hdz hv' hv⟩
    | cons c rest =>
      rw [hrest] at hsp
      have hc : isDigit c = false := by
        have := List.head?_dropWhile_not isDigit t
        rw [hrest] at this
        simpa using this
      rw [hsp]
      refine ⟨_, .character hs hd hdz hv hc ?_⟩
      intro e e' hc'
      have := hplus e (by rw [hsp, e', hc']; rfl)
      rw [hsp, e'] at this
      simp at this
      exact this.2
  · rw [hsp]
    exact ⟨_, .huge hs hd hdz hv⟩

/-- C95: `from_str` gives exactly what the specification says. -/
theorem C95_exact (s : Str) (o : Outcome ParseErr NationalNumber) : NationalNumber.fromStr s = o ↔ Spec.NationalRead s o := by
  refine ⟨fun h => ?_, C95_sound s o⟩
  obtain ⟨o', h'⟩ := C95_total s
  rw [C95_sound s o' h'] at h
  exact h ▸ h'

/-- C95: what is read is displayed unchanged unless there is a plus sign or there are 256 zeros or more. -/
theorem C95_display (s : Str) (n : NationalNumber) (h : NationalNumber.fromStr s = .ok n) :
    n.display = s ↔ '+' ∉ s ∧ (s.takeWhile (· == '0')).length < 256 := by
  cases (C95_exact s _).1 h with
  | @number z sign ds _ hs hne hd h0 hv h1 h2 =>
    rcases hs with rfl | rfl
    · have h0 := h0 rfl
      have htake : (List.replicate z '0' ++ ([] ++ ds)).takeWhile (· == '0') = List.replicate z '0' := by
        rw [List.takeWhile_append_of_pos (by simp)]
        cases ds with
        | nil => simp
        | cons c s =>
          have : (c == '0') = false := by simpa using h0
          simp [this]
      rw [htake, List.length_replicate]
      have hp : '+' ∉ List.replicate z '0' ++ ([] ++ ds) := by
        rw [List.nil_append, List.mem_append]
        rintro (h | h)
        · simp at h
        · have := hd _ h; simp [isDigit] at this
      have hdisp : n.display = List.replicate (z % 256) '0' ++ ds := by
        unfold display
        rw [h1, h2, decStr_decVal hd hne h0]
      rw [hdisp, List.nil_append, List.append_cancel_right_eq]
      constructor
      · intro e
        have := congrArg List.length e
        simp at this
        exact ⟨hp, by omega⟩
      · rintro ⟨_, e⟩
        rw [Nat.mod_eq_of_lt e]
    · constructor
      · intro e
        have hd : Digits n.display := fun c hc => by
          rcases List.mem_append.1 hc with hc | hc
          · rw [List.eq_of_mem_replicate hc]; rfl
          · exact digits_decStr _ c hc
        rw [e] at hd
        have := hd '+' (by simp)
        simp [isDigit] at this
      · rintro ⟨e, _⟩
        exact absurd (by simp) e

/-- A plus sign after zeros is accepted, and 256 zeros are as good as none: texts that are not what is displayed. -/
example : (∃ n, NationalNumber.fromStr (str% "00+5") = .ok n ∧ n.display = (str% "005")) ∧
    (∃ n, NationalNumber.fromStr (List.replicate 256 '0' ++ (str% "5")) = .ok n ∧ n.display = (str% "5")) ∧
    NationalNumber.fromStr (str% "12a") = .err (.malformedInteger .invalidDigit) ∧
    NationalNumber.fromStr (str% "99999999999999999999a") = .err (.malformedInteger .posOverflow) := by
  refine ⟨⟨⟨2 * 72057594037927936 + 5⟩, by decide, by decide⟩, ⟨⟨5⟩, ?_, by decide⟩, by decide, by decide⟩
  exact C95_sound _ _ (.number (sign := []) (.inl rfl) (by decide) (by decide) (by decide) (by decide) (by decide) (by decide))

end Phone
