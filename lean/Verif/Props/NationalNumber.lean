import Verif.Model.NationalNumber
import Verif.Basic.StrLemmas
/-! # C01-C03: the packed national number -/

namespace Phone
open NationalNumber

/-! ## Arithmetic of the packing -/

theorem NationalNumber.raw_new {v : UInt64} {z : UInt8} (h : v.toNat < 2 ^ 56) :
    ((z.toUInt64 <<< 56) ||| v).toNat = z.toNat * 2 ^ 56 + v.toNat := by
  have hz : z.toNat < 256 := z.toNat_lt
  have h1 : (z.toUInt64 <<< 56).toNat = z.toNat <<< 56 := by
    rw [UInt64.toNat_shiftLeft]
    have : (56 : UInt64).toNat % 64 = 56 := rfl
    rw [this, UInt8.toNat_toUInt64, Nat.mod_eq_of_lt]
    rw [Nat.shiftLeft_eq]; omega
  rw [UInt64.toNat_or, h1, ← Nat.shiftLeft_add_eq_or_of_lt h, Nat.shiftLeft_eq]

theorem NationalNumber.toNat_value (n : NationalNumber) : n.value.toNat = n.raw.toNat % 2 ^ 56 := by
  unfold NationalNumber.value
  rw [UInt64.toNat_and, show (0x00ffffffffffffff : UInt64).toNat = 2 ^ 56 - 1 from rfl, Nat.and_two_pow_sub_one_eq_mod]

theorem NationalNumber.toNat_zeros (n : NationalNumber) : n.zeros.toNat = n.raw.toNat / 2 ^ 56 := by
  unfold NationalNumber.zeros
  have h := n.raw.toNat_lt
  rw [UInt64.toNat_toUInt8, UInt64.toNat_shiftRight, show (56 : UInt64).toNat % 64 = 56 from rfl, Nat.shiftRight_eq_div_pow,
    Nat.mod_eq_of_lt]
  omega

theorem NationalNumber.new_ok {v : UInt64} {z : UInt8} (h : v.toNat < 2 ^ 56) :
    NationalNumber.new v z = .ok ⟨(z.toUInt64 <<< 56) ||| v⟩ := by
  unfold NationalNumber.new
  rw [if_neg]
  rw [ge_iff_le, UInt64.le_iff_toNat_le]
  rw [show ((1 : UInt64) <<< 56).toNat = 2 ^ 56 from rfl]; omega

theorem NationalNumber.new_err {v : UInt64} {z : UInt8} (h : 2 ^ 56 ≤ v.toNat) :
    NationalNumber.new v z = .err .tooLong := by
  unfold NationalNumber.new
  rw [if_pos]
  rw [ge_iff_le, UInt64.le_iff_toNat_le]
  rw [show ((1 : UInt64) <<< 56).toNat = 2 ^ 56 from rfl]; omega

theorem NationalNumber.new_value {v : UInt64} {z : UInt8} {n : NationalNumber} (h : NationalNumber.new v z = .ok n) :
    v.toNat < 2 ^ 56 ∧ n.value = v ∧ n.zeros = z := by
  have hv : v.toNat < 2 ^ 56 := by
    apply Nat.lt_of_not_le
    intro hle; rw [new_err hle] at h; cases h
  rw [new_ok hv] at h
  cases h
  refine ⟨hv, ?_, ?_⟩
  · rw [← UInt64.toNat_inj, toNat_value, raw_new hv]; omega
  · rw [← UInt8.toNat_inj, toNat_zeros, raw_new hv]; omega

theorem NationalNumber.ext_parts {a b : NationalNumber} (hv : a.value = b.value) (hz : a.zeros = b.zeros) : a = b := by
  have h1 := congrArg UInt64.toNat hv
  have h2 := congrArg UInt8.toNat hz
  rw [toNat_value, toNat_value] at h1
  rw [toNat_zeros, toNat_zeros] at h2
  have : a.raw.toNat = b.raw.toNat := by omega
  have := UInt64.toNat_inj.1 this
  cases a; cases b; simp_all

theorem NationalNumber.new_self (n : NationalNumber) : NationalNumber.new n.value n.zeros = .ok n := by
  have h : n.value.toNat < 2 ^ 56 := by rw [toNat_value]; omega
  cases hn : NationalNumber.new n.value n.zeros with
  | ok m =>
    obtain ⟨_, h1, h2⟩ := new_value hn
    rw [ext_parts h1 h2]
  | err e => rw [new_ok h] at hn; cases hn
  | panic p => rw [new_ok h] at hn; cases hn

/-! ## C01 -/

/-- C01: `NationalNumber::new(v, z)` succeeds exactly for `v < 2^56` and then gives back `v` and `z`; otherwise the error is
`TooLong`. -/
theorem C01_new_accessors (v : UInt64) (z : UInt8) :
    (v.toNat < 2 ^ 56 ↔ ∃ n, NationalNumber.new v z = .ok n) ∧
    (∀ n, NationalNumber.new v z = .ok n → n.value = v ∧ n.zeros = z) ∧
    (2 ^ 56 ≤ v.toNat ↔ NationalNumber.new v z = .err .tooLong) := by
  refine ⟨⟨fun h => ⟨_, new_ok h⟩, fun ⟨n, h⟩ => (new_value h).1⟩, fun n h => (new_value h).2, new_err, fun h => ?_⟩
  apply Nat.le_of_not_lt
  intro hlt; rw [new_ok hlt] at h; cases h

/-- C01: different (value, zeros) pairs give different numbers, also when compared as `u64`. -/
theorem C01_new_injective (v v' : UInt64) (z z' : UInt8) (n n' : NationalNumber)
    (h : NationalNumber.new v z = .ok n) (h' : NationalNumber.new v' z' = .ok n') :
    (n = n' ↔ v = v' ∧ z = z') ∧ (n.toU64 = n'.toU64 ↔ v = v' ∧ z = z') := by
  obtain ⟨_, h1, h2⟩ := new_value h
  obtain ⟨_, h1', h2'⟩ := new_value h'
  have key : n = n' ↔ v = v' ∧ z = z' := by
    constructor
    · rintro rfl; exact ⟨h1.symm.trans h1', h2.symm.trans h2'⟩
    · rintro ⟨rfl, rfl⟩; exact ext_parts (h1.trans h1'.symm) (h2.trans h2'.symm)
  refine ⟨key, ?_⟩
  rw [← key]
  unfold toU64
  constructor
  · intro hr; cases n; cases n'; simp_all
  · rintro rfl; rfl

/-- The hypotheses of C01 are met: an Italian number with one leading zero. -/
example : ∃ n, NationalNumber.new 236618300 1 = .ok n ∧ n.value = 236618300 ∧ n.zeros = 1 :=
  ⟨⟨72057594037927936 + 236618300⟩, by decide, by decide, by decide⟩
example : NationalNumber.new 72057594037927936 0 = .err .tooLong := by decide

/-! ## C02, C03 -/

/-- Parsing leading zeros followed by the decimal digits of a number. -/
theorem NationalNumber.fromStr_zeros {k : Nat} {s : Str} (hs : Digits s) (hne : s ≠ []) (h0 : s.head? ≠ some '0')
    (hv : decVal s < 2 ^ 64) :
    NationalNumber.fromStr (List.replicate k '0' ++ s) = NationalNumber.new (UInt64.ofNat (decVal s)) (UInt8.ofNat k) := by
  have htake : (List.replicate k '0' ++ s).takeWhile (· == '0') = List.replicate k '0' := by
    rw [List.takeWhile_append_of_pos (by simp)]
    cases s with
    | nil => exact absurd rfl hne
    | cons c s =>
      have : (c == '0') = false := by simpa using h0
      simp [this]
  have hlen : byteLen (List.replicate k '0') = k := by
    have : Digits (List.replicate k '0') := fun c hc => by rw [List.eq_of_mem_replicate hc]; rfl
    rw [this.byteLen]; simp
  have hdrop : dropBytes (List.replicate k '0' ++ s) k = some s := by
    have := dropBytes_append (List.replicate k '0') s
    rwa [hlen] at this
  unfold NationalNumber.fromStr
  simp only [htake, List.length_replicate, hdrop, Outcome.slice_some, Outcome.bind_ok]
  rw [parseUInt_digits hs hne, if_pos (by unfold u64Bound; omega)]
  simp

/-- C02: a digit string with a non-zero digit, fewer than 256 leading zeros and a value below 2^56 is read and printed
unchanged; `zeros()` counts its leading zeros and `value()` is its numeric value. -/
theorem C02_fromStr_display (k : Nat) (s : Str) (hs : Digits s) (hne : s ≠ []) (h0 : s.head? ≠ some '0')
    (hk : k < 256) (hv : decVal s < 2 ^ 56) :
    ∃ n, NationalNumber.fromStr (List.replicate k '0' ++ s) = .ok n ∧ n.zeros.toNat = k ∧ n.value.toNat = decVal s ∧
      n.display = List.replicate k '0' ++ s := by
  rw [fromStr_zeros hs hne h0 (by omega)]
  have hn : (UInt64.ofNat (decVal s)).toNat = decVal s := by
    rw [UInt64.toNat_ofNat']; exact Nat.mod_eq_of_lt (by omega)
  have hz : (UInt8.ofNat k).toNat = k := by
    rw [UInt8.toNat_ofNat']; exact Nat.mod_eq_of_lt (by omega)
  refine ⟨_, new_ok (by omega), ?_⟩
  obtain ⟨_, h1, h2⟩ := new_value (new_ok (z := UInt8.ofNat k) (v := UInt64.ofNat (decVal s)) (by omega))
  refine ⟨by rw [h2, hz], by rw [h1, hn], ?_⟩
  unfold display
  rw [h2, h1, hz, hn, decStr_decVal hs hne h0]

/-- The hypotheses of C02 are met by the Italian number "0236618300". -/
example : ∃ n, NationalNumber.fromStr (str% "0236618300") = .ok n ∧ n.zeros.toNat = 1 ∧ n.value.toNat = 236618300 ∧
    n.display = str% "0236618300" :=
  C02_fromStr_display 1 (str% "236618300") (by decide) (by decide) (by decide) (by decide) (by decide)

/-- C03: a number with non-zero value is read back from its printed form. -/
theorem C03_display_fromStr (n : NationalNumber) (h : n.value ≠ 0) : NationalNumber.fromStr n.display = .ok n := by
  have hv : n.value.toNat ≠ 0 := by
    intro h0; exact h (UInt64.toNat_inj.1 h0)
  have hlt : n.value.toNat < 2 ^ 56 := by rw [toNat_value]; omega
  unfold display
  rw [fromStr_zeros (digits_decStr _) (decStr_ne_nil _) (decStr_head_ne_zero hv) (by rw [decVal_decStr]; omega),
    decVal_decStr]
  simp only [UInt64.ofNat_toNat, UInt8.ofNat_toNat]
  exact new_self n

/-- C03: different numbers with non-zero values print differently. -/
theorem C03_display_injective (a b : NationalNumber) (ha : a.value ≠ 0) (hb : b.value ≠ 0) (h : a.display = b.display) :
    a = b := by
  have h1 := C03_display_fromStr a ha
  rw [h, C03_display_fromStr b hb] at h1
  exact (Outcome.ok.inj h1).symm

/-- C03: for value 0 the printed form is always rejected. -/
theorem C03_zero_rejected (n : NationalNumber) (h : n.value = 0) : NationalNumber.fromStr n.display = .err (.malformedInteger .empty) := by
  have hd : n.display = List.replicate (n.zeros.toNat + 1) '0' := by
    unfold display
    rw [h, List.replicate_succ']; rfl
  have htake : (n.display).takeWhile (· == '0') = n.display := by
    rw [hd]; simp
  have hlen : byteLen n.display = n.display.length := by
    have : Digits n.display := by rw [hd]; intro c hc; rw [List.eq_of_mem_replicate hc]; rfl
    exact this.byteLen
  have hdrop : dropBytes n.display n.display.length = some [] := by
    have := dropBytes_append n.display []
    rwa [List.append_nil, hlen] at this
  unfold NationalNumber.fromStr
  simp only [htake, hdrop, Outcome.slice_some, Outcome.bind_ok]
  rfl

example : NationalNumber.fromStr (⟨0x0100000000000007⟩ : NationalNumber).display = .ok ⟨0x0100000000000007⟩ :=
  C03_display_fromStr _ (by decide)
example : (⟨0x0200000000000000⟩ : NationalNumber).display = str% "000" := by decide

end Phone
