import Verif.Regex.Lemmas
/-! # Inversion of the language of each construct -/

namespace Phone
variable [UnicodeTables]

theorem lang_eps {p : Nat} {w q : Str} : Lang .eps p w q ↔ w = [] := by
  constructor
  · intro h; cases h; rfl
  · rintro rfl; exact .eps

theorem lang_cls {k : Cls} {p : Nat} {w q : Str} : Lang (.cls k) p w q ↔ ∃ c, w = [c] ∧ k.mem c = true := by
  constructor
  · intro h; cases h with | cls h => exact ⟨_, rfl, h⟩
  · rintro ⟨c, rfl, h⟩; exact .cls h

theorem lang_cat {a b : Re} {p : Nat} {w q : Str} :
    Lang (.cat a b) p w q ↔ ∃ u v, w = u ++ v ∧ Lang a p u (v ++ q) ∧ Lang b (p + byteLen u) v q := by
  constructor
  · intro h; cases h with | cat h1 h2 => exact ⟨_, _, rfl, h1, h2⟩
  · rintro ⟨u, v, rfl, h1, h2⟩; exact .cat h1 h2

theorem lang_alt {a b : Re} {p : Nat} {w q : Str} : Lang (.alt a b) p w q ↔ Lang a p w q ∨ Lang b p w q := by
  constructor
  · intro h
    cases h with
    | altL h => exact .inl h
    | altR h => exact .inr h
  · rintro (h | h)
    · exact .altL h
    · exact .altR h

theorem lang_grp {n : Nat} {a : Re} {p : Nat} {w q : Str} : Lang (.grp n a) p w q ↔ Lang a p w q := by
  constructor
  · intro h; cases h with | grp h => exact h
  · exact .grp

theorem lang_bos {p : Nat} {w q : Str} : Lang .bos p w q ↔ p = 0 ∧ w = [] := by
  constructor
  · intro h; cases h; exact ⟨rfl, rfl⟩
  · rintro ⟨rfl, rfl⟩; exact .bos

theorem lang_eos {p : Nat} {w q : Str} : Lang .eos p w q ↔ w = [] ∧ q = [] := by
  constructor
  · intro h; cases h; exact ⟨rfl, rfl⟩
  · rintro ⟨rfl, rfl⟩; exact .eos

theorem lang_opt {a : Re} {p : Nat} {w q : Str} : Lang (Re.opt a) p w q ↔ Lang a p w q ∨ w = [] := by
  rw [Re.opt, lang_alt, lang_eps]

/-- A star over a class matches exactly the strings over that class. -/
theorem lang_star_cls {g : Bool} {k : Cls} {p : Nat} {w q : Str} :
    Lang (.star g (.cls k)) p w q ↔ ∀ c ∈ w, k.mem c = true := by
  constructor
  · intro h
    generalize hr : Re.star g (.cls k) = r at h
    induction h with
    | starNil => simp
    | starCons hu h1 h2 _ ih =>
      cases hr
      obtain ⟨c, rfl, hc⟩ := lang_cls.1 h1
      intro d hd
      simp only [List.mem_append, List.mem_singleton] at hd
      rcases hd with rfl | hd
      · exact hc
      · exact ih rfl d hd
    | _ => cases hr
  · intro h
    induction w generalizing p with
    | nil => exact .starNil
    | cons c w ih =>
      exact .starCons (u := [c]) (by simp) (.cls (h c (by simp))) (ih fun d hd => h d (by simp [hd]))

/-- `[k]+`: at least one character, all in the class. -/
theorem lang_plus_cls {k : Cls} {p : Nat} {w q : Str} :
    Lang (Re.plus (.cls k)) p w q ↔ w ≠ [] ∧ ∀ c ∈ w, k.mem c = true := by
  rw [Re.plus, lang_cat]
  constructor
  · rintro ⟨u, v, rfl, h1, h2⟩
    obtain ⟨c, rfl, hc⟩ := lang_cls.1 h1
    refine ⟨by simp, ?_⟩
    intro d hd
    simp only [List.mem_append, List.mem_singleton] at hd
    rcases hd with rfl | hd
    · exact hc
    · exact lang_star_cls.1 h2 d hd
  · rintro ⟨hne, h⟩
    cases w with
    | nil => exact absurd rfl hne
    | cons c w =>
      exact ⟨[c], w, rfl, lang_cls.2 ⟨c, rfl, h c (by simp)⟩, lang_star_cls.2 fun d hd => h d (by simp [hd])⟩

theorem lang_upto_cls {k : Cls} {n p : Nat} {w q : Str} :
    Lang (Re.upto (.cls k) n) p w q ↔ w.length ≤ n ∧ ∀ c ∈ w, k.mem c = true := by
  induction n generalizing p w with
  | zero => simp [Re.upto, lang_eps]; intro h; simp [h]
  | succ n ih =>
    rw [Re.upto, lang_opt, lang_cat]
    constructor
    · rintro (⟨u, v, rfl, h1, h2⟩ | rfl)
      · obtain ⟨c, rfl, hc⟩ := lang_cls.1 h1
        obtain ⟨hl, hv⟩ := ih.1 h2
        refine ⟨by simp; omega, ?_⟩
        intro d hd
        simp only [List.mem_append, List.mem_singleton] at hd
        rcases hd with rfl | hd
        · exact hc
        · exact hv d hd
      · simp
    · rintro ⟨hl, h⟩
      cases w with
      | nil => exact .inr rfl
      | cons c w =>
        exact .inl ⟨[c], w, rfl, lang_cls.2 ⟨c, rfl, h c (by simp)⟩,
          ih.2 ⟨by simp at hl; exact hl, fun d hd => h d (by simp [hd])⟩⟩

omit [UnicodeTables] in
theorem char_toNat_antisymm {a b : Char} (h1 : a.toNat ≤ b.toNat) (h2 : b.toNat ≤ a.toNat) : a = b :=
  char_eq_of_toNat (by omega)

@[simp] theorem mem_one {a c : Char} : CItem.mem c (.range a a) = (c == a) := by
  rw [Bool.eq_iff_iff]
  simp only [CItem.mem, Bool.and_eq_true, decide_eq_true_eq, beq_iff_eq]
  constructor
  · rintro ⟨h1, h2⟩; exact char_toNat_antisymm h2 h1
  · rintro rfl; omega

theorem lang_chr {a : Char} {p : Nat} {w q : Str} : Lang (Re.chr a) p w q ↔ w = [a] := by
  rw [Re.chr, lang_cls]
  simp [Cls.mem]

theorem lang_set {is : List CItem} {p : Nat} {w q : Str} :
    Lang (Re.set is) p w q ↔ ∃ c, w = [c] ∧ is.any (CItem.mem c) = true := by
  rw [Re.set, lang_cls]
  simp [Cls.mem]

/-- A literal string matches exactly itself. -/
theorem lang_lit {s : Str} {p : Nat} {w q : Str} : Lang (Re.lit s) p w q ↔ w = s := by
  induction s generalizing p w with
  | nil => simp [Re.lit, lang_eps]
  | cons c s ih =>
    cases s with
    | nil => simp [Re.lit, lang_chr]
    | cons d s =>
      rw [Re.lit, lang_cat]
      · constructor
        · rintro ⟨u, v, rfl, h1, h2⟩
          rw [lang_chr.1 h1, ih.1 h2]; rfl
        · rintro rfl
          exact ⟨[c], d :: s, rfl, lang_chr.2 rfl, ih.2 rfl⟩
      · simp

/-- Search for one class: the leftmost character in the class. -/
theorem find_cls {r : Regex} {k : Cls} (hr : r.re = .cls k) {s : Str} {m : Match} (h : r.find s = some m) :
    ∃ c, m.text = [c] ∧ k.mem c = true ∧ (∀ d ∈ m.pre, k.mem d = false) ∧ s = m.pre ++ c :: m.post := by
  have f := find_eq_some h
  have hl := f.lang
  rw [hr, lang_cls] at hl
  obtain ⟨c, hc, hk⟩ := hl
  refine ⟨c, hc, hk, ?_, by rw [f.split, hc]; simp⟩
  intro d hd
  obtain ⟨a, b, hab⟩ := List.append_of_mem hd
  have := f.leftmost a (d :: b ++ m.text ++ m.post) (by rw [f.split, hab]; simp) (by rw [hab]; simp)
  cases hk' : k.mem d with
  | false => rfl
  | true => exact absurd ⟨[d], b ++ m.text ++ m.post, by simp, by rw [hr]; exact .cls hk'⟩ this

end Phone
