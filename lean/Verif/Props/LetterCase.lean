import Verif.Spec.LetterCase
import Verif.Props.Reading
/-! # C106: the case of letters

Letters of a number stand for keys of the keypad in upper and lower case; the words for extensions are known in both. But there are
three places where only the lower case letter counts: the `x` that begins a second number, the `x` as punctuation among the first three
digits, and the names of parameters. Apart from these the case of ASCII letters does not matter. -/

namespace Phone
open Helper

/-! ## Letters -/

def letterPairs : List (Char × Char) :=
  (str% "abcdefghijklmnopqrstuvwxyz").zip (str% "ABCDEFGHIJKLMNOPQRSTUVWXYZ")

theorem lower_toNat (c : Char) : (Spec.lower c).toNat = if 65 ≤ c.toNat ∧ c.toNat ≤ 90 then c.toNat + 32 else c.toNat := by
  unfold Spec.lower
  split
  · rename_i h
    exact toNat_ofNat_small (by omega)
  · rfl

theorem pairs_complete : (List.range 26).all (fun i => letterPairs.contains (Char.ofNat (97 + i), Char.ofNat (65 + i))) = true := by
  decide

/-- What holds for equal characters and for the two forms of each letter holds for characters that differ in case. -/
theorem case_elim {P : Char → Char → Prop} (hr : ∀ c, P c c) (hp : ∀ p ∈ letterPairs, P p.1 p.2 ∧ P p.2 p.1) {c d : Char}
    (h : Spec.lower c = Spec.lower d) : P c d := by
  have h' := congrArg Char.toNat h
  rw [lower_toNat, lower_toNat] at h'
  have mem : ∀ c d : Char, c.toNat = d.toNat + 32 → 65 ≤ d.toNat → d.toNat ≤ 90 → (c, d) ∈ letterPairs := by
    intro c d h1 h2 h3
    have := List.all_eq_true.1 pairs_complete (d.toNat - 65) (List.mem_range.2 (by omega))
    rw [List.contains_iff_mem, show 97 + (d.toNat - 65) = c.toNat by omega, show 65 + (d.toNat - 65) = d.toNat by omega] at this
    simpa using this
  split at h' <;> split at h'
  · have : c = d := Char.toNat_inj.1 (by omega)
    rw [this]; exact hr d
  · exact (hp _ (mem d c (by omega) (by omega) (by omega))).2
  · exact (hp _ (mem c d (by omega) (by omega) (by omega))).1
  · have : c = d := Char.toNat_inj.1 h'
    rw [this]; exact hr d

/-- A function that does not tell the two forms of a letter apart. -/
theorem case_fun {α : Type} [BEq α] [LawfulBEq α] {f : Char → α} (hf : letterPairs.all (fun p => f p.1 == f p.2) = true) {c d : Char}
    (h : Spec.lower c = Spec.lower d) : f c = f d := by
  refine case_elim (P := fun c d => f c = f d) (fun _ => rfl) (fun p hp => ?_) h
  have := eq_of_beq (List.all_eq_true.1 hf p hp)
  exact ⟨this, this.symm⟩

theorem case_alpha {c d : Char} (h : Spec.lower c = Spec.lower d) : isAlpha c = isAlpha d := case_fun (by decide) h
theorem case_digit {c d : Char} (h : Spec.lower c = Spec.lower d) : isDigit c = isDigit d := case_fun (by decide) h
theorem case_fold {c d : Char} (h : Spec.lower c = Spec.lower d) : Spec.fold c = Spec.fold d := case_fun (by decide) h
theorem case_sep {c d : Char} (h : Spec.lower c = Spec.lower d) : Spec.isSeparator c = Spec.isSeparator d := case_fun (by decide) h
theorem case_phone {c d : Char} (h : Spec.lower c = Spec.lower d) : Spec.isPhoneDigit c = Spec.isPhoneDigit d := case_fun (by decide) h
theorem case_plus {c d : Char} (h : Spec.lower c = Spec.lower d) : Spec.isPlus c = Spec.isPlus d := case_fun (by decide) h
theorem case_norm (v : Bool) {c d : Char} (h : Spec.lower c = Spec.lower d) : normChar (mapFor v) c = normChar (mapFor v) d := by
  cases v <;> exact case_fun (by kernel_rfl) h
theorem case_x {c d : Char} (h : Spec.lower c = Spec.lower d) : (c = 'x' ∨ c = 'X') ↔ (d = 'x' ∨ d = 'X') := by
  have := case_fun (f := fun c => decide (c = 'x' ∨ c = 'X')) (by decide) h
  exact decide_eq_decide.1 this

/-- Other characters than letters have one form. -/
theorem case_eq {c d : Char} (h : Spec.lower c = Spec.lower d) (ha : isAlpha c = false) : c = d := by
  refine case_elim (P := fun c d => isAlpha c = false → c = d) (fun _ _ => rfl) ?_ h ha
  decide

/-! ## Texts -/

open Spec (SameButCase)

theorem same_refl (s : Str) : SameButCase s s := rfl
theorem same_symm {s t : Str} (h : SameButCase s t) : SameButCase t s := Eq.symm h

theorem same_length {s t : Str} (h : SameButCase s t) : s.length = t.length := by
  have := congrArg List.length h
  simpa using this

theorem same_nil {t : Str} (h : SameButCase [] t) : t = [] := List.length_eq_zero_iff.1 (same_length h).symm

theorem same_cons {c : Char} {s t : Str} (h : SameButCase (c :: s) t) :
    ∃ d t', t = d :: t' ∧ Spec.lower c = Spec.lower d ∧ SameButCase s t' := by
  cases t with
  | nil => exact absurd (same_length h) (by simp)
  | cons d t =>
    simp only [SameButCase, List.map_cons, List.cons.injEq] at h
    exact ⟨d, t, rfl, h.1, h.2⟩

theorem same_append {a b t : Str} (h : SameButCase (a ++ b) t) : ∃ a' b', t = a' ++ b' ∧ SameButCase a a' ∧ SameButCase b b' := by
  induction a generalizing t with
  | nil => exact ⟨[], t, rfl, rfl, h⟩
  | cons c a ih =>
    obtain ⟨d, t', rfl, h1, h2⟩ := same_cons h
    obtain ⟨a', b', rfl, h3, h4⟩ := ih h2
    refine ⟨d :: a', b', rfl, ?_, h4⟩
    simp only [SameButCase, List.map_cons, h1, List.cons.injEq, true_and]
    exact h3

theorem same_mem {s t : Str} (h : SameButCase s t) {d : Char} (hd : d ∈ t) : ∃ c ∈ s, Spec.lower c = Spec.lower d := by
  have : Spec.lower d ∈ s.map Spec.lower := by rw [h]; exact List.mem_map_of_mem hd
  obtain ⟨c, h1, h2⟩ := List.mem_map.1 this
  exact ⟨c, h1, h2⟩

/-- What holds for all characters of a text. -/
theorem same_all {s t : Str} (h : SameButCase s t) {f : Char → Bool} (hf : ∀ {c d : Char}, Spec.lower c = Spec.lower d → f c = f d) {b : Bool}
    (hs : ∀ c ∈ s, f c = b) : ∀ d ∈ t, f d = b := by
  intro d hd
  obtain ⟨c, h1, h2⟩ := same_mem h hd
  rw [← hf h2]; exact hs c h1

/-- Texts without letters have one form. -/
theorem same_eq {s t : Str} (h : SameButCase s t) (ha : ∀ c ∈ s, isAlpha c = false) : t = s := by
  induction s generalizing t with
  | nil => exact same_nil h
  | cons c s ih =>
    obtain ⟨d, t', rfl, h1, h2⟩ := same_cons h
    rw [ih h2 (fun x hx => ha x (by simp [hx])), case_eq h1 (ha c (by simp))]

theorem same_not_mem {s t : Str} (h : SameButCase s t) {c : Char} (hc : isAlpha c = false) (hs : c ∉ s) : c ∉ t := by
  intro ht
  obtain ⟨d, h1, h2⟩ := same_mem h ht
  rw [case_eq h2.symm hc] at hs
  exact hs h1

theorem same_head {s t : Str} (h : SameButCase s t) {d : Char} (hd : t.head? = some d) : ∃ c, s.head? = some c ∧ Spec.lower c = Spec.lower d := by
  cases t with
  | nil => cases hd
  | cons d' t =>
    cases hd
    obtain ⟨c, s', rfl, h1, _⟩ := same_cons (same_symm h)
    exact ⟨c, rfl, h1.symm⟩

theorem same_last {s t : Str} (h : SameButCase s t) {d : Char} (hd : t.getLast? = some d) :
    ∃ c, s.getLast? = some c ∧ Spec.lower c = Spec.lower d := by
  obtain ⟨t', rfl⟩ := List.getLast?_eq_some_iff.1 hd
  obtain ⟨a, b, rfl, h1, h2⟩ := same_append (same_symm h)
  obtain ⟨c, b', rfl, h3, h4⟩ := same_cons h2
  rw [same_nil h4]
  exact ⟨c, by simp, h3.symm⟩

theorem same_count {s t : Str} (h : SameButCase s t) {f : Char → Bool} (hf : ∀ {c d : Char}, Spec.lower c = Spec.lower d → f c = f d) :
    s.countP f = t.countP f := by
  induction s generalizing t with
  | nil => rw [same_nil h]
  | cons c s ih =>
    obtain ⟨d, t', rfl, h1, h2⟩ := same_cons h
    rw [List.countP_cons, List.countP_cons, ih h2, hf h1]

theorem same_act (v : Bool) {s t : Str} (h : SameButCase s t) : act (mapFor v) s = act (mapFor v) t := by
  rw [act_eq_filterMap, act_eq_filterMap]
  induction s generalizing t with
  | nil => rw [same_nil h]
  | cons c s ih =>
    obtain ⟨d, t', rfl, h1, h2⟩ := same_cons h
    rw [List.filterMap_cons, List.filterMap_cons, ih h2, case_norm v h1]

theorem same_fold {s t : Str} (h : SameButCase s t) : s.map Spec.fold = t.map Spec.fold := by
  induction s generalizing t with
  | nil => rw [same_nil h]
  | cons c s ih =>
    obtain ⟨d, t', rfl, h1, h2⟩ := same_cons h
    rw [List.map_cons, List.map_cons, ih h2, case_fold h1]

theorem same_vanity {s t : Str} (h : SameButCase s t) : Spec.vanity s = Spec.vanity t := by
  unfold Spec.vanity
  rw [same_count h case_alpha]

/-! ## Reading -/

section
variable [UnicodeTables]

theorem case_nd {c d : Char} (h : Spec.lower c = Spec.lower d) : isNd c = isNd d := case_fun (by kernel_rfl) h
theorem case_starts {c d : Char} (h : Spec.lower c = Spec.lower d) : Spec.startsNumber c = Spec.startsNumber d := case_fun (by kernel_rfl) h
theorem case_ends {c d : Char} (h : Spec.lower c = Spec.lower d) : Spec.endsNumber c = Spec.endsNumber d := case_fun (by kernel_rfl) h

theorem nd_not_alpha {c : Char} (h : isNd c = true) : isAlpha c = false := by
  cases ha : isAlpha c with
  | false => rfl
  | true =>
    simp only [isAlpha, Bool.or_eq_true, Bool.and_eq_true, decide_eq_true_eq] at ha
    rw [isNd_low (by omega), isDigit_toNat] at h
    omega

theorem same_ext {e e' : Str} {o : Option Str} (h : SameButCase e e') (he : Spec.ExtText e o) : Spec.ExtText e' o := by
  have blank : ∀ {l : List Char} {s : Str}, (∀ c ∈ l, isAlpha c = false) → (∀ c ∈ s, c ∈ l) → ∀ c ∈ s, isAlpha c = false :=
    fun hl hs c hc => hl c (hs c hc)
  cases he with
  | word w1 w2 w3 w4 ds w6 h1 h2 h3 h4 h5 h6 h7 =>
    obtain ⟨a1, b1, rfl, k1, g1⟩ := same_append h
    obtain ⟨a2, b2, rfl, k2, g2⟩ := same_append g1
    obtain ⟨a3, b3, rfl, k3, g3⟩ := same_append g2
    obtain ⟨a4, b4, rfl, k4, g4⟩ := same_append g3
    obtain ⟨a5, a6, rfl, k5, k6⟩ := same_append g4
    rw [same_eq k1 (blank (by decide) h1), same_eq k4 (blank (by decide) h4), same_eq k5 (fun c hc => nd_not_alpha (h6 c hc)),
      same_eq k3 (by
        rcases h3 with rfl | ⟨c, hc, rfl⟩
        · simp
        · intro d hd
          rw [List.mem_singleton.1 hd]
          exact (by decide : ∀ c ∈ [':', '.', '．'], isAlpha c = false) c hc),
      same_eq k6 (by rcases h7 with rfl | rfl <;> decide)]
    exact .word w1 a2 w3 w4 ds w6 h1 (by rw [← same_fold k2]; exact h2) h3 h4 h5 h6 h7
  | rfc p ds k1 k2 k3 =>
    obtain ⟨a1, a2, rfl, g1, g2⟩ := same_append h
    rw [same_eq g2 (fun c hc => nd_not_alpha (k3 c hc))]
    exact .rfc a1 ds (by rw [← same_fold g1]; exact k1) k2 k3
  | hash sep ds k1 k2 k3 k4 k5 =>
    have : e' = sep ++ (ds ++ ['#']) := same_eq h (by
      intro c hc
      simp only [List.mem_append, List.mem_singleton] at hc
      rcases hc with hc | hc | rfl
      · exact (by decide : ∀ c ∈ ['-', ' '], isAlpha c = false) c (k2 c hc)
      · exact nd_not_alpha (k5 c hc)
      · decide)
    rw [this]
    exact .hash sep ds k1 k2 k3 k4 k5

theorem same_noExtension {x x' : Str} (h : SameButCase x x') (hx : Spec.NoExtension x) : Spec.NoExtension x' := by
  rintro a' e' o rfl he
  obtain ⟨a, e, rfl, _, h2⟩ := same_append (same_symm h)
  exact hx a e o rfl (same_ext h2 he)

theorem same_extension {x x' a : Str} {o : Option Str} (h : SameButCase x x') (hx : Spec.Extension x a o) :
    ∃ a', SameButCase a a' ∧ Spec.Extension x' a' o := by
  obtain ⟨⟨e, rfl, he⟩, hf⟩ := hx
  obtain ⟨a', e', rfl, h1, h2⟩ := same_append h
  refine ⟨a', h1, ⟨e', rfl, same_ext h2 he⟩, ?_⟩
  intro b' f' o' hb hf'
  obtain ⟨b, f, hbf, h3, h4⟩ := same_append (same_symm (hb ▸ h))
  have := hf b f o' hbf (same_ext h4 hf')
  rw [← same_length h1, same_length h3]
  exact this

omit [UnicodeTables] in
theorem same_noSlashX {s t : Str} (h : SameButCase s t) (hs : Spec.NoSlashX s) : Spec.NoSlashX t := by
  rintro a' c' sp' d' b' rfl hc hsp
  obtain ⟨a, u, rfl, _, h⟩ := same_append (same_symm h)
  obtain ⟨c, u, rfl, h1, h⟩ := same_cons h
  obtain ⟨sp, u, rfl, h2, h⟩ := same_append h
  obtain ⟨d, b, rfl, h3, _⟩ := same_cons h
  have e1 : c' = c := case_eq h1 (by rcases hc with rfl | rfl <;> decide)
  have e2 : sp = sp' := same_eq h2 (by intro e he; rw [hsp e he]; decide)
  subst e1 e2
  have := hs a c' sp d b rfl hc hsp
  have hx := case_x h3
  constructor <;> (intro h0; rcases hx.1 (by simp [h0]) with h | h <;> simp_all)

omit [UnicodeTables] in
theorem noSlashX_second {s a b : Str} (hs : Spec.NoSlashX s) (h : s = a ++ b) {e : Str} {f : Str} (hb : b = e ++ f) : ¬ Spec.SecondNumber e := by
  rintro ⟨c, sp, r, rfl, hc, hsp⟩
  exact (hs a c sp 'x' (r ++ f) (by rw [h, hb]; simp) hc hsp).1 rfl

theorem same_candidate {s t x : Str} (h : SameButCase s t) (hns : Spec.NoSlashX s) (hx : Spec.Candidate s x) :
    ∃ x', SameButCase x x' ∧ Spec.Candidate t x' := by
  have hnt := same_noSlashX h hns
  obtain ⟨hne, junk, body, after, rest, rfl, rfl, k1, ⟨c, k2, k2'⟩, k3, k4, k5, k6⟩ := hx
  have hrest : rest = [] := by
    rcases k5 with h | h
    · exact h
    · exact absurd h (noSlashX_second (a := junk ++ x) (f := after) hns (by simp) rfl)
  subst hrest
  simp only [List.append_nil] at *
  obtain ⟨u, after', rfl, g1, g3⟩ := same_append h
  obtain ⟨junk', x', rfl, g1, g2⟩ := same_append g1
  refine ⟨x', g2, ?_, junk', x', after', [], rfl, by simp, same_all g1 case_starts k1, ?_, same_all g3 case_ends k3, ?_, .inl rfl, ?_⟩
  · rintro rfl
    exact hne (same_nil (same_symm g2))
  · obtain ⟨d, e1, e2⟩ := same_head (s := x' ++ after') (t := x ++ after) (by
      simp only [SameButCase, List.map_append]; rw [show _ = _ from g2, show _ = _ from g3]) k2
    exact ⟨d, e1, by rw [case_starts e2]; exact k2'⟩
  · intro d hd
    obtain ⟨c, e1, e2⟩ := same_last g2 hd
    rw [← case_ends e2]; exact k4 c e1
  · rintro a b rfl _
    exact noSlashX_second (a := junk' ++ a) (f := after') hnt (by simp) rfl

omit [UnicodeTables] in
theorem same_scheme {s t u : Str} (h : SameButCase s t) (hs : Spec.WithoutScheme s u) : ∃ u', SameButCase u u' ∧ Spec.WithoutScheme t u' := by
  have sch : ∀ {a b : Str}, SameButCase a b → Spec.telScheme a → Spec.telScheme b := by
    rintro a b hab ⟨x, y, z, rfl, hx, hy, hz⟩
    obtain ⟨x', b, rfl, k1, hab⟩ := same_cons hab
    obtain ⟨y', b, rfl, k2, hab⟩ := same_cons hab
    obtain ⟨z', b, rfl, k3, hab⟩ := same_cons hab
    obtain ⟨w', b, rfl, k4, hab⟩ := same_cons hab
    rw [same_nil hab, ← case_eq k4 (by decide)]
    have t := case_fun (f := fun c => decide (c = 't' ∨ c = 'T')) (by decide) k1
    have e := case_fun (f := fun c => decide (c = 'e' ∨ c = 'E')) (by decide) k2
    have l := case_fun (f := fun c => decide (c = 'l' ∨ c = 'L')) (by decide) k3
    simp only [decide_eq_decide] at t e l
    exact ⟨x', y', z', rfl, t.1 hx, e.1 hy, l.1 hz⟩
  rcases hs with ⟨c, hc, rfl⟩ | ⟨rfl, hn⟩
  · obtain ⟨c', u', rfl, h1, h2⟩ := same_append h
    exact ⟨u', h2, .inl ⟨c', sch h1 hc, rfl⟩⟩
  · refine ⟨t, h, .inr ⟨rfl, ?_⟩⟩
    rintro c' r' hc' rfl
    obtain ⟨c, r, rfl, h1, _⟩ := same_append (same_symm h)
    exact hn c r (sch h1 hc') rfl

/-- Optional texts that differ in the case of letters. -/
def SameOpt (o o' : Option Str) : Prop := o.map (·.map Spec.lower) = o'.map (·.map Spec.lower)

omit [UnicodeTables] in
theorem sameOpt_cases {o o' : Option Str} (h : SameOpt o o') : (o = none ∧ o' = none) ∨ ∃ p p', o = some p ∧ o' = some p' ∧ SameButCase p p' := by
  cases o <;> cases o' <;> simp_all [SameOpt, SameButCase]

/-- Readings that differ in the case of letters. -/
structure SameReading (r r' : Spec.Reading) : Prop where
  number : SameButCase r.number r'.number
  code : SameOpt r.code r'.code
  extension : SameOpt r.extension r'.extension

omit [UnicodeTables] in
theorem case_name {c d : Char} (h : Spec.lower c = Spec.lower d) : Spec.isNameCharacter c = Spec.isNameCharacter d := case_fun (by decide) h
omit [UnicodeTables] in
theorem case_value {c d : Char} (h : Spec.lower c = Spec.lower d) : Spec.isValueCharacter c = Spec.isValueCharacter d := case_fun (by decide) h

omit [UnicodeTables] in
theorem names_symm {s t : Str} (h : SameButCase s t) (hn : Spec.NamesAlike s t) : Spec.NamesAlike t s := by
  rintro a k b a' k' b' rfl rfl ha hk hc
  obtain ⟨_, u, e, h1, h⟩ := same_append h
  obtain ⟨rfl, rfl⟩ := List.append_inj e (by rw [← same_length h1]; exact ha)
  obtain ⟨_, u, e, _, h⟩ := same_cons h
  obtain ⟨rfl, rfl⟩ := List.cons.inj e
  obtain ⟨_, u, e, h2, h⟩ := same_append h
  obtain ⟨rfl, rfl⟩ := List.append_inj e (by rw [← same_length h2]; exact hk)
  exact (hn a' k' b' a k b rfl rfl ha.symm hk.symm (same_all (same_symm h2) case_name hc)).symm

omit [UnicodeTables] in
theorem names_drop {a a' s t : Str} (h : a.length = a'.length) (hn : Spec.NamesAlike (a ++ s) (a' ++ t)) : Spec.NamesAlike s t := by
  rintro u k b u' k' b' rfl rfl hu hk hc
  exact hn (a ++ u) k b (a' ++ u') k' b' (by simp) (by simp) (by simp [h, hu]) hk hc

/-- A parameter with its value in lower case. -/
def lowParam (p : Str × Str) : Str × Str := (p.1, p.2.map Spec.lower)

omit [UnicodeTables] in
theorem same_params {s t : Str} {ps : List (Str × Str)} (h : SameButCase s t) (hn : Spec.NamesAlike s t) (hp : Spec.Params s ps) :
    ∃ ps', Spec.Params t ps' ∧ ps.map lowParam = ps'.map lowParam := by
  induction hp generalizing t with
  | @stop s hs =>
    refine ⟨[], .stop ?_, rfl⟩
    rintro k' r' hk rfl
    obtain ⟨c, u, rfl, h1, h⟩ := same_cons (same_symm h)
    obtain ⟨k, u, rfl, h2, h⟩ := same_append h
    obtain ⟨e, r, rfl, h3, _⟩ := same_cons h
    rw [← case_eq h1 (by decide), ← case_eq h3 (by decide)] at hs
    exact hs k r (same_all h2 case_name hk) rfl
  | @param k v r ps hk hv hr _ ih =>
    obtain ⟨c, u, rfl, h1, h⟩ := same_cons h
    obtain ⟨k', u, rfl, h2, h⟩ := same_append h
    obtain ⟨e, u, rfl, h3, h⟩ := same_cons h
    obtain ⟨v', r', rfl, h4, h5⟩ := same_append h
    have e1 := case_eq h1 (by decide)
    have e3 := case_eq h3 (by decide)
    subst e1 e3
    have hkk : k = k' := hn [] k (v ++ r) [] k' (v' ++ r') rfl rfl rfl (same_length h2) hk
    subst hkk
    obtain ⟨ps', g1, g2⟩ := ih h5 (names_drop (a := ';' :: (k ++ '=' :: v)) (a' := ';' :: (k ++ '=' :: v')) (by simp [same_length h4])
      (by simpa using hn))
    refine ⟨(k, v') :: ps', .param hk (same_all h4 case_value hv) ?_ g1, ?_⟩
    · intro d hd
      obtain ⟨c, e1, e2⟩ := same_head h5 hd
      rw [← case_value e2]; exact hr c e1
    · rw [List.map_cons, List.map_cons, g2, lowParam, lowParam, show v.map Spec.lower = _ from h4]

omit [UnicodeTables] in
theorem same_last_param {ps ps' : List (Str × Str)} (h : ps.map lowParam = ps'.map lowParam) (n : Str) :
    SameOpt (Spec.lastParam ps n) (Spec.lastParam ps' n) := by
  have key : ∀ ps : List (Str × Str), (Spec.lastParam ps n).map (·.map Spec.lower) = Spec.lastParam (ps.map lowParam) n := by
    intro ps
    have : (fun p : Str × Str => p.1 == n) ∘ lowParam = fun p => p.1 == n := by funext p; rfl
    simp only [Spec.lastParam, List.filter_map, List.getLast?_map, Option.map_map, this]
    rfl
  rw [SameOpt, key, key, h]

omit [UnicodeTables] in
theorem same_dropPlus {o o' : Option Str} (h : SameOpt o o') : SameOpt (o.map Spec.dropPlus) (o'.map Spec.dropPlus) := by
  rcases sameOpt_cases h with ⟨rfl, rfl⟩ | ⟨p, p', rfl, rfl, h0⟩
  · rfl
  · simp only [SameOpt, Option.map_some, Option.some.injEq]
    cases p with
    | nil => rw [same_nil h0]
    | cons c p =>
      obtain ⟨c', p', rfl, h1, h2⟩ := same_cons h0
      simp only [Spec.dropPlus, List.head?_cons, Option.some.injEq, List.tail_cons]
      have := case_fun (f := fun c => decide (c = '+')) (by decide) h1
      simp only [decide_eq_decide] at this
      by_cases hc : c = '+'
      · rw [if_pos hc, if_pos (this.1 hc)]; exact h2
      · rw [if_neg hc, if_neg (fun h => hc (this.2 h))]; exact h0

omit [UnicodeTables] in
theorem same_tel {s t : Str} {r : Spec.Reading} (h : SameButCase s t) (hsc : ' ' ∈ s ∨ Spec.NamesAlike s t) (hr : Spec.TelReading s r) :
    ∃ r', SameReading r r' ∧ Spec.TelReading t r' := by
  have hsp : ' ' ∉ s := by cases hr <;> assumption
  have hna : Spec.NamesAlike s t := by
    rcases hsc with h | h
    · exact absurd h hsp
    · exact h
  have names : ∀ {u u' : Str}, Spec.WithoutScheme s u → SameButCase u u' → Spec.WithoutScheme t u' → Spec.NamesAlike u u' := by
    intro u u' hu h' hu'
    have split : ∀ {s u : Str}, Spec.WithoutScheme s u → ∃ a, s = a ++ u := by
      rintro s u (⟨a, _, h⟩ | ⟨h, _⟩)
      · exact ⟨a, h⟩
      · exact ⟨[], h⟩
    obtain ⟨a, ha⟩ := split hu
    obtain ⟨a', ha'⟩ := split hu'
    have hl : a.length = a'.length := by
      have e1 := same_length h
      have e2 := same_length h'
      rw [ha, ha', List.length_append, List.length_append] at e1
      omega
    rw [ha, ha'] at hna
    exact names_drop hl hna
  have rests : ∀ {rest rest' : Str}, SameButCase rest rest' → (rest = [] ∨ rest.head? = some ';') → rest' = [] ∨ rest'.head? = some ';' := by
    rintro rest rest' h (rfl | h0)
    · exact .inl (same_nil h)
    · obtain ⟨d, e1, e2⟩ := same_head (same_symm h) h0
      exact .inr (by rw [e1, case_eq e2.symm (by decide)])
  cases hr with
  | @global p number rest ps h1 h2 h3 h4 h5 h6 h7 h8 =>
    obtain ⟨u', hu, hw⟩ := same_scheme h h2
    have hn := names h2 hu hw
    obtain ⟨pl, u', rfl, g1, hu⟩ := same_cons hu
    rw [← case_eq g1 (by decide)] at hw hn
    obtain ⟨p', u', rfl, g2, hu⟩ := same_append hu
    obtain ⟨n', rest', rfl, g3, g4⟩ := same_append hu
    obtain ⟨c, e1, e2⟩ := h5
    obtain ⟨d, e3, e4⟩ := same_head (same_symm g3) e1
    obtain ⟨ps', q1, q2⟩ := same_params g4 (names_drop (a := '+' :: (p ++ number)) (a' := '+' :: (p' ++ n'))
      (by simp [same_length g2, same_length g3]) (by simpa using hn)) h8
    refine ⟨⟨n', some p', Spec.lastParam ps' (str% "ext")⟩, ⟨g3, congrArg some g2, same_last_param q2 _⟩, ?_⟩
    exact .global (same_not_mem h (by decide) h1) hw (fun h0 => h3 (same_nil (by rw [h0] at g2; exact same_symm g2)))
      (same_all g2 case_sep h4) ⟨d, e3, by rw [case_sep e4]; exact e2⟩ (same_all g3 case_phone h6) (rests g4 h7) q1
  | @«local» number rest ps h1 h2 h3 h4 h5 h6 =>
    obtain ⟨u', hu, hw⟩ := same_scheme h h2
    have hn := names h2 hu hw
    obtain ⟨n', rest', rfl, g3, g4⟩ := same_append hu
    obtain ⟨ps', q1, q2⟩ := same_params g4 (names_drop (same_length g3) hn) h6
    refine ⟨⟨n', (Spec.lastParam ps' (str% "phone-context")).map Spec.dropPlus, Spec.lastParam ps' (str% "ext")⟩,
      ⟨g3, same_dropPlus (same_last_param q2 _), same_last_param q2 _⟩, ?_⟩
    exact .local (same_not_mem h (by decide) h1) hw (fun h0 => h3 (same_nil (by rw [h0] at g3; exact same_symm g3)))
      (same_all g3 case_phone h4) (rests g4 h5) q1

/-! ## What is read, and what becomes of it -/

/-- In the number itself an x comes only after three digits. -/
def XAfterThree (x : Str) : Prop := ∀ a c b, x = a ++ c :: b → c = 'x' ∨ c = 'X' → 3 ≤ a.countP isDigit

omit [UnicodeTables] in
theorem same_xAfterThree {x x' : Str} (h : SameButCase x x') (hx : XAfterThree x) : XAfterThree x' := by
  rintro a' c' b' rfl hc
  obtain ⟨a, u, rfl, h1, h2⟩ := same_append (same_symm h)
  obtain ⟨c, b, rfl, h3, _⟩ := same_cons h2
  rw [same_count h1 case_digit]
  exact hx a c b rfl ((case_x h3).1 hc)

omit [UnicodeTables] in
theorem plus_not_alpha {c : Char} (h : Spec.isPlus c = true) : isAlpha c = false := by
  simp only [Spec.isPlus, Bool.or_eq_true, beq_iff_eq] at h
  rcases h with rfl | h
  · decide
  · simp [isAlpha, h]

omit [UnicodeTables] in
theorem digit_not_alpha {c : Char} (h : isDigit c = true) : isAlpha c = false := by
  have := isDigit_iff.1 h
  simp [isAlpha]; omega

omit [UnicodeTables] in
theorem fill_alpha {c : Char} (h : Spec.isFill c = true) (ha : isAlpha c = true) : c = 'x' := by
  simp only [Spec.isFill, Spec.isPunct, Bool.or_eq_true, beq_iff_eq, decide_eq_true_eq, Bool.and_eq_true, List.mem_cons,
    List.not_mem_nil, or_false] at h
  simp only [isAlpha, Bool.or_eq_true, Bool.and_eq_true, decide_eq_true_eq] at ha
  rcases h with ((h | h) | h) | rfl
  · rcases h with rfl | rfl | rfl | rfl | rfl | rfl | rfl | rfl | rfl | rfl <;> first | rfl | exact absurd ha (by decide)
  · omega
  · omega
  · exact absurd ha (by decide)

omit [UnicodeTables] in
theorem fill_not_digit {c : Char} (h : Spec.isFill c = true) : isDigit c = false := by
  cases hd : isDigit c with
  | false => rfl
  | true =>
    have hd := isDigit_iff.1 hd
    simp only [Spec.isFill, Spec.isPunct, Bool.or_eq_true, beq_iff_eq, decide_eq_true_eq, Bool.and_eq_true, List.mem_cons,
      List.not_mem_nil, or_false] at h
    rcases h with ((h | h) | h) | rfl
    · rcases h with rfl | rfl | rfl | rfl | rfl | rfl | rfl | rfl | rfl | rfl <;> exact absurd hd (by decide)
    · omega
    · omega
    · exact absurd hd (by decide)

omit [UnicodeTables] in
theorem plus_not_digit {c : Char} (h : Spec.isPlus c = true) : isDigit c = false := by
  simp only [Spec.isPlus, Bool.or_eq_true, beq_iff_eq] at h
  rcases h with rfl | h
  · decide
  · simp [isDigit, h]

omit [UnicodeTables] in
theorem same_viable {x x' : Str} (h : SameButCase x x') (hx : XAfterThree x) (hv : Spec.Viable x) : Spec.Viable x' := by
  rcases hv with ⟨a, b, rfl, ha, hb⟩ | ⟨p, f1, d1, f2, d2, f3, d3, rest, rfl, hp, h1, h2, h3, g1, g2, g3, hr⟩
  · have : x' = [a, b] := same_eq h (by
      intro c hc
      simp only [List.mem_cons, List.not_mem_nil, or_false] at hc
      rcases hc with rfl | rfl <;> exact digit_not_alpha (by assumption))
    rw [this]
    exact .inl ⟨a, b, rfl, ha, hb⟩
  · generalize hq : p ++ (f1 ++ d1 :: (f2 ++ d2 :: (f3 ++ [d3]))) = q
    have hx0 : p ++ (f1 ++ d1 :: (f2 ++ d2 :: (f3 ++ d3 :: rest))) = q ++ rest := by rw [← hq]; simp
    have zero : ∀ {l : Str}, (∀ c ∈ l, isDigit c = false) → l.countP isDigit = 0 := by
      intro l hl
      rw [List.countP_eq_zero]
      intro c hc; rw [hl c hc]; simp
    have hcount : q.countP isDigit = 3 := by
      rw [← hq]
      simp [List.countP_append, zero (fun c hc => plus_not_digit (hp c hc)), zero (fun c hc => fill_not_digit (h1 c hc)),
        zero (fun c hc => fill_not_digit (h2 c hc)), zero (fun c hc => fill_not_digit (h3 c hc)), g1, g2, g3]
    have hnox : 'x' ∉ q := by
      intro hm
      obtain ⟨a, b, hab⟩ := List.append_of_mem hm
      have h3' := hx a 'x' (b ++ rest) (by rw [hx0, hab]; simp) (.inl rfl)
      rw [hab, List.countP_append, List.countP_cons] at hcount
      have hb : b.countP isDigit = 0 := by omega
      have hl : q.getLast? = some d3 := by
        rw [← hq, show p ++ (f1 ++ d1 :: (f2 ++ d2 :: (f3 ++ [d3]))) = (p ++ f1 ++ d1 :: f2 ++ d2 :: f3) ++ [d3] by simp]
        exact List.getLast?_concat
      rw [hab, List.getLast?_append, List.getLast?_cons] at hl
      cases b with
      | nil =>
        simp at hl
        rw [← hl] at g3
        exact absurd g3 (by decide)
      | cons y b =>
        rw [List.countP_eq_zero] at hb
        have : d3 ∈ y :: b := by
          apply List.mem_of_getLast?
          cases hz : (y :: b).getLast? with
          | none => simp at hz
          | some v => rw [hz] at hl; simpa using hl
        exact hb d3 this g3
    have hqa : ∀ c ∈ q, isAlpha c = false := by
      intro c hc
      have fill : Spec.isFill c = true → isAlpha c = false := by
        intro hf
        cases ha : isAlpha c with
        | false => rfl
        | true => rw [fill_alpha hf ha] at hc; exact absurd hc hnox
      rw [← hq] at hc
      simp only [List.mem_append, List.mem_cons, List.not_mem_nil, or_false] at hc
      rcases hc with h | h | rfl | h | rfl | h | rfl
      · exact plus_not_alpha (hp c h)
      · exact fill (h1 c h)
      · exact digit_not_alpha g1
      · exact fill (h2 c h)
      · exact digit_not_alpha g2
      · exact fill (h3 c h)
      · exact digit_not_alpha g3
    rw [hx0] at h
    obtain ⟨q', rest', rfl, k1, k2⟩ := same_append h
    rw [same_eq k1 hqa]
    refine .inr ⟨p, f1, d1, f2, d2, f3, d3, rest', by rw [← hq]; simp, hp, h1, h2, h3, g1, g2, g3, ?_⟩
    have hr' : ∀ c ∈ rest, (Spec.isFill c || (isDigit c || isAlpha c)) = true := by
      intro c hc
      have := hr c hc
      simpa using this
    have := same_all k2 (f := fun c => Spec.isFill c || (isDigit c || isAlpha c)) (fun h => case_fun
      (f := fun c => Spec.isFill c || (isDigit c || isAlpha c)) (by decide) h) hr'
    intro c hc
    simpa using this c hc

omit [UnicodeTables] in
theorem same_span {s t : Str} (h : SameButCase s t) :
    s.takeWhile Valid.plus = t.takeWhile Valid.plus ∧ SameButCase (s.dropWhile Valid.plus) (t.dropWhile Valid.plus) := by
  induction s generalizing t with
  | nil => rw [same_nil h]; exact ⟨rfl, rfl⟩
  | cons c s ih =>
    obtain ⟨d, t', rfl, h1, h2⟩ := same_cons h
    have hp : Valid.plus c = Valid.plus d := by rw [plus_eq, plus_eq, case_plus h1]
    cases hv : Valid.plus d with
    | true =>
      rw [hv] at hp
      obtain ⟨e1, e2⟩ := ih h2
      have : c = d := case_eq h1 (plus_not_alpha (by rw [← plus_eq, hp]))
      subst this
      simp only [List.takeWhile_cons, hp, if_true, List.dropWhile_cons]
      exact ⟨by rw [e1], e2⟩
    | false =>
      rw [hv] at hp
      simp only [List.takeWhile_cons, hp, hv, List.dropWhile_cons]
      exact ⟨by simp, by simpa using h⟩

theorem internationalPrefix_case {ε : Type} (idd : Option Regex) {r r' : Spec.Reading} (h : SameReading r r') (hn : '\n' ∉ r.number)
    (hn' : '\n' ∉ r'.number) : internationalPrefix (ε := ε) idd r.toNumber = internationalPrefix idd r'.toNumber := by
  obtain ⟨number, code, ext⟩ := r
  obtain ⟨number', code', ext'⟩ := r'
  obtain ⟨h1, h2, h3⟩ := h
  simp only at h1 h2 h3 hn hn'
  have h3 : ∀ v, ext.map (act (mapFor v)) = ext'.map (act (mapFor v)) := by
    intro v
    rcases sameOpt_cases h3 with ⟨rfl, rfl⟩ | ⟨p, p', rfl, rfl, h⟩
    · rfl
    · rw [Option.map_some, Option.map_some, same_act v h]
  unfold internationalPrefix
  simp only [Spec.Reading.toNumber, validAlphaPhone_iff hn, validAlphaPhone_iff hn', same_vanity h1]
  generalize hv : Spec.vanity number' = v
  have hm : (if v = true then Consts.alphaPhoneMappings else Consts.asciiMappings) = mapFor v := rfl
  simp only [hm]
  rcases sameOpt_cases h2 with ⟨rfl, rfl⟩ | ⟨p, p', rfl, rfl, h4⟩
  · obtain ⟨e1, e2⟩ := same_span h1
    have hs : number = number.takeWhile Valid.plus ++ number.dropWhile Valid.plus := (List.takeWhile_append_dropWhile).symm
    have hs' : number' = number'.takeWhile Valid.plus ++ number'.dropWhile Valid.plus := (List.takeWhile_append_dropWhile).symm
    have t1 : dropBytes number (byteLen (number.takeWhile Valid.plus)) = some (number.dropWhile Valid.plus) := by
      conv => lhs; arg 1; rw [hs]
      exact dropBytes_append _ _
    have t2 : dropBytes number' (byteLen (number'.takeWhile Valid.plus)) = some (number'.dropWhile Valid.plus) := by
      conv => lhs; arg 1; rw [hs']
      exact dropBytes_append _ _
    rw [e1] at t1
    simp only [e1, trim, t1, t2, Outcome.slice_some, Outcome.bind_ok, normalize, same_act v e2, same_act v h1, h3 v]
    rfl
  · simp only [normalize, Option.map_some, same_act v h1, same_act v h4, h3 v, Option.isSome_some, if_true]

theorem afterRead_case (db : Database) (country : Option Id) {r r' : Spec.Reading} (h : SameReading r r') (hx : XAfterThree r.number) :
    afterRead db country r.toNumber = afterRead db country r'.toNumber := by
  have hv : isViable r.toNumber.national = isViable r'.toNumber.national := by
    rw [Bool.eq_iff_iff, C14_isViable_iff, C14_isViable_iff]
    exact ⟨same_viable h.number hx, same_viable (same_symm h.number) (same_xAfterThree h.number hx)⟩
  unfold afterRead
  rw [hv]
  split
  · rfl
  · rename_i h1
    have h1' : Spec.Viable r'.number := (C14_isViable_iff _).1 (by rw [show r'.number = r'.toNumber.national from rfl]; simpa using h1)
    have h2' : Spec.Viable r.number := (C14_isViable_iff _).1 (by rw [show r.number = r.toNumber.national from rfl, hv]; simpa using h1)
    unfold countryCode
    simp only [internationalPrefix_case _ h h2'.no_newline h1'.no_newline]

/-- What is read from two texts that differ in the case of letters. -/
theorem same_reads {s t : Str} (h : SameButCase s t) (hns : Spec.NoSlashX s) (hsc : ' ' ∈ s ∨ Spec.NamesAlike s t) {o : Option Spec.Reading}
    (hr : Spec.Reads s o) : ∃ o', Spec.Reads t o' ∧
      ((o = none ∧ o' = none) ∨ ∃ r r', o = some r ∧ o' = some r' ∧ SameReading r r') := by
  have nt : (∀ r, ¬ Spec.TelReading s r) → ∀ r, ¬ Spec.TelReading t r := by
    intro hn r hr
    obtain ⟨r', _, h'⟩ := same_tel (same_symm h) (hsc.imp (fun h0 => by
      apply Classical.byContradiction
      intro h1
      exact same_not_mem (same_symm h) (by decide) h1 h0) (names_symm h)) hr
    exact hn r' h'
  cases hr with
  | tel hr =>
    obtain ⟨r', k1, k2⟩ := same_tel h hsc hr
    exact ⟨_, .tel k2, .inr ⟨_, _, rfl, rfl, k1⟩⟩
  | nothing k1 k2 =>
    refine ⟨none, .nothing (nt k1) ?_, .inl ⟨rfl, rfl⟩⟩
    intro x hx
    obtain ⟨x', _, hx'⟩ := same_candidate (same_symm h) (same_noSlashX h hns) hx
    exact k2 x' hx'
  | plain k1 k2 k3 =>
    obtain ⟨x', g1, g2⟩ := same_candidate h hns k2
    exact ⟨_, .plain (nt k1) g2 (same_noExtension g1 k3), .inr ⟨_, _, rfl, rfl, ⟨g1, rfl, rfl⟩⟩⟩
  | extended k1 k2 k3 =>
    obtain ⟨x', g1, g2⟩ := same_candidate h hns k2
    obtain ⟨a', g3, g4⟩ := same_extension g1 k3
    exact ⟨_, .extended (nt k1) g2 g4, .inr ⟨_, _, rfl, rfl, ⟨g3, rfl, rfl⟩⟩⟩
  | refused k1 k2 k3 =>
    obtain ⟨x', g1, g2⟩ := same_candidate h hns k2
    obtain ⟨a', g3, g4⟩ := same_extension g1 k3
    exact ⟨_, .refused (nt k1) g2 g4, .inl ⟨rfl, rfl⟩⟩

theorem candidate_x {s x a : Str} (hs : Spec.LateX s) (hx : Spec.Candidate s x) (hax : a <+: x) : XAfterThree a := by
  obtain ⟨hne, junk, body, after, rest, rfl, rfl, k1, ⟨c0, k2, k2'⟩, _⟩ := hx
  obtain ⟨e, rfl⟩ := hax
  rintro u c v rfl hc
  have hd : junk.countP isDigit = 0 := by
    rw [List.countP_eq_zero]
    intro d hd hdd
    have := k1 d hd
    simp [Spec.startsNumber, isNd_of_isDigit hdd] at this
  have hns : Spec.startsNumber c = false := by rcases hc with rfl | rfl <;> kernel_rfl
  rcases hs (junk ++ u) c (v ++ e ++ rest ++ after) (by simp) hc with h | h
  · cases u with
    | nil =>
      simp at k2
      rw [← k2, hns] at k2'
      cases k2'
    | cons y u =>
      simp at k2
      rw [← k2] at k2'
      rw [h y (by simp)] at k2'
      cases k2'
  · rw [List.countP_append, hd] at h
    omega

theorem reads_x {s : Str} (hs : Spec.LateX s) {r : Spec.Reading} (hr : Spec.Reads s (some r)) : XAfterThree r.number := by
  have phone : ∀ {n : Str}, (∀ c ∈ n, Spec.isPhoneDigit c = true) → XAfterThree n := by
    rintro n hn a c b rfl hc
    have := hn c (by simp)
    rcases hc with rfl | rfl <;> exact absurd this (by decide)
  cases hr with
  | tel h => cases h <;> exact phone (by assumption)
  | plain _ h _ => exact candidate_x hs h (List.prefix_refl _)
  | extended _ h he =>
    obtain ⟨⟨e, rfl, _⟩, _⟩ := he
    exact candidate_x hs h ⟨e, rfl⟩

/-- C106: two texts that differ only in the case of ASCII letters are read alike – same number or same error – if no x follows a slash
or backslash, the names of parameters are the same or there is a space, and no x is in the number before the third digit. -/
theorem C106_case (db : Database) (country : Option Id) (s t : Str) (h : Spec.SameButCase s t) (hns : Spec.NoSlashX s)
    (hsc : ' ' ∈ s ∨ Spec.NamesAlike s t) (hx : Spec.LateX s) (hm : Spec.MarksNotDigits s) : parseWith db country s = parseWith db country t := by
  have hmt : Spec.MarksNotDigits t := by
    intro d hd hw
    obtain ⟨c, e1, e2⟩ := same_mem h hd
    have : c = d := by
      refine (case_eq e2.symm ?_).symm
      rw [mem_wideExt] at hw
      simp only [List.mem_cons, List.not_mem_nil, or_false] at hw
      simp [isAlpha]; omega
    subst this
    exact hm c e1 hw
  obtain ⟨o, ho⟩ := reads_total s
  obtain ⟨o', ho', hoo⟩ := same_reads h hns hsc ho
  rw [parseWith_eq, parseWith_eq, reads_sound hm ho, reads_sound hmt ho']
  rcases hoo with ⟨rfl, rfl⟩ | ⟨r, r', rfl, rfl, hr⟩
  · rfl
  · exact afterRead_case db country hr (reads_x hx ho)

/-! ## Concrete cases -/

/-- A vanity number with an extension in two forms; the text meets the conditions. -/
example : Spec.SameButCase (str% "Call 1 800 Flowers, Ext. 12") (str% "CALL 1 800 FLOWERS, ext. 12") ∧
    Spec.NoSlashX (str% "Call 1 800 Flowers, Ext. 12") ∧ Spec.LateX (str% "Call 1 800 Flowers, Ext. 12") ∧
    parseWith Sample.db (some .US) (str% "Call 1 800 Flowers, Ext. 12") =
      .ok { code := ⟨1, .number⟩, national := ⟨8003569377⟩, extension := some (str% "12"), carrier := none } := by
  refine ⟨by unfold Spec.SameButCase; decide, ?_, ?_, by kernel_rfl⟩
  · intro a c sp d b h hc
    have hm : c ∈ (str% "Call 1 800 Flowers, Ext. 12") := by rw [h]; simp
    rcases hc with rfl | rfl <;> exact absurd hm (by decide)
  intro a c b h hc
  have hk : ∀ k, k < 27 → k < 20 → (str% "Call 1 800 Flowers, Ext. 12")[k]? ≠ some 'x' ∧ (str% "Call 1 800 Flowers, Ext. 12")[k]? ≠ some 'X' := by
    decide
  have hl := congrArg List.length h
  have ha : (str% "Call 1 800 Flowers, Ext. 12")[a.length]? = some c := by rw [h]; simp
  have h20 : 20 ≤ a.length := by
    apply Nat.le_of_not_lt
    intro hlt
    have := hk a.length (by omega) hlt
    rcases hc with rfl | rfl
    · exact this.1 ha
    · exact this.2 ha
  right
  have hp : (str% "Call 1 800 Flowers, ") <+: a := by
    have h1 : (str% "Call 1 800 Flowers, ") <+: a ++ c :: b := by rw [← h]; exact ⟨str% "Ext. 12", by decide⟩
    exact List.prefix_of_prefix_length_le h1 (List.prefix_append _ _) (by simpa using h20)
  obtain ⟨e, rfl⟩ := hp
  rw [List.countP_append]
  have : (str% "Call 1 800 Flowers, ").countP isDigit = 4 := by decide
  omega

/-- A `tel:` text whose scheme and one value are written in two ways; the names are the same. -/
example : Spec.SameButCase (str% "tel:650-253-0000;phone-context=+1;x=a") (str% "TEL:650-253-0000;phone-context=+1;x=A") ∧
    Spec.NamesAlike (str% "tel:650-253-0000;phone-context=+1;x=a") (str% "TEL:650-253-0000;phone-context=+1;x=A") ∧
    parseWith Sample.db none (str% "TEL:650-253-0000;phone-context=+1;x=A") = .ok ⟨⟨1, .plus⟩, ⟨6502530000⟩, none, none⟩ := by
  refine ⟨by unfold Spec.SameButCase; decide, ?_, by kernel_rfl⟩
  intro a k b a' k' b' h h' ha hk _
  have key : ∀ i, i < 36 → 4 ≤ i → (str% "tel:650-253-0000;phone-context=+1;x=a")[i]? = (str% "TEL:650-253-0000;phone-context=+1;x=A")[i]? := by
    decide
  have front : ∀ i, i < 4 → (str% "tel:650-253-0000;phone-context=+1;x=a")[i]? ≠ some ';' := by decide
  have h4 : 4 ≤ a.length := by
    apply Nat.le_of_not_lt
    intro hlt
    exact front a.length hlt (by rw [h]; simp)
  have hl := congrArg List.length h
  have hl' := congrArg List.length h'
  simp only [List.length_append, List.length_cons, List.length_nil] at hl hl'
  apply List.ext_getElem?
  intro i
  by_cases hi : i < k.length
  · have := key (a.length + (1 + i)) (by omega) (by omega)
    rw [h, h', List.getElem?_append_right (by omega), List.getElem?_append_right (by omega), ha, Nat.add_sub_cancel_left, Nat.add_comm 1,
      List.getElem?_cons_succ, List.getElem?_cons_succ, List.getElem?_append_left hi, List.getElem?_append_left (by omega)] at this
    exact this
  · rw [List.getElem?_eq_none (by omega), List.getElem?_eq_none (by omega)]

/-- The three places where case matters: names of parameters, a second number, and the x among the first digits. -/
example : parseWith Sample.db none (str% "tel:+1-650-253-0000;ext=5") = .ok ⟨⟨1, .plus⟩, ⟨6502530000⟩, some (str% "5"), none⟩ ∧
    parseWith Sample.db none (str% "tel:+1-650-253-0000;EXT=5") = .ok ⟨⟨1, .plus⟩, ⟨6502530000⟩, none, none⟩ ∧
    parseWith Sample.db none (str% "+1 650 253 0000/x5") = .ok ⟨⟨1, .plus⟩, ⟨6502530000⟩, none, none⟩ ∧
    parseWith Sample.db none (str% "+1 650 253 0000/X5") = .ok ⟨⟨1, .plus⟩, ⟨6502530000⟩, some (str% "5"), none⟩ ∧
    parseWith Sample.db none (str% "+1x650 253 0000") = .ok ⟨⟨1, .plus⟩, ⟨6502530000⟩, none, none⟩ ∧
    parseWith Sample.db none (str% "+1X650 253 0000") = .err .noNumber :=
  ⟨by kernel_rfl, by kernel_rfl, by kernel_rfl, by kernel_rfl, by kernel_rfl, by kernel_rfl⟩

end
end Phone
