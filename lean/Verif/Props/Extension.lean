import Verif.Props.Read
import Verif.Regex.Captures
import Verif.Spec.Natural
/-! # The extension pattern of the number reader -/

namespace Phone
open Spec

/-! ## Letter case -/

theorem ofNat_toNat {n : Nat} (h : n.isValidChar) : (Char.ofNat n).toNat = n := by
  rw [Char.ofNat, dif_pos h]; simp [Char.ofNatAux, Char.toNat]

theorem fold_toNat (c : Char) : (fold c).toNat =
    if c.toNat = 0x17F then 115 else if c.toNat = 0xD3 then 0xF3
    else if 65 ≤ c.toNat ∧ c.toNat ≤ 90 ∨ 0xFF21 ≤ c.toNat ∧ c.toNat ≤ 0xFF3A then c.toNat + 32 else c.toNat := by
  unfold fold
  split
  · rfl
  · split
    · rfl
    · split
      · rename_i h
        exact ofNat_toNat (by unfold Nat.isValidChar; omega)
      · rfl

theorem eq_iff_toNat {a b : Char} : a = b ↔ a.toNat = b.toNat := ⟨congrArg _, char_eq_of_toNat⟩

variable [UnicodeTables]

/-- The class of a letter in a case-insensitive pattern. -/
theorem ci_mem {c : Char} (hc : fold c = c) (d : Char) : (Consts.ci c).any (CItem.mem d) = true ↔ fold d = c := by
  rw [eq_iff_toNat, fold_toNat] at hc
  unfold Consts.ci Consts.one
  rw [eq_iff_toNat (a := fold d), fold_toNat]
  split
  · rename_i h
    subst h
    simp only [List.any_cons, List.any_nil, mem_one, Bool.or_false, Bool.or_eq_true, beq_iff_eq, eq_iff_toNat,
      show 's'.toNat = 115 from rfl, show 'S'.toNat = 83 from rfl, show '\u017F'.toNat = 0x17F from rfl]
    grind
  · rename_i h1
    rw [eq_iff_toNat, show 's'.toNat = 115 from rfl] at h1
    split
    · rename_i h
      simp only [List.any_cons, List.any_nil, mem_one, Bool.or_false, Bool.or_eq_true, beq_iff_eq, eq_iff_toNat,
        ofNat_toNat (n := c.toNat - 32) (by unfold Nat.isValidChar; omega)]
      grind
    · split
      · rename_i h
        rw [eq_iff_toNat, show '\u00F3'.toNat = 0xF3 from rfl] at h
        simp only [List.any_cons, List.any_nil, mem_one, Bool.or_false, Bool.or_eq_true, beq_iff_eq, eq_iff_toNat,
          show '\u00F3'.toNat = 0xF3 from rfl, show '\u00D3'.toNat = 0xD3 from rfl]
        grind
      · rename_i h2
        rw [eq_iff_toNat, show '\u00F3'.toNat = 0xF3 from rfl] at h2
        split
        · rename_i h
          simp only [List.any_cons, List.any_nil, mem_one, Bool.or_false, Bool.or_eq_true, beq_iff_eq, eq_iff_toNat,
            ofNat_toNat (n := c.toNat - 32) (by unfold Nat.isValidChar; omega)]
          grind
        · simp only [List.any_cons, List.any_nil, mem_one, Bool.or_false, beq_iff_eq, eq_iff_toNat]
          grind

/-- The expression matches the texts that become one of `L` in lower case. -/
def FoldLang (r : Re) (L : List Str) : Prop := ∀ p w q, Lang r p w q ↔ w.map fold ∈ L

theorem FoldLang.set {c : Char} (hc : fold c = c) : FoldLang (Re.set (Consts.ci c)) [[c]] := by
  intro p w q
  rw [lang_set]
  simp only [ci_mem hc, List.mem_singleton]
  constructor
  · rintro ⟨d, rfl, h⟩; simp [h]
  · intro h
    cases w with
    | nil => simp at h
    | cons d w =>
      simp only [List.map_cons, List.cons.injEq, List.map_eq_nil_iff] at h
      exact ⟨d, by rw [h.2], h.1⟩

theorem FoldLang.cat {a b : Re} {A B : List Str} (ha : FoldLang a A) (hb : FoldLang b B) :
    FoldLang (.cat a b) (A.flatMap fun x => B.map (x ++ ·)) := by
  intro p w q
  rw [lang_cat]
  simp only [List.mem_flatMap, List.mem_map]
  constructor
  · rintro ⟨u, v, rfl, h1, h2⟩
    exact ⟨_, (ha _ _ _).1 h1, _, (hb _ _ _).1 h2, by simp⟩
  · rintro ⟨x, hx, y, hy, h⟩
    obtain ⟨u, v, rfl, rfl, rfl⟩ := List.map_eq_append_iff.1 h.symm
    exact ⟨u, v, rfl, (ha _ _ _).2 hx, (hb _ _ _).2 hy⟩

theorem FoldLang.alt {a b : Re} {A B : List Str} (ha : FoldLang a A) (hb : FoldLang b B) : FoldLang (.alt a b) (A ++ B) := by
  intro p w q
  rw [lang_alt, ha, hb, List.mem_append]

theorem FoldLang.opt {a : Re} {A : List Str} (ha : FoldLang a A) : FoldLang (Re.opt a) (A ++ [[]]) := by
  intro p w q
  rw [lang_opt, ha, List.mem_append]
  simp

theorem FoldLang.ciLit {s : Str} (h : ∀ c ∈ s, fold c = c) : FoldLang (Consts.ciLit s) [s] := by
  induction s with
  | nil => intro p w q; simp [Consts.ciLit, lang_eps]
  | cons c s ih =>
    cases s with
    | nil => exact FoldLang.set (h c (by simp))
    | cons d s =>
      exact FoldLang.cat (FoldLang.set (h c (by simp))) (ih fun x hx => h x (List.mem_cons_of_mem _ hx))

theorem FoldLang.chr {c : Char} (h : ∀ d, fold d = c ↔ d = c) : FoldLang (Re.chr c) [[c]] := by
  intro p w q
  rw [lang_chr]
  simp only [List.mem_singleton]
  constructor
  · rintro rfl; simp [(h c).2 rfl]
  · intro h'
    cases w with
    | nil => simp at h'
    | cons d w =>
      simp only [List.map_cons, List.cons.injEq, List.map_eq_nil_iff] at h'
      rw [h'.2, (h d).1 h'.1]

/-- The single-character introductions. -/
theorem FoldLang.symbols : FoldLang (Re.set ([Consts.one ',', Consts.one ';'] ++ Consts.ci 'x' ++ Consts.ci 'ｘ' ++
    [Consts.one '#', Consts.one '＃', Consts.one '~', Consts.one '～']))
    [str% ",", str% ";", str% "x", str% "ｘ", str% "#", str% "＃", str% "~", str% "～"] := by
  intro p w q
  rw [lang_set]
  have : ∀ d, (([Consts.one ',', Consts.one ';'] ++ Consts.ci 'x' ++ Consts.ci 'ｘ' ++
      [Consts.one '#', Consts.one '＃', Consts.one '~', Consts.one '～']).any (CItem.mem d) = true) ↔
      fold d ∈ (str% ",;xｘ#＃~～") := by
    intro d
    simp only [List.any_append, Bool.or_eq_true, ci_mem (c := 'x') (by decide), ci_mem (c := 'ｘ') (by decide), List.any_cons, List.any_nil, Consts.one, mem_one,
      Bool.or_false, beq_iff_eq, List.mem_cons, List.not_mem_nil, or_false]
    simp only [eq_iff_toNat, fold_toNat, show ','.toNat = 44 from rfl, show ';'.toNat = 59 from rfl, show 'x'.toNat = 120 from rfl,
      show 'ｘ'.toNat = 0xFF58 from rfl, show '#'.toNat = 35 from rfl, show '＃'.toNat = 0xFF03 from rfl,
      show '~'.toNat = 126 from rfl, show '～'.toNat = 0xFF5E from rfl]
    grind
  simp only [this]
  constructor
  · rintro ⟨d, rfl, h⟩
    simpa using h
  · intro h
    cases w with
    | nil => simp at h
    | cons d w =>
      cases w with
      | nil => exact ⟨d, rfl, by simpa using h⟩
      | cons e w => simp at h

/-- The words that introduce an extension are those of the specification. -/
theorem lang_extnWord {p : Nat} {w q : Str} : Lang Consts.extnWord p w q ↔ w.map fold ∈ extWords := by
  have acute : ∀ d, fold d = '\u0301' ↔ d = '\u0301' := by
    intro d
    rw [eq_iff_toNat, fold_toNat, eq_iff_toNat, show '\u0301'.toNat = 0x301 from rfl]
    grind
  have h := FoldLang.alt
    (FoldLang.cat (FoldLang.opt (FoldLang.ciLit (s := ['e']) (by decide))) (FoldLang.cat (FoldLang.ciLit (s := str% "xt") (by decide))
      (FoldLang.cat (FoldLang.opt (FoldLang.cat (FoldLang.ciLit (s := str% "ensi") (by decide))
        (FoldLang.alt (FoldLang.cat (FoldLang.ciLit (s := ['o']) (by decide)) (FoldLang.opt (FoldLang.chr acute)))
          (FoldLang.ciLit (s := ['\u00F3']) (by decide)))))
        (FoldLang.opt (FoldLang.ciLit (s := ['n']) (by decide))))))
    (FoldLang.alt
      (FoldLang.cat (FoldLang.opt (FoldLang.ciLit (s := ['ｅ']) (by decide)))
        (FoldLang.cat (FoldLang.ciLit (s := ['ｘ', 'ｔ']) (by decide)) (FoldLang.opt (FoldLang.ciLit (s := ['ｎ']) (by decide)))))
    (FoldLang.alt FoldLang.symbols
    (FoldLang.alt (FoldLang.ciLit (s := str% "int") (by decide)) (FoldLang.alt (FoldLang.ciLit (s := str% "anexo") (by decide))
      (FoldLang.ciLit (s := ['ｉ', 'ｎ', 'ｔ']) (by decide))))))
  unfold Consts.extnWord
  rw [h p w q]
  constructor
  · intro hw; revert hw; generalize w.map fold = x; revert x; decide
  · intro hw; revert hw; generalize w.map fold = x; revert x; decide

/-! ## The pattern -/

/-- What a digit group captures. -/
theorem run_digits {g n : Nat} {s s' : St} (h : s' ∈ run (.grp g (Re.upto (Re.set [.nd]) n)) s) :
    ∃ ds, s.rest = ds ++ s'.rest ∧ s'.caps = ⟨g, s.pos, ds⟩ :: s.caps ∧ ds.length ≤ n ∧ ∀ c ∈ ds, isNd c = true := by
  simp only [run, List.mem_map] at h
  obtain ⟨t, ht, rfl⟩ := h
  obtain ⟨w, hw, hl⟩ := run_sound _ s t ht
  have ng : (Re.upto (Re.set [.nd]) n).noGroups = true := by
    clear ht hl
    induction n with
    | zero => rfl
    | succ n ih => rw [Re.upto]; simp only [Re.opt, Re.noGroups, ih, Bool.and_true]; rfl
  obtain ⟨nc, hn, _, _, _, h4⟩ := run_caps 0 0 _ s t ht
  have hc : s.consumed t = w := by unfold St.consumed; rw [hw.rest, take_consumed]
  rw [Re.set, lang_upto_cls] at hl
  refine ⟨w, hw.rest, by simp [hn, h4 ng, hc], hl.1, ?_⟩
  intro c hcw
  simpa [Cls.mem, CItem.mem] using hl.2 c hcw

/-- A step through an expression without groups. -/
theorem run_plain {r : Re} (hr : r.noGroups = true) {s s' : St} (h : s' ∈ run r s) :
    ∃ w, s.rest = w ++ s'.rest ∧ s'.caps = s.caps ∧ Lang r s.pos w s'.rest := by
  obtain ⟨w, hw, hl⟩ := run_sound _ s s' h
  obtain ⟨nc, hn, _, _, _, h4⟩ := run_caps 0 0 _ s s' h
  exact ⟨w, hw.rest, by simp [hn, h4 hr], hl⟩

/-- A match of the extension pattern is an extension, and its second group holds the digits. -/
theorem run_extn {p : Nat} {rest : Str} {s' : St} (h : s' ∈ run Consts.extnPattern.re ⟨p, rest, []⟩) :
    s'.rest = [] ∧ ExtText rest ((s'.caps.find? (·.idx == 2)).map Cap.text) := by
  rw [show Consts.extnPattern.re = .cat (.alt Consts.extnRfc (.alt Consts.extnWords Consts.extnHash)) .eos from rfl] at h
  simp only [run, List.mem_flatMap, List.mem_append] at h
  obtain ⟨t, ht, h⟩ := h
  split at h
  · rename_i he
    simp only [List.mem_singleton] at h
    subst h
    refine ⟨he, ?_⟩
    rcases ht with ht | ht | ht
    · simp only [Consts.extnRfc, run, List.mem_flatMap] at ht
      obtain ⟨t1, h1, ht⟩ := ht
      obtain ⟨w, e1, c1, l1⟩ := run_plain (by rfl) h1
      obtain ⟨ds, e2, c2, l2, n2⟩ := run_digits (by simpa only [Consts.extnDigits, run] using ht)
      rw [FoldLang.ciLit (by decide)] at l1
      simp only at e1 c1
      rw [e1, e2, he, c2, c1]
      simp only [List.append_nil]
      exact .rfc w ds (by simpa using l1) l2 n2
    · simp only [Consts.extnWords, run, List.mem_flatMap] at ht
      obtain ⟨t1, h1, t2, h2, t3, h3, t4, h4, t5, h5, ht⟩ := ht
      obtain ⟨w1, e1, c1, l1⟩ := run_plain (r := .star true (Re.set [Consts.one ' ', Consts.one '\u00A0', Consts.one '\t', Consts.one ',']))
        (s := ⟨p, rest, []⟩) (by rfl) (by simpa only [run] using h1)
      obtain ⟨w2, e2, c2, l2⟩ := run_plain (by rfl) h2
      obtain ⟨w3, e3, c3, l3⟩ := run_plain (by rfl) h3
      obtain ⟨w4, e4, c4, l4⟩ := run_plain
        (r := .star true (Re.set [Consts.one ' ', Consts.one '\u00A0', Consts.one '\t', Consts.one ',', Consts.one '-'])) (s := t3)
        (by rfl) (by simpa only [run] using h4)
      obtain ⟨ds, e5, c5, l5, n5⟩ := run_digits (by simpa only [Consts.extnDigits, run] using h5)
      obtain ⟨w6, e6, c6, l6⟩ := run_plain (by rfl) ht
      rw [Re.set, lang_star_cls] at l1 l4
      rw [lang_extnWord] at l2
      rw [lang_opt, lang_set] at l3
      rw [lang_opt, lang_chr] at l6
      simp only at e1 c1
      rw [e1, e2, e3, e4, e5, e6, he, c6, c5, c4, c3, c2, c1]
      simp only [List.append_nil]
      refine .word w1 w2 w3 w4 ds w6 ?_ l2 ?_ ?_ l5 n5 l6.symm
      · intro c hc; simpa [Cls.mem, Consts.one] using l1 c hc
      · rcases l3 with ⟨c, rfl, h⟩ | h
        · exact .inr ⟨c, by simpa [Consts.one] using h, rfl⟩
        · exact .inl h
      · intro c hc; simpa [Cls.mem, Consts.one] using l4 c hc
    · simp only [Consts.extnHash, run, List.mem_flatMap] at ht
      obtain ⟨t1, h1, t2, h2, ht⟩ := ht
      obtain ⟨w1, e1, c1, l1⟩ := run_plain (by rfl) h1
      obtain ⟨w3, e3, c3, l3⟩ := run_plain (by rfl) ht
      simp only [List.mem_map] at h2
      obtain ⟨u, hu, rfl⟩ := h2
      obtain ⟨w2, e2, c2, l2⟩ := run_plain (r := .cat (Re.set [.nd]) (Re.upto (Re.set [.nd]) 4)) (s := t1) (s' := u)
        (by rfl) (by simpa only [run] using hu)
      rw [Re.set, lang_plus_cls] at l1
      rw [lang_cat] at l2
      obtain ⟨x, y, rfl, hx, hy⟩ := l2
      rw [lang_set] at hx
      obtain ⟨d, rfl, hd⟩ := hx
      rw [Re.set, lang_upto_cls] at hy
      rw [lang_chr] at l3
      simp only at e1 c1 c3 e2 e3
      rw [e1, e2, e3, he, c3, c2, c1, l3]
      simp only [List.append_nil]
      refine .hash w1 ([d] ++ y) l1.1 ?_ (by simp) (by simp; omega) ?_
      · intro c hc; simpa [Cls.mem, Consts.one] using l1.2 c hc
      · intro c hc
        simp only [List.cons_append, List.nil_append, List.mem_cons] at hc
        rcases hc with rfl | hc
        · simpa [CItem.mem] using hd
        · simpa [Cls.mem, CItem.mem] using hy.2 c hc
  · cases h

/-- Every extension is matched by the pattern. -/
theorem lang_extn {p : Nat} {e : Str} {o : Option Str} (h : ExtText e o) : Lang Consts.extnPattern.re p e [] := by
  rw [show Consts.extnPattern.re = .cat (.alt Consts.extnRfc (.alt Consts.extnWords Consts.extnHash)) .eos from rfl, lang_cat]
  refine ⟨e, [], by simp, ?_, lang_eos.2 ⟨rfl, rfl⟩⟩
  rw [lang_alt, lang_alt]
  have nd : ∀ {ds : Str} {n : Nat} {p : Nat} {q : Str}, ds.length ≤ n → (∀ c ∈ ds, isNd c = true) →
      Lang (Re.upto (Re.set [.nd]) n) p ds q := by
    intro ds n p q h1 h2
    rw [Re.set, lang_upto_cls]
    exact ⟨h1, fun c hc => by simpa [Cls.mem, CItem.mem] using h2 c hc⟩
  cases h with
  | rfc w ds h1 h2 h3 =>
    refine .inl ?_
    rw [Consts.extnRfc, lang_cat]
    exact ⟨w, ds, rfl, (FoldLang.ciLit (by decide) _ _ _).2 (by simpa using h1), lang_grp.2 (nd h2 h3)⟩
  | word w1 w2 w3 w4 ds w6 h1 h2 h3 h4 h5 h6 h7 =>
    refine .inr (.inl ?_)
    rw [Consts.extnWords, lang_cat]
    refine ⟨w1, _, rfl, ?_, lang_cat.2 ⟨w2, _, rfl, lang_extnWord.2 h2, lang_cat.2 ⟨w3, _, rfl, ?_, lang_cat.2 ⟨w4, _, rfl, ?_,
      lang_cat.2 ⟨ds, _, rfl, lang_grp.2 (nd h5 h6), lang_opt.2 (h7.symm.imp_left lang_chr.2)⟩⟩⟩⟩⟩
    · rw [Re.set, lang_star_cls]; intro c hc; simpa [Cls.mem, Consts.one] using h1 c hc
    · rw [lang_opt, lang_set]
      rcases h3 with h | ⟨c, hc, h⟩
      · exact .inr h
      · exact .inl ⟨c, h, by simpa [Consts.one] using hc⟩
    · rw [Re.set, lang_star_cls]; intro c hc; simpa [Cls.mem, Consts.one] using h4 c hc
  | hash w ds h1 h2 h3 h4 h5 =>
    refine .inr (.inr ?_)
    cases ds with
    | nil => exact absurd rfl h3
    | cons d ds =>
      rw [Consts.extnHash, lang_cat]
      refine ⟨w, _, rfl, ?_, lang_cat.2 ⟨_, _, rfl, lang_grp.2 (lang_cat.2 ⟨[d], ds, rfl, lang_set.2 ⟨d, rfl, ?_⟩, nd ?_ ?_⟩), lang_chr.2 rfl⟩⟩
      · rw [Re.set, lang_plus_cls]; exact ⟨h1, fun c hc => by simpa [Cls.mem, Consts.one] using h2 c hc⟩
      · simpa [CItem.mem] using h5 d (by simp)
      · simp at h4; omega
      · exact fun c hc => h5 c (List.mem_cons_of_mem _ hc)

/-- The pattern finds the first extension. -/
theorem find_extn {x : Str} {m : Match} (h : Consts.extnPattern.find x = some m) : Extension x m.pre (m.get 2) := by
  have f := find_eq_some h
  have hb := f.best
  simp only [matchAt, Option.map_eq_some_iff] at hb
  obtain ⟨s', hs, he⟩ := hb
  obtain ⟨h1, h2⟩ := run_extn (List.mem_of_head? hs)
  have hpost : m.post = [] := by rw [← he]; exact h1
  have hget : m.get 2 = (s'.caps.find? (·.idx == 2)).map Cap.text := by rw [← he]; rfl
  refine ⟨⟨m.text, ?_, ?_⟩, ?_⟩
  · have := f.split; rw [hpost] at this; simpa using this
  · rw [hget]; rw [hpost] at h2; simpa using h2
  · intro a e o hx ht
    apply Nat.le_of_not_lt
    intro hlt
    exact f.leftmost a e hx hlt ⟨e, [], by simp, lang_extn ht⟩

theorem find_extn_none {x : Str} : Consts.extnPattern.find x = none ↔ NoExtension x := by
  constructor
  · intro h a e o hx ht
    exact find_eq_none.1 h a e hx ⟨e, [], by simp, lang_extn ht⟩
  · intro h
    cases hf : Consts.extnPattern.find x with
    | none => rfl
    | some m =>
      obtain ⟨e, he, ht⟩ := (find_extn hf).split
      exact absurd ht (h _ _ _ he)

/-! ## The digits of an extension are determined by the text -/

omit [UnicodeTables] in
theorem extWords_chars : ∀ w ∈ extWords, w ≠ [] ∧ ∀ c ∈ w, c.toNat ∈
    [101, 120, 116, 110, 115, 105, 111, 97, 44, 59, 35, 126, 0x301, 0xF3, 0xFF45, 0xFF58, 0xFF54, 0xFF4E, 0xFF49, 0xFF03, 0xFF5E] := by
  decide

omit [UnicodeTables] in
theorem wideExt_toNat : wideExt.map Char.toNat = [0xA0, 0xF3, 0xD3, 0x301, 0x17F, 0xFF0E, 0xFF03, 0xFF5E, 0xFF45, 0xFF25,
    0xFF58, 0xFF38, 0xFF54, 0xFF34, 0xFF4E, 0xFF2E, 0xFF49, 0xFF29] := by decide

omit [UnicodeTables] in
theorem mem_wideExt {c : Char} : c ∈ wideExt ↔ c.toNat ∈ [0xA0, 0xF3, 0xD3, 0x301, 0x17F, 0xFF0E, 0xFF03, 0xFF5E, 0xFF45, 0xFF25,
    0xFF58, 0xFF38, 0xFF54, 0xFF34, 0xFF4E, 0xFF2E, 0xFF49, 0xFF29] := by
  rw [← wideExt_toNat]
  constructor
  · exact List.mem_map_of_mem
  · intro h
    obtain ⟨d, hd, hn⟩ := List.mem_map.1 h
    rwa [← char_eq_of_toNat hn]

omit [UnicodeTables] in
/-- The characters of an introduction. -/
theorem word_chars {w : Str} (h : w.map fold ∈ extWords) : w ≠ [] ∧ ∀ c ∈ w, c ∈ wideExt ∨
    c.toNat ∈ [101, 120, 116, 110, 115, 105, 111, 97, 69, 88, 84, 78, 83, 73, 79, 65, 44, 59, 35, 126] := by
  obtain ⟨h1, h2⟩ := extWords_chars _ h
  refine ⟨fun hw => h1 (by rw [hw]; rfl), fun c hc => ?_⟩
  have := h2 (fold c) (List.mem_map_of_mem hc)
  rw [fold_toNat] at this
  rw [mem_wideExt]
  simp only [List.mem_cons, List.not_mem_nil, or_false] at this ⊢
  generalize c.toNat = n at this ⊢
  split at this
  · omega
  · split at this
    · omega
    · split at this
      · omega
      · omega

theorem isNd_low {c : Char} (h : c.toNat < 128) : isNd c = isDigit c := by simp [isNd, h]

omit [UnicodeTables] in
theorem isDigit_toNat {c : Char} : isDigit c = true ↔ 48 ≤ c.toNat ∧ c.toNat ≤ 57 := isDigit_iff

theorem word_not_nd {w : Str} (hm : MarksNotDigits w) (h : w.map fold ∈ extWords) : ∀ c ∈ w, isNd c = false := by
  intro c hc
  rcases (word_chars h).2 c hc with h' | h'
  · exact hm c hc h'
  · simp only [List.mem_cons, List.not_mem_nil, or_false] at h'
    rw [isNd_low (by omega), ← Bool.not_eq_true, isDigit_toNat]
    omega

theorem sep_not_nd {l w : Str} (hm : MarksNotDigits w) (hl : ∀ c ∈ l, c ∈ wideExt ∨ c.toNat < 128 ∧ isDigit c = false)
    (h : ∀ c ∈ w, c ∈ l) : ∀ c ∈ w, isNd c = false := by
  intro c hc
  rcases hl c (h c hc) with h' | h'
  · exact hm c hc h'
  · rw [isNd_low h'.1, h'.2]

omit [UnicodeTables] in
theorem filter_none {p : Char → Bool} {w : Str} (h : ∀ c ∈ w, p c = false) : w.filter p = [] := by
  rw [List.filter_eq_nil_iff]; intro c hc; simp [h c hc]

theorem Spec.MarksNotDigits.mono {s t : Str} (h : MarksNotDigits s) (ht : ∀ c ∈ t, c ∈ s) : MarksNotDigits t :=
  fun c hc => h c (ht c hc)

/-- The digits of an extension with a word are the decimal digits of the text. -/
theorem Spec.ExtText.digits {e ds : Str} (hm : MarksNotDigits e) (h : ExtText e (some ds)) : e.filter isNd = ds := by
  cases h with
  | word w1 w2 w3 w4 ds w6 h1 h2 h3 h4 h5 h6 h7 =>
    have n1 := sep_not_nd (hm.mono (t := w1) (by simp +contextual)) (by decide) h1
    have n2 := word_not_nd (hm.mono (t := w2) (by simp +contextual)) h2
    have n3 := sep_not_nd (l := [':', '.', '．']) (hm.mono (t := w3) (by simp +contextual)) (by decide) (by
      rcases h3 with rfl | ⟨c, hc, rfl⟩
      · simp
      · simpa using hc)
    have n4 := sep_not_nd (hm.mono (t := w4) (by simp +contextual)) (by decide) h4
    have n6 := sep_not_nd (l := ['#']) (hm.mono (t := w6) (by simp +contextual)) (by decide) (by
      rcases h7 with rfl | rfl <;> simp)
    simp only [List.filter_append, filter_none n1, filter_none n2, filter_none n3, filter_none n4, filter_none n6,
      List.filter_eq_self.2 h6, List.nil_append, List.append_nil]

/-- A text with a word is not of another form. -/
theorem Spec.ExtText.word_only {e ds : Str} (hm : MarksNotDigits e) (h : ExtText e (some ds)) : ¬ ExtText e none := by
  intro h'
  have hd := h.digits hm
  generalize he : e = e' at h'
  cases h with
  | word w1 w2 w3 w4 ds w6 h1 h2 h3 h4 h5 h6 h7 =>
    cases h' with
    | rfc p ds' k1 k2 k3 =>
      have : '=' ∈ p := by
        have : '=' ∈ p.map fold := by rw [k1]; decide
        obtain ⟨c, hc, hf⟩ := List.mem_map.1 this
        rw [eq_iff_toNat, fold_toNat, show '='.toNat = 61 from rfl] at hf
        have : c = '=' := by rw [eq_iff_toNat, show '='.toNat = 61 from rfl]; grind
        rwa [← this]
      have : '=' ∈ w1 ++ (w2 ++ (w3 ++ (w4 ++ (ds ++ w6)))) := by rw [he]; exact List.mem_append_left _ this
      simp only [List.mem_append] at this
      rcases this with h | h | h | h | h | h
      · exact absurd (h1 _ h) (by decide)
      · rcases (word_chars h2).2 _ h with h | h <;> exact absurd h (by decide)
      · rcases h3 with rfl | ⟨c, hc, rfl⟩
        · cases h
        · simp only [List.mem_singleton] at h; subst h; exact absurd hc (by decide)
      · exact absurd (h4 _ h) (by decide)
      · have := h6 _ h; rw [isNd_low (by decide)] at this; exact absurd this (by decide)
      · rcases h7 with rfl | rfl <;> exact absurd h (by decide)
    | hash sep ds' k1 k2 k3 k4 k5 =>
      obtain ⟨hne, hw⟩ := word_chars h2
      cases w2 with
      | nil => exact hne rfl
      | cons c w2 =>
        have hc := word_not_nd (hm.mono (t := c :: w2) (by simp +contextual)) h2 c (by simp)
        have hc' : c ≠ '-' ∧ c ≠ ' ' := by
          rcases hw c (by simp) with h | h
          · constructor <;> rintro rfl <;> exact absurd h (by decide)
          · constructor <;> rintro rfl <;> exact absurd h (by decide)
        have he2 : (sep ++ ds') ++ ['#'] = w1 ++ c :: (w2 ++ (w3 ++ (w4 ++ (ds ++ w6)))) := by rw [List.append_assoc, ← he]; simp
        have hds : ds = [] := by
          rcases List.append_eq_append_iff.1 he2 with ⟨z, hz, hz'⟩ | ⟨z, hz, hz'⟩
          · cases z with
            | nil => simp at hz'; simp [hz']
            | cons x z => simp at hz'
          · cases z with
            | nil => simp at hz'; exact hz'.2.2.2.2.1
            | cons x z =>
              simp only [List.cons_append, List.cons.injEq] at hz'
              have : c ∈ sep ++ ds' := by rw [hz, hz'.1]; simp
              rcases List.mem_append.1 this with h | h
              · have := k2 c h; simp [hc'] at this
              · rw [k5 c h] at hc; cases hc
        rw [he, hds] at hd
        have hall : ds' ++ ['#'] ≠ [] := by simp
        simp only [List.filter_append, List.filter_eq_self.2 k5] at hd
        rw [List.append_eq_nil_iff, List.append_eq_nil_iff] at hd
        exact k3 hd.2.1

/-- The form and the digits of an extension are determined by its text. -/
theorem Spec.ExtText.unique {e : Str} {o o' : Option Str} (hm : MarksNotDigits e) (h : ExtText e o) (h' : ExtText e o') : o = o' := by
  cases o with
  | none =>
    cases o' with
    | none => rfl
    | some ds => exact absurd h (h'.word_only hm)
  | some ds =>
    cases o' with
    | none => exact absurd h' (h.word_only hm)
    | some ds' => rw [← h.digits hm, ← h'.digits hm]

/-- An extension of a text is determined by the text. -/
theorem Spec.Extension.unique {x a a' : Str} {o o' : Option Str} (hm : MarksNotDigits x) (h : Extension x a o) (h' : Extension x a' o') :
    a = a' ∧ o = o' := by
  obtain ⟨⟨e, he, ht⟩, hf⟩ := h
  obtain ⟨⟨e', he', ht'⟩, hf'⟩ := h'
  have hl : a.length = a'.length := Nat.le_antisymm (hf a' e' o' he' ht') (hf' a e o he ht)
  obtain ⟨rfl, rfl⟩ := List.append_inj (he.symm.trans he') hl
  exact ⟨rfl, ht.unique (hm.mono fun c hc => by rw [he]; exact List.mem_append_right _ hc) ht'⟩

/-- What the pattern finds. -/
theorem find_extn_iff {x a : Str} {o : Option Str} (hm : MarksNotDigits x) :
    (∃ m, Consts.extnPattern.find x = some m ∧ m.pre = a ∧ m.get 2 = o) ↔ Extension x a o := by
  constructor
  · rintro ⟨m, h, rfl, rfl⟩; exact find_extn h
  · intro h
    cases hf : Consts.extnPattern.find x with
    | none =>
      obtain ⟨e, he, ht⟩ := h.split
      exact absurd ht (find_extn_none.1 hf _ _ _ he)
    | some m =>
      obtain ⟨h1, h2⟩ := h.unique hm (find_extn hf)
      exact ⟨m, rfl, h1.symm, h2.symm⟩

end Phone
