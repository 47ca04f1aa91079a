import Verif.Regex.Captures
import Verif.Regex.Replace
import Verif.Basic.StrLemmas
/-! # Replacement templates and greedy runs -/

namespace Phone
variable [UnicodeTables]

omit [UnicodeTables] in
theorem capTexts_get {m : Match} {ts : List Str} : ∀ {k : Nat}, k ≠ 0 → capTexts m.caps k ts →
    ∀ i t, ts[i]? = some t → m.get (k + i) = some t := by
  induction ts with
  | nil => intro k _ _ i t h; simp at h
  | cons x xs ih =>
    intro k hk h i t hi
    cases i with
    | zero =>
      simp only [List.getElem?_cons_zero, Option.some.injEq] at hi
      subst hi
      simp only [Match.get, Nat.add_zero, if_neg hk]
      exact h.1
    | succ i =>
      rw [show k + (i + 1) = (k + 1) + i by omega]
      exact ih (by omega) h.2 i t (by simpa using hi)

/-- The matched text of a sequence of groups is the concatenation of the group texts. -/
theorem groupSeq_find {r : Regex} {s : Str} {m : Match} (h : r.find s = some m) {n : Nat} (hg : GroupSeq 1 r.re n) :
    ∃ ts, ts.length = n - 1 ∧ 1 ≤ n ∧ m.text = ts.flatten ∧ capTexts m.caps 1 ts := by
  have hb := (find_eq_some h).best
  simp only [matchAt, Option.map_eq_some_iff] at hb
  obtain ⟨s', hs, he⟩ := hb
  obtain ⟨ts, nc, k1, k2, k3, k4, k5, k6⟩ := groupSeq_run hg _ s' (List.mem_of_head? hs)
  simp only [List.append_nil] at k3 k4
  have hp : m.post = s'.rest := by rw [← he]
  refine ⟨ts, k1, k2, ?_, ?_⟩
  · rw [hp] at k3
    exact List.append_cancel_right k3
  · rw [← he]; simp only [k4]; exact k5

/-! ## Expansion -/

omit [UnicodeTables] in
theorem expandAux_name {m : Match} {acc s : Str} (h : ∀ c t, s = c :: t → isNameChar c = false) :
    expandAux m (.name acc) s = capRef m acc ++ expand m s := by
  cases s with
  | nil => simp [expandAux, expand]
  | cons c t =>
    have hc := h c t rfl
    unfold expand
    simp only [expandAux, hc, Bool.false_eq_true, if_false]
    by_cases h' : c = '$'
    · simp [h']
    · simp [h']

omit [UnicodeTables] in
theorem expand_cons {m : Match} {c : Char} {s : Str} (h : c ≠ '$') : expand m (c :: s) = c :: expand m s := by
  simp [expand, expandAux, h]

omit [UnicodeTables] in
theorem expand_text {m : Match} {a s : Str} (h : '$' ∉ a) : expand m (a ++ s) = a ++ expand m s := by
  induction a with
  | nil => rfl
  | cons c a ih =>
    simp only [List.mem_cons, not_or] at h
    rw [List.cons_append, expand_cons (fun e => h.1 e.symm), ih h.2]; rfl

omit [UnicodeTables] in
@[simp] theorem expand_nil {m : Match} : expand m [] = [] := rfl

omit [UnicodeTables] in
theorem expand_dollars {m : Match} {s : Str} : expand m ('$' :: '$' :: s) = '$' :: expand m s := by
  simp [expand, expandAux]

omit [UnicodeTables] in
theorem isDigit_ne {d : Char} (h : isDigit d = true) : d ≠ '$' ∧ d ≠ '{' ∧ isNameChar d = true := by
  refine ⟨?_, ?_, by simp [isNameChar, h]⟩ <;> (rintro rfl; revert h; decide)

omit [UnicodeTables] in
/-- A reference to a one-digit group number. -/
theorem expand_ref {m : Match} {d : Char} {s : Str} (hd : isDigit d = true) (h : ∀ c t, s = c :: t → isNameChar c = false) :
    expand m ('$' :: d :: s) = (m.get (digitVal d)).getD [] ++ expand m s := by
  obtain ⟨h1, h2, h3⟩ := isDigit_ne hd
  have : expand m ('$' :: d :: s) = expandAux m (.name [d]) s := by simp [expand, expandAux, h1, h2, h3]
  rw [this, expandAux_name h]
  simp [capRef, hd, decVal]

/-! ## Greedy runs of a class -/

theorem run_cls_cons {k : Cls} {s : St} {c : Char} {t : Str} (hr : s.rest = c :: t) (hc : k.mem c = true) :
    run (.cls k) s = [⟨s.pos + c.utf8Size, t, s.caps⟩] := by
  simp [run, hr, hc]

/-- The best run of a greedy star over a class takes every character of the class that follows. -/
theorem starRun_greedy_head (k : Cls) (n : Nat) : ∀ s : St, s.rest.length ≤ n →
    ∃ s', (starRun (run (.cls k)) true n s).head? = some s' ∧ s'.rest = s.rest.dropWhile k.mem := by
  induction n with
  | zero =>
    intro s h
    refine ⟨s, rfl, ?_⟩
    have : s.rest = [] := by cases hr : s.rest with | nil => rfl | cons c t => rw [hr] at h; simp at h
    simp [this]
  | succ n ih =>
    intro s h
    simp only [starRun, if_true]
    cases hr : s.rest with
    | nil => exact ⟨s, by simp [run, hr], by simp [hr]⟩
    | cons c t =>
      rw [hr] at h
      by_cases hc : k.mem c = true
      · obtain ⟨s', h1, h2⟩ := ih ⟨s.pos + c.utf8Size, t, s.caps⟩ (by simpa using h)
        refine ⟨s', ?_, by simp [hc, h2]⟩
        rw [run_cls_cons hr hc]
        simp only [if_true, List.flatMap_cons, List.flatMap_nil, List.append_nil, List.length_cons, Nat.lt_succ_self]
        rw [List.head?_append, h1]; rfl
      · refine ⟨s, ?_, by simp [hc, hr]⟩
        simp [run, hr, hc]

/-- The first match of `k+` is the first maximal run of characters of the class. -/
theorem find_plus_cls {r : Regex} {k : Cls} (hr : r.re = Re.plus (.cls k)) (s : Str) :
    (r.find s = none ∧ ∀ c ∈ s, k.mem c = false) ∨
    ∃ m, r.find s = some m ∧ s = m.pre ++ m.text ++ m.post ∧ (∀ c ∈ m.pre, k.mem c = false) ∧ m.text ≠ [] ∧
      (∀ c ∈ m.text, k.mem c = true) ∧ ∀ c t, m.post = c :: t → k.mem c = false := by
  cases hf : r.find s with
  | none =>
    refine .inl ⟨rfl, fun c hc => ?_⟩
    obtain ⟨a, b, rfl⟩ := List.append_of_mem hc
    rw [← Bool.not_eq_true]
    intro hk
    refine find_eq_none.1 hf a (c :: b) rfl ⟨[c], b, rfl, ?_⟩
    rw [hr, lang_plus_cls]
    exact ⟨by simp, by simpa using hk⟩
  | some m =>
    have fd := find_eq_some hf
    have hl := fd.lang
    rw [hr, lang_plus_cls] at hl
    refine .inr ⟨m, rfl, fd.split, ?_, hl.1, hl.2, ?_⟩
    · intro c hc
      obtain ⟨a, b, hab⟩ := List.append_of_mem hc
      rw [← Bool.not_eq_true]
      intro hk
      refine fd.leftmost a (c :: (b ++ m.text ++ m.post)) (by rw [fd.split, hab]; simp) (by rw [hab]; simp) ⟨[c], _, rfl, ?_⟩
      rw [hr, lang_plus_cls]
      exact ⟨by simp, by simpa using hk⟩
    · have hb := fd.best
      rw [hr] at hb
      obtain ⟨ht, hm⟩ := hl
      cases htx : m.text with
      | nil => exact absurd htx ht
      | cons c t =>
        have hc : k.mem c = true := hm c (by simp [htx])
        rw [htx] at hb
        obtain ⟨s', h1, h2⟩ := starRun_greedy_head k (t ++ m.post).length ⟨byteLen m.pre + c.utf8Size, t ++ m.post, []⟩ (Nat.le_refl _)
        simp only [matchAt, Option.map_eq_some_iff] at hb
        obtain ⟨s'', hs, he⟩ := hb
        have hcat : ∀ s, run (Re.plus (.cls k)) s = (run (.cls k) s).flatMap fun s => starRun (run (.cls k)) true s.rest.length s :=
          fun s => rfl
        rw [hcat, run_cls_cons (s := ⟨byteLen m.pre, c :: t ++ m.post, []⟩) (t := t ++ m.post) rfl hc] at hs
        simp only [List.flatMap_cons, List.flatMap_nil, List.append_nil] at hs
        rw [h1] at hs
        obtain rfl := Option.some.inj hs
        have hp : m.post = s'.rest := by rw [← he]
        intro x y hxy
        rw [hxy, h2] at hp
        have := List.head?_dropWhile_not k.mem (t ++ m.post)
        simp only at hp
        rw [← hxy] at hp
        rw [← hp] at this
        simpa [hxy] using this

end Phone
