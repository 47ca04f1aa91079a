import Verif.Regex.Lang
/-! # Can a string of digits begin with a match of each of several patterns?

`clash n` decides (with possible false alarms) whether some string of at most `n` decimal digits begins with a match of each of the given
patterns. It follows partial derivatives. Only its soundness is needed: if it says no, there is no such string. -/

namespace Phone

/-- Does a class contain the decimal digit? Unlike `Cls.mem` this does not depend on the Unicode tables. -/
def Cls.hasDigit (k : Cls) (c : Char) : Bool :=
  (k.items.any fun
    | .range lo hi => Nat.ble lo.toNat c.toNat && Nat.ble c.toNat hi.toNat
    | .nd => true
    | .n => true
    | .l => false) != k.neg

namespace Re

/-- May match the empty string before a character. -/
def nullMid : Re → Bool
  | .eps => true
  | .cls _ => false
  | .cat a b => a.nullMid && b.nullMid
  | .alt a b => a.nullMid || b.nullMid
  | .star _ _ => true
  | .grp _ a => a.nullMid
  | .bos => true
  | .eos => false

/-- May match the empty string at the end. -/
def nullEnd : Re → Bool
  | .eps => true
  | .cls _ => false
  | .cat a b => a.nullEnd && b.nullEnd
  | .alt a b => a.nullEnd || b.nullEnd
  | .star _ _ => true
  | .grp _ a => a.nullEnd
  | .bos => true
  | .eos => true

/-- Concatenation that forgets an empty first part. -/
def after : Re → Re → Re
  | .eps, b => b
  | a, b => .cat a b

/-- What may remain to be matched after the digit `c`. -/
def rests (c : Char) : Re → List Re
  | .eps => []
  | .cls k => if k.hasDigit c then [.eps] else []
  | .cat a b => (a.rests c).map (·.after b) ++ if a.nullMid then b.rests c else []
  | .alt a b => a.rests c ++ b.rests c
  | .star g a => (a.rests c).map (·.after (.star g a))
  | .grp _ a => a.rests c
  | .bos => []
  | .eos => []

end Re

/-- Equality of syntax trees. -/
def Re.same : Re → Re → Bool
  | .eps, .eps => true
  | .cls k, .cls l => decide (k = l)
  | .cat a b, .cat c d => a.same c && b.same d
  | .alt a b, .alt c d => a.same c && b.same d
  | .star g a, .star h b => g == h && a.same b
  | .grp n a, .grp m b => Nat.beq n m && a.same b
  | .bos, .bos => true
  | .eos, .eos => true
  | _, _ => false

theorem Re.same_eq {a b : Re} (h : a.same b = true) : a = b := by
  induction a generalizing b with
  | eps => cases b <;> simp_all [Re.same]
  | cls k => cases b <;> simp_all [Re.same]
  | cat a c ha hc =>
    cases b <;> simp only [Re.same, Bool.and_eq_true, Bool.false_eq_true] at h
    rw [ha h.1, hc h.2]
  | alt a c ha hc =>
    cases b <;> simp only [Re.same, Bool.and_eq_true, Bool.false_eq_true] at h
    rw [ha h.1, hc h.2]
  | star g a ha =>
    cases b <;> simp only [Re.same, Bool.and_eq_true, Bool.false_eq_true, beq_iff_eq] at h
    rw [h.1, ha h.2]
  | grp n a ha =>
    cases b <;> simp only [Re.same, Bool.and_eq_true, Bool.false_eq_true] at h
    rw [Nat.eq_of_beq_eq_true h.1, ha h.2]
  | bos => cases b <;> simp_all [Re.same]
  | eos => cases b <;> simp_all [Re.same]

/-- Equality of lists. -/
def sameList {α : Type} (eq : α → α → Bool) : List α → List α → Bool
  | [], [] => true
  | a :: l, b :: m => eq a b && sameList eq l m
  | _, _ => false

theorem sameList_eq {α : Type} {eq : α → α → Bool} (he : ∀ a b, eq a b = true → a = b) {l m : List α} (h : sameList eq l m = true) :
    l = m := by
  induction l generalizing m with
  | nil => cases m <;> simp_all [sameList]
  | cons a l ih =>
    cases m with
    | nil => simp [sameList] at h
    | cons b m =>
      simp only [sameList, Bool.and_eq_true] at h
      rw [he _ _ h.1, ih h.2]

/-- Leaves out repetitions. -/
def distinct {α : Type} (eq : α → α → Bool) : List α → List α
  | [] => []
  | a :: l => let r := distinct eq l; if r.any (eq a) then r else a :: r

theorem mem_distinct {α : Type} {eq : α → α → Bool} (he : ∀ a b, eq a b = true → a = b) {l : List α} {x : α} (h : x ∈ l) :
    x ∈ distinct eq l := by
  induction l with
  | nil => cases h
  | cons a l ih =>
    simp only [distinct]
    rcases List.mem_cons.1 h with rfl | h
    · split
      · rename_i hr
        obtain ⟨b, hb, hab⟩ := List.any_eq_true.1 hr
        rw [he _ _ hab]; exact hb
      · simp
    · split
      · exact ih h
      · exact List.mem_cons_of_mem _ (ih h)

/-- What is left of a pattern after some digits: `none` once a match is complete, otherwise what may remain. -/
abbrev Run := Option (List Re)

def Run.same : Run → Run → Bool
  | none, none => true
  | some a, some b => sameList Re.same a b
  | _, _ => false

theorem Run.same_eq (a b : Run) (h : Run.same a b = true) : a = b := by
  cases a <;> cases b <;> simp only [Run.same, Bool.false_eq_true] at h
  · rfl
  · rw [sameList_eq (fun _ _ => Re.same_eq) h]

/-- One more digit. -/
def Run.step (c : Char) : Run → Run
  | none => none
  | some l => if l.any Re.nullMid then none else some (distinct Re.same (l.flatMap (Re.rests c)))

/-- No match is possible. -/
def Run.dead : Run → Bool
  | some [] => true
  | _ => false

/-- A match may be complete at the end of the string. -/
def Run.ends : Run → Bool
  | none => true
  | some l => l.any Re.nullEnd

/-- May a string of at most `n` digits begin with a match of every pattern? -/
def clash : Nat → List Run → Bool
  | 0, rs => rs.all Run.ends
  | n + 1, rs =>
    if rs.any Run.dead then false
    else rs.all Run.ends ||
      (distinct (sameList Run.same) (['0', '1', '2', '3', '4', '5', '6', '7', '8', '9'].map fun c => rs.map (Run.step c))).any (clash n)

variable [UnicodeTables]

theorem hasDigit_eq {k : Cls} {c : Char} (hc : isDigit c = true) : k.hasDigit c = k.mem c := by
  have hn : 48 ≤ c.toNat ∧ c.toNat ≤ 57 := by
    simpa [isDigit] using hc
  rw [Cls.hasDigit, Cls.mem]
  congr 1
  induction k.items with
  | nil => rfl
  | cons i l ih =>
    simp only [List.any_cons, ih]
    congr 1
    cases i with
    | range lo hi => rw [Bool.eq_iff_iff]; simp [CItem.mem]
    | nd => simp [CItem.mem, isNd, hc, show c.toNat < 128 by omega]
    | n => simp [CItem.mem, isN, hc, show c.toNat < 128 by omega]
    | l =>
      simp only [CItem.mem, isL, show c.toNat < 128 by omega, if_true]
      symm
      simp [isAlpha]
      omega

theorem lang_nullMid {r : Re} {p : Nat} {q : Str} (h : Lang r p [] q) (hq : q ≠ []) : r.nullMid = true := by
  induction r generalizing p q with
  | eps => rfl
  | cls k => obtain ⟨c, hc, _⟩ := lang_cls.1 h; cases hc
  | cat a b ha hb =>
    obtain ⟨u, v, e, h1, h2⟩ := lang_cat.1 h
    obtain ⟨rfl, rfl⟩ := List.append_eq_nil_iff.1 e.symm
    simp [Re.nullMid, ha h1 (by simpa using hq), hb h2 hq]
  | alt a b ha hb =>
    rcases lang_alt.1 h with h | h
    · simp [Re.nullMid, ha h hq]
    · simp [Re.nullMid, hb h hq]
  | star g a ha => rfl
  | grp n a ha => exact ha (lang_grp.1 h) hq
  | bos => rfl
  | eos => exact absurd (lang_eos.1 h).2 hq

theorem lang_nullEnd {r : Re} {p : Nat} {q : Str} (h : Lang r p [] q) : r.nullEnd = true := by
  induction r generalizing p q with
  | eps => rfl
  | cls k => obtain ⟨c, hc, _⟩ := lang_cls.1 h; cases hc
  | cat a b ha hb =>
    obtain ⟨u, v, e, h1, h2⟩ := lang_cat.1 h
    obtain ⟨rfl, rfl⟩ := List.append_eq_nil_iff.1 e.symm
    simp [Re.nullEnd, ha h1, hb h2]
  | alt a b ha hb =>
    rcases lang_alt.1 h with h | h
    · simp [Re.nullEnd, ha h]
    · simp [Re.nullEnd, hb h]
  | star g a ha => rfl
  | grp n a ha => exact ha (lang_grp.1 h)
  | bos => rfl
  | eos => rfl

theorem lang_after {a b : Re} {p : Nat} {u v q : Str} (h1 : Lang a p u (v ++ q)) (h2 : Lang b (p + byteLen u) v q) :
    Lang (a.after b) p (u ++ v) q := by
  unfold Re.after
  split
  · obtain rfl := lang_eps.1 h1
    simpa [byteLen] using h2
  · exact .cat h1 h2

theorem lang_rests {r : Re} {p : Nat} {c : Char} {w q : Str} (hc : isDigit c = true) (h : Lang r p (c :: w) q) :
    ∃ x ∈ r.rests c, Lang x (p + byteLen [c]) w q := by
  induction r generalizing p w q with
  | eps => cases lang_eps.1 h
  | cls k =>
    obtain ⟨d, e, hd⟩ := lang_cls.1 h
    cases e
    rw [← hasDigit_eq hc] at hd
    exact ⟨.eps, by simp [Re.rests, hd], .eps⟩
  | cat a b ha hb =>
    obtain ⟨u, v, e, h1, h2⟩ := lang_cat.1 h
    cases u with
    | nil =>
      rw [List.nil_append] at e
      subst e
      obtain ⟨x, hx, hl⟩ := hb h2
      refine ⟨x, ?_, by simpa [byteLen] using hl⟩
      simp [Re.rests, lang_nullMid h1 (by simp), hx]
    | cons d u =>
      rw [List.cons_append, List.cons.injEq] at e
      obtain ⟨rfl, rfl⟩ := e
      obtain ⟨x, hx, hl⟩ := ha h1
      refine ⟨x.after b, by simp only [Re.rests, List.mem_append, List.mem_map]; exact .inl ⟨x, hx, rfl⟩, lang_after hl ?_⟩
      rw [show p + byteLen [c] + byteLen u = p + byteLen (c :: u) by rw [byteLen_cons, byteLen_cons]; simp [byteLen]; omega]
      exact h2
  | alt a b ha hb =>
    rcases lang_alt.1 h with h | h
    · obtain ⟨x, hx, hl⟩ := ha h; exact ⟨x, by simp [Re.rests, hx], hl⟩
    · obtain ⟨x, hx, hl⟩ := hb h; exact ⟨x, by simp [Re.rests, hx], hl⟩
  | star g a ha =>
    generalize e : c :: w = s at h
    cases h with
    | starNil => cases e
    | @starCons _ _ _ u v _ hu h1 h2 =>
      cases u with
      | nil => exact absurd rfl hu
      | cons d u =>
        rw [List.cons_append, List.cons.injEq] at e
        obtain ⟨rfl, rfl⟩ := e
        obtain ⟨x, hx, hl⟩ := ha h1
        refine ⟨x.after (.star g a), by simp only [Re.rests, List.mem_map]; exact ⟨x, hx, rfl⟩, lang_after hl ?_⟩
        rw [show p + byteLen [c] + byteLen u = p + byteLen (c :: u) by rw [byteLen_cons, byteLen_cons]; simp [byteLen]; omega]
        exact h2
  | grp n a ha => exact ha (lang_grp.1 h)
  | bos => cases (lang_bos.1 h).2
  | eos => cases (lang_eos.1 h).1

/-- Some match of the pattern that is left may still be found at the start of the string. -/
def Run.Fits (p : Nat) (s : Str) : Run → Prop
  | none => True
  | some l => ∃ r ∈ l, ∃ w q, s = w ++ q ∧ Lang r p w q

theorem Run.fits_step {p : Nat} {c : Char} {s : Str} (hc : isDigit c = true) {r : Run} (h : r.Fits p (c :: s)) :
    (r.step c).Fits (p + byteLen [c]) s := by
  cases r with
  | none => exact h
  | some l =>
    obtain ⟨x, hx, w, q, e, hl⟩ := h
    by_cases hn : l.any Re.nullMid = true
    · simp [Run.step, hn, Fits]
    · rw [show Run.step c (some l) = some (distinct Re.same (l.flatMap (Re.rests c))) from if_neg hn]
      cases w with
      | nil =>
        rw [List.nil_append] at e
        exact absurd (List.any_eq_true.2 ⟨x, hx, lang_nullMid hl (by rw [← e]; simp)⟩) hn
      | cons d w =>
        rw [List.cons_append, List.cons.injEq] at e
        obtain ⟨rfl, rfl⟩ := e
        obtain ⟨y, hy, hl⟩ := lang_rests hc hl
        exact ⟨y, mem_distinct (fun _ _ => Re.same_eq) (List.mem_flatMap.2 ⟨x, hx, hy⟩), w, q, rfl, hl⟩

theorem Run.fits_ends {p : Nat} {r : Run} (h : r.Fits p []) : r.ends = true := by
  cases r with
  | none => rfl
  | some l =>
    obtain ⟨x, hx, w, q, e, hl⟩ := h
    obtain ⟨rfl, rfl⟩ := List.append_eq_nil_iff.1 e.symm
    exact List.any_eq_true.2 ⟨x, hx, lang_nullEnd hl⟩

omit [UnicodeTables] in
theorem digit_listed {c : Char} (h : isDigit c = true) : c ∈ ['0', '1', '2', '3', '4', '5', '6', '7', '8', '9'] := by
  have hn : 48 ≤ c.toNat ∧ c.toNat ≤ 57 := by simpa [isDigit] using h
  have e : c = Char.ofNat c.toNat := (Char.ofNat_toNat c).symm
  generalize c.toNat = n at *
  subst e
  obtain rfl | rfl | rfl | rfl | rfl | rfl | rfl | rfl | rfl | rfl : n = 48 ∨ n = 49 ∨ n = 50 ∨ n = 51 ∨ n = 52 ∨ n = 53 ∨ n = 54 ∨
    n = 55 ∨ n = 56 ∨ n = 57 := by omega
  all_goals decide

/-- Soundness of `clash`. -/
theorem clash_of_fits {n : Nat} {s : Str} {rs : List Run} (hs : ∀ c ∈ s, isDigit c = true) (hn : s.length ≤ n)
    (h : ∀ r ∈ rs, ∃ p, r.Fits p s) : clash n rs = true := by
  induction n generalizing s rs with
  | zero =>
    have : s = [] := List.length_eq_zero_iff.1 (by omega)
    subst this
    simp only [clash, List.all_eq_true]
    exact fun r hr => Run.fits_ends (h r hr).choose_spec
  | succ n ih =>
    have hd : rs.any Run.dead = false := by
      rw [← Bool.not_eq_true, List.any_eq_true]
      rintro ⟨r, hr, hdead⟩
      obtain ⟨p, this⟩ := h r hr
      unfold Run.dead at hdead
      split at hdead
      · obtain ⟨x, hx, _⟩ := this; cases hx
      · cases hdead
    simp only [clash, hd, Bool.false_eq_true, if_false, Bool.or_eq_true]
    cases s with
    | nil => exact .inl (List.all_eq_true.2 fun r hr => Run.fits_ends (h r hr).choose_spec)
    | cons c s =>
      refine .inr (List.any_eq_true.2 ⟨rs.map (Run.step c), ?_, ?_⟩)
      · exact mem_distinct (fun _ _ => sameList_eq Run.same_eq)
          (List.mem_map.2 ⟨c, digit_listed (hs c (by simp)), rfl⟩)
      · refine ih (s := s) (fun d hd => hs d (by simp [hd])) (by simpa using hn) ?_
        intro r hr
        obtain ⟨r', hr', rfl⟩ := List.mem_map.1 hr
        obtain ⟨p, h⟩ := h r' hr'
        exact ⟨_, Run.fits_step (hs c (by simp)) h⟩

/-- If `clash` says no, there is no string of digits that begins with matches of all patterns. -/
theorem clash_false {n : Nat} {s : Str} {rs : List Re} (hs : ∀ c ∈ s, isDigit c = true) (hn : s.length ≤ n)
    (hc : clash n (rs.map fun r => some [r]) = false) : ¬ ∀ r ∈ rs, ∃ w q, s = w ++ q ∧ Lang r 0 w q := by
  intro h
  rw [clash_of_fits hs hn] at hc
  · cases hc
  · intro r hr
    obtain ⟨x, hx, rfl⟩ := List.mem_map.1 hr
    exact ⟨0, x, by simp, h x hx⟩

/-- Several digits. -/
def Run.steps : Str → Run → Run
  | [], r => r
  | c :: s, r => Run.steps s (r.step c)

theorem Run.fits_steps {p : Nat} {u s : Str} (hu : ∀ c ∈ u, isDigit c = true) {r : Run} (h : r.Fits p (u ++ s)) :
    ∃ p', (r.steps u).Fits p' s := by
  induction u generalizing p r with
  | nil => exact ⟨p, h⟩
  | cons c u ih => exact ih (fun d hd => hu d (by simp [hd])) (Run.fits_step (hu c (by simp)) h)

end Phone
