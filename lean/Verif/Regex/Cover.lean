import Verif.Regex.Clash
/-! # Is every string of digits that begins with matches of some patterns matched in full by one of others?

`covered n` answers this (with possible false alarms) for the strings of `n` decimal digits. Only its soundness is needed: if it says
yes, it is so. `whole` decides, again with possible false alarms, whether a given string of digits is matched in full. -/

namespace Phone

namespace Re

/-- Matches the empty string everywhere. -/
def null : Re → Bool
  | .eps => true
  | .cls _ => false
  | .cat a b => a.null && b.null
  | .alt a b => a.null || b.null
  | .star _ _ => true
  | .grp _ a => a.null
  | .bos => false
  | .eos => false

/-- What is left to be matched after the digit `c`, leaving out what depends on the position. -/
def lefts (c : Char) : Re → List Re
  | .eps => []
  | .cls k => if k.hasDigit c then [.eps] else []
  | .cat a b => (a.lefts c).map (·.after b) ++ if a.null then b.lefts c else []
  | .alt a b => a.lefts c ++ b.lefts c
  | .star g a => (a.lefts c).map (·.after (.star g a))
  | .grp _ a => a.lefts c
  | .bos => []
  | .eos => []

end Re

def sameState (a b : List Run × List Re) : Bool := sameList Run.same a.1 b.1 && sameList Re.same a.2 b.2

/-- Is every string of `n` digits that begins with a match of every pattern on the left matched in full by one on the right? -/
def covered : Nat → List Run × List Re → Bool
  | 0, (rs, l) => !rs.all Run.ends || l.any Re.null
  | n + 1, (rs, l) => rs.any Run.dead ||
      (distinct sameState (['0', '1', '2', '3', '4', '5', '6', '7', '8', '9'].map fun c =>
        (rs.map (Run.step c), distinct Re.same (l.flatMap (Re.lefts c))))).all (covered n)

/-- Contains no `^` and no `$`. -/
def Re.plain : Re → Bool
  | .cat a b => a.plain && b.plain
  | .alt a b => a.plain && b.plain
  | .star _ a => a.plain
  | .grp _ a => a.plain
  | .bos => false
  | .eos => false
  | _ => true

/-- The least length of a match. -/
def Re.minLen : Re → Nat
  | .cls _ => 1
  | .cat a b => a.minLen + b.minLen
  | .alt a b => Nat.min a.minLen b.minLen
  | .grp _ a => a.minLen
  | _ => 0

/-- Is every string of digits that begins with a match of the patterns, and whose length is marked, matched in full by one of them? The
Boolean says whether a match has been found already. -/
def tight : List Bool → Bool → List Re → Bool
  | [], _, _ => true
  | b :: bs, done, l =>
    let ends := l.any Re.null
    (!b || !done || ends) && (!done && !ends && l.isEmpty ||
      (distinct (sameList Re.same) (['0', '1', '2', '3', '4', '5', '6', '7', '8', '9'].map fun c =>
        distinct Re.same (l.flatMap (Re.lefts c)))).all (tight bs (done || ends)))

/-- May one of the patterns match the whole string? -/
def whole : List Re → Str → Bool
  | l, [] => l.any Re.nullEnd
  | l, c :: s => whole (distinct Re.same (l.flatMap (Re.rests c))) s

theorem sameState_eq (a b : List Run × List Re) (h : sameState a b = true) : a = b := by
  rw [sameState, Bool.and_eq_true] at h
  exact Prod.ext (sameList_eq Run.same_eq h.1) (sameList_eq (fun _ _ => Re.same_eq) h.2)

theorem of_mem_distinct {α : Type} {eq : α → α → Bool} {l : List α} {x : α} (h : x ∈ distinct eq l) : x ∈ l := by
  induction l with
  | nil => cases h
  | cons a l ih =>
    simp only [distinct] at h
    split at h
    · exact List.mem_cons_of_mem _ (ih h)
    · rcases List.mem_cons.1 h with rfl | h
      · simp
      · exact List.mem_cons_of_mem _ (ih h)

variable [UnicodeTables]

theorem null_lang {r : Re} (h : r.null = true) (p : Nat) (q : Str) : Lang r p [] q := by
  induction r generalizing p q with
  | eps => exact .eps
  | cls k => cases h
  | cat a b ha hb =>
    rw [Re.null, Bool.and_eq_true] at h
    exact lang_cat.2 ⟨[], [], rfl, ha h.1 _ _, hb h.2 _ _⟩
  | alt a b ha hb =>
    rw [Re.null, Bool.or_eq_true] at h
    exact lang_alt.2 (h.imp (ha · _ _) (hb · _ _))
  | star g a ha => exact .starNil
  | grp n a ha => exact lang_grp.2 (ha h _ _)
  | bos => cases h
  | eos => cases h

theorem after_lang {a b : Re} {p : Nat} {w q : Str} (h : Lang (a.after b) p w q) :
    ∃ u v, w = u ++ v ∧ Lang a p u (v ++ q) ∧ Lang b (p + byteLen u) v q := by
  unfold Re.after at h
  split at h
  · exact ⟨[], w, rfl, .eps, by simpa [byteLen] using h⟩
  · exact lang_cat.1 h

theorem lefts_lang {r x : Re} {p : Nat} {c : Char} {w q : Str} (hc : isDigit c = true) (hx : x ∈ r.lefts c)
    (h : Lang x (p + byteLen [c]) w q) : Lang r p (c :: w) q := by
  induction r generalizing p w q x with
  | eps => cases hx
  | cls k =>
    simp only [Re.lefts] at hx
    split at hx
    · rename_i hk
      rw [List.mem_singleton.1 hx] at h
      obtain rfl := lang_eps.1 h
      exact lang_cls.2 ⟨c, rfl, by rw [← hasDigit_eq hc]; exact hk⟩
    · cases hx
  | cat a b ha hb =>
    simp only [Re.lefts, List.mem_append, List.mem_map] at hx
    rcases hx with ⟨y, hy, rfl⟩ | hx
    · obtain ⟨u, v, rfl, h1, h2⟩ := after_lang h
      refine lang_cat.2 ⟨c :: u, v, rfl, ha hy h1, ?_⟩
      rw [show p + byteLen (c :: u) = p + byteLen [c] + byteLen u by rw [byteLen_cons, byteLen_cons]; simp [byteLen]; omega]
      exact h2
    · split at hx
      · rename_i hn
        exact lang_cat.2 ⟨[], c :: w, rfl, null_lang hn _ _, by simpa [byteLen] using hb hx h⟩
      · cases hx
  | alt a b ha hb =>
    rcases List.mem_append.1 hx with hx | hx
    · exact lang_alt.2 (.inl (ha hx h))
    · exact lang_alt.2 (.inr (hb hx h))
  | star g a ha =>
    simp only [Re.lefts, List.mem_map] at hx
    obtain ⟨y, hy, rfl⟩ := hx
    obtain ⟨u, v, rfl, h1, h2⟩ := after_lang h
    refine Lang.starCons (u := c :: u) (by simp) (ha hy h1) ?_
    rw [show p + byteLen (c :: u) = p + byteLen [c] + byteLen u by rw [byteLen_cons, byteLen_cons]; simp [byteLen]; omega]
    exact h2
  | grp n a ha => exact lang_grp.2 (ha hx h)
  | bos => cases hx
  | eos => cases hx

theorem lang_minLen {r : Re} {p : Nat} {w q : Str} (h : Lang r p w q) : r.minLen ≤ w.length := by
  induction r generalizing p w q with
  | cls k => obtain ⟨c, rfl, _⟩ := lang_cls.1 h; simp [Re.minLen]
  | cat a b ha hb =>
    obtain ⟨u, v, rfl, h1, h2⟩ := lang_cat.1 h
    rw [List.length_append]
    exact Nat.add_le_add (ha h1) (hb h2)
  | alt a b ha hb =>
    rcases lang_alt.1 h with h | h
    · exact Nat.le_trans (Nat.min_le_left _ _) (ha h)
    · exact Nat.le_trans (Nat.min_le_right _ _) (hb h)
  | grp n a ha => exact ha (lang_grp.1 h)
  | _ => exact Nat.zero_le _

/-- A match that leaves nothing over for want of length. -/
theorem lang_short {r : Re} {p : Nat} {s w q : Str} (e : s = w ++ q) (h : Lang r p w q) (hs : s.length ≤ r.minLen) : Lang r p s [] := by
  have := lang_minLen h
  subst e
  rw [List.length_append] at hs
  obtain rfl : q = [] := List.length_eq_zero_iff.1 (by omega)
  rwa [List.append_nil]

/-- Soundness of `covered`. -/
theorem covered_sound {s : Str} {rs : List Run} {l : List Re} (hs : ∀ c ∈ s, isDigit c = true)
    (hc : covered s.length (rs, l) = true) (h : ∀ r ∈ rs, ∃ p, r.Fits p s) (p : Nat) : ∃ r ∈ l, Lang r p s [] := by
  induction s generalizing rs l p with
  | nil =>
    simp only [List.length_nil, covered, Bool.or_eq_true, Bool.not_eq_true'] at hc
    rcases hc with hc | hc
    · have : rs.all Run.ends = true := List.all_eq_true.2 fun r hr => Run.fits_ends (h r hr).choose_spec
      rw [this] at hc
      cases hc
    · obtain ⟨r, hr, hn⟩ := List.any_eq_true.1 hc
      exact ⟨r, hr, null_lang hn _ _⟩
  | cons c s ih =>
    simp only [List.length_cons, covered, Bool.or_eq_true] at hc
    rcases hc with hc | hc
    · obtain ⟨r, hr, hdead⟩ := List.any_eq_true.1 hc
      obtain ⟨p, this⟩ := h r hr
      unfold Run.dead at hdead
      split at hdead
      · obtain ⟨x, hx, _⟩ := this; cases hx
      · cases hdead
    · have hd := hs c (by simp)
      have := List.all_eq_true.1 hc _ (mem_distinct sameState_eq (List.mem_map.2 ⟨c, digit_listed hd, rfl⟩))
      obtain ⟨x, hx, hl⟩ := ih (fun d hd => hs d (by simp [hd])) this (by
        intro r hr
        obtain ⟨r', hr', rfl⟩ := List.mem_map.1 hr
        obtain ⟨p, h⟩ := h r' hr'
        exact ⟨_, Run.fits_step hd h⟩) (p + byteLen [c])
      obtain ⟨r, hr, hx⟩ := List.mem_flatMap.1 (of_mem_distinct hx)
      exact ⟨r, hr, lefts_lang hd hx hl⟩

omit [UnicodeTables] in
theorem plain_null {r : Re} (h : r.plain = true) : r.nullMid = r.null ∧ r.nullEnd = r.null := by
  induction r <;> simp_all [Re.plain, Re.null, Re.nullMid, Re.nullEnd]

omit [UnicodeTables] in
theorem plain_lefts {r : Re} (h : r.plain = true) (c : Char) : r.lefts c = r.rests c := by
  induction r with
  | cat a b ha hb =>
    rw [Re.plain, Bool.and_eq_true] at h
    rw [Re.lefts, Re.rests, ha h.1, hb h.2, (plain_null h.1).1]
  | alt a b ha hb =>
    rw [Re.plain, Bool.and_eq_true] at h
    rw [Re.lefts, Re.rests, ha h.1, hb h.2]
  | star g a ha => rw [Re.lefts, Re.rests, ha h]
  | grp n a ha => rw [Re.lefts, Re.rests, ha h]
  | _ => rfl

omit [UnicodeTables] in
theorem plain_after {a b : Re} (ha : a.plain = true) (hb : b.plain = true) : (a.after b).plain = true := by
  unfold Re.after
  split
  · exact hb
  · rw [Re.plain, ha, hb]; rfl

omit [UnicodeTables] in
theorem plain_of_lefts {r x : Re} (h : r.plain = true) {c : Char} (hx : x ∈ r.lefts c) : x.plain = true := by
  induction r generalizing x with
  | eps => cases hx
  | cls k =>
    simp only [Re.lefts] at hx
    split at hx
    · rw [List.mem_singleton.1 hx]; rfl
    · cases hx
  | cat a b ha hb =>
    rw [Re.plain, Bool.and_eq_true] at h
    simp only [Re.lefts, List.mem_append, List.mem_map] at hx
    rcases hx with ⟨y, hy, rfl⟩ | hx
    · exact plain_after (ha h.1 hy) h.2
    · split at hx
      · exact hb h.2 hx
      · cases hx
  | alt a b ha hb =>
    rw [Re.plain, Bool.and_eq_true] at h
    rcases List.mem_append.1 hx with hx | hx
    · exact ha h.1 hx
    · exact hb h.2 hx
  | star g a ha =>
    simp only [Re.lefts, List.mem_map] at hx
    obtain ⟨y, hy, rfl⟩ := hx
    exact plain_after (ha h hy) h
  | grp n a ha => exact ha h hx
  | bos => cases hx
  | eos => cases hx

/-- Soundness of `tight`. -/
theorem tight_sound {bs : List Bool} {done : Bool} {s : Str} {l : List Re} (hs : ∀ c ∈ s, isDigit c = true) (hb : bs[s.length]? = some true)
    (hl : ∀ r ∈ l, r.plain = true) (hc : tight bs done l = true) (p : Nat) (h : done = true ∨ Run.Fits p s (some l)) :
    ∃ r ∈ l, Lang r p s [] := by
  induction s generalizing bs done l p with
  | nil =>
    cases bs with
    | nil => cases hb
    | cons b bs =>
      obtain rfl : b = true := by simpa using hb
      simp only [tight, Bool.and_eq_true, Bool.or_eq_true, Bool.not_eq_true'] at hc
      have hn : l.any Re.null = true := by
        rcases hc.1 with (h1 | h1) | h1
        · cases h1
        · subst h1
          have := Run.fits_ends (h.resolve_left (by simp))
          obtain ⟨r, hr, hn⟩ := List.any_eq_true.1 this
          exact List.any_eq_true.2 ⟨r, hr, by rw [← (plain_null (hl r hr)).2]; exact hn⟩
        · exact h1
      obtain ⟨r, hr, hn⟩ := List.any_eq_true.1 hn
      exact ⟨r, hr, null_lang hn _ _⟩
  | cons c s ih =>
    cases bs with
    | nil => cases hb
    | cons b bs =>
      have hd := hs c (by simp)
      simp only [tight, Bool.and_eq_true, Bool.or_eq_true] at hc
      rcases hc.2 with hc | hc
      · obtain ⟨⟨h1, h2⟩, h3⟩ := hc
        rw [Bool.not_eq_true'] at h1
        rw [h1] at h
        obtain ⟨r, hr, _⟩ := h.resolve_left (by simp)
        rw [List.isEmpty_iff.1 h3] at hr
        cases hr
      · have hc := List.all_eq_true.1 hc _ (mem_distinct (fun _ _ => sameList_eq fun _ _ => Re.same_eq)
          (List.mem_map.2 ⟨c, digit_listed hd, rfl⟩))
        obtain ⟨x, hx, hlx⟩ := ih (p := p + byteLen [c]) (fun d hd => hs d (by simp [hd])) (by simpa using hb) (by
          intro x hx
          obtain ⟨r, hr, hx⟩ := List.mem_flatMap.1 (of_mem_distinct hx)
          exact plain_of_lefts (hl r hr) hx) hc (by
          rcases h with h | ⟨r, hr, w, q, e, hlang⟩
          · left; rw [h]; rfl
          · cases w with
            | nil =>
              left
              rw [List.nil_append] at e
              have := lang_nullMid hlang (by rw [← e]; simp)
              rw [(plain_null (hl r hr)).1] at this
              rw [show l.any Re.null = true from List.any_eq_true.2 ⟨r, hr, this⟩]; simp
            | cons d w =>
              right
              rw [List.cons_append, List.cons.injEq] at e
              obtain ⟨rfl, rfl⟩ := e
              obtain ⟨x, hx, hlx⟩ := lang_rests hd hlang
              rw [← plain_lefts (hl r hr)] at hx
              exact ⟨x, mem_distinct (fun _ _ => Re.same_eq) (List.mem_flatMap.2 ⟨r, hr, hx⟩), w, q, rfl, hlx⟩)
        obtain ⟨r, hr, hx⟩ := List.mem_flatMap.1 (of_mem_distinct hx)
        exact ⟨r, hr, lefts_lang hd hx hlx⟩

/-- Soundness of `whole`. -/
theorem whole_of_lang {s : Str} {l : List Re} (hs : ∀ c ∈ s, isDigit c = true) {r : Re} (hr : r ∈ l) {p : Nat} (h : Lang r p s []) :
    whole l s = true := by
  induction s generalizing l r p with
  | nil => exact List.any_eq_true.2 ⟨r, hr, lang_nullEnd h⟩
  | cons c s ih =>
    obtain ⟨x, hx, hl⟩ := lang_rests (hs c (by simp)) h
    exact ih (fun d hd => hs d (by simp [hd])) (mem_distinct (fun _ _ => Re.same_eq) (List.mem_flatMap.2 ⟨r, hr, hx⟩)) hl

end Phone
