import Verif.Regex.Captures
/-! # What surrounds a group in a match -/

namespace Phone

/-- Group `j` occurs at most once on every way through the pattern, and not repeatedly. -/
def Re.once (j : Nat) : Re → Bool
  | .cat a b => a.once j && b.once j && !(a.may j && b.may j)
  | .alt a b => a.once j && b.once j
  | .star _ a => !a.may j
  | .grp n a => if Nat.beq n j then !a.may j else a.once j
  | _ => true

/-- For each place of group `j`: what is before it, in it and after it. -/
def Re.around (j : Nat) : Re → List (Re × Re × Re)
  | .cat a b => ((a.around j).map fun x => (x.1, x.2.1, .cat x.2.2 b)) ++ (b.around j).map fun x => (.cat a x.1, x.2)
  | .alt a b => a.around j ++ b.around j
  | .grp n a => if Nat.beq n j then [(.eps, a, .eps)] else a.around j
  | _ => []

/-- The texts the pattern may match, if it is a choice between texts. -/
def Re.words : Re → Option (List Str)
  | .cls ⟨false, [.range a b]⟩ => if a == b then some [[a]] else none
  | .cls ⟨false, [.range a b, .range c d]⟩ => if a == b && c == d then some [[a], [c]] else none
  | .cls _ => none
  | .cat a b => match a.words, b.words with
    | some x, some y => some (x.flatMap fun u => y.map (u ++ ·))
    | _, _ => none
  | .alt a b => match a.words, b.words with
    | some x, some y => some (x ++ y)
    | _, _ => none
  | .grp _ a => a.words
  | .star _ _ => none
  | _ => some [[]]

/-- The length of the texts the pattern matches, if they all have the same. -/
def Re.width : Re → Option Nat
  | .cls _ => some 1
  | .cat a b => match a.width, b.width with
    | some x, some y => some (x + y)
    | _, _ => none
  | .alt a b => match a.width, b.width with
    | some x, some y => if Nat.beq x y then some x else none
    | _, _ => none
  | .grp _ a => a.width
  | .star _ _ => none
  | _ => some 0

/-- The lengths of the texts the pattern matches, if it has no star. -/
def Re.widths : Re → Option (List Nat)
  | .cls _ => some [1]
  | .cat a b => match a.widths, b.widths with
    | some x, some y => some (x.flatMap fun u => y.map (u + ·))
    | _, _ => none
  | .alt a b => match a.widths, b.widths with
    | some x, some y => some (x ++ y)
    | _, _ => none
  | .grp _ a => a.widths
  | .star _ _ => none
  | _ => some [0]

/-- A match of the pattern is at the end of the text. -/
def Re.atEnd : Re → Bool
  | .cat a b => a.atEnd || b.atEnd
  | .alt a b => a.atEnd && b.atEnd
  | .grp _ a => a.atEnd
  | .eos => true
  | _ => false

variable [UnicodeTables]

theorem lang_words {r : Re} {l : List Str} (h : r.words = some l) {p : Nat} {w q : Str} (hl : Lang r p w q) : w ∈ l := by
  induction r generalizing l p w q with
  | eps => cases h; rw [lang_eps.1 hl]; simp
  | cls k =>
    obtain ⟨c, rfl, hc⟩ := lang_cls.1 hl
    obtain ⟨n, is⟩ := k
    unfold Re.words at h
    split at h
    · rename_i a b e
      split at h
      · rename_i hab
        cases h
        have hab : a = b := by simpa using hab
        subst hab
        cases e
        simp only [Cls.mem, List.any_cons, List.any_nil, CItem.mem, Bool.or_false, bne_iff_ne, ne_eq, Bool.not_eq_false, Bool.and_eq_true,
          decide_eq_true_eq] at hc
        have : c = a := by
          have h1 := hc.1
          have h2 := hc.2
          exact Char.le_antisymm h2 h1
        simp [this]
      · cases h
    · rename_i a b c' d e
      split at h
      · rename_i hab
        cases h
        rw [Bool.and_eq_true, beq_iff_eq, beq_iff_eq] at hab
        obtain ⟨rfl, rfl⟩ := hab
        cases e
        simp only [Cls.mem, List.any_cons, List.any_nil, CItem.mem, Bool.or_false, bne_iff_ne, ne_eq, Bool.not_eq_false, Bool.and_eq_true,
          decide_eq_true_eq, Bool.or_eq_true] at hc
        rcases hc with hc | hc
        · simp [Char.le_antisymm hc.2 hc.1]
        · simp [Char.le_antisymm hc.2 hc.1]
      · cases h
    · cases h
    all_goals simp_all
  | cat a b ha hb =>
    obtain ⟨u, v, rfl, h1, h2⟩ := lang_cat.1 hl
    simp only [Re.words] at h
    split at h
    · rename_i x y hx hy
      cases h
      exact List.mem_flatMap.2 ⟨u, ha hx h1, List.mem_map.2 ⟨v, hb hy h2, rfl⟩⟩
    · cases h
  | alt a b ha hb =>
    simp only [Re.words] at h
    split at h
    · rename_i x y hx hy
      cases h
      rcases lang_alt.1 hl with h | h
      · exact List.mem_append.2 (.inl (ha hx h))
      · exact List.mem_append.2 (.inr (hb hy h))
    · cases h
  | star => cases h
  | grp n a ha => exact ha h (lang_grp.1 hl)
  | bos => cases h; rw [(lang_bos.1 hl).2]; simp
  | eos => cases h; rw [(lang_eos.1 hl).1]; simp

theorem lang_width {r : Re} {n : Nat} (h : r.width = some n) {p : Nat} {w q : Str} (hl : Lang r p w q) : w.length = n := by
  induction r generalizing n p w q with
  | eps => cases h; rw [lang_eps.1 hl]; rfl
  | cls k => obtain ⟨c, rfl, _⟩ := lang_cls.1 hl; cases h; rfl
  | cat a b ha hb =>
    obtain ⟨u, v, rfl, h1, h2⟩ := lang_cat.1 hl
    simp only [Re.width] at h
    split at h
    · rename_i x y hx hy
      cases h
      rw [List.length_append, ha hx h1, hb hy h2]
    · cases h
  | alt a b ha hb =>
    simp only [Re.width] at h
    split at h
    · rename_i x y hx hy
      split at h
      · rename_i e
        cases h
        rcases lang_alt.1 hl with h | h
        · exact ha hx h
        · rw [hb hy h]; exact (Nat.eq_of_beq_eq_true e).symm
      · cases h
    · cases h
  | star => cases h
  | grp n a ha => exact ha h (lang_grp.1 hl)
  | bos => cases h; rw [(lang_bos.1 hl).2]; rfl
  | eos => cases h; rw [(lang_eos.1 hl).1]; rfl

theorem lang_widths {r : Re} {l : List Nat} (h : r.widths = some l) {p : Nat} {w q : Str} (hl : Lang r p w q) : w.length ∈ l := by
  induction r generalizing l p w q with
  | eps => cases h; rw [lang_eps.1 hl]; simp
  | cls k => obtain ⟨c, rfl, _⟩ := lang_cls.1 hl; cases h; simp
  | cat a b ha hb =>
    obtain ⟨u, v, rfl, h1, h2⟩ := lang_cat.1 hl
    simp only [Re.widths] at h
    split at h
    · rename_i x y hx hy
      cases h
      rw [List.length_append]
      exact List.mem_flatMap.2 ⟨_, ha hx h1, List.mem_map.2 ⟨_, hb hy h2, rfl⟩⟩
    · cases h
  | alt a b ha hb =>
    simp only [Re.widths] at h
    split at h
    · rename_i x y hx hy
      cases h
      rcases lang_alt.1 hl with h | h
      · exact List.mem_append.2 (.inl (ha hx h))
      · exact List.mem_append.2 (.inr (hb hy h))
    · cases h
  | star => cases h
  | grp n a ha => exact ha h (lang_grp.1 hl)
  | bos => cases h; rw [(lang_bos.1 hl).2]; simp
  | eos => cases h; rw [(lang_eos.1 hl).1]; simp

theorem lang_atEnd {r : Re} (h : r.atEnd = true) {p : Nat} {w q : Str} (hl : Lang r p w q) : q = [] := by
  induction r generalizing p w q with
  | cat a b ha hb =>
    obtain ⟨u, v, rfl, h1, h2⟩ := lang_cat.1 hl
    simp only [Re.atEnd, Bool.or_eq_true] at h
    rcases h with h | h
    · exact (List.append_eq_nil_iff.1 (ha h h1)).2
    · exact hb h h2
  | alt a b ha hb =>
    simp only [Re.atEnd, Bool.and_eq_true] at h
    rcases lang_alt.1 hl with hl | hl
    · exact ha h.1 hl
    · exact hb h.2 hl
  | grp n a ha => exact ha h (lang_grp.1 hl)
  | eos => exact (lang_eos.1 hl).2
  | _ => cases h

/-- What is before, in and after group `j` in a run in which it takes part. -/
structure Around (j : Nat) (r : Re) (s s' : St) (u c v : Str) : Prop where
  rest : s.rest = u ++ c ++ v ++ s'.rest
  parts : ∃ x ∈ r.around j, Lang x.1 s.pos u (c ++ v ++ s'.rest) ∧ Lang x.2.1 (s.pos + byteLen u) c (v ++ s'.rest) ∧
    Lang x.2.2 (s.pos + byteLen u + byteLen c) v s'.rest

omit [UnicodeTables] in
theorem find_cap {j : Nat} {nc l : List Cap} (h : ¬ hasCap j nc) : (nc ++ l).find? (·.idx == j) = l.find? (·.idx == j) := by
  rw [List.find?_append]
  have : nc.find? (·.idx == j) = none := List.find?_eq_none.2 fun c hc e => h ⟨c, hc, by simpa using e⟩
  rw [this]; rfl

theorem run_around (j : Nat) (r : Re) (ho : r.once j = true) : ∀ s s', s' ∈ run r s → hasCap j s'.caps → ¬ hasCap j s.caps →
    ∃ u c v, Around j r s s' u c v ∧ (s'.caps.find? (·.idx == j)).map Cap.text = some c := by
  induction r with
  | eps => intro s s' h h1 h2; simp only [run, List.mem_singleton] at h; subst h; exact absurd h1 h2
  | cls k =>
    intro s s' h h1 h2
    simp only [run] at h
    split at h
    · cases h
    · split at h
      · simp only [List.mem_singleton] at h
        subst h
        exact absurd h1 h2
      · cases h
  | cat a b iha ihb =>
    intro s s' h h1 h2
    simp only [Re.once, Bool.and_eq_true, Bool.not_eq_true', Bool.and_eq_false_iff] at ho
    simp only [run, List.mem_flatMap] at h
    obtain ⟨t, ht, h⟩ := h
    by_cases hc : hasCap j t.caps
    · obtain ⟨u, c, v, ⟨e, x, hx, l1, l2, l3⟩, hcap⟩ := iha ho.1.1 s t ht hc h2
      obtain ⟨w, sw, lw⟩ := run_sound b t s' h
      obtain ⟨na, ea, ma, _⟩ := run_caps j j a s t ht
      obtain ⟨nb, eb, mb, _⟩ := run_caps j j b t s' h
      have hma : a.may j = true := by
        rw [ea, hasCap_append] at hc
        exact ma (hc.resolve_right h2)
      have hnb : ¬ hasCap j nb := fun hb => by
        rcases ho.2 with e | e
        · rw [hma] at e; cases e
        · rw [mb hb] at e; cases e
      refine ⟨u, c, v ++ w, ⟨by rw [e, sw.rest]; simp, (x.1, x.2.1, .cat x.2.2 b), ?_, ?_, ?_, ?_⟩, ?_⟩
      · exact List.mem_append.2 (.inl (List.mem_map.2 ⟨x, hx, rfl⟩))
      · simpa [sw.rest] using l1
      · simpa [sw.rest] using l2
      · refine lang_cat.2 ⟨v, w, rfl, by rw [← sw.rest]; exact l3, ?_⟩
        obtain ⟨w', sw', _⟩ := run_sound a s t ht
        have : w' = u ++ c ++ v := List.append_cancel_right (sw'.rest.symm.trans e)
        rw [sw'.pos, this] at lw
        simpa [Nat.add_assoc] using lw
      · rw [eb, find_cap hnb, hcap]
    · obtain ⟨w, sw, lw⟩ := run_sound a s t ht
      obtain ⟨u, c, v, ⟨e, x, hx, l1, l2, l3⟩, hcap⟩ := ihb ho.1.2 t s' h h1 hc
      refine ⟨w ++ u, c, v, ⟨by rw [sw.rest, e]; simp, (.cat a x.1, x.2), ?_, ?_, ?_, ?_⟩, hcap⟩
      · exact List.mem_append.2 (.inr (List.mem_map.2 ⟨x, hx, rfl⟩))
      · refine lang_cat.2 ⟨w, u, rfl, ?_, by rw [← sw.pos]; exact l1⟩
        rw [e] at lw
        simpa using lw
      · rw [sw.pos] at l2; simpa [Nat.add_assoc] using l2
      · rw [sw.pos] at l3; simpa [Nat.add_assoc] using l3
  | alt a b iha ihb =>
    intro s s' h h1 h2
    simp only [Re.once, Bool.and_eq_true] at ho
    simp only [run, List.mem_append] at h
    rcases h with h | h
    · obtain ⟨u, c, v, ⟨e, x, hx, h3⟩, hcap⟩ := iha ho.1 s s' h h1 h2
      exact ⟨u, c, v, ⟨e, x, List.mem_append.2 (.inl hx), h3⟩, hcap⟩
    · obtain ⟨u, c, v, ⟨e, x, hx, h3⟩, hcap⟩ := ihb ho.2 s s' h h1 h2
      exact ⟨u, c, v, ⟨e, x, List.mem_append.2 (.inr hx), h3⟩, hcap⟩
  | star g a ih =>
    intro s s' h h1 h2
    obtain ⟨nc, e, m, _⟩ := run_caps j j _ s s' h
    rw [e, hasCap_append] at h1
    have := m (h1.resolve_right h2)
    simp only [Re.may] at this
    simp [Re.once, this] at ho
  | grp n a ih =>
    intro s s' h h1 h2
    have h0 := h
    simp only [run, List.mem_map] at h
    obtain ⟨t, ht, rfl⟩ := h
    simp only [Re.once] at ho
    simp only [hasCap_cons] at h1
    by_cases hn : n = j
    · subst hn
      obtain ⟨w, sw, lw⟩ := run_sound _ s _ ht
      refine ⟨[], w, [], ⟨by simpa using sw.rest, (.eps, a, .eps), ?_, .eps, by simpa using lw, .eps⟩, ?_⟩
      · simp [Re.around, Nat.beq_refl]
      · have : s.consumed t = w := by unfold St.consumed; rw [sw.rest, take_consumed]
        simp [this]
    · have hb : Nat.beq n j = false := by
        cases e : Nat.beq n j with
        | false => rfl
        | true => exact absurd (Nat.eq_of_beq_eq_true e) hn
      simp only [hb, Bool.false_eq_true, if_false] at ho
      obtain ⟨u, c, v, ⟨e, x, hx, h3⟩, hcap⟩ := ih ho s t ht (h1.resolve_left hn) h2
      refine ⟨u, c, v, ⟨e, x, ?_, h3⟩, ?_⟩
      · simp only [Re.around, hb]; exact hx
      · simp [hn, hcap]
  | bos =>
    intro s s' h h1 h2
    simp only [run] at h
    split at h
    · simp only [List.mem_singleton] at h; subst h; exact absurd h1 h2
    · cases h
  | eos =>
    intro s s' h h1 h2
    simp only [run] at h
    split at h
    · simp only [List.mem_singleton] at h; subst h; exact absurd h1 h2
    · cases h

/-- What is before, in and after a group that takes part in a match. -/
theorem find_around {r : Regex} {s : Str} {m : Match} (h : r.find s = some m) (hp : m.pre = []) {j : Nat} (hj : j ≠ 0)
    (ho : r.re.once j = true) (hg : (m.get j).isSome) :
    ∃ u c v, s = u ++ c ++ v ++ m.post ∧ m.get j = some c ∧ ∃ x ∈ r.re.around j, ∃ p1 p2 p3, Lang x.1 p1 u (c ++ v ++ m.post) ∧
      Lang x.2.1 p2 c (v ++ m.post) ∧ Lang x.2.2 p3 v m.post := by
  have hb := (find_eq_some h).best
  simp only [matchAt, Option.map_eq_some_iff] at hb
  obtain ⟨s', hs, e⟩ := hb
  have hcaps : s'.caps = m.caps := by rw [← e]
  have hpost : s'.rest = m.post := by rw [← e]
  obtain ⟨u, c, v, ⟨e1, x, hx, l1, l2, l3⟩, hc⟩ := run_around j _ ho _ _ (List.mem_of_head? hs)
    (by rw [hcaps]; exact (get_isSome_iff hj).1 hg) (by simp)
  rw [hpost] at e1 l1 l2 l3
  refine ⟨u, c, v, ?_, ?_, x, hx, _, _, _, l1, l2, l3⟩
  · rw [← e1, (find_eq_some h).split, hp]; simp
  · rw [Match.get, if_neg hj, ← hcaps, hc]

end Phone
