import Verif.Regex.Captures
/-! # The matches in which a group takes part -/

namespace Phone

/-- A pattern for the matches in which group `j` takes part. Stars are left as they are. -/
def Re.using (j : Nat) : Re → Re
  | .cat a b => .alt (.cat (a.using j) b) (.cat a (b.using j))
  | .alt a b => .alt (a.using j) (b.using j)
  | .star g a => .star g a
  | .grp n a => if Nat.beq n j then a else a.using j
  | _ => .cls ⟨false, []⟩

variable [UnicodeTables]

theorem run_using (j : Nat) (r : Re) : ∀ s s', s' ∈ run r s → hasCap j s'.caps → ¬ hasCap j s.caps →
    ∃ w, Step s s' w ∧ Lang (r.using j) s.pos w s'.rest := by
  induction r with
  | eps => intro s s' h h1 h2; simp only [run, List.mem_singleton] at h; subst h; exact absurd h1 h2
  | cls k =>
    intro s s' h h1 h2
    simp only [run] at h
    split at h
    · cases h
    · split at h
      · simp only [List.mem_singleton] at h
        subst h
        exact absurd h1 h2
      · cases h
  | cat a b iha ihb =>
    intro s s' h h1 h2
    simp only [run, List.mem_flatMap] at h
    obtain ⟨t, ht, h⟩ := h
    by_cases hc : hasCap j t.caps
    · obtain ⟨u, su, lu⟩ := iha s t ht hc h2
      obtain ⟨v, sv, lv⟩ := run_sound b t s' h
      refine ⟨u ++ v, su.trans sv, lang_alt.2 (.inl (.cat ?_ ?_))⟩
      · rw [← sv.rest]; exact lu
      · rw [← su.pos]; exact lv
    · obtain ⟨u, su, lu⟩ := run_sound a s t ht
      obtain ⟨v, sv, lv⟩ := ihb t s' h h1 hc
      refine ⟨u ++ v, su.trans sv, lang_alt.2 (.inr (.cat ?_ ?_))⟩
      · rw [← sv.rest]; exact lu
      · rw [← su.pos]; exact lv
  | alt a b iha ihb =>
    intro s s' h h1 h2
    simp only [run, List.mem_append] at h
    rcases h with h | h
    · obtain ⟨w, sw, lw⟩ := iha s s' h h1 h2
      exact ⟨w, sw, lang_alt.2 (.inl lw)⟩
    · obtain ⟨w, sw, lw⟩ := ihb s s' h h1 h2
      exact ⟨w, sw, lang_alt.2 (.inr lw)⟩
  | star g a ih => intro s s' h _ _; exact run_sound _ s s' h
  | grp n a ih =>
    intro s s' h h1 h2
    have h0 := h
    simp only [run, List.mem_map] at h
    obtain ⟨t, ht, rfl⟩ := h
    obtain ⟨w, sw, lw⟩ := run_sound _ s _ h0
    simp only [Re.using]
    split
    · exact ⟨w, sw, lang_grp.1 lw⟩
    · rename_i hn
      simp only [hasCap_cons] at h1
      obtain ⟨w', sw', lw'⟩ := ih s t ht (h1.resolve_left fun e => hn (by rw [e]; exact Nat.beq_refl j)) h2
      have : w = w' := by
        have := sw.rest.symm.trans sw'.rest
        exact List.append_cancel_right this
      exact ⟨w, sw, this ▸ lw'⟩
  | bos =>
    intro s s' h h1 h2
    simp only [run] at h
    split at h
    · simp only [List.mem_singleton] at h; subst h; exact absurd h1 h2
    · cases h
  | eos =>
    intro s s' h h1 h2
    simp only [run] at h
    split at h
    · simp only [List.mem_singleton] at h; subst h; exact absurd h1 h2
    · cases h

/-- If a group takes part in a match, the text is one of those the group takes part in. -/
theorem find_using {r : Regex} {s : Str} {m : Match} (h : r.find s = some m) {j : Nat} (hj : j ≠ 0) (hg : (m.get j).isSome) :
    Lang (r.re.using j) (byteLen m.pre) m.text m.post := by
  have hb := (find_eq_some h).best
  simp only [matchAt, Option.map_eq_some_iff] at hb
  obtain ⟨s', hs, e⟩ := hb
  have hcaps : s'.caps = m.caps := by rw [← e]
  have hpost : s'.rest = m.post := by rw [← e]
  obtain ⟨w, sw, lw⟩ := run_using j _ _ _ (List.mem_of_head? hs) (by rw [hcaps]; exact (get_isSome_iff hj).1 hg) (by simp)
  have : w = m.text := by
    have := sw.rest
    simp only [hpost] at this
    exact (List.append_cancel_right this).symm
  rw [← this, ← hpost]
  exact lw

end Phone
