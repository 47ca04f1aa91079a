import Verif.Regex.Captures
import Verif.Regex.Stars
/-! # Groups that never capture the empty string -/

namespace Phone

/-- No group may match the empty string. -/
def Re.filled : Re → Bool
  | .grp _ a => !a.nullable && a.filled
  | .cat a b | .alt a b => a.filled && b.filled
  | .star _ a => a.filled
  | _ => true

variable [UnicodeTables]

theorem run_filled (r : Re) (hr : r.filled = true) : ∀ s s', s' ∈ run r s → ∃ nc, s'.caps = nc ++ s.caps ∧ ∀ c ∈ nc, c.text ≠ [] := by
  induction r with
  | eps => intro s s' h; simp only [run, List.mem_singleton] at h; subst h; exact ⟨[], by simp⟩
  | cls k =>
    intro s s' h
    simp only [run] at h
    split at h
    · cases h
    · split at h
      · simp only [List.mem_singleton] at h
        subst h
        exact ⟨[], by simp⟩
      · cases h
  | cat a b iha ihb =>
    simp only [Re.filled, Bool.and_eq_true] at hr
    intro s s' h
    simp only [run, List.mem_flatMap] at h
    obtain ⟨t, ht, h⟩ := h
    obtain ⟨u, hu, a1⟩ := iha hr.1 s t ht
    obtain ⟨v, hv, b1⟩ := ihb hr.2 t s' h
    refine ⟨v ++ u, by rw [hv, hu, List.append_assoc], ?_⟩
    intro c hc
    rcases List.mem_append.1 hc with hc | hc
    · exact b1 c hc
    · exact a1 c hc
  | alt a b iha ihb =>
    simp only [Re.filled, Bool.and_eq_true] at hr
    intro s s' h
    simp only [run, List.mem_append] at h
    rcases h with h | h
    · exact iha hr.1 s s' h
    · exact ihb hr.2 s s' h
  | star g a ih =>
    intro s s' h
    refine starRun_caps (f := run a) (g := g) (P := fun nc => ∀ c ∈ nc, c.text ≠ []) (by simp) ?_ (ih hr) _ s s' h
    intro x y hx hy c hc
    rcases List.mem_append.1 hc with hc | hc
    · exact hx c hc
    · exact hy c hc
  | grp n a ih =>
    simp only [Re.filled, Bool.and_eq_true, Bool.not_eq_true'] at hr
    intro s s' h
    simp only [run, List.mem_map] at h
    obtain ⟨t, ht, rfl⟩ := h
    obtain ⟨u, hu, a1⟩ := ih hr.2 s t ht
    refine ⟨⟨n, s.pos, s.consumed t⟩ :: u, by simp [hu], ?_⟩
    intro c hc
    rcases List.mem_cons.1 hc with rfl | hc
    · obtain ⟨w, hw, hl⟩ := run_sound a s t ht
      have : s.consumed t = w := by unfold St.consumed; rw [hw.rest, take_consumed]
      simp only [this]
      intro h0
      have := nullable_of_lang hl h0
      rw [hr.1] at this
      cases this
    · exact a1 c hc
  | bos =>
    intro s s' h
    simp only [run] at h
    split at h
    · simp only [List.mem_singleton] at h; subst h; exact ⟨[], by simp⟩
    · cases h
  | eos =>
    intro s s' h
    simp only [run] at h
    split at h
    · simp only [List.mem_singleton] at h; subst h; exact ⟨[], by simp⟩
    · cases h

/-- No group of a match is empty. -/
theorem find_filled {r : Regex} {s : Str} {m : Match} (h : r.find s = some m) (hr : r.re.filled = true) {i : Nat} (hi : i ≠ 0) :
    m.get i ≠ some [] := by
  have hb := (find_eq_some h).best
  simp only [matchAt, Option.map_eq_some_iff] at hb
  obtain ⟨s', hs, he⟩ := hb
  obtain ⟨nc, hn, h1⟩ := run_filled r.re hr _ s' (List.mem_of_head? hs)
  have hcaps : m.caps = nc := by rw [← he]; simpa using hn
  intro hg
  simp only [Match.get, if_neg hi, Option.map_eq_some_iff] at hg
  obtain ⟨c, hc, ht⟩ := hg
  rw [hcaps] at hc
  exact h1 c (List.mem_of_find?_eq_some hc) ht

end Phone
