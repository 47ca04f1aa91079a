import Verif.Regex.Match
import Verif.Basic.StrLemmas
/-! # The matcher agrees with a denotational reading of regular expressions -/

namespace Phone
variable [UnicodeTables]

/-- `Lang r p w q`: at byte position `p`, `r` can match the text `w` when `q` is the text that follows. -/
inductive Lang : Re → Nat → Str → Str → Prop where
  | eps {p q} : Lang .eps p [] q
  | cls {k : Cls} {c p q} : k.mem c = true → Lang (.cls k) p [c] q
  | cat {a b p u v q} : Lang a p u (v ++ q) → Lang b (p + byteLen u) v q → Lang (.cat a b) p (u ++ v) q
  | altL {a b p w q} : Lang a p w q → Lang (.alt a b) p w q
  | altR {a b p w q} : Lang b p w q → Lang (.alt a b) p w q
  | starNil {g a p q} : Lang (.star g a) p [] q
  | starCons {g a p u v q} : u ≠ [] → Lang a p u (v ++ q) → Lang (.star g a) (p + byteLen u) v q →
      Lang (.star g a) p (u ++ v) q
  | grp {n a p w q} : Lang a p w q → Lang (.grp n a) p w q
  | bos {q} : Lang .bos 0 [] q
  | eos {p} : Lang .eos p [] []

/-- A step of the matcher: consumes `w`, adds captures taken from `w`. -/
structure Step (s s' : St) (w : Str) : Prop where
  rest : s.rest = w ++ s'.rest
  pos : s'.pos = s.pos + byteLen w
  caps : ∃ nc, s'.caps = nc ++ s.caps ∧
    ∀ c ∈ nc, ∃ x y, w = x ++ c.text ++ y ∧ c.start = s.pos + byteLen x

omit [UnicodeTables] in
theorem Step.refl (s : St) : Step s s [] := ⟨rfl, rfl, [], rfl, by simp⟩

omit [UnicodeTables] in
theorem Step.trans {s s' s'' : St} {u v : Str} (h : Step s s' u) (h' : Step s' s'' v) : Step s s'' (u ++ v) := by
  refine ⟨by rw [h.rest, h'.rest, List.append_assoc], by rw [h'.pos, h.pos, byteLen_append]; omega, ?_⟩
  obtain ⟨n1, e1, c1⟩ := h.caps
  obtain ⟨n2, e2, c2⟩ := h'.caps
  refine ⟨n2 ++ n1, by rw [e2, e1, List.append_assoc], ?_⟩
  intro c hc
  rcases List.mem_append.1 hc with hc | hc
  · obtain ⟨x, y, rfl, hs⟩ := c2 c hc
    exact ⟨u ++ x, y, by simp, by rw [hs, h.pos, byteLen_append]; omega⟩
  · obtain ⟨x, y, rfl, hs⟩ := c1 c hc
    exact ⟨x, y ++ v, by simp, hs⟩

omit [UnicodeTables] in
theorem take_consumed (w r : Str) : (w ++ r).take ((w ++ r).length - r.length) = w := by
  have : (w ++ r).length - r.length = w.length := by simp
  rw [this]; simp

theorem starRun_sound {f : St → List St} {g : Bool} {a : Re}
    (hf : ∀ s s', s' ∈ f s → ∃ w, Step s s' w ∧ Lang a s.pos w s'.rest) :
    ∀ n s s', s' ∈ starRun f g n s → ∃ w, Step s s' w ∧ Lang (.star g a) s.pos w s'.rest := by
  intro n
  induction n with
  | zero => intro s s' h; simp only [starRun, List.mem_singleton] at h; subst h; exact ⟨[], .refl s', .starNil⟩
  | succ n ih =>
    intro s s' h
    have h : s' = s ∨ ∃ t ∈ f s, t.rest.length < s.rest.length ∧ s' ∈ starRun f g n t := by
      simp only [starRun] at h
      cases g <;> simp only [Bool.false_eq_true, if_false, if_true, List.mem_cons, List.mem_append, List.mem_flatMap,
        List.not_mem_nil, or_false] at h
      · rcases h with h | ⟨t, ht, h⟩
        · exact .inl h
        · split at h
          · exact .inr ⟨t, ht, by assumption, h⟩
          · cases h
      · rcases h with ⟨t, ht, h⟩ | h
        · split at h
          · exact .inr ⟨t, ht, by assumption, h⟩
          · cases h
        · exact .inl h
    rcases h with rfl | ⟨t, ht, hlt, h⟩
    · exact ⟨[], .refl s', .starNil⟩
    · obtain ⟨u, hu, lu⟩ := hf s t ht
      obtain ⟨v, hv, lv⟩ := ih t s' h
      refine ⟨u ++ v, hu.trans hv, .starCons ?_ ?_ ?_⟩
      · rintro rfl
        have := hu.rest
        simp at this
        rw [this] at hlt; omega
      · rw [← hv.rest]; exact lu
      · rw [← hu.pos]; exact lv

/-- Soundness: every state the matcher reaches is reached by consuming a text of the language. -/
theorem run_sound (r : Re) : ∀ s s', s' ∈ run r s → ∃ w, Step s s' w ∧ Lang r s.pos w s'.rest := by
  induction r with
  | eps => intro s s' h; simp only [run, List.mem_singleton] at h; subst h; exact ⟨[], .refl s', .eps⟩
  | cls k =>
    intro s s' h
    simp only [run] at h
    split at h
    · cases h
    · rename_i c cs hr
      split at h
      · rename_i hk
        simp only [List.mem_singleton] at h
        subst h
        exact ⟨[c], ⟨by simp [hr], by simp, [], rfl, by simp⟩, .cls hk⟩
      · cases h
  | cat a b iha ihb =>
    intro s s' h
    simp only [run, List.mem_flatMap] at h
    obtain ⟨t, ht, h⟩ := h
    obtain ⟨u, hu, lu⟩ := iha s t ht
    obtain ⟨v, hv, lv⟩ := ihb t s' h
    exact ⟨u ++ v, hu.trans hv, .cat (by rw [← hv.rest]; exact lu) (by rw [← hu.pos]; exact lv)⟩
  | alt a b iha ihb =>
    intro s s' h
    simp only [run, List.mem_append] at h
    rcases h with h | h
    · obtain ⟨w, hw, lw⟩ := iha s s' h; exact ⟨w, hw, .altL lw⟩
    · obtain ⟨w, hw, lw⟩ := ihb s s' h; exact ⟨w, hw, .altR lw⟩
  | star g a ih =>
    intro s s' h
    exact starRun_sound ih _ s s' h
  | grp n a ih =>
    intro s s' h
    simp only [run, List.mem_map] at h
    obtain ⟨t, ht, rfl⟩ := h
    obtain ⟨w, hw, lw⟩ := ih s t ht
    refine ⟨w, ⟨hw.rest, hw.pos, ?_⟩, .grp lw⟩
    obtain ⟨nc, e, hc⟩ := hw.caps
    refine ⟨⟨n, s.pos, s.consumed t⟩ :: nc, by simp [e], ?_⟩
    intro c h
    rcases List.mem_cons.1 h with rfl | h
    · refine ⟨[], [], ?_, by simp⟩
      simp only [St.consumed, List.nil_append, List.append_nil]
      rw [hw.rest, take_consumed]
    · exact hc c h
  | bos =>
    intro s s' h
    simp only [run] at h
    split at h
    · rename_i h0
      simp only [List.mem_singleton] at h
      subst h
      exact ⟨[], .refl s', by rw [h0]; exact .bos⟩
    · cases h
  | eos =>
    intro s s' h
    simp only [run] at h
    split at h
    · rename_i h0
      simp only [List.mem_singleton] at h
      subst h
      exact ⟨[], .refl s', by rw [h0]; exact .eos⟩
    · cases h

omit [UnicodeTables] in
theorem starRun_self (f : St → List St) (g : Bool) (n : Nat) (s : St) : s ∈ starRun f g n s := by
  cases n with
  | zero => simp [starRun]
  | succ n => cases g <;> simp [starRun]

/-- Completeness: every text of the language is found. -/
theorem run_complete {r : Re} {p : Nat} {w q : Str} (h : Lang r p w q) :
    ∀ caps, ∃ caps', ⟨p + byteLen w, q, caps'⟩ ∈ run r ⟨p, w ++ q, caps⟩ := by
  have star : ∀ {r : Re} {p : Nat} {w q : Str}, Lang r p w q →
      match r with
      | .star g a => ∀ caps n, w.length ≤ n → ∃ caps', ⟨p + byteLen w, q, caps'⟩ ∈ starRun (run a) g n ⟨p, w ++ q, caps⟩
      | r => ∀ caps, ∃ caps', ⟨p + byteLen w, q, caps'⟩ ∈ run r ⟨p, w ++ q, caps⟩ := by
    intro r p w q h
    induction h with
    | eps => intro caps; exact ⟨caps, by simp [run]⟩
    | cls hk => intro caps; exact ⟨caps, by simp [run, hk]⟩
    | @cat a b p u v q _ _ iha ihb =>
      intro caps
      have ra : ∃ c1, ⟨p + byteLen u, v ++ q, c1⟩ ∈ run a ⟨p, u ++ (v ++ q), caps⟩ := by
        cases a with
        | star g a => exact iha caps _ (by simp)
        | _ => exact iha caps
      obtain ⟨c1, h1⟩ := ra
      have rb : ∃ c2, ⟨p + byteLen u + byteLen v, q, c2⟩ ∈ run b ⟨p + byteLen u, v ++ q, c1⟩ := by
        cases b with
        | star g a => exact ihb c1 _ (by simp)
        | _ => exact ihb c1
      obtain ⟨c2, h2⟩ := rb
      refine ⟨c2, ?_⟩
      simp only [run, List.mem_flatMap, List.append_assoc, byteLen_append]
      exact ⟨_, h1, by rw [← Nat.add_assoc]; exact h2⟩
    | @altL a b p w q _ ih =>
      intro caps
      have ra : ∃ c1, ⟨p + byteLen w, q, c1⟩ ∈ run a ⟨p, w ++ q, caps⟩ := by
        cases a with
        | star g a => exact ih caps _ (by simp)
        | _ => exact ih caps
      obtain ⟨c1, h1⟩ := ra
      exact ⟨c1, by simp [run, h1]⟩
    | @altR a b p w q _ ih =>
      intro caps
      have ra : ∃ c1, ⟨p + byteLen w, q, c1⟩ ∈ run b ⟨p, w ++ q, caps⟩ := by
        cases b with
        | star g a => exact ih caps _ (by simp)
        | _ => exact ih caps
      obtain ⟨c1, h1⟩ := ra
      exact ⟨c1, by simp [run, h1]⟩
    | starNil => intro caps n _; exact ⟨caps, by simpa using starRun_self _ _ _ _⟩
    | @starCons g a p u v q hu _ _ iha ihs =>
      intro caps n hn
      have hul : 0 < u.length := List.length_pos_iff.2 hu
      cases n with
      | zero => simp at hn; exact absurd hn.1 hu
      | succ n =>
        have ra : ∃ c1, ⟨p + byteLen u, v ++ q, c1⟩ ∈ run a ⟨p, u ++ (v ++ q), caps⟩ := by
          cases a with
          | star g a => exact iha caps _ (by simp)
          | _ => exact iha caps
        obtain ⟨c1, h1⟩ := ra
        obtain ⟨c2, h2⟩ := ihs c1 n (by simp at hn; omega)
        refine ⟨c2, ?_⟩
        have hmem : (⟨p + byteLen (u ++ v), q, c2⟩ : St) ∈ (run a ⟨p, u ++ (v ++ q), caps⟩).flatMap fun s' =>
            if s'.rest.length < (u ++ (v ++ q)).length then starRun (run a) g n s' else [] := by
          simp only [List.mem_flatMap]
          refine ⟨_, h1, ?_⟩
          rw [if_pos (by simp; omega), byteLen_append, ← Nat.add_assoc]
          exact h2
        rw [List.append_assoc]
        cases g <;> simp only [starRun, Bool.false_eq_true, if_false, if_true, List.mem_cons, List.mem_append]
        · exact .inr hmem
        · exact .inl hmem
    | @grp n a p w q _ ih =>
      intro caps
      have ra : ∃ c1, ⟨p + byteLen w, q, c1⟩ ∈ run a ⟨p, w ++ q, caps⟩ := by
        cases a with
        | star g a => exact ih caps _ (by simp)
        | _ => exact ih caps
      obtain ⟨c1, h1⟩ := ra
      exact ⟨_, by simp only [run, List.mem_map]; exact ⟨_, h1, rfl⟩⟩
    | bos => intro caps; exact ⟨caps, by simp [run]⟩
    | eos => intro caps; exact ⟨caps, by simp [run]⟩
  intro caps
  have := star h
  cases r with
  | star g a => exact this caps _ (by simp)
  | _ => exact this caps

/-- A regex can match at a position of the text. -/
def MatchesAt (r : Re) (pre rest : Str) : Prop := ∃ w q, rest = w ++ q ∧ Lang r (byteLen pre) w q

theorem matchAt_eq_some {r : Re} {pre rest : Str} {m : Match} (h : matchAt r pre rest = some m) :
    m.pre = pre ∧ rest = m.text ++ m.post ∧ Lang r (byteLen pre) m.text m.post ∧
    ∀ c ∈ m.caps, ∃ x y, m.text = x ++ c.text ++ y ∧ c.start = byteLen pre + byteLen x := by
  simp only [matchAt, Option.map_eq_some_iff] at h
  obtain ⟨s', hs, rfl⟩ := h
  obtain ⟨w, hw, lw⟩ := run_sound r _ s' (List.mem_of_head? hs)
  have hr := hw.rest
  simp only at hr
  obtain ⟨nc, e, hc⟩ := hw.caps
  simp only [List.append_nil] at e
  have ht : rest.take (rest.length - s'.rest.length) = w := by rw [hr, take_consumed]
  simp only [ht]
  exact ⟨trivial, hr, lw, by rw [e]; exact hc⟩

theorem matchAt_eq_none {r : Re} {pre rest : Str} : matchAt r pre rest = none ↔ ¬ MatchesAt r pre rest := by
  constructor
  · intro h ⟨w, q, hr, hl⟩
    obtain ⟨caps', hm⟩ := run_complete hl []
    simp only [matchAt, Option.map_eq_none_iff, List.head?_eq_none_iff] at h
    rw [hr] at h
    rw [h] at hm
    cases hm
  · intro h
    cases hm : matchAt r pre rest with
    | none => rfl
    | some m =>
      obtain ⟨_, h2, h3, _⟩ := matchAt_eq_some hm
      exact absurd ⟨_, _, h2, h3⟩ h

theorem searchFrom_eq_some {r : Re} {pre rest : Str} {m : Match} (h : searchFrom r pre rest = some m) :
    ∃ sk, m.pre = pre ++ sk ∧ rest = sk ++ m.text ++ m.post ∧ matchAt r m.pre (m.text ++ m.post) = some m ∧
      ∀ a b, rest = a ++ b → a.length < sk.length → ¬ MatchesAt r (pre ++ a) b := by
  induction rest generalizing pre with
  | nil =>
    simp only [searchFrom] at h
    obtain ⟨h1, h2, h3, h4⟩ := matchAt_eq_some h
    exact ⟨[], by simp [h1], by simpa using h2, by rw [h1, ← h2]; exact h, by simp⟩
  | cons c cs ih =>
    simp only [searchFrom] at h
    split at h
    · rename_i m' hm
      cases h
      obtain ⟨h1, h2, h3, h4⟩ := matchAt_eq_some hm
      exact ⟨[], by simp [h1], by simpa using h2, by rw [h1, ← h2]; exact hm, by simp⟩
    · rename_i hn
      obtain ⟨sk, h1, h2, h3, h4⟩ := ih h
      refine ⟨c :: sk, by simp [h1], by simp [h2], h3, ?_⟩
      intro a b hab hlt
      cases a with
      | nil => simp at hab; rw [← hab]; simpa using matchAt_eq_none.1 hn
      | cons d a =>
        simp only [List.cons_append, List.cons.injEq] at hab
        obtain ⟨rfl, hab⟩ := hab
        simpa using h4 a b hab (by simpa using hlt)

theorem searchFrom_eq_none {r : Re} {pre rest : Str} :
    searchFrom r pre rest = none ↔ ∀ a b, rest = a ++ b → ¬ MatchesAt r (pre ++ a) b := by
  induction rest generalizing pre with
  | nil =>
    simp only [searchFrom, matchAt_eq_none]
    constructor
    · intro h a b hab
      have := List.append_eq_nil_iff.1 hab.symm
      rw [this.1, this.2]; simpa using h
    · intro h; simpa using h [] [] rfl
  | cons c cs ih =>
    simp only [searchFrom]
    split
    · rename_i m hm
      simp only [reduceCtorEq, false_iff]
      intro h
      obtain ⟨h1, h2, h3, _⟩ := matchAt_eq_some hm
      exact h [] (c :: cs) rfl ⟨_, _, h2, by simpa using h3⟩
    · rename_i hn
      rw [ih]
      constructor
      · intro h a b hab
        cases a with
        | nil => simp at hab; rw [← hab]; simpa using matchAt_eq_none.1 hn
        | cons d a =>
          simp only [List.cons_append, List.cons.injEq] at hab
          obtain ⟨rfl, hab⟩ := hab
          simpa using h a b hab
      · intro h a b hab
        simpa using h (c :: a) b (by simp [hab])

/-- What a successful search gives. -/
structure Found (r : Regex) (s : Str) (m : Match) : Prop where
  split : s = m.pre ++ m.text ++ m.post
  lang : Lang r.re (byteLen m.pre) m.text m.post
  caps : ∀ c ∈ m.caps, ∃ x y, m.text = x ++ c.text ++ y ∧ c.start = byteLen m.pre + byteLen x
  best : matchAt r.re m.pre (m.text ++ m.post) = some m
  leftmost : ∀ a b, s = a ++ b → a.length < m.pre.length → ¬ MatchesAt r.re a b

theorem find_eq_some {r : Regex} {s : Str} {m : Match} (h : r.find s = some m) : Found r s m := by
  obtain ⟨sk, h1, h2, h3, h4⟩ := searchFrom_eq_some h
  obtain ⟨_, _, h6, h7⟩ := matchAt_eq_some h3
  simp only [List.nil_append] at h1 h4
  exact ⟨by rw [h1]; exact h2, h6, h7, h3, by rw [h1]; exact h4⟩

theorem find_eq_none {r : Regex} {s : Str} : r.find s = none ↔ ∀ a b, s = a ++ b → ¬ MatchesAt r.re a b := by
  simpa [Regex.find] using searchFrom_eq_none (r := r.re) (pre := []) (rest := s)

theorem isMatch_iff {r : Regex} {s : Str} : r.isMatch s = true ↔ ∃ a b, s = a ++ b ∧ MatchesAt r.re a b := by
  simp only [Regex.isMatch]
  cases h : r.find s with
  | none =>
    rw [find_eq_none] at h
    simp only [Option.isSome_none, Bool.false_eq_true, false_iff]
    rintro ⟨a, b, hab, hm⟩
    exact h a b hab hm
  | some m =>
    have f := find_eq_some h
    simp only [Option.isSome_some, true_iff]
    exact ⟨m.pre, m.text ++ m.post, by rw [f.split, List.append_assoc], _, _, rfl, f.lang⟩

/-- The leftmost match is at the start exactly when some match starts there. -/
theorem find_at_start_iff {r : Regex} {s : Str} :
    (∃ m, r.find s = some m ∧ m.pre = []) ↔ MatchesAt r.re [] s := by
  constructor
  · rintro ⟨m, h, hp⟩
    have f := find_eq_some h
    have h1 := f.split
    have h2 := f.lang
    rw [hp] at h1 h2
    exact ⟨_, _, by simpa using h1, h2⟩
  · intro hm
    cases h : r.find s with
    | none => exact absurd hm (find_eq_none.1 h [] s rfl)
    | some m =>
      refine ⟨m, rfl, ?_⟩
      have f := find_eq_some h
      cases hp : m.pre with
      | nil => rfl
      | cons c p => exact absurd hm (f.leftmost [] s rfl (by simp [hp]))

omit [UnicodeTables] in
theorem Match.start_eq_zero {m : Match} : m.start = 0 ↔ m.pre = [] := byteLen_eq_zero

theorem Found.stop_eq {r : Regex} {s : Str} {m : Match} (f : Found r s m) :
    dropBytes s m.stop = some m.post ∧ takeBytes s m.stop = some (m.pre ++ m.text) ∧
    dropBytes s m.start = some (m.text ++ m.post) ∧ takeBytes s m.start = some m.pre := by
  have h := f.split
  refine ⟨?_, ?_, ?_, ?_⟩
  · rw [h, Match.stop, ← byteLen_append]; exact dropBytes_append _ _
  · rw [h, Match.stop, ← byteLen_append]; exact takeBytes_append _ _
  · rw [h, List.append_assoc]; exact dropBytes_append _ _
  · rw [h, List.append_assoc]; exact takeBytes_append _ _

theorem Found.get {r : Regex} {s : Str} {m : Match} (f : Found r s m) {n : Nat} {t : Str} (h : m.get n = some t) :
    ∃ x y, m.text = x ++ t ++ y := by
  unfold Match.get at h
  split at h
  · cases h; exact ⟨[], [], by simp⟩
  · simp only [Option.map_eq_some_iff] at h
    obtain ⟨c, hc, rfl⟩ := h
    obtain ⟨x, y, h, _⟩ := f.caps c (List.mem_of_find?_eq_some hc)
    exact ⟨x, y, h⟩

end Phone
