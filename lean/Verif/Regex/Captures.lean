import Verif.Regex.Lang
/-! # Which groups take part in a match -/

namespace Phone

/-- No capture groups. -/
def Re.noGroups : Re → Bool
  | .cat a b | .alt a b => a.noGroups && b.noGroups
  | .star _ a => a.noGroups
  | .grp _ _ => false
  | _ => true

/-- Group `j` may take part. -/
def Re.may (j : Nat) : Re → Bool
  | .cat a b | .alt a b => a.may j || b.may j
  | .star _ a => a.may j
  | .grp n a => n == j || a.may j
  | _ => false

/-- Group `i` always takes part. -/
def Re.must (i : Nat) : Re → Bool
  | .cat a b => a.must i || b.must i
  | .alt a b => a.must i && b.must i
  | .grp n a => n == i || a.must i
  | _ => false

/-- Whenever group `j` takes part, so does group `i` (sufficient condition). -/
def Re.implies (i j : Nat) : Re → Bool
  | .cat a b => a.must i || b.must i || (a.implies i j && b.implies i j)
  | .alt a b => a.implies i j && b.implies i j
  | .star _ a => a.implies i j
  | .grp n a => n == i || a.must i || (n != j && a.implies i j)
  | _ => true

variable [UnicodeTables]

omit [UnicodeTables] in
/-- Induction principle for a star: a property of the new captures that holds of none and is kept by appending. -/
theorem starRun_caps {f : St → List St} {g : Bool} {P : List Cap → Prop} (h0 : P [])
    (happ : ∀ a b, P a → P b → P (a ++ b)) (hf : ∀ s s', s' ∈ f s → ∃ nc, s'.caps = nc ++ s.caps ∧ P nc) :
    ∀ n s s', s' ∈ starRun f g n s → ∃ nc, s'.caps = nc ++ s.caps ∧ P nc := by
  intro n
  induction n with
  | zero => intro s s' h; simp only [starRun, List.mem_singleton] at h; subst h; exact ⟨[], rfl, h0⟩
  | succ n ih =>
    intro s s' h
    have h : s' = s ∨ ∃ t ∈ f s, s' ∈ starRun f g n t := by
      simp only [starRun] at h
      cases g <;> simp only [Bool.false_eq_true, if_false, if_true, List.mem_cons, List.mem_append, List.mem_flatMap,
        List.not_mem_nil, or_false] at h
      · rcases h with h | ⟨t, ht, h⟩
        · exact .inl h
        · split at h
          · exact .inr ⟨t, ht, h⟩
          · cases h
      · rcases h with ⟨t, ht, h⟩ | h
        · split at h
          · exact .inr ⟨t, ht, h⟩
          · cases h
        · exact .inl h
    rcases h with rfl | ⟨t, ht, h⟩
    · exact ⟨[], rfl, h0⟩
    · obtain ⟨u, hu, pu⟩ := hf s t ht
      obtain ⟨v, hv, pv⟩ := ih t s' h
      exact ⟨v ++ u, by rw [hv, hu, List.append_assoc], happ _ _ pv pu⟩

omit [UnicodeTables] in
/-- A group is among the captures. -/
def hasCap (n : Nat) (nc : List Cap) : Prop := ∃ c ∈ nc, c.idx = n

omit [UnicodeTables] in
@[simp] theorem hasCap_nil {n : Nat} : ¬ hasCap n [] := by simp [hasCap]
omit [UnicodeTables] in
@[simp] theorem hasCap_cons {n : Nat} {c : Cap} {l : List Cap} : hasCap n (c :: l) ↔ c.idx = n ∨ hasCap n l := by
  simp [hasCap]
omit [UnicodeTables] in
@[simp] theorem hasCap_append {n : Nat} {a b : List Cap} : hasCap n (a ++ b) ↔ hasCap n a ∨ hasCap n b := by
  simp [hasCap, or_and_right, exists_or]

/-- The captures added by a run, as described by `may`, `must`, `implies` and `noGroups`. -/
theorem run_caps (i j : Nat) (r : Re) : ∀ s s', s' ∈ run r s → ∃ nc, s'.caps = nc ++ s.caps ∧
    (hasCap j nc → r.may j = true) ∧ (r.must i = true → hasCap i nc) ∧ (r.implies i j = true → hasCap j nc → hasCap i nc) ∧
    (r.noGroups = true → nc = []) := by
  induction r with
  | eps => intro s s' h; simp only [run, List.mem_singleton] at h; subst h; exact ⟨[], by simp [Re.must]⟩
  | cls k =>
    intro s s' h
    simp only [run] at h
    split at h
    · cases h
    · split at h
      · simp only [List.mem_singleton] at h
        subst h
        exact ⟨[], by simp [Re.must]⟩
      · cases h
  | cat a b iha ihb =>
    intro s s' h
    simp only [run, List.mem_flatMap] at h
    obtain ⟨t, ht, h⟩ := h
    obtain ⟨u, hu, a1, a2, a3, a4⟩ := iha s t ht
    obtain ⟨v, hv, b1, b2, b3, b4⟩ := ihb t s' h
    refine ⟨v ++ u, by rw [hv, hu, List.append_assoc], ?_, ?_, ?_, ?_⟩
    · simp only [hasCap_append, Re.may, Bool.or_eq_true]
      exact fun h => h.symm.imp a1 b1
    · simp only [hasCap_append, Re.must, Bool.or_eq_true]
      exact fun h => h.symm.imp b2 a2
    · simp only [hasCap_append, Re.implies, Bool.or_eq_true, Bool.and_eq_true]
      rintro ((h | h) | ⟨h1, h2⟩) hj
      · exact .inr (a2 h)
      · exact .inl (b2 h)
      · exact hj.imp (b3 h2) (a3 h1)
    · simp only [Re.noGroups, Bool.and_eq_true]
      rintro ⟨h1, h2⟩
      rw [a4 h1, b4 h2]; rfl
  | alt a b iha ihb =>
    intro s s' h
    simp only [run, List.mem_append] at h
    rcases h with h | h
    · obtain ⟨u, hu, a1, a2, a3, a4⟩ := iha s s' h
      refine ⟨u, hu, ?_, ?_, ?_, ?_⟩
      · intro h; simp [Re.may, a1 h]
      · simp only [Re.must, Bool.and_eq_true]; exact fun h => a2 h.1
      · simp only [Re.implies, Bool.and_eq_true]; exact fun h => a3 h.1
      · simp only [Re.noGroups, Bool.and_eq_true]; exact fun h => a4 h.1
    · obtain ⟨u, hu, a1, a2, a3, a4⟩ := ihb s s' h
      refine ⟨u, hu, ?_, ?_, ?_, ?_⟩
      · intro h; simp [Re.may, a1 h]
      · simp only [Re.must, Bool.and_eq_true]; exact fun h => a2 h.2
      · simp only [Re.implies, Bool.and_eq_true]; exact fun h => a3 h.2
      · simp only [Re.noGroups, Bool.and_eq_true]; exact fun h => a4 h.2
  | star g a ih =>
    intro s s' h
    have := starRun_caps (f := run a) (g := g)
      (P := fun nc => (hasCap j nc → a.may j = true) ∧ (a.implies i j = true → hasCap j nc → hasCap i nc) ∧ (a.noGroups = true → nc = []))
      (by simp) (fun x y hx hy => by
        refine ⟨?_, ?_, ?_⟩
        · simp only [hasCap_append]; rintro (h | h)
          · exact hx.1 h
          · exact hy.1 h
        · simp only [hasCap_append]; exact fun h => Or.imp (hx.2.1 h) (hy.2.1 h)
        · intro h; rw [hx.2.2 h, hy.2.2 h]; rfl)
      (fun s s' h => by
        obtain ⟨u, hu, a1, a2, a3, a4⟩ := ih s s' h
        exact ⟨u, hu, a1, a3, a4⟩) _ s s' h
    obtain ⟨nc, hn, h1, h2, h3⟩ := this
    exact ⟨nc, hn, h1, by simp [Re.must], h2, h3⟩
  | grp n a ih =>
    intro s s' h
    simp only [run, List.mem_map] at h
    obtain ⟨t, ht, rfl⟩ := h
    obtain ⟨u, hu, a1, a2, a3, a4⟩ := ih s t ht
    refine ⟨⟨n, s.pos, s.consumed t⟩ :: u, by simp [hu], ?_, ?_, ?_, by simp [Re.noGroups]⟩
    · simp only [hasCap_cons, Re.may, Bool.or_eq_true, beq_iff_eq]
      exact Or.imp_right a1
    · simp only [hasCap_cons, Re.must, Bool.or_eq_true, beq_iff_eq]
      exact Or.imp_right a2
    · simp only [hasCap_cons, Re.implies, Bool.or_eq_true, beq_iff_eq, Bool.and_eq_true, bne_iff_ne]
      rintro ((h | h) | ⟨h1, h2⟩) hj
      · exact .inl h
      · exact .inr (a2 h)
      · exact .inr (a3 h2 (hj.resolve_left h1))
  | bos =>
    intro s s' h
    simp only [run] at h
    split at h
    · simp only [List.mem_singleton] at h; subst h; exact ⟨[], by simp [Re.must]⟩
    · cases h
  | eos =>
    intro s s' h
    simp only [run] at h
    split at h
    · simp only [List.mem_singleton] at h; subst h; exact ⟨[], by simp [Re.must]⟩
    · cases h

omit [UnicodeTables] in
theorem get_isSome_iff {m : Match} {n : Nat} (h : n ≠ 0) : (m.get n).isSome ↔ hasCap n m.caps := by
  unfold Match.get hasCap
  rw [if_neg h]
  simp [List.find?_isSome]

/-- If the pattern passes the check, group `i` takes part in every match in which group `j` does. -/
theorem find_implies {r : Regex} {s : Str} {m : Match} (h : r.find s = some m) {i j : Nat} (hi : i ≠ 0) (hj : j ≠ 0)
    (hc : r.re.implies i j = true) (hm : (m.get j).isSome) : (m.get i).isSome := by
  have hb := (find_eq_some h).best
  simp only [matchAt, Option.map_eq_some_iff] at hb
  obtain ⟨s', hs, he⟩ := hb
  obtain ⟨nc, hn, _, _, h3, _⟩ := run_caps i j r.re _ s' (List.mem_of_head? hs)
  have hcaps : m.caps = nc := by rw [← he]; simpa using hn
  rw [get_isSome_iff hi]
  rw [get_isSome_iff hj] at hm
  rw [hcaps] at hm ⊢
  exact h3 hc hm

/-- A pattern that always sets group `i`. -/
theorem find_must {r : Regex} {s : Str} {m : Match} (h : r.find s = some m) {i : Nat} (hi : i ≠ 0)
    (hc : r.re.must i = true) : (m.get i).isSome := by
  have hb := (find_eq_some h).best
  simp only [matchAt, Option.map_eq_some_iff] at hb
  obtain ⟨s', hs, he⟩ := hb
  obtain ⟨nc, hn, _, h2, _, _⟩ := run_caps i i r.re _ s' (List.mem_of_head? hs)
  have hcaps : m.caps = nc := by rw [← he]; simpa using hn
  rw [get_isSome_iff hi, hcaps]
  exact h2 hc

/-- A regular expression that is a sequence of groups `k, k+1, …, n-1` without nested groups. -/
inductive GroupSeq : Nat → Re → Nat → Prop where
  | one {k a} : a.noGroups = true → GroupSeq k (.grp k a) (k + 1)
  | cons {k a b n} : a.noGroups = true → GroupSeq (k + 1) b n → GroupSeq k (.cat (.grp k a) b) n

omit [UnicodeTables] in
/-- Texts captured by groups `k, k+1, …`. -/
def capTexts (caps : List Cap) (k : Nat) : List Str → Prop
  | [] => True
  | t :: ts => (caps.find? (·.idx == k)).map Cap.text = some t ∧ capTexts caps (k + 1) ts

theorem grp_run {k : Nat} {a : Re} (ha : a.noGroups = true) {s s' : St} (h : s' ∈ run (.grp k a) s) :
    ∃ w p, s.rest = w ++ s'.rest ∧ s'.caps = ⟨k, p, w⟩ :: s.caps := by
  simp only [run, List.mem_map] at h
  obtain ⟨t, ht, rfl⟩ := h
  obtain ⟨w, hw, _⟩ := run_sound a s t ht
  obtain ⟨nc, hn, _, _, _, h4⟩ := run_caps 0 0 a s t ht
  have : s.consumed t = w := by unfold St.consumed; rw [hw.rest, take_consumed]
  exact ⟨w, s.pos, hw.rest, by simp [hn, h4 ha, this]⟩

/-- The captures of a sequence of groups are consecutive pieces of the matched text. -/
theorem groupSeq_run {k n : Nat} {r : Re} (h : GroupSeq k r n) : ∀ s s', s' ∈ run r s →
    ∃ ts nc, ts.length = n - k ∧ k ≤ n ∧ s.rest = ts.flatten ++ s'.rest ∧ s'.caps = nc ++ s.caps ∧ capTexts nc k ts ∧
      ∀ c ∈ nc, k ≤ c.idx := by
  induction h with
  | @one k a ha =>
    intro s s' h
    obtain ⟨w, p, h1, h2⟩ := grp_run ha h
    exact ⟨[w], [⟨k, p, w⟩], by simp, by omega, by simpa using h1, h2, by simp [capTexts], by simp⟩
  | @cons k a b n ha hb ih =>
    intro s s' h
    simp only [run, List.mem_flatMap] at h
    obtain ⟨t, ht, h⟩ := h
    obtain ⟨w, p, h1, h2⟩ := grp_run ha (by simpa only [run] using ht)
    obtain ⟨ts, nc, k1, k2, k3, k4, k5, k6⟩ := ih t s' h
    refine ⟨w :: ts, nc ++ [⟨k, p, w⟩], by simp; omega, by omega, by rw [h1, k3]; simp, by rw [k4, h2]; simp, ?_, ?_⟩
    · refine ⟨?_, ?_⟩
      · have : nc.find? (·.idx == k) = none := by
          rw [List.find?_eq_none]
          intro c hc
          have := k6 c hc
          simp; omega
        rw [List.find?_append, this]; simp
      · have mono : ∀ ts m, capTexts nc m ts → capTexts (nc ++ [⟨k, p, w⟩]) m ts := by
          intro ts
          induction ts with
          | nil => intros; trivial
          | cons x xs ihx =>
            intro m hm
            obtain ⟨e1, e2⟩ := hm
            refine ⟨?_, ihx _ e2⟩
            rw [List.find?_append]
            cases hf : nc.find? (·.idx == m) with
            | none => rw [hf] at e1; cases e1
            | some c => rw [hf] at e1; simpa using e1
        exact mono _ _ k5
    · intro c hc
      rcases List.mem_append.1 hc with hc | hc
      · have := k6 c hc; omega
      · simp only [List.mem_singleton] at hc; subst hc; exact Nat.le_refl _

end Phone
