import Verif.Regex.Cover
/-! # Patterns that take as many digits as they can

A pattern made of groups of `\d`, `\d{n}` and `\d{n,m}` matches, of a string of digits, as many as it may: if it may take all of them,
its leftmost-first match is the whole string. `ladder` recognises such patterns and says how many digits they take.

`begun n` answers (with possible false alarms) whether every string of `n` digits that begins with matches of some patterns begins with
a match of one of others. -/

namespace Phone

/-- The class contains all digits. -/
def Cls.allDigits (k : Cls) : Bool := ['0', '1', '2', '3', '4', '5', '6', '7', '8', '9'].all k.hasDigit

/-- The least and the greatest number of digits the pattern takes, if it takes as many as it can. -/
def Re.ladder : Re → Option (Nat × Nat)
  | .eps => some (0, 0)
  | .cls k => if k.allDigits then some (1, 1) else none
  | .cat a b => match a.ladder, b.ladder with
    | some x, some y => some (x.1 + y.1, x.2 + y.2)
    | _, _ => none
  | .alt a b => match a.ladder, b with
    | some x, .eps => if Nat.ble x.1 1 then some (0, x.2) else none
    | _, _ => none
  | .grp _ a => a.ladder
  | _ => none

/-- Does every string of `n` digits that begins with a match of every pattern on the left begin with a match of one on the right? -/
def begun : Nat → List Run × List Re → Bool
  | 0, (rs, l) => !rs.all Run.ends || l.any Re.null
  | n + 1, (rs, l) => l.any Re.null || (rs.any Run.dead ||
      (distinct sameState (['0', '1', '2', '3', '4', '5', '6', '7', '8', '9'].map fun c =>
        (rs.map (Run.step c), distinct Re.same (l.flatMap (Re.lefts c))))).all (begun n))

variable [UnicodeTables]

theorem mem_of_allDigits {k : Cls} (h : k.allDigits = true) {c : Char} (hc : isDigit c = true) : k.mem c = true := by
  rw [← hasDigit_eq hc]
  exact List.all_eq_true.1 h c (digit_listed hc)

/-- The first of the states with at least `t` characters left. -/
def firstWith (t : Nat) (l : List St) : Option St := l.find? fun s => decide (t ≤ s.rest.length)

/-- The first state of the list that leaves at least `t` digits leaves the least number it may; there is one if enough digits are there. -/
def Takes (r : Re) (lo hi : Nat) : Prop := ∀ s : St, (∀ c ∈ s.rest, isDigit c = true) → ∀ t,
  (∀ s' ∈ run r s, ∀ c ∈ s'.rest, isDigit c = true) ∧
  (lo + t ≤ s.rest.length → ∃ s', firstWith t (run r s) = some s' ∧ s'.rest.length = Nat.max t (s.rest.length - hi)) ∧
  (s.rest.length < lo + t → firstWith t (run r s) = none)

theorem run_rest_digits {r : Re} {s s' : St} (h : s' ∈ run r s) (hs : ∀ c ∈ s.rest, isDigit c = true) : ∀ c ∈ s'.rest, isDigit c = true := by
  obtain ⟨w, hst, _⟩ := run_sound r s s' h
  intro c hc
  exact hs c (by rw [hst.1]; simp [hc])

omit [UnicodeTables] in
theorem firstWith_flatMap {t t' : Nat} {l : List St} {f : St → List St}
    (h1 : ∀ s ∈ l, t' ≤ s.rest.length → ∃ s', firstWith t (f s) = some s')
    (h2 : ∀ s ∈ l, s.rest.length < t' → firstWith t (f s) = none) :
    firstWith t (l.flatMap f) = (firstWith t' l).bind fun s => firstWith t (f s) := by
  induction l with
  | nil => rfl
  | cons a l ih =>
    have ih := ih (fun s hs => h1 s (by simp [hs])) fun s hs => h2 s (by simp [hs])
    unfold firstWith at *
    rw [List.flatMap_cons, List.find?_append, List.find?_cons]
    by_cases ha : t' ≤ a.rest.length
    · obtain ⟨s', hs'⟩ := h1 a (by simp) ha
      rw [hs']
      simp [ha, hs']
    · rw [h2 a (by simp) (by omega)]
      simp [ha, ih]

omit [UnicodeTables] in
theorem ladder_le {r : Re} {x : Nat × Nat} (h : r.ladder = some x) : x.1 ≤ x.2 := by
  induction r generalizing x with
  | eps => simp only [Re.ladder, Option.some.injEq] at h; subst h; simp
  | cls k =>
    simp only [Re.ladder] at h
    split at h
    · simp only [Option.some.injEq] at h; subst h; simp
    · cases h
  | cat a b ha hb =>
    simp only [Re.ladder] at h
    split at h
    · rename_i y z h1 h2
      simp only [Option.some.injEq] at h
      have := ha h1; have := hb h2
      rw [← h]; simp only; omega
    · cases h
  | alt a b ha hb =>
    simp only [Re.ladder] at h
    split at h
    · split at h
      · simp only [Option.some.injEq] at h
        rw [← h]; simp
      · cases h
    · cases h
  | grp n a ha => exact ha h
  | star g a => cases h
  | bos => cases h
  | eos => cases h

theorem takes_of_ladder {r : Re} {x : Nat × Nat} (h : r.ladder = some x) : Takes r x.1 x.2 := by
  induction r generalizing x with
  | eps =>
    simp only [Re.ladder, Option.some.injEq] at h
    subst h
    intro s hs t
    refine ⟨fun s' h' => run_rest_digits h' hs, fun hl => ⟨s, ?_, ?_⟩, fun hl => ?_⟩
    · simp only [run, firstWith, List.find?_cons]; simp at hl; simp [hl]
    · simp at hl; simp [Nat.max_eq_right hl]
    · simp only [Nat.zero_add] at hl
      exact List.find?_cons_of_neg (by simpa using hl)
  | cls k =>
    simp only [Re.ladder] at h
    split at h
    · rename_i hk
      simp only [Option.some.injEq] at h
      subst h
      intro s hs t
      refine ⟨fun s' h' => run_rest_digits h' hs, fun hl => ?_, fun hl => ?_⟩
      · cases hr : s.rest with
        | nil => rw [hr] at hl; simp at hl
        | cons c cs =>
          rw [hr] at hl
          have := mem_of_allDigits hk (hs c (by simp [hr]))
          simp only [List.length_cons] at hl
          refine ⟨⟨s.pos + c.utf8Size, cs, s.caps⟩, ?_, ?_⟩
          · simp only [run, hr, this, if_true, firstWith]
            exact List.find?_cons_of_pos (by simp only [decide_eq_true_eq]; omega)
          · simp only [List.length_cons, Nat.max_def]; split <;> omega
      · cases hr : s.rest with
        | nil => simp [run, hr, firstWith]
        | cons c cs =>
          rw [hr] at hl
          have := mem_of_allDigits hk (hs c (by simp [hr]))
          simp only [List.length_cons] at hl
          simp only [run, hr, this, if_true, firstWith]
          exact List.find?_cons_of_neg (by simp only [decide_eq_true_eq]; omega)
    · cases h
  | cat a b ha hb =>
    simp only [Re.ladder] at h
    split at h
    · rename_i y z h1 h2
      simp only [Option.some.injEq] at h
      subst h
      have hle := ladder_le h2
      intro s hs t
      have hA := ha h1
      have hB := hb h2
      have key := firstWith_flatMap (t := t) (t' := z.1 + t) (l := run a s) (f := run b)
        (fun s' hs' hl => by
          obtain ⟨s'', e, _⟩ := (hB s' (run_rest_digits hs' hs) t).2.1 hl
          exact ⟨s'', e⟩)
        (fun s' hs' hl => (hB s' (run_rest_digits hs' hs) t).2.2 hl)
      refine ⟨fun s' h' => run_rest_digits h' hs, fun hl => ?_, fun hl => ?_⟩
      · obtain ⟨s', e1, e2⟩ := (hA s hs (z.1 + t)).2.1 (by simp at hl; omega)
        have hs' : s' ∈ run a s := List.mem_of_find?_eq_some e1
        obtain ⟨s'', e3, e4⟩ := (hB s' (run_rest_digits hs' hs) t).2.1 (by rw [e2]; exact Nat.le_max_left _ _)
        refine ⟨s'', ?_, ?_⟩
        · rw [run, key, e1]; exact e3
        · rw [e4, e2]; simp only [Nat.max_def]; simp at hl; split <;> split <;> split <;> omega
      · rw [run, key, (hA s hs (z.1 + t)).2.2 (by simp at hl; omega)]; rfl
    · cases h
  | alt a b ha hb =>
    simp only [Re.ladder] at h
    split at h
    · rename_i y h1
      split at h
      · rename_i h2
        simp only [Option.some.injEq] at h
        subst h
        have h2 := Nat.le_of_ble_eq_true h2
        intro s hs t
        have hA := ha h1
        refine ⟨fun s' h' => run_rest_digits h' hs, fun hl => ?_, fun hl => ?_⟩
        · simp only [Nat.zero_add] at hl
          by_cases hx : y.1 + t ≤ s.rest.length
          · obtain ⟨s', e1, e2⟩ := (hA s hs t).2.1 hx
            refine ⟨s', ?_, e2⟩
            unfold firstWith at *
            rw [run, List.find?_append, e1]; rfl
          · have e1 := (hA s hs t).2.2 (by omega)
            refine ⟨s, ?_, ?_⟩
            · unfold firstWith at *
              rw [run, List.find?_append, e1]
              simp [run, hl]
            · simp only [Nat.max_def]; split <;> omega
        · simp only [Nat.zero_add] at hl
          have e1 := (hA s hs t).2.2 (by omega)
          unfold firstWith at *
          rw [run, List.find?_append, e1]
          simp [run, hl]
      · cases h
    · cases h
  | grp n a ha =>
    have hA := ha (x := x) h
    intro s hs t
    have e : ∀ f : St → St, (∀ s', (f s').rest = s'.rest) → ∀ l, firstWith t (l.map f) = (firstWith t l).map f := by
      intro f hf l
      unfold firstWith
      rw [List.find?_map]
      congr 2
      funext s'
      simp [hf]
    refine ⟨fun s' h' => run_rest_digits h' hs, fun hl => ?_, fun hl => ?_⟩
    · obtain ⟨s', e1, e2⟩ := (hA s hs t).2.1 hl
      refine ⟨{ s' with caps := ⟨n, s.pos, s.consumed s'⟩ :: s'.caps }, ?_, e2⟩
      rw [run, e (fun s' => { s' with caps := ⟨n, s.pos, s.consumed s'⟩ :: s'.caps }) (fun _ => rfl), e1]; rfl
    · rw [run, e (fun s' => { s' with caps := ⟨n, s.pos, s.consumed s'⟩ :: s'.caps }) (fun _ => rfl), (hA s hs t).2.2 hl]; rfl
  | star g a => cases h
  | bos => cases h
  | eos => cases h

/-- A pattern that takes as many digits as it can matches all of a string of digits if their number is within its bounds. -/
theorem ladder_whole {r : Regex} {x : Nat × Nat} (h : r.re.ladder = some x) {s : Str} (hs : ∀ c ∈ s, isDigit c = true)
    (h1 : x.1 ≤ s.length) (h2 : s.length ≤ x.2) : ∃ m, r.find s = some m ∧ m.text = s := by
  obtain ⟨s', e1, e2⟩ := (takes_of_ladder h ⟨0, s, []⟩ hs 0).2.1 (by simpa using h1)
  have e3 : s'.rest = [] := List.length_eq_zero_iff.1 (by rw [e2]; simp; omega)
  have hm : matchAt r.re [] s = some ⟨[], s, [], s'.caps⟩ := by
    have : (run r.re ⟨0, s, []⟩).head? = some s' := by
      unfold firstWith at e1
      simp only [Nat.zero_le, decide_true] at e1
      cases hl : run r.re ⟨0, s, []⟩ with
      | nil => rw [hl] at e1; cases e1
      | cons y l => rw [hl] at e1; simpa using e1
    rw [matchAt, show byteLen ([] : Str) = 0 from rfl, this]
    simp [e3]
  refine ⟨⟨[], s, [], s'.caps⟩, ?_, rfl⟩
  unfold Regex.find
  cases s with
  | nil => exact hm
  | cons c cs => rw [searchFrom, hm]

/-- Soundness of `begun`. -/
theorem begun_sound {s : Str} {rs : List Run} {l : List Re} (hs : ∀ c ∈ s, isDigit c = true)
    (hc : begun s.length (rs, l) = true) (h : ∀ r ∈ rs, ∃ p, r.Fits p s) (p : Nat) : ∃ r ∈ l, ∃ w q, s = w ++ q ∧ Lang r p w q := by
  induction s generalizing rs l p with
  | nil =>
    simp only [List.length_nil, begun, Bool.or_eq_true, Bool.not_eq_true'] at hc
    rcases hc with hc | hc
    · have : rs.all Run.ends = true := List.all_eq_true.2 fun r hr => Run.fits_ends (h r hr).choose_spec
      rw [this] at hc
      cases hc
    · obtain ⟨r, hr, hn⟩ := List.any_eq_true.1 hc
      exact ⟨r, hr, [], [], rfl, null_lang hn _ _⟩
  | cons c s ih =>
    simp only [List.length_cons, begun, Bool.or_eq_true] at hc
    rcases hc with hc | hc | hc
    · obtain ⟨r, hr, hn⟩ := List.any_eq_true.1 hc
      exact ⟨r, hr, [], c :: s, rfl, null_lang hn _ _⟩
    · obtain ⟨r, hr, hdead⟩ := List.any_eq_true.1 hc
      obtain ⟨p, this⟩ := h r hr
      unfold Run.dead at hdead
      split at hdead
      · obtain ⟨x, hx, _⟩ := this; cases hx
      · cases hdead
    · have hd := hs c (by simp)
      have := List.all_eq_true.1 hc _ (mem_distinct sameState_eq (List.mem_map.2 ⟨c, digit_listed hd, rfl⟩))
      obtain ⟨x, hx, w, q, e, hl⟩ := ih (fun d hd => hs d (by simp [hd])) this (by
        intro r hr
        obtain ⟨r', hr', rfl⟩ := List.mem_map.1 hr
        obtain ⟨p, h⟩ := h r' hr'
        exact ⟨_, Run.fits_step hd h⟩) (p + byteLen [c])
      obtain ⟨r, hr, hx⟩ := List.mem_flatMap.1 (of_mem_distinct hx)
      exact ⟨r, hr, c :: w, q, by rw [e]; rfl, lefts_lang hd hx hl⟩

end Phone
