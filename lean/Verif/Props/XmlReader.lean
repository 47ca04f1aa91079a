import Verif.Model.XmlReader
/-! # Reading a text piece by piece -/

namespace Phone.XmlReader
open Loader

theorem cut_append (p : Char → Bool) (b : Str) : ∀ (a acc : Str) {x : Str × Str}, cut p acc a = some x →
    cut p acc (a ++ b) = some (x.1, x.2 ++ b)
  | [], _, _, h => by simp [cut] at h
  | c :: cs, acc, x, h => by
    simp only [cut, List.cons_append] at h ⊢
    split
    · rename_i hp
      rw [if_pos hp] at h
      injection h with h
      subst h
      rfl
    · rename_i hp
      rw [if_neg hp] at h
      exact cut_append p b cs _ h

theorem cut_length (p : Char → Bool) : ∀ (a acc : Str) {x : Str × Str}, cut p acc a = some x → x.2.length < a.length
  | [], _, _, h => by simp [cut] at h
  | c :: cs, acc, x, h => by
    simp only [cut] at h
    split at h
    · injection h with h
      subst h
      simp
    · have := cut_length p cs _ h
      simp only [List.length_cons]
      omega

theorem tagContent_append (b : Str) : ∀ (a : Str) (q : Option Char) (acc : Str) {x : Str × Str}, tagContent q acc a = some x →
    tagContent q acc (a ++ b) = some (x.1, x.2 ++ b)
  | [], q, _, _, h => by cases q <;> simp [tagContent] at h
  | c :: cs, none, acc, x, h => by
    simp only [tagContent, List.cons_append] at h ⊢
    split
    · rename_i hp
      rw [if_pos hp] at h
      injection h with h
      subst h
      rfl
    · rename_i hp
      rw [if_neg hp] at h
      exact tagContent_append b cs _ _ h
  | c :: cs, some q, acc, x, h => by
    simp only [tagContent, List.cons_append] at h ⊢
    exact tagContent_append b cs _ _ h

theorem tagContent_length : ∀ (a : Str) (q : Option Char) (acc : Str) {x : Str × Str}, tagContent q acc a = some x →
    x.2.length < a.length
  | [], q, _, _, h => by cases q <;> simp [tagContent] at h
  | c :: cs, none, acc, x, h => by
    simp only [tagContent] at h
    split at h
    · injection h with h
      subst h
      simp
    · have := tagContent_length cs _ _ h
      simp only [List.length_cons]
      omega
  | c :: cs, some q, acc, x, h => by
    simp only [tagContent] at h
    have := tagContent_length cs _ _ h
    simp only [List.length_cons]
    omega

theorem isPrefixOf_append (p a b : Str) (h : p.isPrefixOf a = true) : p.isPrefixOf (a ++ b) = true := by
  rw [List.isPrefixOf_iff_prefix] at h ⊢
  exact h.trans (List.prefix_append ..)

theorem after_length (p : Str) : ∀ (a : Str) {r : Str}, after p a = some r → r.length ≤ a.length
  | [], _, h => by simp [after] at h
  | c :: cs, r, h => by
    simp only [after] at h
    split at h
    · injection h with h
      subst h
      simp
    · have := after_length p cs h
      simp only [List.length_cons]
      omega

/-- What is found is found in a longer text, as soon as what precedes it cannot be completed to it: enough here is that the
pattern does not fit in a shorter text. -/
theorem after_append (p b : Str) : ∀ (a : Str) {r : Str}, after p a = some r → after p (a ++ b) = some (r ++ b)
  | [], _, h => by simp [after] at h
  | c :: cs, r, h => by
    simp only [after, List.cons_append] at h ⊢
    by_cases hp : p.isPrefixOf (c :: cs) = true
    · rw [if_pos hp] at h
      injection h with h
      subst h
      have h2 : p.isPrefixOf (c :: (cs ++ b)) = true := isPrefixOf_append p (c :: cs) b hp
      rw [if_pos h2]
      have hl : p.length ≤ (c :: cs).length := (List.isPrefixOf_iff_prefix.1 hp).length_le
      congr 1
      rw [← List.cons_append, List.drop_append_of_le_length hl]
    · rw [if_neg hp] at h
      have hlong : p.length ≤ (c :: cs).length := by
        have : ∀ (cs : Str) {r : Str}, after p cs = some r → p.length ≤ cs.length := by
          intro cs
          induction cs with
          | nil => intro r h; simp [after] at h
          | cons c cs ih =>
            intro r h
            simp only [after] at h
            split at h
            · rename_i hp
              exact (List.isPrefixOf_iff_prefix.1 hp).length_le
            · have := ih h
              simp only [List.length_cons]
              omega
        have := this cs h
        simp only [List.length_cons]
        omega
      have h2 : ¬ p.isPrefixOf (c :: (cs ++ b)) = true := by
        intro h2
        rw [List.isPrefixOf_iff_prefix] at h2
        apply hp
        rw [List.isPrefixOf_iff_prefix]
        exact List.prefix_of_prefix_length_le h2 (by simp) hlong
      rw [if_neg h2]
      exact after_append p b cs h

theorem afterDocType_append (b : Str) : ∀ (a : Str) (d : Nat) {r : Str}, afterDocType d a = some r →
    afterDocType d (a ++ b) = some (r ++ b)
  | [], _, _, h => by simp [afterDocType] at h
  | c :: cs, d, r, h => by
    simp only [afterDocType, List.cons_append] at h ⊢
    split
    · rename_i hp
      rw [if_pos hp] at h
      exact afterDocType_append b cs _ h
    · rename_i hp
      rw [if_neg hp] at h
      split
      · rename_i hq
        rw [if_pos hq] at h
        cases d with
        | zero =>
          injection h with h
          subst h
          rfl
        | succ d => exact afterDocType_append b cs _ h
      · rename_i hq
        rw [if_neg hq] at h
        exact afterDocType_append b cs _ h

theorem afterDocType_length : ∀ (a : Str) (d : Nat) {r : Str}, afterDocType d a = some r → r.length ≤ a.length
  | [], _, _, h => by simp [afterDocType] at h
  | c :: cs, d, r, h => by
    simp only [afterDocType] at h
    simp only [List.length_cons]
    split at h
    · have := afterDocType_length cs _ h
      omega
    · split at h
      · cases d with
        | zero =>
          injection h with h
          subst h
          omega
        | succ d =>
          have := afterDocType_length cs _ h
          omega
      · have := afterDocType_length cs _ h
        omega

theorem span_loop (p : Char → Bool) : ∀ (a r : Str), List.span.loop p a r = (r.reverse ++ a.takeWhile p, a.dropWhile p)
  | [], r => by simp [List.span.loop]
  | c :: cs, r => by
    rw [List.span.loop]
    cases h : p c with
    | true => simp [span_loop p cs, h]
    | false => simp [h]

theorem span_eq_while (p : Char → Bool) (a : Str) : a.span p = (a.takeWhile p, a.dropWhile p) := by
  rw [List.span, span_loop]
  rfl

theorem span_append_stop {p : Char → Bool} {b : Str} : ∀ {a : Str}, (a.span p).2 ≠ [] →
    (a ++ b).span p = ((a.span p).1, (a.span p).2 ++ b) := by
  intro a
  simp only [span_eq_while]
  induction a with
  | nil => simp
  | cons c cs ih =>
    intro h
    simp only [List.cons_append, List.takeWhile_cons, List.dropWhile_cons] at h ⊢
    split
    · rename_i hp
      rw [if_pos hp] at h
      have := ih h
      simp only [Prod.mk.injEq] at this ⊢
      simp [this]
    · simp

theorem deliver_ne {e : Event} {stack : List Str} {o : Option Str} (h : (deliver e stack o).1 ≠ .error) :
    ∃ r, o = some r := by
  cases o with
  | none => simp [deliver, fail] at h
  | some r => exact ⟨r, rfl⟩

/-- An event that does not depend on the end of the text is the same in a longer text. -/
theorem next_append (stack : List Str) (a b : Str) (he : (next stack a).1 ≠ .error)
    (ht : ∀ s, (next stack a).1 = .text s → (next stack a).2.2 ≠ []) :
    next stack (a ++ b) = ((next stack a).1, (next stack a).2.1, (next stack a).2.2 ++ b) := by
  have hd : ∀ (e : Event) (o o' : Option Str), (deliver e stack o).1 ≠ .error → (∀ r, o = some r → o' = some (r ++ b)) →
      deliver e stack o' = ((deliver e stack o).1, (deliver e stack o).2.1, (deliver e stack o).2.2 ++ b) := by
    intro e o o' h ho
    obtain ⟨r, rfl⟩ := deliver_ne h
    rw [ho r rfl]
    rfl
  cases a with
  | nil => simp [next, fail] at he
  | cons c cs =>
    simp only [next, List.cons_append] at he ht ⊢
    split
    · rename_i hc
      simp only [hc, if_true] at he ht
      cases cs with
      | nil => simp [fail] at he
      | cons d r =>
        simp only [List.cons_append] at he ht ⊢
        split
        · rename_i hd1
          simp only [hd1, if_true] at he ht
          unfold bang at he ⊢
          split at he
          · exact hd _ _ _ he fun _ h => after_append _ b _ h
          · exact hd _ _ _ he fun _ h => afterDocType_append b _ _ h
          · exact hd _ _ _ he fun _ h => after_append _ b _ h
          · exact absurd rfl he
        · rename_i hd1
          simp only [hd1, Bool.false_eq_true, if_false] at he ht
          split
          · rename_i hd2
            simp only [hd2, if_true] at he ht
            exact hd _ _ _ he fun _ h => after_append _ b _ h
          · rename_i hd2
            simp only [hd2, Bool.false_eq_true, if_false] at he ht
            split
            · rename_i hd3
              simp only [hd3, if_true] at he ht
              unfold close at he ⊢
              cases hx : cut (· == '>') [] r with
              | none => simp [hx, fail] at he
              | some x =>
                rw [cut_append _ b _ _ hx]
                simp only [hx] at he ⊢
                cases stack with
                | nil => simp [fail] at he
                | cons m stack =>
                  simp only at he ⊢
                  split
                  · rfl
                  · rename_i hm
                    simp [hm, fail] at he
            · rename_i hd3
              simp only [hd3, Bool.false_eq_true, if_false] at he ht
              unfold opening at he ⊢
              cases hx : tagContent none [] (d :: r) with
              | none => simp [hx, fail] at he
              | some x =>
                have := tagContent_append b _ _ _ hx
                rw [List.cons_append] at this
                rw [this]
                simp only
                split <;> rfl
    · rename_i hc
      simp only [hc, Bool.false_eq_true, if_false] at he ht
      have := ht _ rfl
      have h2 := span_append_stop (b := b) (a := c :: cs) this
      rw [List.cons_append] at h2
      simp only [h2]

theorem next_length (stack : List Str) (c : Char) (cs : Str) : (next stack (c :: cs)).2.2.length < (c :: cs).length := by
  have hd : ∀ (e : Event) (o : Option Str) (n : Nat), (∀ r, o = some r → r.length ≤ n) →
      (deliver e stack o).2.2.length ≤ n := by
    intro e o n h
    cases o with
    | none => simp [deliver, fail]
    | some r => exact h r rfl
  simp only [next]
  split
  · cases cs with
    | nil => simp [fail]
    | cons d r =>
      simp only [List.length_cons]
      split
      · apply Nat.lt_succ_of_le
        apply Nat.le_succ_of_le
        unfold bang
        split
        · exact hd _ _ _ fun _ h => by have := after_length _ _ h; simp only [List.length_cons]; omega
        · exact hd _ _ _ fun _ h => by have := afterDocType_length _ _ h; simp only [List.length_cons]; omega
        · exact hd _ _ _ fun _ h => by have := after_length _ _ h; simp only [List.length_cons]; omega
        · simp [fail]
      · split
        · exact Nat.lt_succ_of_le (Nat.le_succ_of_le (hd _ _ _ fun _ h => after_length _ _ h))
        · split
          · unfold close
            cases hx : cut (· == '>') [] r with
            | none => simp [fail]
            | some x =>
              have := cut_length _ _ _ hx
              simp only
              cases stack with
              | nil => simp [fail]
              | cons m stack =>
                simp only
                split
                · simp only; omega
                · simp [fail]
          · unfold opening
            cases hx : tagContent none [] (d :: r) with
            | none => simp [fail]
            | some x =>
              have := tagContent_length _ _ _ hx
              simp only [List.length_cons] at this
              simp only
              split <;> simp only <;> omega
  · rename_i hc
    have : (c != '<') = true := by simpa using hc
    simp only [span_eq_while, List.dropWhile_cons, this, if_true, List.length_cons]
    have := (List.dropWhile_sublist (· != '<') (l := cs)).length_le
    omega

/-- More fuel than there are characters does not matter. -/
theorem events_fuel (f : Nat) : ∀ (n : Nat) (stack : List Str) (s : Str), s.length ≤ f → s.length ≤ n →
    events n stack s = events f stack s := by
  induction f with
  | zero =>
    intro n stack s h1 h2
    cases s with
    | nil => cases n <;> rfl
    | cons c cs => simp at h1
  | succ f ih =>
    intro n stack s h1 h2
    cases s with
    | nil => cases n <;> rfl
    | cons c cs =>
      obtain ⟨n, rfl⟩ : ∃ m, n = m + 1 := ⟨n - 1, by simp only [List.length_cons] at h2; omega⟩
      have := next_length stack c cs
      simp only [events]
      rw [ih n _ _ (by omega) (by omega)]

/-- The two texts are the same; unlike `decide (a = b)`, this can be evaluated step by step for long texts. -/
def sameStr : Str → Str → Bool
  | [], [] => true
  | a :: as, b :: bs => Nat.beq a.toNat b.toNat && sameStr as bs
  | _, _ => false

theorem sameStr_eq : ∀ {a b : Str}, sameStr a b = true → a = b
  | [], [], _ => rfl
  | a :: as, b :: bs, h => by
    simp only [sameStr, Bool.and_eq_true] at h
    rw [Char.toNat_inj.1 (Nat.eq_of_beq_eq_true h.1), sameStr_eq h.2]
  | [], _ :: _, h => by simp [sameStr] at h
  | _ :: _, [], h => by simp [sameStr] at h

/-- The two names or values are the same. -/
def sameRaw : Raw → Raw → Bool
  | .utf8 a, .utf8 b => sameStr a b
  | _, _ => false

theorem sameRaw_eq {a b : Raw} (h : sameRaw a b = true) : a = b := by
  unfold sameRaw at h
  split at h
  · rw [sameStr_eq h]
  · exact absurd h (by simp)

/-- The two attribute lists are the same. -/
def sameAttrs : List Attr → List Attr → Bool
  | [], [] => true
  | .ok k v :: as, .ok k' v' :: bs => sameRaw k k' && sameRaw v v' && sameAttrs as bs
  | _, _ => false

theorem sameAttrs_eq : ∀ {a b : List Attr}, sameAttrs a b = true → a = b
  | [], [], _ => rfl
  | .ok k v :: as, .ok k' v' :: bs, h => by
    simp only [sameAttrs, Bool.and_eq_true] at h
    rw [sameRaw_eq h.1.1, sameRaw_eq h.1.2, sameAttrs_eq h.2]
  | [], _ :: _, h => by simp [sameAttrs] at h
  | _ :: _, [], h => by simp [sameAttrs] at h
  | .bad :: _, _ :: _, h => by simp [sameAttrs] at h
  | .ok _ _ :: _, .bad :: _, h => by simp [sameAttrs] at h

/-- The two events are the same, and not an error. -/
def sameEvent : Event → Event → Bool
  | .text a, .text b => sameRaw a b
  | .comment, .comment => true
  | .docType, .docType => true
  | .other, .other => true
  | .start n as, .start n' as' => sameRaw n n' && sameAttrs as as'
  | .empty n as, .empty n' as' => sameRaw n n' && sameAttrs as as'
  | .stop n, .stop n' => sameRaw n n'
  | _, _ => false

theorem sameEvent_eq {a b : Event} (h : sameEvent a b = true) : a = b ∧ b ≠ .error := by
  unfold sameEvent at h
  split at h
  · rw [sameRaw_eq h]; simp
  · simp
  · simp
  · simp
  · rw [Bool.and_eq_true] at h
    rw [sameRaw_eq h.1, sameAttrs_eq h.2]; simp
  · rw [Bool.and_eq_true] at h
    rw [sameRaw_eq h.1, sameAttrs_eq h.2]; simp
  · rw [sameRaw_eq h]; simp
  · exact absurd h (by simp)

/-- The text `a` delivers exactly the events `es`, none of which depends on what follows; the names of the elements open
afterwards. -/
def follows : List Event → List Str → Str → Option (List Str)
  | [], stack, [] => some stack
  | [], _, _ :: _ => none
  | e :: es, stack, a =>
    match next stack a with
    | (e', stack', r) =>
      if sameEvent e' e then
        match e, r with
        | .text _, [] => none
        | _, r => follows es stack' r
      else none

theorem follows_events (b : Str) (f : Nat) : ∀ (es : List Event) (stack stack' : List Str) (a : Str),
    follows es stack a = some stack' →
    events (f + es.length) stack (a ++ b) = es ++ events f stack' b ∧ es.length ≤ a.length
  | [], stack, stack', a, h => by
    cases a with
    | nil =>
      simp only [follows, Option.some.injEq] at h
      subst h
      simp
    | cons c cs => simp [follows] at h
  | e :: es, stack, stack', a, h => by
    simp only [follows] at h
    split at h
    · rename_i hc
      obtain ⟨h1, h2⟩ := sameEvent_eq hc
      have hr : (∀ s, e = .text s → (next stack a).2.2 ≠ []) ∧ follows es (next stack a).2.1 (next stack a).2.2 = some stack' := by
        split at h
        · exact absurd h (by simp)
        · rename_i hne
          exact ⟨fun s hs hr => hne s hs hr, h⟩
      cases a with
      | nil => exact absurd (h1 ▸ (by simp [next, fail]) : e = .error) h2
      | cons c cs =>
        have hn := next_append stack (c :: cs) b (by rw [h1]; exact h2) (by rw [h1]; exact hr.1)
        have ih := follows_events b f es _ _ _ hr.2
        have hl := next_length stack c cs
        refine ⟨?_, by simp only [List.length_cons] at hl ⊢; omega⟩
        rw [List.length_cons, ← Nat.add_assoc, List.cons_append, events]
        rw [List.cons_append] at hn
        rw [hn]
        simp only
        rw [ih.1, h1]
        rfl
    · exact absurd h (by simp)

end Phone.XmlReader
