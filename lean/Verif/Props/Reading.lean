import Verif.Props.Natural
import Verif.Props.Rfc3966
import Verif.Spec.Whole
/-! # What is read from a text

The two readers of `/repo/src/parser/mod.rs:46-48` give exactly the reading described in `Verif/Spec/Whole.lean`. -/

namespace Phone
open Helper

/-! ## Splitting -/

theorem span_stop {p : Char → Bool} {a b : Str} (ha : ∀ c ∈ a, p c = true) (hb : ∀ c, b.head? = some c → p c = false) :
    (a ++ b).takeWhile p = a ∧ (a ++ b).dropWhile p = b := by
  cases b with
  | nil => rw [List.append_nil]; exact ⟨(dropWhile_all ha).2, (dropWhile_all ha).1⟩
  | cons c b => exact ⟨takeWhile_append_stop ha (hb c rfl), dropWhile_append_stop ha (hb c rfl)⟩

theorem span_eq (p : Char → Bool) (s : Str) :
    s = s.takeWhile p ++ s.dropWhile p ∧ (∀ c ∈ s.takeWhile p, p c = true) ∧ ∀ c, (s.dropWhile p).head? = some c → p c = false := by
  refine ⟨List.takeWhile_append_dropWhile.symm, fun c hc => takeWhile_all _ c hc, ?_⟩
  intro c hc
  have := List.head?_dropWhile_not p s
  rw [hc] at this
  simpa using this

/-! ## Parameters -/

theorem parameter_some {k v r : Str} (hk : ∀ c ∈ k, Spec.isNameCharacter c = true) (hv : ∀ c ∈ v, Spec.isValueCharacter c = true)
    (hr : ∀ c, r.head? = some c → Spec.isValueCharacter c = false) :
    Rfc3966.parameter (';' :: (k ++ '=' :: (v ++ r))) = some ((k, v), r) := by
  unfold Rfc3966.parameter
  have h1 := span_stop (p := Rfc3966.pname) (a := k) (b := '=' :: (v ++ r)) hk (by intro c hc; cases hc; decide)
  have h2 := span_stop (p := Rfc3966.pchar) (a := v) (b := r) (fun c hc => by rw [pchar_eq]; exact hv c hc)
    (fun c hc => by rw [pchar_eq]; exact hr c hc)
  simp only [h1.1, h1.2, h2.1, h2.2]

theorem parameter_none {s : Str} (h : ∀ k r, (∀ c ∈ k, Spec.isNameCharacter c = true) → s ≠ ';' :: (k ++ '=' :: r)) :
    Rfc3966.parameter s = none := by
  unfold Rfc3966.parameter
  split
  · rename_i rest
    split
    · rename_i r' he
      obtain ⟨e1, e2, _⟩ := span_eq Rfc3966.pname rest
      rw [he] at e1
      exact absurd (congrArg (';' :: ·) e1) (h _ _ e2)
    · rfl
  · rfl

theorem parameter_cases (s : Str) : (∀ k r, (∀ c ∈ k, Spec.isNameCharacter c = true) → s ≠ ';' :: (k ++ '=' :: r)) ∨
    ∃ k v r, s = ';' :: (k ++ '=' :: (v ++ r)) ∧ (∀ c ∈ k, Spec.isNameCharacter c = true) ∧
      (∀ c ∈ v, Spec.isValueCharacter c = true) ∧ ∀ c, r.head? = some c → Spec.isValueCharacter c = false := by
  by_cases h : ∃ k r, (∀ c ∈ k, Spec.isNameCharacter c = true) ∧ s = ';' :: (k ++ '=' :: r)
  · obtain ⟨k, r, hk, rfl⟩ := h
    obtain ⟨e1, e2, e3⟩ := span_eq Spec.isValueCharacter r
    exact .inr ⟨k, _, _, by rw [← e1], hk, e2, e3⟩
  · exact .inl fun k r hk hs => h ⟨k, r, hk, hs⟩

theorem params_of {s : Str} {ps : List (Str × Str)} (h : Spec.Params s ps) : ∀ f, s.length ≤ f → Rfc3966.params f s = ps := by
  induction h with
  | stop h =>
    intro f _
    cases f with
    | zero => rfl
    | succ f => unfold Rfc3966.params; rw [parameter_none h]
  | param hk hv hr _ ih =>
    intro f hf
    cases f with
    | zero => simp at hf
    | succ f =>
      unfold Rfc3966.params
      rw [parameter_some hk hv hr]
      simp only [List.length_cons, List.length_append] at hf
      simp only [ih f (by omega)]

theorem params_total : ∀ (n : Nat) (s : Str), s.length ≤ n → ∃ ps, Spec.Params s ps := by
  intro n
  induction n with
  | zero =>
    intro s hs
    refine ⟨[], .stop ?_⟩
    rintro k r _ rfl
    simp at hs
  | succ n ih =>
    intro s hs
    rcases parameter_cases s with h | ⟨k, v, r, rfl, hk, hv, hr⟩
    · exact ⟨[], .stop h⟩
    · simp only [List.length_cons, List.length_append] at hs
      obtain ⟨ps, hps⟩ := ih r (by omega)
      exact ⟨_, .param hk hv hr hps⟩

/-! ## `tel:` texts -/

theorem optTel_of {s t : Str} (h : Spec.WithoutScheme s t) : Rfc3966.optTel s = t := by
  rcases h with ⟨sch, h, rfl⟩ | ⟨rfl, h⟩
  · exact optTel_scheme h
  · exact optTel_none h

theorem withoutScheme_optTel (s : Str) : Spec.WithoutScheme s (Rfc3966.optTel s) := by
  by_cases h : ∃ sch r, Spec.telScheme sch ∧ s = sch ++ r
  · obtain ⟨sch, r, h, rfl⟩ := h
    rw [optTel_scheme h]
    exact .inl ⟨sch, h, rfl⟩
  · have h' : ∀ sch r, Spec.telScheme sch → s ≠ sch ++ r := fun sch r h1 h2 => h ⟨sch, r, h1, h2⟩
    rw [optTel_none h']
    exact .inr ⟨rfl, h'⟩

/-- The number read. -/
def Spec.Reading.toNumber (r : Spec.Reading) : Number := { national := r.number, pref := r.code, extension := r.extension }

theorem telNumber_split {number rest : Str} (hn : ∀ c ∈ number, Spec.isPhoneDigit c = true) (hr : rest = [] ∨ rest.head? = some ';') :
    (number ++ rest).takeWhile Rfc3966.number = number ∧ (number ++ rest).dropWhile Rfc3966.number = rest := by
  refine span_stop (fun c hc => by rw [number_eq]; exact hn c hc) ?_
  intro c hc
  rcases hr with rfl | hr
  · cases hc
  · rw [hc] at hr; cases hr; decide

theorem telReading_of {s : Str} {r : Spec.Reading} (h : Spec.TelReading s r) : Rfc3966.phoneNumber s = .ok r.toNumber := by
  have nospace : ' ' ∉ s → containsChar s ' ' = false := by
    intro h; rw [Bool.eq_false_iff, ne_eq, containsChar_iff]; exact h
  cases h with
  | @global p number rest ps h1 h2 h3 h4 h5 h6 h7 h8 =>
    have hp : Rfc3966.optPrefix ('+' :: (p ++ (number ++ rest))) = (some p, number ++ rest) := by
      obtain ⟨c, hc, hsep⟩ := h5
      have hs := span_stop (p := fun c => !Rfc3966.separator c) (a := p) (b := number ++ rest)
        (fun c hc => by rw [separator_eq, h4 c hc]; rfl) (by
          intro d hd
          rw [List.head?_append, hc] at hd
          cases hd
          rw [separator_eq, hsep]; rfl)
      simp only [Rfc3966.optPrefix, hs.1, hs.2, List.isEmpty_iff, if_neg h3]
    have hne : number ≠ [] := by rintro rfl; obtain ⟨c, hc, _⟩ := h5; cases hc
    obtain ⟨e1, e2⟩ := telNumber_split h6 h7
    unfold Rfc3966.phoneNumber
    rw [if_neg (by simp [nospace h1])]
    simp only [optTel_of h2, hp, e1, e2, List.isEmpty_iff, if_neg hne]
    rw [if_neg (by rcases h7 with h | h <;> simp [h]), params_of h8 _ (Nat.le_refl _)]
    simp only [getParam_eq, Option.orElse_some]
    rfl
  | @«local» number rest ps h1 h2 h3 h6 h7 h8 =>
    have hp : Rfc3966.optPrefix (number ++ rest) = (none, number ++ rest) := by
      apply optPrefix_of_ne_plus
      obtain ⟨c, t, rfl⟩ := List.exists_cons_of_ne_nil h3
      simpa using number_ne (h6 c (by simp))
    obtain ⟨e1, e2⟩ := telNumber_split h6 h7
    unfold Rfc3966.phoneNumber
    rw [if_neg (by simp [nospace h1])]
    simp only [optTel_of h2, hp, e1, e2, List.isEmpty_iff, if_neg h3]
    rw [if_neg (by rcases h7 with h | h <;> simp [h]), params_of h8 _ (Nat.le_refl _)]
    simp only [getParam_eq, Option.orElse_none, Spec.Reading.toNumber, Spec.lastParam]
    congr 3
    funext s; exact stripPlus_eq s

theorem telReading_total (s : Str) : Rfc3966.phoneNumber s = .err .error ∨ ∃ r, Spec.TelReading s r := by
  unfold Rfc3966.phoneNumber
  split
  · exact .inl rfl
  · rename_i hsp
    have hsp : ' ' ∉ s := by rwa [containsChar_iff] at hsp
    have hsch := withoutScheme_optTel s
    generalize Rfc3966.optTel s = t at hsch
    simp only
    split
    · exact .inl rfl
    · rename_i hne
      split
      · exact .inl rfl
      · rename_i hrest
        right
        simp only [List.isEmpty_iff] at hne hrest
        obtain ⟨e1, e2, e3⟩ := span_eq Rfc3966.number (Rfc3966.optPrefix t).2
        generalize hnum : (Rfc3966.optPrefix t).2.takeWhile Rfc3966.number = number at *
        generalize hr : (Rfc3966.optPrefix t).2.dropWhile Rfc3966.number = rest at *
        have e2 : ∀ c ∈ number, Spec.isPhoneDigit c = true := fun c hc => by rw [← number_eq]; exact e2 c hc
        have hrest : rest = [] ∨ rest.head? = some ';' := by
          simp only [Bool.not_eq_true', Bool.or_eq_false_iff, not_and, Bool.not_eq_false, beq_iff_eq] at hrest
          by_cases h : rest = []
          · exact .inl h
          · exact .inr (hrest (by simpa using h))
        obtain ⟨ps, hps⟩ := params_total _ rest (Nat.le_refl _)
        unfold Rfc3966.optPrefix at e1
        split at e1
        · rename_i u
          simp only at e1
          split at e1
          · rename_i hp
            exfalso
            obtain ⟨c, n', rfl⟩ := List.exists_cons_of_ne_nil hne
            simp only [List.cons_append, List.cons.injEq] at e1
            have := e2 c (by simp)
            rw [← e1.1] at this
            revert this; decide
          · rename_i hp
            obtain ⟨f1, f2, f3⟩ := span_eq (fun c => !Rfc3966.separator c) u
            simp only at e1
            rw [e1] at f1 f3
            refine ⟨_, .global hsp (f1 ▸ hsch) (by simpa using hp) ?_ ?_ e2 hrest hps⟩
            · intro c hc
              have := f2 c hc
              rw [separator_eq] at this
              simpa using this
            · obtain ⟨c, n', rfl⟩ := List.exists_cons_of_ne_nil hne
              have := f3 c rfl
              rw [separator_eq] at this
              exact ⟨c, rfl, by simpa using this⟩
        · simp only at e1
          rw [e1] at hsch
          exact ⟨_, .local hsp hsch hne e2 hrest hps⟩

/-! ## Any text -/

variable [UnicodeTables]

theorem readNumber_natural {s : Str} (h : ∀ r, ¬ Spec.TelReading s r) : readNumber s =
    (match Natural.phoneNumber s with | .ok n => .ok n | .panic p => .panic p | .err _ => .err .noNumber) := by
  rcases telReading_total s with h' | ⟨r, h'⟩
  · simp only [readNumber, h']
    cases Natural.phoneNumber s <;> rfl
  · exact absurd h' (h r)

theorem Spec.Candidate.mem {s x : Str} (h : Spec.Candidate s x) : ∀ c ∈ x, c ∈ s := by
  obtain ⟨junk, body, after, rest, rfl, rfl, _⟩ := h.split
  intro c hc; simp [hc]

theorem reads_sound {s : Str} (hm : Spec.MarksNotDigits s) {o : Option Spec.Reading} (h : Spec.Reads s o) :
    readNumber s = match o with | some r => .ok r.toNumber | none => .err .noNumber := by
  cases h with
  | tel h => simp [readNumber, telReading_of h]
  | nothing h1 h2 =>
    obtain ⟨e, he⟩ := extract_err h2
    rw [readNumber_natural h1, Natural.phoneNumber, he]; simp
  | plain h1 hc h =>
    rw [readNumber_natural h1, Natural.phoneNumber, extract_eq_ok.2 hc]
    simp only [Outcome.bind_ok, find_extn_none.2 h, Outcome.pure_eq]
    rfl
  | extended h1 hc h =>
    obtain ⟨m, e1, e2, e3⟩ := (find_extn_iff (hm.mono hc.mem)).2 h
    rw [readNumber_natural h1, Natural.phoneNumber, extract_eq_ok.2 hc]
    simp only [Outcome.bind_ok, e1, e3, (find_eq_some e1).stop_eq.2.2.2, Outcome.slice_some, e2, Outcome.pure_eq]
    rfl
  | refused h1 hc h =>
    obtain ⟨m, e1, e2, e3⟩ := (find_extn_iff (hm.mono hc.mem)).2 h
    rw [readNumber_natural h1, Natural.phoneNumber, extract_eq_ok.2 hc]
    simp only [Outcome.bind_ok, e1, e3]

theorem reads_total (s : Str) : ∃ o, Spec.Reads s o := by
  by_cases h : ∃ r, Spec.TelReading s r
  · obtain ⟨r, h⟩ := h
    exact ⟨_, .tel h⟩
  · have h : ∀ r, ¬ Spec.TelReading s r := fun r hr => h ⟨r, hr⟩
    by_cases hc : ∃ x, Spec.Candidate s x
    · obtain ⟨x, hc⟩ := hc
      cases hf : Consts.extnPattern.find x with
      | none => exact ⟨_, .plain h hc (find_extn_none.1 hf)⟩
      | some m =>
        have he := find_extn hf
        cases hg : m.get 2 with
        | none => rw [hg] at he; exact ⟨_, .refused h hc he⟩
        | some e => rw [hg] at he; exact ⟨_, .extended h hc he⟩
    · exact ⟨_, .nothing h fun x hx => hc ⟨x, hx⟩⟩

end Phone
