import Verif.Spec.Document
import Verif.Props.XmlReader
import Verif.Props.Loader
import Verif.Model.Postcard
/-! # C69: the reader delivers what is written -/

namespace Phone.XmlReader
open Loader Xml

theorem isSpace_iff {c : Char} : isSpace c = true ↔ c ∈ [' ', '\n', '\r', '\t'] := by
  simp [isSpace, or_assoc]

theorem drop_blank {w s : Str} (h : Blank w) : (w ++ s).dropWhile isSpace = s.dropWhile isSpace := by
  induction w with
  | nil => rfl
  | cons c w ih =>
    rw [List.cons_append, List.dropWhile_cons, if_pos (isSpace_iff.2 (h c (by simp)))]
    exact ih fun d hd => h d (by simp [hd])

theorem name_facts {k : Str} (h : IsName k) : ∀ c ∈ k, isSpace c = false ∧ c ≠ '=' ∧ c ≠ '>' ∧ c ≠ '"' ∧ c ≠ '\'' ∧ c ≠ '/' ∧ c ≠ '!' ∧ c ≠ '?' := by
  intro c hc
  have := h.2 c hc
  simp only [List.mem_cons, List.not_mem_nil, or_false, not_or] at this
  refine ⟨?_, ?_⟩
  · cases hs : isSpace c with
    | false => rfl
    | true =>
      have := isSpace_iff.1 hs
      simp only [List.mem_cons, List.not_mem_nil, or_false] at this
      grind
  · grind

theorem while_all {p : Char → Bool} {k s : Str} (h : ∀ c ∈ k, p c = true) (hs : ∀ c, s.head? = some c → p c = false) :
    (k ++ s).takeWhile p = k ∧ (k ++ s).dropWhile p = s := by
  induction k with
  | nil =>
    cases s with
    | nil => simp
    | cons c s => simp [hs c rfl]
  | cons c k ih =>
    have := ih fun d hd => h d (by simp [hd])
    simp [h c (by simp), this]

theorem span_all {p : Char → Bool} {k s : Str} (h : ∀ c ∈ k, p c = true) (hs : ∀ c, s.head? = some c → p c = false) :
    (k ++ s).span p = (k, s) := by
  rw [span_eq_while, (while_all h hs).1, (while_all h hs).2]

theorem cut_at {q : Char} {v r : Str} (h : q ∉ v) : ∀ acc, cut (· == q) acc (v ++ q :: r) = some (acc.reverse ++ v, r) := by
  induction v with
  | nil => intro acc; simp [cut]
  | cons c v ih =>
    intro acc
    have hc : (c == q) = false := by
      simp only [List.mem_cons, not_or] at h
      simpa using fun e => h.1 e.symm
    rw [List.cons_append, cut, if_neg (by simp [hc]), ih (fun hm => h (by simp [hm]))]
    simp

/-- What the text of the attributes ends and begins with. -/
theorem attr_head {as : List (Str × Str)} {a : Str} (h : AttrText as a) (c : Char) (hc : a.head? = some c) : isSpace c = true := by
  cases h with
  | nil hw =>
    cases a with
    | nil => simp at hc
    | cons d a => simp only [List.head?_cons, Option.some.injEq] at hc; exact isSpace_iff.2 (hw c (by simp [hc]))
  | @cons w k w' w'' v a q as hn hw =>
    cases w with
    | nil => exact absurd rfl hn
    | cons d w =>
      simp only [List.cons_append, List.head?_cons, Option.some.injEq] at hc
      exact isSpace_iff.2 (hw c (by simp [hc]))

theorem blank_while {w : Str} (h : Blank w) : w.dropWhile isSpace = [] := by
  have := drop_blank (s := []) h
  simpa using this

theorem attributes_text {as : List (Str × Str)} {a : Str} (h : AttrText as a) : ∀ (f : Nat) (seen : List Str), a.length ≤ f →
    (∀ k ∈ as.map Prod.fst, k ∉ seen) → attributes f seen a = attrEvents as := by
  induction h with
  | @nil w hw =>
    intro f seen _ _
    cases f with
    | zero => rfl
    | succ f => rw [attributes, blank_while hw]; rfl
  | @cons w k w' w'' v a q as hn hw hk hw' hw'' hq hv hnew ha ih =>
    intro f seen hf hs
    cases f with
    | zero => simp at hf
    | succ f =>
      have hkf := name_facts hk
      obtain ⟨c, k', rfl⟩ : ∃ c k', k = c :: k' := by
        cases k with
        | nil => exact absurd rfl hk.1
        | cons c k => exact ⟨c, k, rfl⟩
      have h1 : (w ++ (c :: k') ++ w' ++ '=' :: (w'' ++ q :: (v ++ q :: a))).dropWhile isSpace =
          (c :: k') ++ (w' ++ '=' :: (w'' ++ q :: (v ++ q :: a))) := by
        simp only [List.append_assoc]
        rw [drop_blank hw, List.cons_append, List.dropWhile_cons, if_neg (by simp [(hkf c (by simp)).1])]
      have h2 : ((c :: k') ++ (w' ++ '=' :: (w'' ++ q :: (v ++ q :: a)))).span (fun c => c != '=' && !isSpace c) =
          (c :: k', w' ++ '=' :: (w'' ++ q :: (v ++ q :: a))) := by
        apply span_all
        · intro d hd
          have := hkf d hd
          simp [this.1, this.2.1]
        · intro d hd
          cases w' with
          | nil => simp only [List.nil_append, List.head?_cons, Option.some.injEq] at hd; simp [← hd]
          | cons e w' =>
            simp only [List.cons_append, List.head?_cons, Option.some.injEq] at hd
            simp [isSpace_iff.2 (hw' d (by simp [hd]))]
      have h3 : (w' ++ '=' :: (w'' ++ q :: (v ++ q :: a))).dropWhile isSpace = '=' :: (w'' ++ q :: (v ++ q :: a)) := by
        rw [drop_blank hw']
        rfl
      have hqs : isSpace q = false := by rcases hq with rfl | rfl <;> rfl
      have h4 : (w'' ++ q :: (v ++ q :: a)).dropWhile isSpace = q :: (v ++ q :: a) := by
        rw [drop_blank hw'', List.dropWhile_cons, if_neg (by simp [hqs])]
      have hqq : (q == '"' || q == '\'') = true := by rcases hq with rfl | rfl <;> rfl
      have hns : seen.contains (c :: k') = false := by
        have := hs (c :: k') (by simp)
        simpa using this
      have h5 := ih f ((c :: k') :: seen) (by
        simp only [List.length_append, List.length_cons] at hf
        omega) (by
        intro k hk2
        simp only [List.mem_cons, not_or]
        exact ⟨fun e => hnew (e ▸ hk2), hs k (by simp only [List.map_cons, List.mem_cons]; exact .inr hk2)⟩)
      rw [attributes, h1]
      simp only [List.cons_append] at h2 ⊢
      simp only [h2, h3, h4, hqq, if_true, cut_at hv, hns, Bool.false_eq_true, if_false, h5]
      rfl

/-- Characters outside quotes do not matter to the end of a tag. -/
theorem tag_skip {w s : Str} (h : ∀ c ∈ w, c ≠ '>' ∧ c ≠ '"' ∧ c ≠ '\'') : ∀ acc, tagContent none acc (w ++ s) =
    tagContent none (w.reverse ++ acc) s := by
  induction w with
  | nil => intro acc; rfl
  | cons c w ih =>
    intro acc
    have := h c (by simp)
    rw [List.cons_append, tagContent, if_neg (by simp [this.1]), if_neg (by simp [this.2.1, this.2.2]),
      ih fun d hd => h d (by simp [hd])]
    simp

theorem tag_quoted {q : Char} {v s : Str} (h : q ∉ v) : ∀ acc, tagContent (some q) acc (v ++ q :: s) =
    tagContent none (q :: (v.reverse ++ acc)) s := by
  induction v with
  | nil => intro acc; simp [tagContent]
  | cons c v ih =>
    intro acc
    have hc : (c == q) = false := by
      simp only [List.mem_cons, not_or] at h
      simpa using fun e => h.1 e.symm
    rw [List.cons_append, tagContent, if_neg (by simp [hc]), ih (fun hm => h (by simp [hm]))]
    simp

theorem blank_plain {w : Str} (h : Blank w) : ∀ c ∈ w, c ≠ '>' ∧ c ≠ '"' ∧ c ≠ '\'' := by
  intro c hc
  have := h c hc
  simp only [List.mem_cons, List.not_mem_nil, or_false] at this
  rcases this with rfl | rfl | rfl | rfl <;> decide

theorem name_plain {k : Str} (h : IsName k) : ∀ c ∈ k, c ≠ '>' ∧ c ≠ '"' ∧ c ≠ '\'' := by
  intro c hc
  have := name_facts h c hc
  exact ⟨this.2.2.1, this.2.2.2.1, this.2.2.2.2.1⟩

theorem tag_attrs {as : List (Str × Str)} {a : Str} (h : AttrText as a) : ∀ (s acc : Str), tagContent none acc (a ++ s) =
    tagContent none (a.reverse ++ acc) s := by
  induction h with
  | nil hw => intro s acc; exact tag_skip (blank_plain hw) acc
  | @cons w k w' w'' v a q as hn hw hk hw' hw'' hq hv hnew ha ih =>
    intro s acc
    simp only [List.append_assoc, List.cons_append]
    rw [tag_skip (blank_plain hw), tag_skip (name_plain hk), tag_skip (blank_plain hw'), tagContent, if_neg (by decide),
      if_neg (by decide), tag_skip (blank_plain hw''), tagContent]
    have h1 : (q == '>') = false := by rcases hq with rfl | rfl <;> rfl
    have h2 : (q == '"' || q == '\'') = true := by rcases hq with rfl | rfl <;> rfl
    rw [if_neg (by simp [h1]), if_pos h2, tag_quoted hv, ih]
    simp

theorem tag_whole {n a : Str} {as : List (Str × Str)} (hn : IsName n) (ha : AttrText as a) (e : Str) (he : e = [] ∨ e = ['/'])
    (r : Str) : tagContent none [] (n ++ a ++ e ++ '>' :: r) = some (n ++ a ++ e, r) := by
  simp only [List.append_assoc]
  rw [tag_skip (name_plain hn), tag_attrs ha, tag_skip (by rcases he with rfl | rfl <;> simp), tagContent, if_pos (by decide)]
  simp

theorem nameAttrs_text {n a : Str} {as : List (Str × Str)} (hn : IsName n) (ha : AttrText as a) :
    nameAttrs (n ++ a) = (n, attrEvents as) := by
  unfold nameAttrs
  rw [span_all (fun c hc => by simp [(name_facts hn c hc).1]) (fun c hc => by simp [attr_head ha c hc])]
  simp only
  rw [attributes_text ha _ _ (Nat.le_refl _) (by simp)]

theorem attr_last {as : List (Str × Str)} {a : Str} (h : AttrText as a) : a.getLast? ≠ some '/' := by
  induction h with
  | @nil w hw =>
    intro h
    have := hw _ (List.mem_of_getLast? h)
    simp at this
  | @cons w k w' w'' v a q as hn hw hk hw' hw'' hq hv hnew ha ih =>
    simp only [List.getLast?_append, List.getLast?_cons]
    cases hl : a.getLast? with
    | none => rcases hq with rfl | rfl <;> simp
    | some c => rw [hl] at ih; simpa using ih

theorem tag_last {n a : Str} {as : List (Str × Str)} (hn : IsName n) (ha : AttrText as a) : (n ++ a).getLast? ≠ some '/' := by
  rw [List.getLast?_append]
  cases hl : a.getLast? with
  | none =>
    intro h
    have := name_facts hn _ (List.mem_of_getLast? (by simpa using h))
    exact this.2.2.2.2.2.1 rfl
  | some c =>
    have := attr_last ha
    rw [hl] at this
    simpa using this

theorem after_ends {m : Str} (hm : m ≠ []) : ∀ {s : Str}, EndsFirst s m → ∀ r, after m (s ++ m ++ r) = some r
  | [], _, r => by
    cases m with
    | nil => exact absurd rfl hm
    | cons c m =>
      rw [List.nil_append, List.cons_append, after]
      have : (c :: m).isPrefixOf (c :: (m ++ r)) = true := by
        rw [List.isPrefixOf_iff_prefix]
        exact ⟨r, by simp⟩
      rw [if_pos this]
      simp
  | c :: s, h, r => by
    have hs : EndsFirst s m := by
      intro a b hab
      exact h (c :: a) b (by simp [hab])
    simp only [List.cons_append, after]
    have hn : ¬ m.isPrefixOf (c :: (s ++ m ++ r)) = true := by
      intro hp
      rw [List.isPrefixOf_iff_prefix] at hp
      have hp' : m <+: c :: (s ++ m) := by
        refine List.prefix_of_prefix_length_le hp ⟨r, by simp⟩ ?_
        simp only [List.length_cons, List.length_append]
        omega
      obtain ⟨b, hb⟩ := hp'
      have := h [] b (by simpa using hb.symm)
      subst this
      have := congrArg List.length hb
      simp at this
      omega
    rw [if_neg hn]
    exact after_ends hm hs r

theorem docType_balanced {s : Str} (h : Balanced s) : ∀ (d : Nat) (r : Str), afterDocType d (s ++ r) = afterDocType d r := by
  induction h with
  | nil => intro d r; rfl
  | @char c s h1 h2 _ ih =>
    intro d r
    rw [← ih d r]
    simp [afterDocType, h1, h2]
  | @pair s s' _ _ ih ih' =>
    intro d r
    rw [← ih' d r]
    simp [afterDocType, ih]

theorem trim_name {n w : Str} (hn : IsName n) (hw : Blank w) : trimEnd (n ++ w) = n := by
  unfold trimEnd
  rw [List.reverse_append, drop_blank (fun c hc => hw c (by simpa using hc))]
  cases hr : n.reverse with
  | nil => exact absurd (by simpa using hr) hn.1
  | cons c k =>
    have hc : c ∈ n := by
      have : c ∈ n.reverse := by simp [hr]
      simpa using this
    rw [List.dropWhile_cons, if_neg (by simp [(name_facts hn c hc).1]), ← hr, List.reverse_reverse]

theorem name_split {n : Str} (h : IsName n) : ∃ c k, n = c :: k ∧ c ≠ '!' ∧ c ≠ '?' ∧ c ≠ '/' := by
  cases n with
  | nil => exact absurd rfl h.1
  | cons c k =>
    have := name_facts h c (by simp)
    exact ⟨c, k, rfl, this.2.2.2.2.2.2.1, this.2.2.2.2.2.2.2, this.2.2.2.2.2.1⟩

theorem next_open {stack : List Str} {n a : Str} {as : List (Str × Str)} (hn : IsName n) (ha : AttrText as a) (r : Str) :
    next stack ('<' :: (n ++ a ++ '>' :: r)) = (.start (.utf8 n) (attrEvents as), n :: stack, r) := by
  have h1 := tag_whole hn ha [] (.inl rfl) r
  rw [List.append_nil] at h1
  have h2 := nameAttrs_text hn ha
  have h3 := tag_last hn ha
  obtain ⟨c, k, rfl, c1, c2, c3⟩ := name_split hn
  simp only [List.cons_append] at h1 h2 h3 ⊢
  simp only [next, beq_self_eq_true, if_true, beq_eq_false_iff_ne.2 c1, beq_eq_false_iff_ne.2 c2, beq_eq_false_iff_ne.2 c3,
    Bool.false_eq_true, if_false, opening, h1, h2, beq_eq_false_iff_ne.2 h3]

theorem next_empty {stack : List Str} {n a : Str} {as : List (Str × Str)} (hn : IsName n) (ha : AttrText as a) (r : Str) :
    next stack ('<' :: (n ++ a ++ '/' :: '>' :: r)) = (.empty (.utf8 n) (attrEvents as), stack, r) := by
  have h1 := tag_whole hn ha ['/'] (.inr rfl) r
  rw [List.append_assoc (n ++ a)] at h1
  simp only [List.cons_append, List.nil_append] at h1
  have h2 := nameAttrs_text hn ha
  have h3 : (n ++ a ++ ['/']).getLast? = some '/' := by simp
  have h4 : (n ++ a ++ ['/']).dropLast = n ++ a := by simp
  obtain ⟨c, k, rfl, c1, c2, c3⟩ := name_split hn
  simp only [List.cons_append] at h1 h2 h3 h4 ⊢
  simp only [next, beq_self_eq_true, if_true, beq_eq_false_iff_ne.2 c1, beq_eq_false_iff_ne.2 c2, beq_eq_false_iff_ne.2 c3,
    Bool.false_eq_true, if_false, opening, h1, h2, h3, h4]

theorem next_close {stack : List Str} {n w : Str} (hn : IsName n) (hw : Blank w) (r : Str) :
    next (n :: stack) ('<' :: '/' :: (n ++ w ++ '>' :: r)) = (.stop (.utf8 n), stack, r) := by
  have hg : '>' ∉ n ++ w := by
    intro h
    rcases List.mem_append.1 h with h | h
    · exact (name_plain hn _ h).1 rfl
    · exact (blank_plain hw _ h).1 rfl
  have h1 := cut_at (r := r) hg []
  simp only [next, beq_self_eq_true, if_true, close, h1]
  simp [trim_name hn hw]

theorem next_text {stack : List Str} {s t : Str} (hs : s ≠ []) (h : ∀ c ∈ s, c ≠ '<') (ht : t = [] ∨ t.head? = some '<') :
    next stack (s ++ t) = (.text (.utf8 s), stack, t) := by
  have h1 : (s ++ t).span (· != '<') = (s, t) := by
    apply span_all
    · intro c hc; simpa using h c hc
    · intro c hc
      rcases ht with rfl | ht
      · simp at hc
      · rw [ht] at hc; injection hc with hc; simp [← hc]
  cases s with
  | nil => exact absurd rfl hs
  | cons c s =>
    simp only [List.cons_append] at h1 ⊢
    simp only [next, beq_eq_false_iff_ne.2 (h c (by simp)), Bool.false_eq_true, if_false, h1]

theorem events_next {stack : List Str} {s : Str} {f : Nat} (h : s ≠ []) :
    events (f + 1) stack s = (next stack s).1 :: events f (next stack s).2.1 (next stack s).2.2 := by
  cases s with
  | nil => exact absurd rfl h
  | cons c s => rfl

theorem read_written {cs : List Node} {s : Str} (h : Written cs s) : ∀ (stack : List Str) (f : Nat) (b : Str),
    b = [] ∨ b.head? = some '<' →
    events (f + (Xml.events cs).length) stack (s ++ b) = Xml.events cs ++ events f stack b ∧
    (Xml.events cs).length ≤ s.length := by
  induction h with
  | nil => intro stack f b _; simp [Xml.events]
  | @text s t cs hs hc ht _ ih =>
    intro stack f b hb
    have ih := ih stack f b hb
    have hn := next_text (stack := stack) hs (fun c h => (hc c h).1) (t := t ++ b) (by
      rcases ht with rfl | ht
      · simpa using hb
      · right; cases t with
        | nil => simp at ht
        | cons c t => simpa using ht)
    have hl : 0 < s.length := List.length_pos_iff.2 hs
    simp only [Xml.events, Node.events, List.cons_append, List.nil_append, List.length_cons, List.append_assoc, List.length_append]
    rw [← Nat.add_assoc, events_next (by simp [hs]), hn, ih.1]
    exact ⟨rfl, by omega⟩
  | @comment s t cs hs _ ih =>
    intro stack f b hb
    have ih := ih stack f b hb
    have ha := after_ends (by decide) hs (t ++ b)
    have hn : next stack ((str% "<!--") ++ s ++ (str% "-->") ++ t ++ b) = (.comment, stack, t ++ b) := by
      simp only [List.append_assoc] at ha ⊢
      show deliver _ _ (after (str% "-->") (s ++ ((str% "-->") ++ (t ++ b)))) = _
      rw [ha]
      rfl
    simp only [Xml.events, Node.events, List.cons_append, List.nil_append, List.length_cons, List.length_append]
    rw [← Nat.add_assoc, events_next (by simp)]
    simp only [List.cons_append, List.append_assoc, List.nil_append] at hn ⊢
    rw [hn, ih.1]
    exact ⟨rfl, by omega⟩
  | @docType s t cs hs _ ih =>
    intro stack f b hb
    have ih := ih stack f b hb
    have ha : afterDocType 0 (s ++ ('>' :: (t ++ b))) = some (t ++ b) := by rw [docType_balanced hs]; rfl
    have hn : next stack ((str% "<!DOCTYPE ") ++ s ++ '>' :: t ++ b) = (.docType, stack, t ++ b) := by
      simp only [List.append_assoc] at ha ⊢
      show deliver _ _ (afterDocType 0 (s ++ ('>' :: (t ++ b)))) = _
      rw [ha]
      rfl
    simp only [Xml.events, Node.events, List.cons_append, List.nil_append, List.length_cons, List.length_append]
    rw [← Nat.add_assoc, events_next (by simp)]
    simp only [List.cons_append, List.append_assoc, List.nil_append] at hn ⊢
    rw [hn, ih.1]
    exact ⟨rfl, by omega⟩
  | @instruction s t cs hs _ ih =>
    intro stack f b hb
    have ih := ih stack f b hb
    have ha := after_ends (by decide) hs (t ++ b)
    have hn : next stack ((str% "<?") ++ s ++ (str% "?>") ++ t ++ b) = (.other, stack, t ++ b) := by
      simp only [List.append_assoc] at ha ⊢
      show deliver _ _ (after (str% "?>") (s ++ ((str% "?>") ++ (t ++ b)))) = _
      rw [ha]
      rfl
    simp only [Xml.events, Node.events, List.cons_append, List.nil_append, List.length_cons, List.length_append]
    rw [← Nat.add_assoc, events_next (by simp)]
    simp only [List.cons_append, List.append_assoc, List.nil_append] at hn ⊢
    rw [hn, ih.1]
    exact ⟨rfl, by omega⟩
  | @cdata s t cs hs _ ih =>
    intro stack f b hb
    have ih := ih stack f b hb
    have ha := after_ends (by decide) hs (t ++ b)
    have hn : next stack ((str% "<![CDATA[") ++ s ++ (str% "]]>") ++ t ++ b) = (.other, stack, t ++ b) := by
      simp only [List.append_assoc] at ha ⊢
      show deliver _ _ (after (str% "]]>") (s ++ ((str% "]]>") ++ (t ++ b)))) = _
      rw [ha]
      rfl
    simp only [Xml.events, Node.events, List.cons_append, List.nil_append, List.length_cons, List.length_append]
    rw [← Nat.add_assoc, events_next (by simp)]
    simp only [List.cons_append, List.append_assoc, List.nil_append] at hn ⊢
    rw [hn, ih.1]
    exact ⟨rfl, by omega⟩
  | @empty n a t as cs hn ha _ ih =>
    intro stack f b hb
    have ih := ih stack f b hb
    have hx := next_empty (stack := stack) hn ha (t ++ b)
    simp only [Xml.events, Node.events, List.cons_append, List.nil_append, List.length_cons, List.length_append]
    rw [← Nat.add_assoc, events_next (by simp)]
    simp only [List.cons_append, List.append_assoc] at hx ⊢
    rw [hx, ih.1]
    exact ⟨rfl, by omega⟩
  | @elem n a s w t as cs' cs hn ha _ hw _ ih ih' =>
    intro stack f b hb
    have i2 := ih' stack f b hb
    have i1 := ih (n :: stack) (f + (Xml.events cs).length + 1) ('<' :: '/' :: (n ++ w ++ '>' :: (t ++ b))) (.inr rfl)
    have h1 := next_open (stack := stack) hn ha (s ++ '<' :: '/' :: (n ++ w ++ '>' :: (t ++ b)))
    have h2 := next_close (stack := stack) hn hw (t ++ b)
    have e2 : events (f + (Xml.events cs).length + 1) (n :: stack) ('<' :: '/' :: (n ++ w ++ '>' :: (t ++ b))) =
        .stop (.utf8 n) :: (Xml.events cs ++ events f stack b) := by
      rw [events_next (by simp), h2, i2.1]
    rw [e2] at i1
    have hlen : (Xml.events (.elem n as cs' :: cs)).length = (Xml.events cs).length + 1 + (Xml.events cs').length + 1 := by
      simp only [Xml.events, Node.events, List.length_cons, List.length_append, List.length_nil]
      omega
    rw [hlen]
    refine ⟨?_, ?_⟩
    · have hf : f + ((Xml.events cs).length + 1 + (Xml.events cs').length + 1) =
          (f + (Xml.events cs).length + 1 + (Xml.events cs').length) + 1 := by omega
      rw [hf, events_next (by simp)]
      simp only [List.cons_append, List.append_assoc] at h1 i1 ⊢
      rw [h1]
      simp only
      rw [i1.1]
      simp [Xml.events, Node.events]
    · have l1 := i1.2
      have l2 := i2.2
      simp only [List.length_cons, List.length_append]
      omega

/-- **C69**: for every document written by the grammar the reader delivers exactly the events of its tree. -/
theorem C69_read {cs : List Node} {s : Str} (h : Written cs s) : read s = Xml.events cs := by
  have h1 := read_written h [] (s.length - (Xml.events cs).length) [] (.inl rfl)
  rw [List.append_nil, Nat.sub_add_cancel h1.2] at h1
  rw [read, h1.1]
  generalize s.length - (Xml.events cs).length = k
  cases k <;> simp [events]

end Phone.XmlReader

namespace Phone.Xml
open Loader

theorem events_app (cs cs' : List Node) : events (cs ++ cs') = events cs ++ events cs' := by
  induction cs with
  | nil => simp [events]
  | cons c cs ih => rw [List.cons_append, events, events, ih, List.append_assoc]

/-- **C69**: loading a text. `pre` is what stands before the root element, `post` what stands after it. -/
theorem C69_load {pre post cs : List Node} {as : List (Str × Str)} {s : Str}
    (h : Written (pre ++ .elem (str% "phoneNumberMetadata") as cs :: post) s) (hpre : ∀ c ∈ pre, Prolog c)
    (hn : ∀ as' cs', .elem (str% "phoneNumberMetadata") as' cs' ∉ cs) (ms : List Loader.Metadata) :
    load (XmlReader.read s) = .ok ms ↔ (∀ c ∈ cs, RootChild lens c) ∧ ms = territoriesOf lens cs := by
  rw [XmlReader.C69_read h, events_app, events, ← List.append_assoc]
  exact C30_load pre as cs (events post) hpre hn ms

/-- **C69**: `Database::parse` of a text. -/
theorem C69_parse {pre post cs : List Node} {as : List (Str × Str)} {s : Str}
    (h : Written (pre ++ .elem (str% "phoneNumberMetadata") as cs :: post) s) (hpre : ∀ c ∈ pre, Prolog c)
    (hn : ∀ as' cs', .elem (str% "phoneNumberMetadata") as' cs' ∉ cs) (compile : Str → Option Regex) (db : Database) :
    Database.parse compile s = .ok db ↔
      (∀ c ∈ cs, RootChild lens c) ∧ Database.from compile (territoriesOf lens cs) = .ok db := by
  have hl := C69_load h hpre hn
  unfold Database.parse
  cases hr : load (XmlReader.read s) with
  | ok ms =>
    obtain ⟨h1, rfl⟩ := (hl ms).1 hr
    exact ⟨fun h => ⟨h1, h⟩, fun h => h.2⟩
  | err e =>
    refine ⟨fun h => (by cases h), fun h => ?_⟩
    have := (hl _).2 ⟨h.1, rfl⟩
    rw [hr] at this
    cases this
  | panic p =>
    refine ⟨fun h => (by cases h), fun h => ?_⟩
    have := (hl _).2 ⟨h.1, rfl⟩
    rw [hr] at this
    cases this

/-- **C69**: how a document is laid out does not matter: white space in tags, the kind of quotes, what comments and the document
type say. -/
theorem C69_layout {cs : List Node} {s s' : Str} (h : Written cs s) (h' : Written cs s') (compile : Str → Option Regex) :
    Database.parse compile s = Database.parse compile s' := by
  unfold Database.parse
  rw [XmlReader.C69_read h, XmlReader.C69_read h']

/-- **C69**: a document with an XML declaration (or any other processing instruction) before the root element is not
loaded. -/
theorem C69_declaration {pre post : List Node} {s : Str} (h : Written (pre ++ .misc :: post) s) (hpre : ∀ c ∈ pre, Prolog c) :
    load (XmlReader.read s) = .err (.metadata (.unhandledEvent (str% "metadata"))) := by
  rw [XmlReader.C69_read h, events_app, events, Node.events]
  have key : ∀ (pre : List Node) (f : Nat) (es : List Event), (∀ c ∈ pre, Prolog c) → (events pre).length < f →
      Loader.metadata f [] (events pre ++ ([.other] ++ es)) = .err (.metadata (.unhandledEvent (str% "metadata"))) := by
    intro pre
    induction pre with
    | nil =>
      intro f es _ hf
      obtain ⟨f, rfl⟩ : ∃ g, f = g + 1 := ⟨f - 1, by omega⟩
      simp [events, Loader.metadata]
    | cons c cs ih =>
      intro f es hp hf
      have hc := hp c (by simp)
      have ih := fun f => ih f es fun c hc => hp c (by simp [hc])
      rw [events, List.length_append] at hf
      rw [events]
      obtain ⟨f, rfl⟩ : ∃ g, f = g + 1 := ⟨f - 1, by omega⟩
      cases c with
      | text s =>
        simp only [Node.events, List.length_cons, List.length_nil] at hf
        simpa only [Node.events, List.cons_append, List.nil_append, Loader.metadata] using ih f (by omega)
      | comment =>
        simp only [Node.events, List.length_cons, List.length_nil] at hf
        simpa only [Node.events, List.cons_append, List.nil_append, Loader.metadata] using ih f (by omega)
      | docType =>
        simp only [Node.events, List.length_cons, List.length_nil] at hf
        simpa only [Node.events, List.cons_append, List.nil_append, Loader.metadata] using ih f (by omega)
      | _ => exact absurd hc (by simp [Prolog])
  exact key pre _ _ hpre (by simp only [List.length_append, List.length_cons]; omega)

theorem endsFirst_of {s m : Str} (h : ∀ i < s.length, m.isPrefixOf ((s ++ m).drop i) = false) : EndsFirst s m := by
  intro a b hab
  have hl := congrArg List.length hab
  simp only [List.length_append] at hl
  cases b with
  | nil => rfl
  | cons c b =>
    have := h a.length (by simp only [List.length_cons] at hl; omega)
    rw [hab, List.append_assoc, List.drop_left] at this
    have hp : m.isPrefixOf (m ++ c :: b) = true := by
      rw [List.isPrefixOf_iff_prefix]
      exact List.prefix_append ..
    rw [hp] at this
    cases this

/-- A small document. -/
def smallRoot : List Node :=
  [.text (str% "\n"), .elem (str% "territories") []
    [.comment, .elem (str% "territory") [(str% "id", str% "AC"), (str% "countryCode", str% "247")] []]]

/-- Its text. -/
def smallText : Str := str% "<!DOCTYPE x [<!ELEMENT y>]><phoneNumberMetadata>\n<territories ><!-- a -- b --><territory id = 'AC'
      countryCode=\"247\"></territory\n></territories></phoneNumberMetadata>\n"

/-- It is written like this: the hypotheses of `C69_load`, `C69_parse` and `C69_layout` are met. -/
theorem smallRoot_written : Written ([.docType] ++ .elem (str% "phoneNumberMetadata") [] smallRoot :: [.text (str% "\n")])
    smallText := by
  have blank : ∀ {w : Str}, (w.all fun c => [' ', '\n', '\r', '\t'].contains c) = true → Blank w := by
    intro w h c hc
    have := List.all_eq_true.1 h c hc
    simpa using this
  have name : ∀ {n : Str}, n ≠ [] → (n.all fun c =>
      ![' ', '\n', '\r', '\t', '<', '>', '/', '=', '"', '\'', '!', '?', '&'].contains c) = true → IsName n := by
    intro n hn h
    refine ⟨hn, fun c hc => ?_⟩
    have := List.all_eq_true.1 h c hc
    simpa using this
  have line : ∀ {t : Str} {cs : List Node}, t = [] ∨ t.head? = some '<' → Written cs t →
      Written (.text ['\n'] :: cs) ('\n' :: t) := by
    intro t cs ht h
    exact Written.text (s := ['\n']) (by simp) (by decide) ht h
  have h1 : Written [.elem (str% "territory") [(str% "id", str% "AC"), (str% "countryCode", str% "247")] []] _ :=
    .elem (w := str% "\n") (name (by decide) (by decide))
      (.cons (w := str% " ") (w' := str% " ") (w'' := str% " ") (q := '\'') (by decide) (blank (by decide)) (name (by decide) (by decide))
        (blank (by decide)) (blank (by decide)) (.inr rfl) (by decide) (by decide)
        (.cons (w := str% "\n      ") (w' := []) (w'' := []) (q := '"') (by decide) (blank (by decide)) (name (by decide) (by decide))
          (blank (by decide)) (blank (by decide)) (.inl rfl) (by decide) (by decide) (.nil (w := []) (blank (by decide)))))
      .nil (blank (by decide)) .nil
  have h2 := Written.comment (s := str% " a -- b ") (endsFirst_of (by decide)) h1
  have h3 : Written smallRoot _ := line (.inr rfl) (.elem (w := []) (name (by decide) (by decide))
    (.nil (w := str% " ") (blank (by decide))) h2 (blank (by decide)) .nil)
  have h4 : Balanced (str% "x [<!ELEMENT y>]") := by
    refine .char (by decide) (by decide) (.char (by decide) (by decide) (.char (by decide) (by decide) (.pair (s := str% "!ELEMENT y") (s' := str% "]") ?_ ?_)))
    all_goals repeat first | exact .nil | refine .char (by decide) (by decide) ?_
  exact Written.docType h4 (.elem (w := []) (name (by decide) (by decide)) (.nil (w := []) (blank (by decide))) h3
    (blank (by decide)) (line (.inl rfl) .nil))

/-- It is loaded. -/
example : (∀ c ∈ smallRoot, RootChild lens c) ∧
    (territoriesOf lens smallRoot).map (fun m => (m.id, m.countryCode)) = [(some (str% "AC"), some 247)] :=
  have h : load (XmlReader.read smallText) = .ok (territoriesOf lens smallRoot) := by kernel_rfl
  ⟨((C69_load smallRoot_written (by simp [Prolog]) (by simp [smallRoot]) _).1 h).1, by kernel_rfl⟩

/-- The hypothesis of `C69_declaration` is met. -/
example : Written ([] ++ .misc :: [.elem (str% "phoneNumberMetadata") [] []])
    (str% "<?xml version=\"1.0\"?><phoneNumberMetadata></phoneNumberMetadata>") :=
  have name : IsName (str% "phoneNumberMetadata") := ⟨by decide, by decide⟩
  .instruction (s := str% "xml version=\"1.0\"") (endsFirst_of (by decide))
    (.elem (w := []) name (.nil (w := []) (by simp [Blank])) .nil (by simp [Blank]) .nil)

end Phone.Xml
