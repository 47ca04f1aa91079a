import Verif.Shipped.All
/-! # C67: the built-in territories are what the loader makes of the shipped file

`Data.S.text` is the text of `/repo/assets/PhoneNumberMetadata.xml`, `Data.X.document` the tree it stands for and
`Data.territories` the territories the theorems about the built-in database speak of. All three are generated; here they are
connected by the models of the XML reader and of the loader. -/

namespace Phone.Shipped
open Xml Loader

theorem events_nil : events [] = [] := by rw [events]

theorem events_append (cs cs' : List Node) : events (cs ++ cs') = events cs ++ events cs' := by
  induction cs with
  | nil => simp [events_nil]
  | cons c cs ih => rw [List.cons_append, events_cons, events_cons, ih, List.append_assoc]

theorem check_events : ∀ {cs : List Piece} {ss : List (List Str)}, check cs ss = true → ∀ (f : Nat) (b : Str),
    XmlReader.events (f + (events (cs.flatMap Piece.nodes)).length) stack (ss.flatten.flatten ++ b) =
      events (cs.flatMap Piece.nodes) ++ XmlReader.events f stack b ∧
    (events (cs.flatMap Piece.nodes)).length ≤ ss.flatten.flatten.length ∧
    ∀ c ∈ cs.flatMap Piece.nodes, TerritoriesChild lens c
  | [], [], _, f, b => by simp [events]
  | c :: cs, s :: ss, h, f, b => by
    simp only [check, Bool.and_eq_true, beq_iff_eq, decide_eq_true_eq] at h
    obtain ⟨⟨⟨⟨h1, -⟩, -⟩, h2⟩, h3⟩ := h
    have ih := check_events h3 f b
    have := XmlReader.follows_events (ss.flatten.flatten ++ b) (f + (events (cs.flatMap Piece.nodes)).length) _ _ _ _ h2
    simp only [List.flatMap_cons, List.flatten_cons, List.flatten_append, List.append_assoc, events_append, List.length_append]
    rw [ih.1] at this
    refine ⟨?_, by omega, ?_⟩
    · rw [← this.1]
      congr 1
      omega
    · intro x hx
      rcases List.mem_append.1 hx with hx | hx
      · exact h1 x hx
      · exact ih.2.2 x hx
  | [], _ :: _, h, _, _ => by simp [check] at h
  | _ :: _, [], h, _, _ => by simp [check] at h

/-- The events up to the start tag of `territories`. -/
noncomputable def headEvents : List Event :=
  events Data.X.prolog ++ [.start (.utf8 n.phoneNumberMetadata) [], .text (.utf8 (str% "\n  ")), .start (.utf8 n.territories) []]

theorem head_follows : XmlReader.follows headEvents [] Data.S.head.flatten = some stack := by kernel_rfl

/-- The text after the last territory without the final line feed. -/
noncomputable def lastTags : Str := str% "\n\n  </territories>\n</phoneNumberMetadata>"

/-- Its events. -/
noncomputable def lastEvents : List Event :=
  [.text (.utf8 (str% "\n\n  ")), .stop (.utf8 n.territories), .text (.utf8 (str% "\n")), .stop (.utf8 n.phoneNumberMetadata)]

theorem last_text : Data.S.last.flatten = lastTags ++ ['\n'] := by kernel_rfl

theorem last_follows : XmlReader.follows lastEvents stack lastTags = some [] := by kernel_rfl

theorem read_parts : XmlReader.read Data.S.text =
    headEvents ++ (events (Data.X.chunks.flatMap Piece.nodes) ++ (lastEvents ++ [.text (.utf8 ['\n'])])) := by
  have h : ∀ k, XmlReader.events (k + lastEvents.length + (events (Data.X.chunks.flatMap Piece.nodes)).length + headEvents.length)
      [] Data.S.text = headEvents ++ (events (Data.X.chunks.flatMap Piece.nodes) ++ (lastEvents ++ XmlReader.events k [] ['\n'])) := by
    intro k
    rw [Data.S.text, (XmlReader.follows_events _ _ _ _ _ _ head_follows).1, (check_events check_all _ _).1, last_text,
      (XmlReader.follows_events _ _ _ _ _ _ last_follows).1]
  rw [XmlReader.read, ← XmlReader.events_fuel Data.S.text.length _ [] Data.S.text (Nat.le_refl _) (by
    show _ ≤ Data.S.text.length + 1 + lastEvents.length + (events (Data.X.chunks.flatMap Piece.nodes)).length + headEvents.length
    omega), h]
  have hf : XmlReader.events (Data.S.text.length + 1) [] ['\n'] = [.text (.utf8 ['\n'])] := by
    generalize Data.S.text.length = l
    cases l <;> simp only [XmlReader.events] <;> rfl
  rw [hf]

/-- **C67**: the reader delivers for the text of the asset the events of the tree. -/
theorem C67_read : XmlReader.read Data.S.text = events Data.X.document := by
  have hnode : ∀ (n : Str) (cs : List Node), (Node.elem n [] cs).events = .start (.utf8 n) [] :: (events cs ++ [.stop (.utf8 n)]) := by
    intro n cs; rw [Node.events]; rfl
  have htext : ∀ s, (Node.text s).events = [.text (.utf8 s)] := by intro s; rw [Node.events]
  rw [read_parts]
  unfold Data.X.document Data.X.root Data.X.territories Data.X.epilog headEvents lastEvents
  simp only [events_append, events_cons, events_nil, hnode, htext, List.append_assoc, List.cons_append, List.nil_append]
  rfl

theorem root_allowed : ∀ c ∈ Data.X.root, RootChild lens c := by
  intro c hc
  simp only [Data.X.root, List.mem_append, List.mem_singleton] at hc
  rcases hc with (rfl | rfl) | rfl
  · simp [RootChild]
  · have hn : n.territories = str% "territories" := rfl
    simp only [RootChild, hn, if_true]
    intro x hx
    simp only [Data.X.territories, List.mem_append, List.mem_singleton] at hx
    rcases hx with hx | rfl
    · exact (check_events check_all 0 []).2.2 x hx
    · simp [TerritoriesChild]
  · simp [RootChild]

theorem check_plain : ∀ {cs : List Piece} {ss : List (List Str)}, check cs ss = true →
    (events (cs.flatMap Piece.nodes)).all plain = true
  | [], [], _ => by simp [events_nil]
  | c :: cs, s :: ss, h => by
    simp only [check, Bool.and_eq_true] at h
    rw [List.flatMap_cons, events_append, List.all_append, check_plain h.2, h.1.1.2]
    rfl
  | [], _ :: _, h => by simp [check] at h
  | _ :: _, [], h => by simp [check] at h

/-- No text of the file has an `&` in it, so it does not matter how the reader treats entity references. -/
theorem C67_no_references (s : Str) (h : .text (.utf8 s) ∈ XmlReader.read Data.S.text) : '&' ∉ s := by
  have hall : (XmlReader.read Data.S.text).all plain = true := by
    rw [read_parts, List.all_append, List.all_append, List.all_append, check_plain check_all]
    have h1 : headEvents.all plain = true := by kernel_rfl
    have h2 : lastEvents.all plain = true := by kernel_rfl
    rw [h1, h2]
    rfl
  have := List.all_eq_true.1 hall _ h
  simp only [plain, List.all_eq_true] at this
  intro hc
  exact absurd (this _ hc) (by decide)

theorem check_elems : ∀ {cs : List Piece} {ss : List (List Str)}, check cs ss = true →
    elems (str% "territory") (cs.flatMap Piece.nodes) = cs.map fun c => (c.2.1, c.2.2)
  | [], [], _ => rfl
  | c :: cs, s :: ss, h => by
    simp only [check, Bool.and_eq_true, List.isEmpty_iff] at h
    have ht : n.territory = str% "territory" := rfl
    have h1 : elems (str% "territory") c.nodes = [(c.2.1, c.2.2)] := by
      have := h.1.1.1.2
      unfold elems at this ⊢
      simp only [Piece.nodes, List.filterMap_append, this, List.nil_append, ht]
      rfl
    have ih := check_elems h.2
    unfold elems at ih h1 ⊢
    rw [List.flatMap_cons, List.filterMap_append, ih, h1]
    rfl
  | [], _ :: _, h => by simp [check] at h
  | _ :: _, [], h => by simp [check] at h

theorem root_territories : territoriesOf lens Data.X.root = Data.territories := by
  have hn : n.territories = str% "territories" := rfl
  rw [← says_all]
  have h1 : elems (str% "territories") Data.X.root = [([], Data.X.territories)] := by
    unfold Data.X.root elems
    simp [hn]
  have h2 : elems (str% "territory") Data.X.territories = Data.X.chunks.map fun c => (c.2.1, c.2.2) := by
    rw [← check_elems check_all]
    unfold Data.X.territories elems
    rw [List.filterMap_append]
    simp only [List.filterMap_cons, List.filterMap_nil, List.append_nil]
    rfl
  rw [territoriesOf, h1, List.flatMap_cons, List.flatMap_nil, List.append_nil, h2, List.map_map]
  rfl

/-- **C67**: loading the shipped file succeeds and gives exactly the territories the built-in database is made of. -/
theorem C67_load : load (XmlReader.read Data.S.text) = .ok Data.territories := by
  rw [C67_read, Data.X.document, events_append, events_append, events_cons, events_nil, List.append_nil]
  refine (C30_load Data.X.prolog [] Data.X.root (events Data.X.epilog) ?_ ?_ _).2 ⟨root_allowed, root_territories.symm⟩
  · intro c hc
    simp only [Data.X.prolog, List.mem_cons, List.not_mem_nil, or_false] at hc
    rcases hc with rfl | rfl | rfl | rfl | rfl <;> simp [Prolog]
  · intro as cs h
    simp only [Data.X.root, List.mem_append, List.mem_singleton, reduceCtorEq, or_false, false_or, Node.elem.injEq] at h
    exact absurd h.1 (by simp [n.territories])

end Phone.Shipped
