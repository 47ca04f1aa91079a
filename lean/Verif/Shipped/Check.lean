import Verif.Props.XmlReader
import Verif.Props.Loader
import Verif.Basic.KernelRfl
import Verif.Data.XNames
/-! # Checks on the shipped metadata document

Decision procedures for "this node is allowed here" (`Spec/Loader.lean`), and what is checked for each part of the document. -/

namespace Phone.Xml

instance (c : Node) : Decidable (∃ s, c = .text s) :=
  match c with
  | .text s => .isTrue ⟨s, rfl⟩
  | .comment | .docType | .misc | .empty _ _ | .elem _ _ _ => .isFalse (by simp)

instance (cs : List Node) : Decidable (TextOnly cs) := inferInstanceAs (Decidable (∀ c ∈ cs, ∃ s, c = .text s))

instance {α : Type} (o : Option α) : Decidable (∃ a, o = some a) :=
  match o with
  | some a => .isTrue ⟨a, rfl⟩
  | none => .isFalse (by simp)

instance (lens : Str → Option (List Nat)) (k : Kind) (v : Str) : Decidable (k.Fits lens v) :=
  match k with
  | .text => .isTrue trivial
  | .number => inferInstanceAs (Decidable (∃ n, parseUInt u16Bound v = some n))
  | .flag => inferInstanceAs (Decidable (v = str% "true" ∨ v = str% "false"))
  | .lengths => inferInstanceAs (Decidable (∃ l, lens v = some l))

instance (lens : Str → Option (List Nat)) (known : List (Str × Kind)) (as : List (Str × Str)) :
    Decidable (AttrsFit lens known as) :=
  decidable_of_iff (∀ a ∈ as, ∃ k ∈ known, k.1 = a.1 ∧ k.2.Fits lens a.2) <| by
    constructor
    · intro h a ha
      obtain ⟨k, hk, h1, h2⟩ := h a ha
      exact ⟨k.2, by rw [← h1]; exact hk, h2⟩
    · intro h a ha
      obtain ⟨k, hk, h2⟩ := h a ha
      exact ⟨_, hk, rfl, h2⟩

instance (lens : Str → Option (List Nat)) (c : Node) : Decidable (DescriptorChild lens c) := by
  cases c <;> (simp only [DescriptorChild]; infer_instance)

instance (c : Node) : Decidable (FormatChild c) := by
  cases c <;> (simp only [FormatChild]; infer_instance)

instance (lens : Str → Option (List Nat)) (c : Node) : Decidable (FormatsChild lens c) := by
  cases c <;> (simp only [FormatsChild]; infer_instance)

instance (lens : Str → Option (List Nat)) (c : Node) : Decidable (TerritoryChild lens c) := by
  cases c <;> (simp only [TerritoryChild]; infer_instance)

instance (lens : Str → Option (List Nat)) (c : Node) : Decidable (TerritoriesChild lens c) := by
  cases c <;> (simp only [TerritoriesChild]; infer_instance)

end Phone.Xml

namespace Phone.Shipped
open Xml

/-- A territory with what stands before it. -/
abbrev Piece := List Node × List (Str × Str) × List Node

/-- The nodes of a piece. -/
def Piece.nodes (c : Piece) : List Node := c.1 ++ [.elem n.territory c.2.1 c.2.2]

/-- The names of the elements that are open around a territory. -/
def stack : List Str := [n.territories, n.phoneNumberMetadata]

/-- Does the event have no `&` in a text? -/
def plain : Loader.Event → Bool
  | .text (.utf8 s) => s.all fun c => !Nat.beq c.toNat 38
  | _ => true

/-- Everything in the pieces is allowed, there is one territory in each of them, they are what a reader finds in
the texts, and there is no `&` in it. -/
def check : List Piece → List (List Str) → Bool
  | [], [] => true
  | c :: cs, s :: ss =>
    decide (∀ x ∈ c.nodes, TerritoriesChild lens x) && (elems (str% "territory") c.1).isEmpty && (events c.nodes).all plain &&
    (XmlReader.follows (events c.nodes) stack s.flatten == some stack) && check cs ss
  | _, _ => false

theorem check_append : ∀ {cs cs' : List Piece} {ss ss' : List (List Str)}, check cs ss = true → check cs' ss' = true →
    check (cs ++ cs') (ss ++ ss') = true
  | [], _, [], _, _, h => h
  | c :: cs, cs', s :: ss, ss', h, h' => by
    simp only [check, Bool.and_eq_true, List.cons_append] at h ⊢
    exact ⟨h.1, check_append h.2 h'⟩
  | [], _, _ :: _, _, h, _ => by simp [check] at h
  | _ :: _, _, [], _, h, _ => by simp [check] at h

/-- What the pieces say. -/
def says (cs : List Piece) : List Loader.Metadata := cs.map fun c => territoryOf lens c.2.1 c.2.2

theorem says_append (cs cs' : List Piece) : says (cs ++ cs') = says cs ++ says cs' := by simp [says]

end Phone.Shipped
