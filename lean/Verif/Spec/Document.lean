import Verif.Spec.Loader
/-! # How a metadata document is written

The relation between the text of an XML document and the tree it stands for, as a grammar. -/

namespace Phone.Xml

/-- XML white space. -/
def Blank (s : Str) : Prop := ∀ c ∈ s, c ∈ [' ', '\n', '\r', '\t']

/-- The name of an element or attribute: no white space and none of the characters that mean something in a tag. -/
def IsName (s : Str) : Prop :=
  s ≠ [] ∧ ∀ c ∈ s, c ∉ [' ', '\n', '\r', '\t', '<', '>', '/', '=', '"', '\'', '!', '?', '&']

/-- The text between the name of an element and the end of the tag: attributes with values in quotes of either kind, with white
space before them, around the `=` and at the end. No name occurs twice. -/
inductive AttrText : List (Str × Str) → Str → Prop
  | nil {w : Str} : Blank w → AttrText [] w
  | cons {w k w' w'' v a : Str} {q : Char} {as : List (Str × Str)} :
      w ≠ [] → Blank w → IsName k → Blank w' → Blank w'' → q = '"' ∨ q = '\'' → q ∉ v → k ∉ as.map Prod.fst → AttrText as a →
      AttrText ((k, v) :: as) (w ++ k ++ w' ++ '=' :: (w'' ++ q :: (v ++ q :: a)))

/-- A text in which `<` and `>` are paired. -/
inductive Balanced : Str → Prop
  | nil : Balanced []
  | char {c : Char} {s : Str} : c ≠ '<' → c ≠ '>' → Balanced s → Balanced (c :: s)
  | pair {s s' : Str} : Balanced s → Balanced s' → Balanced ('<' :: (s ++ '>' :: s'))

/-- The end mark `m` is where the text `s ++ m` has its first `m`. -/
def EndsFirst (s m : Str) : Prop := ∀ a b, s ++ m = a ++ m ++ b → b = []

/-- The text of a sequence of nodes. -/
inductive Written : List Node → Str → Prop
  | nil : Written [] []
  /-- text up to the next tag or the end -/
  | text {s t : Str} {cs : List Node} : s ≠ [] → (∀ c ∈ s, c ≠ '<' ∧ c ≠ '&' ∧ c ≠ '﻿') → t = [] ∨ t.head? = some '<' →
      Written cs t → Written (.text s :: cs) (s ++ t)
  | comment {s t : Str} {cs : List Node} : EndsFirst s (str% "-->") → Written cs t →
      Written (.comment :: cs) ((str% "<!--") ++ s ++ (str% "-->") ++ t)
  | docType {s t : Str} {cs : List Node} : Balanced s → Written cs t →
      Written (.docType :: cs) ((str% "<!DOCTYPE ") ++ s ++ '>' :: t)
  | instruction {s t : Str} {cs : List Node} : EndsFirst s (str% "?>") → Written cs t →
      Written (.misc :: cs) ((str% "<?") ++ s ++ (str% "?>") ++ t)
  | cdata {s t : Str} {cs : List Node} : EndsFirst s (str% "]]>") → Written cs t →
      Written (.misc :: cs) ((str% "<![CDATA[") ++ s ++ (str% "]]>") ++ t)
  | empty {n a t : Str} {as : List (Str × Str)} {cs : List Node} : IsName n → AttrText as a → Written cs t →
      Written (.empty n as :: cs) ('<' :: (n ++ a ++ '/' :: '>' :: t))
  | elem {n a s w t : Str} {as : List (Str × Str)} {cs' cs : List Node} : IsName n → AttrText as a → Written cs' s → Blank w →
      Written cs t → Written (.elem n as cs' :: cs) ('<' :: (n ++ a ++ '>' :: (s ++ '<' :: '/' :: (n ++ w ++ '>' :: t))))

end Phone.Xml
