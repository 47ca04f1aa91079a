import Verif.Model.Loader
/-! # The XML reader

`/repo/src/metadata/loader.rs:92-94` reads the document with `quick_xml::Reader::from_reader` in its default configuration.
`quick_xml` is a dependency and its source is not in `/repo` (`/repo/Cargo.toml:21`, `30` admit versions 0.28 to 0.41); this is
a model of what it delivers for a text, so that the loader can be followed from the text of the shipped asset on.

Simplifications: the input is text rather than bytes (the asset is UTF-8 without a byte order mark, and all delimiters are
ASCII); after an error nothing more is delivered (the loader stops at the first error); `&` in text is an ordinary character
(newer versions deliver entity references as separate events; the asset has no `&` outside comments, see
`Props/Shipped.lean`); a document type declaration ends at the `>` that balances its `<` (newer versions also skip
comments and quoted strings inside it; the asset has no comments and no `<` or `>` in quotes there), and only `<!DOCTYPE `
in capitals followed by a blank begins one. -/

namespace Phone.XmlReader
open Loader

/-- XML white space. -/
def isSpace (c : Char) : Bool := c == ' ' || c == '\n' || c == '\r' || c == '\t'

/-- What stands before the first character with `p`, and what stands after it. -/
def cut (p : Char → Bool) : Str → Str → Option (Str × Str)
  | _, [] => none
  | acc, c :: cs => if p c then some (acc.reverse, cs) else cut p (c :: acc) cs

/-- The content of a tag, up to the first `>` outside quotes; `q` is the open quote. -/
def tagContent : Option Char → Str → Str → Option (Str × Str)
  | _, _, [] => none
  | none, acc, c :: cs =>
    if c == '>' then some (acc.reverse, cs)
    else tagContent (if c == '"' || c == '\'' then some c else none) (c :: acc) cs
  | some q, acc, c :: cs => tagContent (if c == q then none else some q) (c :: acc) cs

/-- What stands after the first `p`. -/
def after (p : Str) : Str → Option Str
  | [] => none
  | c :: cs => if p.isPrefixOf (c :: cs) then some ((c :: cs).drop p.length) else after p cs

/-- What stands after the `>` that closes a document type declaration; `depth` is the number of `<` open inside it. -/
def afterDocType : Nat → Str → Option Str
  | _, [] => none
  | d, c :: cs =>
    if c == '<' then afterDocType (d + 1) cs
    else if c == '>' then
      match d with
      | 0 => some cs
      | d + 1 => afterDocType d cs
    else afterDocType d cs

/-- The attributes in the content of a tag after its name; `seen` are the names so far, `f` bounds their number. -/
def attributes : Nat → List Str → Str → List Attr
  | 0, _, _ => []
  | f + 1, seen, s =>
    match s.dropWhile isSpace with
    | [] => []
    | c :: cs =>
      let kr := (c :: cs).span fun c => c != '=' && !isSpace c
      match kr.2.dropWhile isSpace with
      | '=' :: r =>
        match r.dropWhile isSpace with
        | q :: r =>
          if q == '"' || q == '\'' then
            match cut (· == q) [] r with
            | some (v, r) =>
              if seen.contains kr.1 then [.bad] else .ok (.utf8 kr.1) (.utf8 v) :: attributes f (kr.1 :: seen) r
            | none => [.bad]
          else [.bad]
        | [] => [.bad]
      | _ => [.bad]

/-- Drop white space at the end. -/
def trimEnd (s : Str) : Str := (s.reverse.dropWhile isSpace).reverse

/-- An event with the names of the elements open after it and the rest of the text. -/
abbrev Step := Event × List Str × Str

/-- An error: nothing more is delivered. -/
def fail : Step := (.error, [], [])

/-- An event and the rest of the text, should there be one. -/
def deliver (e : Event) (stack : List Str) : Option Str → Step
  | some r => (e, stack, r)
  | none => fail

/-- After `<!`. -/
def bang (stack : List Str) : Str → Step
  | '-' :: '-' :: r => deliver .comment stack (after (str% "-->") r)
  | 'D' :: 'O' :: 'C' :: 'T' :: 'Y' :: 'P' :: 'E' :: ' ' :: r => deliver .docType stack (afterDocType 0 r)
  | '[' :: 'C' :: 'D' :: 'A' :: 'T' :: 'A' :: '[' :: r => deliver .other stack (after (str% "]]>") r)
  | _ => fail

/-- After `</`. The name must be the one of the innermost open element. -/
def close (stack : List Str) (s : Str) : Step :=
  match cut (· == '>') [] s with
  | none => fail
  | some (n, r) =>
    match stack with
    | [] => fail
    | m :: stack => if trimEnd n == m then (.stop (.utf8 m), stack, r) else fail

/-- The name and the attributes in the content of a tag. -/
def nameAttrs (t : Str) : Str × List Attr :=
  let nr := t.span fun c => !isSpace c
  (nr.1, attributes nr.2.length [] nr.2)

/-- After the `<` of any other tag. -/
def opening (stack : List Str) (s : Str) : Step :=
  match tagContent none [] s with
  | none => fail
  | some (t, r) =>
    if t.getLast? == some '/' then
      let na := nameAttrs t.dropLast
      (.empty (.utf8 na.1) na.2, stack, r)
    else
      let na := nameAttrs t
      (.start (.utf8 na.1) na.2, na.1 :: stack, r)

/-- The next event of a text; `stack` are the names of the open elements, the innermost first. -/
def next (stack : List Str) (s : Str) : Step :=
  match s with
  | [] => fail
  | c :: cs =>
    if c == '<' then
      match cs with
      | [] => fail
      | d :: r =>
        if d == '!' then bang stack r
        else if d == '?' then deliver .other stack (after (str% "?>") r)
        else if d == '/' then close stack r
        else opening stack (d :: r)
    else
      let tr := (c :: cs).span (· != '<')
      (.text (.utf8 tr.1), stack, tr.2)

/-- At most `f` events of a text, with the elements `stack` open. -/
def events : Nat → List Str → Str → List Event
  | 0, _, _ => []
  | _ + 1, _, [] => []
  | f + 1, stack, c :: cs =>
    let e := next stack (c :: cs)
    e.1 :: events f e.2.1 e.2.2

/-- The events of a document: each one takes at least one character. -/
def read (s : Str) : List Event := events s.length [] s

end Phone.XmlReader
