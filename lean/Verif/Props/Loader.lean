import Verif.Spec.Loader
import Verif.Basic.StrLemmas
import Verif.Basic.KernelRfl
/-! # The metadata loader (C30, C32, C33) -/

namespace Phone.Xml
open Loader

/-- `o` succeeds exactly when `P` holds, and then with `a`. -/
def Reads {ε α : Type} (o : Outcome ε α) (P : Prop) (a : α) : Prop := (P → o = .ok a) ∧ (¬ P → ∀ x, o ≠ .ok x)

theorem Reads.bind {ε α β : Type} {o : Outcome ε α} {P Q : Prop} {a : α} {f : α → Outcome ε β} {b : β}
    (h : Reads o P a) (h' : P → Reads (f a) Q b) : Reads (o >>= f) (P ∧ Q) b := by
  constructor
  · rintro ⟨p, q⟩
    rw [h.1 p]
    exact (h' p).1 q
  · intro hn x hx
    rcases Outcome.bind_eq_ok.mp hx with ⟨a', ha, hf⟩
    by_cases p : P
    · rw [h.1 p] at ha
      injection ha with ha
      subst ha
      exact (h' p).2 (fun q => hn ⟨p, q⟩) x hf
    · exact h.2 p a' ha

theorem Reads.congr {ε α : Type} {o : Outcome ε α} {P Q : Prop} {a b : α} (h : Reads o P a) (hp : P ↔ Q) (hb : Q → a = b) :
    Reads o Q b :=
  ⟨fun q => hb q ▸ h.1 (hp.mpr q), fun nq => h.2 fun p => nq (hp.mp p)⟩

theorem Reads.ok {ε α : Type} {P : Prop} (a : α) (p : P) : Reads (.ok a : Outcome ε α) P a :=
  ⟨fun _ => rfl, fun n => absurd p n⟩

theorem Reads.fail {ε α : Type} {o : Outcome ε α} {P : Prop} (a : α) (h : ∀ x, o ≠ .ok x) (p : ¬ P) : Reads o P a :=
  ⟨fun q => absurd q p, fun _ => h⟩

/-! ## Lookups -/

theorem attr_nil (k : Str) : attr [] k = none := rfl

theorem attr_cons (a : Str × Str) (as : List (Str × Str)) (k : Str) :
    attr (a :: as) k = (attr as k).or (if a.1 = k then some a.2 else none) := by
  simp only [attr, List.reverse_cons, List.find?_append]
  cases h : List.find? (fun a => a.1 == k) as.reverse with
  | some x => simp
  | none =>
    by_cases hk : a.1 = k <;> simp [hk]

theorem attr_append (as bs : List (Str × Str)) (k : Str) : attr (as ++ bs) k = (attr bs k).or (attr as k) := by
  induction as with
  | nil => simp [attr_nil]
  | cons a as ih => simp [attr_cons, ih, Option.or_assoc]

theorem elems_cons_elem (n n' : Str) (as : List (Str × Str)) (cs' cs : List Node) :
    elems n (.elem n' as cs' :: cs) = (if n' = n then [(as, cs')] else []) ++ elems n cs := by
  by_cases h : n' = n <;> simp [elems, h]

theorem elems_cons_other (n : Str) (c : Node) (cs : List Node) (h : ∀ n' as cs', c ≠ .elem n' as cs') :
    elems n (c :: cs) = elems n cs := by
  cases c with
  | elem n' as cs' => exact absurd rfl (h n' as cs')
  | _ => simp [elems]

theorem lastElem_cons_elem (n n' : Str) (as : List (Str × Str)) (cs' cs : List Node) :
    lastElem n (.elem n' as cs' :: cs) = (lastElem n cs).or (if n' = n then some cs' else none) := by
  simp only [lastElem, elems_cons_elem]
  by_cases h : n' = n
  · cases h' : (elems n cs).getLast? with
    | none => simp [h, List.getLast?_cons, List.getLast?_eq_none_iff.mp h']
    | some x => simp [h, List.getLast?_cons, h']
  · simp [h]

theorem lastElem_cons_other (n : Str) (c : Node) (cs : List Node) (h : ∀ n' as cs', c ≠ .elem n' as cs') :
    lastElem n (c :: cs) = lastElem n cs := by simp [lastElem, elems_cons_other n c cs h]

theorem events_cons (c : Node) (cs : List Node) : events (c :: cs) = c.events ++ events cs := by rw [events]

theorem isName_utf8 (s t : Str) : isName (.utf8 s) t = decide (s = t) := by
  simp [isName, BEq.beq]

theorem mismatched_ne_ok {α : Type} (n : Raw) (x : α) : (mismatched n : Outcome LoadErr α) ≠ .ok x := by
  cases n <;> simp [mismatched, fromUtf8]

theorem unhandledElement_ne_ok {α : Type} (p : Str) (n : Raw) (x : α) :
    (unhandledElement p n : Outcome LoadErr α) ≠ .ok x := by
  cases n <;> simp [unhandledElement, fromUtf8]

/-! ## Ignored elements and texts -/

theorem ignore_reads : ∀ (cs : List Node) (f : Nat) (n : Str) (rest : List Event), (events cs).length < f →
    Reads (ignore f (.utf8 n) (events cs ++ .stop (.utf8 n) :: rest)) (clean cs = true) ((), rest)
  | [], f + 1, n, rest, _ => by
    simp only [events, List.nil_append, ignore, clean]
    exact .ok _ trivial
  | .text s :: cs, f + 1, n, rest, hf => by
    simp only [events, Node.events, List.cons_append, List.nil_append, ignore, clean, Node.clean, Bool.true_and] at hf ⊢
    exact ignore_reads cs f n rest (by simpa using hf)
  | .comment :: cs, f + 1, n, rest, hf => by
    simp only [events, Node.events, List.cons_append, List.nil_append, ignore, clean, Node.clean, Bool.true_and] at hf ⊢
    exact ignore_reads cs f n rest (by simpa using hf)
  | .empty m as :: cs, f + 1, n, rest, hf => by
    simp only [events, Node.events, List.cons_append, List.nil_append, ignore, clean, Node.clean, Bool.true_and] at hf ⊢
    exact ignore_reads cs f n rest (by simpa using hf)
  | .docType :: cs, f + 1, n, rest, hf => by
    simp only [events, Node.events, List.cons_append, List.nil_append, ignore]
    exact .fail _ (by simp) (by simp [clean, Node.clean])
  | .misc :: cs, f + 1, n, rest, hf => by
    simp only [events, Node.events, List.cons_append, List.nil_append, ignore]
    exact .fail _ (by simp) (by simp [clean, Node.clean])
  | .elem m as cs' :: cs, f + 1, n, rest, hf => by
    simp only [events, Node.events, List.cons_append, List.nil_append, List.append_assoc, ignore] at hf ⊢
    simp only [List.length_cons, List.length_append] at hf
    refine ((ignore_reads cs' f m _ (by omega)).bind fun _ => ignore_reads cs f n rest (by omega)).congr ?_ fun _ => rfl
    simp [clean, Node.clean]

theorem textOnly_cons (c : Node) (cs : List Node) : TextOnly (c :: cs) ↔ (∃ s, c = .text s) ∧ TextOnly cs := by
  simp [TextOnly]

theorem text_reads (n : Str) (rest : List Event) : ∀ (cs : List Node) (acc : Str),
    Reads (Loader.text (.utf8 n) acc (events cs ++ .stop (.utf8 n) :: rest)) (TextOnly cs) (acc ++ textOf cs, rest)
  | [], acc => by
    simp only [events, List.nil_append, Loader.text]
    exact (Reads.ok _ trivial).congr (by simp [TextOnly]) (by simp [textOf])
  | c :: cs, acc => by
    rw [textOnly_cons]
    cases c with
    | text s =>
      simp only [events, Node.events, List.cons_append, List.nil_append, Loader.text, fromUtf8, Outcome.bind_ok]
      exact (text_reads n rest cs (acc ++ s)).congr (by simp) (by simp [textOf])
    | elem m as cs' =>
      simp only [events, Node.events, List.cons_append, Loader.text]
      exact .fail _ (by simp) (by simp)
    | _ =>
      simp only [events, Node.events, List.cons_append, List.nil_append, Loader.text]
      exact .fail _ (by simp) (by simp)

/-! ## Descriptions of a type of number -/

/-- What the loader makes of the text of a `possibleLengths` attribute, when it accepts it. -/
def lens (s : Str) : Option (List Nat) :=
  match lengths s with
  | .ok l => some l
  | _ => none

theorem lengths_reads (s : Str) : Reads (lengths s) (∃ l, lens s = some l) ((lens s).getD []) := by
  unfold lens
  cases h : lengths s with
  | ok l => exact .ok _ ⟨l, rfl⟩
  | err e => exact .fail _ (by simp) (by simp)
  | panic p => exact .fail _ (by simp) (by simp)

theorem attrsFit_cons (known : List (Str × Kind)) (a : Str × Str) (as : List (Str × Str)) :
    AttrsFit lens known (a :: as) ↔ (∃ kind, (a.1, kind) ∈ known ∧ kind.Fits lens a.2) ∧ AttrsFit lens known as := by
  simp [AttrsFit]

/-- An attribute value, with the value so far as the default. -/
def upd {α : Type} (as : List (Str × Str)) (k : Str) (read : Str → α) (old : α) : α := ((attr as k).map read).getD old

theorem upd_cons {α : Type} (a : Str × Str) (as : List (Str × Str)) (k : Str) (read : Str → α) (old : α) :
    upd (a :: as) k read old = upd as k read (if a.1 = k then read a.2 else old) := by
  unfold upd
  rw [attr_cons]
  cases attr as k with
  | some v => simp
  | none => by_cases h : a.1 = k <;> simp [h]

theorem upd_nil {α : Type} (k : Str) (read : Str → α) (old : α) : upd [] k read old = old := rfl

theorem attrStr_utf8 (a : Str × Str) : attrStr (.ok (.utf8 a.1) (.utf8 a.2)) = .ok a := rfl

theorem lengthAttrs_reads : ∀ (as : List (Str × Str)) (d : Loader.Descriptor),
    Reads (Loader.lengthAttrs d (attrEvents as)) (AttrsFit lens lengthKeys as)
      { d with
        possibleLength := upd as (str% "national") (fun v => (lens v).getD []) d.possibleLength
        possibleLocalLength := upd as (str% "localOnly") (fun v => (lens v).getD []) d.possibleLocalLength }
  | [], d => by
    simp only [attrEvents, List.map_nil, Loader.lengthAttrs]
    exact .ok _ (by simp [AttrsFit])
  | a :: as, d => by
    rw [attrsFit_cons]
    simp only [attrEvents, List.map_cons, Loader.lengthAttrs, attrStr_utf8, Outcome.bind_ok, upd_cons]
    split
    · rename_i h
      refine ((lengths_reads a.2).bind fun _ => lengthAttrs_reads as _).congr ?_ fun _ => ?_
      · simp [h, lengthKeys, Kind.Fits]
      · simp [h]
    · rename_i h
      split
      · rename_i h'
        refine ((lengths_reads a.2).bind fun _ => lengthAttrs_reads as _).congr ?_ fun _ => ?_
        · simp [h', lengthKeys, Kind.Fits]
        · simp
      · rename_i h'
        exact .fail _ (by simp) (by simp [lengthKeys, h, h'])

/-- `descriptorOf` with the values of `d` where the nodes say nothing. -/
def descriptorFrom (d : Loader.Descriptor) (cs : List Node) : Loader.Descriptor where
  nationalNumber := ((lastElem (str% "nationalNumberPattern") cs).map textOf).or d.nationalNumber
  example? := ((lastElem (str% "exampleNumber") cs).map textOf).or d.example?
  possibleLength := upd (lengthAttrs cs) (str% "national") (fun v => (lens v).getD []) d.possibleLength
  possibleLocalLength := upd (lengthAttrs cs) (str% "localOnly") (fun v => (lens v).getD []) d.possibleLocalLength

theorem descriptorFrom_empty (cs : List Node) : descriptorFrom {} cs = descriptorOf lens cs := by
  unfold descriptorFrom descriptorOf upd
  simp only [Option.or_none, Loader.Descriptor.mk.injEq, true_and, and_true]
  constructor
  · cases attr (lengthAttrs cs) (str% "national") <;> simp
  · cases attr (lengthAttrs cs) (str% "localOnly") <;> simp

theorem upd_append {α : Type} (as bs : List (Str × Str)) (k : Str) (read : Str → α) (old : α) :
    upd (as ++ bs) k read old = upd bs k read (upd as k read old) := by
  unfold upd
  rw [attr_append]
  cases attr bs k <;> simp

theorem all_cons {p : Node → Prop} (c : Node) (cs : List Node) : (∀ x ∈ c :: cs, p x) ↔ p c ∧ ∀ x ∈ cs, p x := by simp

theorem descriptor_reads (n : Str) (rest : List Event) : ∀ (cs : List Node) (f : Nat) (d : Loader.Descriptor),
    (events cs).length < f →
    Reads (Loader.descriptor f (.utf8 n) d (events cs ++ .stop (.utf8 n) :: rest)) (∀ c ∈ cs, DescriptorChild lens c)
      (descriptorFrom d cs, rest)
  | [], f + 1, d, _ => by
    simp only [events, List.nil_append, Loader.descriptor]
    exact (Reads.ok _ trivial).congr (by simp) (by simp [descriptorFrom, upd, attr, lengthAttrs, lastElem, elems])
  | c :: cs, f + 1, d, hf => by
    rw [all_cons]
    cases c with
    | text s =>
      simp only [events, Node.events, List.cons_append, List.nil_append, Loader.descriptor] at hf ⊢
      refine (descriptor_reads n rest cs f d (by simpa using hf)).congr (by simp [DescriptorChild]) fun _ => ?_
      simp [descriptorFrom, lastElem_cons_other, lengthAttrs]
    | comment =>
      simp only [events, Node.events, List.cons_append, List.nil_append, Loader.descriptor] at hf ⊢
      refine (descriptor_reads n rest cs f d (by simpa using hf)).congr (by simp [DescriptorChild]) fun _ => ?_
      simp [descriptorFrom, lastElem_cons_other, lengthAttrs]
    | docType =>
      simp only [events, Node.events, List.cons_append, List.nil_append, Loader.descriptor]
      exact .fail _ (by simp) (by simp [DescriptorChild])
    | misc =>
      simp only [events, Node.events, List.cons_append, List.nil_append, Loader.descriptor]
      exact .fail _ (by simp) (by simp [DescriptorChild])
    | empty m as =>
      simp only [events, Node.events, List.cons_append, List.nil_append, Loader.descriptor, isName_utf8] at hf ⊢
      by_cases hm : m = str% "possibleLengths"
      · simp only [hm, decide_true, if_true]
        refine ((lengthAttrs_reads as d).bind fun _ =>
          descriptor_reads n rest cs f _ (by simpa using hf)).congr (by simp [DescriptorChild]) fun _ => ?_
        simp [descriptorFrom, lastElem_cons_other, lengthAttrs, upd_append]
      · simp only [hm, decide_false, Bool.false_eq_true, if_false]
        exact .fail _ (unhandledElement_ne_ok _ _) (by simp [DescriptorChild, hm])
    | elem m as cs' =>
      simp only [events, Node.events, List.cons_append, List.append_assoc, List.nil_append, Loader.descriptor,
        isName_utf8] at hf ⊢
      simp only [List.length_cons, List.length_append] at hf
      by_cases h1 : m = str% "nationalNumberPattern"
      · simp only [h1, decide_true, if_true]
        refine ((text_reads _ _ cs' []).bind fun _ =>
          descriptor_reads n rest cs f _ (by omega)).congr (by simp [DescriptorChild]) fun _ => ?_
        simp only [descriptorFrom, lastElem_cons_elem, lengthAttrs, List.flatMap_cons, List.nil_append]
        cases lastElem (str% "nationalNumberPattern") cs <;> simp
      · by_cases h2 : m = str% "exampleNumber"
        · simp only [h2, decide_true, if_true]
          refine ((text_reads _ _ cs' []).bind fun _ =>
            descriptor_reads n rest cs f _ (by omega)).congr (by simp [DescriptorChild]) fun _ => ?_
          simp only [descriptorFrom, lastElem_cons_elem, lengthAttrs, List.flatMap_cons, List.nil_append]
          cases lastElem (str% "exampleNumber") cs <;> simp
        · simp only [h1, h2, decide_false, Bool.false_eq_true, if_false]
          exact .fail _ (unhandledElement_ne_ok _ _) (by simp [DescriptorChild, h1, h2])

/-! ## Formats -/

theorem parseBool_reads (v : Str) :
    Reads (parseBool v) (v = str% "true" ∨ v = str% "false") (decide (v = str% "true")) := by
  unfold parseBool
  split
  · rename_i h
    simp only [h, decide_true]
    exact .ok _ (.inl trivial)
  · rename_i h
    split
    · rename_i h'
      simp only [h, decide_false]
      exact .ok _ (.inr h')
    · rename_i h'
      exact .fail _ (by simp) (by simp [h, h'])

/-- A flag attribute. -/
def isTrue (v : Str) : Bool := decide (v = str% "true")

theorem formatAttrs_reads : ∀ (as : List (Str × Str)) (fm : Loader.Format),
    Reads (formatAttrs fm (attrEvents as)) (AttrsFit lens formatKeys as)
      { fm with
        pattern := upd as (str% "pattern") some fm.pattern
        nationalPrefixFormattingRule := upd as (str% "nationalPrefixFormattingRule") some fm.nationalPrefixFormattingRule
        nationalPrefixOptionalWhenFormatting :=
          upd as (str% "nationalPrefixOptionalWhenFormatting") isTrue fm.nationalPrefixOptionalWhenFormatting
        domesticCarrier := upd as (str% "carrierCodeFormattingRule") some fm.domesticCarrier }
  | [], fm => by
    simp only [attrEvents, List.map_nil, formatAttrs]
    exact .ok _ (by simp [AttrsFit])
  | a :: as, fm => by
    rw [attrsFit_cons]
    simp only [attrEvents, List.map_cons, formatAttrs, attrStr_utf8, Outcome.bind_ok, upd_cons]
    have ih := formatAttrs_reads as
    simp only [attrEvents] at ih
    split
    · rename_i h
      refine (ih _).congr ?_ fun _ => ?_
      · simp [h, formatKeys, Kind.Fits]
      · simp [h]
    split
    · rename_i h
      refine (ih _).congr ?_ fun _ => ?_
      · simp [h, formatKeys, Kind.Fits]
      · simp [h]
    split
    · rename_i h
      refine ((parseBool_reads a.2).bind fun _ => ih _).congr ?_ fun _ => ?_
      · simp [h, formatKeys, Kind.Fits]
      · simp [h, isTrue]
    split
    · rename_i h
      refine (ih _).congr ?_ fun _ => ?_
      · simp [h, formatKeys, Kind.Fits]
      · simp
    · rename_i h1 h2 h3 h4
      exact .fail _ (by simp) (by simp [formatKeys, h1, h2, h3, h4])

/-- The format after the elements `cs`. -/
def formatFrom (fm : Loader.Format) (cs : List Node) : Loader.Format :=
  { fm with
    format := ((lastElem (str% "format") cs).map textOf).or fm.format
    leadingDigits := fm.leadingDigits ++ (elems (str% "leadingDigits") cs).map fun e => textOf e.2 }

theorem formatTexts_cons_other (c : Node) (cs : List Node) (h : ∀ n' as cs', c ≠ .elem n' as cs') :
    formatTexts (c :: cs) = formatTexts cs := by
  cases c with
  | elem n' as cs' => exact absurd rfl (h n' as cs')
  | _ => simp [formatTexts]

theorem formatLoop_reads (n : Str) (rest : List Event) : ∀ (cs : List Node) (f : Nat) (fm : Loader.Format) (intl : Option Str),
    (events cs).length < f →
    Reads (formatLoop f (.utf8 n) fm intl (events cs ++ .stop (.utf8 n) :: rest)) (∀ c ∈ cs, FormatChild c)
      ((formatFrom fm cs, ((formatTexts cs).getLast?.getD intl).map fun v => { formatFrom fm cs with format := some v }), rest)
  | [], f + 1, fm, intl, _ => by
    simp only [events, List.nil_append, formatLoop]
    exact (Reads.ok _ trivial).congr (by simp) (by simp [formatFrom, formatTexts, lastElem, elems])
  | c :: cs, f + 1, fm, intl, hf => by
    rw [all_cons]
    cases c with
    | text s =>
      simp only [events, Node.events, List.cons_append, List.nil_append, formatLoop] at hf ⊢
      refine (formatLoop_reads n rest cs f fm intl (by simpa using hf)).congr (by simp [FormatChild]) fun _ => ?_
      simp [formatFrom, lastElem_cons_other, elems_cons_other, formatTexts_cons_other]
    | comment =>
      simp only [events, Node.events, List.cons_append, List.nil_append, formatLoop] at hf ⊢
      refine (formatLoop_reads n rest cs f fm intl (by simpa using hf)).congr (by simp [FormatChild]) fun _ => ?_
      simp [formatFrom, lastElem_cons_other, elems_cons_other, formatTexts_cons_other]
    | docType =>
      simp only [events, Node.events, List.cons_append, List.nil_append, formatLoop]
      exact .fail _ (by simp) (by simp [FormatChild])
    | misc =>
      simp only [events, Node.events, List.cons_append, List.nil_append, formatLoop]
      exact .fail _ (by simp) (by simp [FormatChild])
    | empty m as =>
      simp only [events, Node.events, List.cons_append, List.nil_append, formatLoop]
      exact .fail _ (by simp) (by simp [FormatChild])
    | elem m as cs' =>
      simp only [events, Node.events, List.cons_append, List.append_assoc, List.nil_append, formatLoop, isName_utf8] at hf ⊢
      simp only [List.length_cons, List.length_append] at hf
      by_cases h1 : m = str% "leadingDigits"
      · simp only [h1, decide_true, if_true]
        refine ((text_reads _ _ cs' []).bind fun _ =>
          formatLoop_reads n rest cs f _ _ (by omega)).congr (by simp [FormatChild]) fun _ => ?_
        simp [formatFrom, lastElem_cons_elem, elems_cons_elem, formatTexts]
      by_cases h2 : m = str% "format"
      · simp only [h2, decide_true, if_true]
        refine ((text_reads _ _ cs' []).bind fun _ =>
          formatLoop_reads n rest cs f _ _ (by omega)).congr (by simp [FormatChild]) fun _ => ?_
        simp only [formatFrom, lastElem_cons_elem, elems_cons_elem, formatTexts, List.filterMap_cons]
        simp only [if_true, List.getLast?_cons, List.nil_append]
        cases lastElem (str% "format") cs <;> simp
      by_cases h3 : m = str% "intlFormat"
      · simp only [h3, decide_true, if_true]
        refine ((text_reads _ _ cs' []).bind fun _ =>
          formatLoop_reads n rest cs f _ _ (by omega)).congr (by simp [FormatChild]) fun _ => ?_
        simp [formatFrom, lastElem_cons_elem, elems_cons_elem, formatTexts, List.getLast?_cons]
      · simp only [h1, h2, h3, decide_false, Bool.false_eq_true, if_false]
        exact .fail _ (unhandledElement_ne_ok _ _) (by simp [FormatChild, h1, h2, h3])

/-- The defaults a territory with attributes `ts` hands to its formats. -/
def defaultsOf (ts : List (Str × Str)) : Loader.Defaults :=
  { format :=
      { nationalPrefixFormattingRule := attr ts (str% "nationalPrefixFormattingRule")
        nationalPrefixOptionalWhenFormatting :=
          attr ts (str% "nationalPrefixOptionalWhenFormatting") = some (str% "true")
        domesticCarrier := attr ts (str% "carrierCodeFormattingRule") }
    descriptor := {} }

theorem upd_some (as : List (Str × Str)) (k : Str) (old : Option Str) : upd as k some old = (attr as k).or old := by
  unfold upd
  cases attr as k <;> rfl

theorem isTrue_or (x y : Option Str) :
    (x.map isTrue).getD (decide (y = some (str% "true"))) = decide (x.or y = some (str% "true")) := by
  cases x <;> simp [isTrue] <;> rfl

theorem format_reads (ts as : List (Str × Str)) (cs : List Node) (n : Str) (rest : List Event) (f : Nat) (md : Loader.Metadata)
    (hd : md.defaults = defaultsOf ts) (hf : (events cs).length < f) :
    Reads (Loader.format f md (.utf8 n) (attrEvents as) (events cs ++ .stop (.utf8 n) :: rest))
      (AttrsFit lens formatKeys as ∧ ∀ c ∈ cs, FormatChild c) ((formatOf ts as cs, intlFormatOf ts as cs), rest) := by
  unfold Loader.format
  refine ((formatAttrs_reads as _).bind fun _ => formatLoop_reads n rest cs f _ _ hf).congr Iff.rfl fun _ => ?_
  have key : formatFrom
      { md.defaults.format with
        pattern := upd as (str% "pattern") some md.defaults.format.pattern
        nationalPrefixFormattingRule := upd as (str% "nationalPrefixFormattingRule") some md.defaults.format.nationalPrefixFormattingRule
        nationalPrefixOptionalWhenFormatting :=
          upd as (str% "nationalPrefixOptionalWhenFormatting") isTrue md.defaults.format.nationalPrefixOptionalWhenFormatting
        domesticCarrier := upd as (str% "carrierCodeFormattingRule") some md.defaults.format.domesticCarrier } cs =
      formatOf ts as cs := by
    simp only [formatFrom, formatOf, hd, defaultsOf, upd_some, Option.or_none, List.nil_append, inherited,
      Loader.Format.mk.injEq, true_and, and_true]
    exact isTrue_or _ _
  rw [key, intlFormatOf]
  cases (formatTexts cs).getLast? <;> simp

theorem formats_reads (ts : List (Str × Str)) (n : Str) (rest : List Event) (md : Loader.Metadata)
    (hd : md.defaults = defaultsOf ts) : ∀ (cs : List Node) (f : Nat) (natl intl : List Loader.Format),
    (events cs).length < f →
    Reads (Loader.formats f md (.utf8 n) natl intl (events cs ++ .stop (.utf8 n) :: rest))
      (∀ c ∈ cs, FormatsChild lens c)
      ((natl ++ (elems (str% "numberFormat") cs).map (fun e => formatOf ts e.1 e.2),
        intl ++ (elems (str% "numberFormat") cs).filterMap (fun e => intlFormatOf ts e.1 e.2)), rest)
  | [], f + 1, natl, intl, _ => by
    simp only [events, List.nil_append, Loader.formats]
    exact (Reads.ok _ trivial).congr (by simp) (by simp [elems])
  | c :: cs, f + 1, natl, intl, hf => by
    rw [all_cons]
    cases c with
    | text s =>
      simp only [events, Node.events, List.cons_append, List.nil_append, Loader.formats] at hf ⊢
      refine (formats_reads ts n rest md hd cs f natl intl (by simpa using hf)).congr (by simp [FormatsChild]) fun _ => ?_
      simp [elems_cons_other]
    | comment =>
      simp only [events, Node.events, List.cons_append, List.nil_append, Loader.formats] at hf ⊢
      refine (formats_reads ts n rest md hd cs f natl intl (by simpa using hf)).congr (by simp [FormatsChild]) fun _ => ?_
      simp [elems_cons_other]
    | docType =>
      simp only [events, Node.events, List.cons_append, List.nil_append, Loader.formats]
      exact .fail _ (by simp) (by simp [FormatsChild])
    | misc =>
      simp only [events, Node.events, List.cons_append, List.nil_append, Loader.formats]
      exact .fail _ (by simp) (by simp [FormatsChild])
    | empty m as =>
      simp only [events, Node.events, List.cons_append, List.nil_append, Loader.formats]
      exact .fail _ (by simp) (by simp [FormatsChild])
    | elem m as cs' =>
      simp only [events, Node.events, List.cons_append, List.append_assoc, List.nil_append, Loader.formats, isName_utf8] at hf ⊢
      simp only [List.length_cons, List.length_append] at hf
      by_cases h1 : m = str% "numberFormat"
      · simp only [h1, decide_true, if_true]
        refine ((format_reads ts as cs' _ _ f md hd (by omega)).bind fun _ =>
          formats_reads ts n rest md hd cs f _ _ (by omega)).congr (by simp [FormatsChild]) fun _ => ?_
        cases h : intlFormatOf ts as cs' <;> simp [elems_cons_elem, h]
      · simp only [h1, decide_false, Bool.false_eq_true, if_false]
        exact .fail _ (unhandledElement_ne_ok _ _) (by simp [FormatsChild, h1])

/-! ## Territories -/

theorem number_reads (v : Str) :
    Reads (Outcome.okOr LoadErr.integer (parseUInt u16Bound v)) (∃ n, parseUInt u16Bound v = some n)
      ((parseUInt u16Bound v).getD 0) := by
  cases h : parseUInt u16Bound v with
  | some n => exact .ok _ ⟨n, rfl⟩
  | none => exact .fail _ (by simp) (by simp)

/-- The entry `m` after the attributes `as`. -/
def territoryFrom (m : Loader.Metadata) (as : List (Str × Str)) : Loader.Metadata :=
  { m with
    id := upd as (str% "id") some m.id
    countryCode := upd as (str% "countryCode") (parseUInt u16Bound) m.countryCode
    internationalPrefix := upd as (str% "internationalPrefix") some m.internationalPrefix
    preferredInternationalPrefix := upd as (str% "preferredInternationalPrefix") some m.preferredInternationalPrefix
    nationalPrefix := upd as (str% "nationalPrefix") some m.nationalPrefix
    preferredExtensionPrefix := upd as (str% "preferredExtnPrefix") some m.preferredExtensionPrefix
    nationalPrefixForParsing := upd as (str% "nationalPrefixForParsing") some m.nationalPrefixForParsing
    nationalPrefixTransformRule := upd as (str% "nationalPrefixTransformRule") some m.nationalPrefixTransformRule
    mainCountryForCode := upd as (str% "mainCountryForCode") isTrue m.mainCountryForCode
    leadingDigits := upd as (str% "leadingDigits") some m.leadingDigits
    mobileNumberPortable := upd as (str% "mobileNumberPortableRegion") isTrue m.mobileNumberPortable
    defaults.format.nationalPrefixFormattingRule :=
      upd as (str% "nationalPrefixFormattingRule") some m.defaults.format.nationalPrefixFormattingRule
    defaults.format.nationalPrefixOptionalWhenFormatting :=
      upd as (str% "nationalPrefixOptionalWhenFormatting") isTrue m.defaults.format.nationalPrefixOptionalWhenFormatting
    defaults.format.domesticCarrier :=
      upd as (str% "carrierCodeFormattingRule") some m.defaults.format.domesticCarrier }

theorem territoryFrom_cons (m : Loader.Metadata) (a : Str × Str) (as : List (Str × Str)) :
    territoryFrom m (a :: as) = territoryFrom (territoryFrom m [a]) as := by
  simp only [territoryFrom, upd_cons a, upd_nil]

theorem Reads.map_ok {ε α β : Type} {o : Outcome ε α} {P : Prop} {a : α} (g : α → β) (h : Reads o P a) :
    Reads (o >>= fun x => .ok (g x)) P (g a) :=
  (h.bind (Q := True) fun _ => .ok (g a) trivial).congr (by simp) fun _ => rfl

theorem territoryAttr_reads (m : Loader.Metadata) (k v : Str) :
    Reads (territoryAttr m k v) (∃ kind, (k, kind) ∈ territoryKeys ∧ kind.Fits lens v) (territoryFrom m [(k, v)]) := by
  have text : ∀ k : Str, (k, Kind.text) ∈ territoryKeys → territoryAttr m k v = .ok (territoryFrom m [(k, v)]) →
      Reads (territoryAttr m k v) (∃ kind, (k, kind) ∈ territoryKeys ∧ kind.Fits lens v) (territoryFrom m [(k, v)]) :=
    fun k hk h => h ▸ .ok _ ⟨.text, hk, trivial⟩
  have flag : ∀ (k : Str) (g : Bool → Loader.Metadata), (∀ kind, (k, kind) ∈ territoryKeys ↔ kind = .flag) →
      territoryAttr m k v = (parseBool v >>= fun b => .ok (g b)) → territoryFrom m [(k, v)] = g (isTrue v) →
      Reads (territoryAttr m k v) (∃ kind, (k, kind) ∈ territoryKeys ∧ kind.Fits lens v) (territoryFrom m [(k, v)]) := by
    intro k g hk h h'
    rw [h, h']
    exact ((parseBool_reads v).map_ok g).congr (by simp [hk, Kind.Fits]) fun _ => rfl
  by_cases hk : k ∈ territoryKeys.map Prod.fst
  · simp only [territoryKeys, List.map_cons, List.map_nil, List.mem_cons, List.not_mem_nil, or_false] at hk
    rcases hk with rfl | rfl | rfl | rfl | rfl | rfl | rfl | rfl | rfl | rfl | rfl | rfl | rfl | rfl
    · exact text _ (by simp [territoryKeys]) rfl
    · have h : territoryAttr m (str% "countryCode") v =
          (Outcome.okOr LoadErr.integer (parseUInt u16Bound v) >>= fun c => .ok { m with countryCode := some c }) := rfl
      rw [h]
      refine ((number_reads v).map_ok _).congr (by simp [territoryKeys, Kind.Fits]) ?_
      rintro ⟨kind, hk, hf⟩
      have : kind = .number := by simpa [territoryKeys] using hk
      subst this
      obtain ⟨n, hn⟩ := hf
      have h' : territoryFrom m [(str% "countryCode", v)] = { m with countryCode := parseUInt u16Bound v } := rfl
      rw [h', hn]
      rfl
    · exact text _ (by simp [territoryKeys]) rfl
    · exact text _ (by simp [territoryKeys]) rfl
    · exact text _ (by simp [territoryKeys]) rfl
    · exact text _ (by simp [territoryKeys]) rfl
    · exact text _ (by simp [territoryKeys]) rfl
    · exact text _ (by simp [territoryKeys]) rfl
    · exact flag _ (fun b => { m with mainCountryForCode := b }) (by simp [territoryKeys]) rfl rfl
    · exact text _ (by simp [territoryKeys]) rfl
    · exact flag _ (fun b => { m with mobileNumberPortable := b }) (by simp [territoryKeys]) rfl rfl
    · exact text _ (by simp [territoryKeys]) rfl
    · exact flag _ (fun b => { m with defaults.format.nationalPrefixOptionalWhenFormatting := b }) (by simp [territoryKeys])
        rfl rfl
    · exact text _ (by simp [territoryKeys]) rfl
  · refine .fail _ (fun x hx => ?_) fun ⟨kind, h, _⟩ => hk (List.mem_map_of_mem h)
    simp only [territoryKeys, List.map_cons, List.map_nil, List.mem_cons, List.not_mem_nil, or_false, not_or] at hk
    obtain ⟨h1, h2, h3, h4, h5, h6, h7, h8, h9, h10, h11, h12, h13, h14⟩ := hk
    rw [territoryAttr, if_neg h1, if_neg h2, if_neg h3, if_neg h4, if_neg h5, if_neg h6, if_neg h7, if_neg h8, if_neg h9,
      if_neg h10, if_neg h11, if_neg h12, if_neg h13, if_neg h14] at hx
    exact absurd hx (by simp)

theorem territoryAttrs_reads : ∀ (as : List (Str × Str)) (m : Loader.Metadata),
    Reads (territoryAttrs m (attrEvents as)) (AttrsFit lens territoryKeys as) (territoryFrom m as)
  | [], m => .ok _ (by simp [AttrsFit])
  | a :: as, m => by
    rw [attrsFit_cons]
    simp only [attrEvents, List.map_cons, territoryAttrs, attrStr_utf8, Outcome.bind_ok]
    exact ((territoryAttr_reads m a.1 a.2).bind fun _ => territoryAttrs_reads as _).congr Iff.rfl fun _ =>
      (territoryFrom_cons m a as).symm

/-- The entry `m` after the elements `cs` of a territory with attributes `ts`. -/
def bodyFrom (ts : List (Str × Str)) (m : Loader.Metadata) (cs : List Node) : Loader.Metadata :=
  { m with
    general := ((lastElem (str% "generalDesc") cs).map (descriptorOf lens)).or m.general
    fixedLine := ((lastElem (str% "fixedLine") cs).map (descriptorOf lens)).or m.fixedLine
    mobile := ((lastElem (str% "mobile") cs).map (descriptorOf lens)).or m.mobile
    tollFree := ((lastElem (str% "tollFree") cs).map (descriptorOf lens)).or m.tollFree
    premiumRate := ((lastElem (str% "premiumRate") cs).map (descriptorOf lens)).or m.premiumRate
    sharedCost := ((lastElem (str% "sharedCost") cs).map (descriptorOf lens)).or m.sharedCost
    personalNumber := ((lastElem (str% "personalNumber") cs).map (descriptorOf lens)).or m.personalNumber
    voip := ((lastElem (str% "voip") cs).map (descriptorOf lens)).or m.voip
    pager := ((lastElem (str% "pager") cs).map (descriptorOf lens)).or m.pager
    uan := ((lastElem (str% "uan") cs).map (descriptorOf lens)).or m.uan
    emergency := ((lastElem (str% "emergency") cs).map (descriptorOf lens)).or m.emergency
    voicemail := ((lastElem (str% "voicemail") cs).map (descriptorOf lens)).or m.voicemail
    noInternational := ((lastElem (str% "noInternationalDialling") cs).map (descriptorOf lens)).or m.noInternational
    formats := ((lastElem (str% "availableFormats") cs).map fun fs =>
      (elems (str% "numberFormat") fs).map fun e => formatOf ts e.1 e.2).getD m.formats
    internationalFormats := ((lastElem (str% "availableFormats") cs).map fun fs =>
      (elems (str% "numberFormat") fs).filterMap fun e => intlFormatOf ts e.1 e.2).getD m.internationalFormats }

theorem field_cons (k n : Str) (as : List (Str × Str)) (cs' cs : List Node) (old : Option Loader.Descriptor) :
    ((lastElem k (.elem n as cs' :: cs)).map (descriptorOf lens)).or old =
      ((lastElem k cs).map (descriptorOf lens)).or (if n = k then some (descriptorOf lens cs') else old) := by
  rw [lastElem_cons_elem]
  cases lastElem k cs with
  | some x => simp
  | none => by_cases h : n = k <;> simp [h]

theorem list_cons {α : Type} (k n : Str) (as : List (Str × Str)) (cs' cs : List Node) (g : List Node → List α) (old : List α) :
    ((lastElem k (.elem n as cs' :: cs)).map g).getD old =
      ((lastElem k cs).map g).getD (if n = k then g cs' else old) := by
  rw [lastElem_cons_elem]
  cases lastElem k cs with
  | some x => simp
  | none => by_cases h : n = k <;> simp [h]

/-- The entry `m` after one more description, called `n`. -/
def withDescriptor (m : Loader.Metadata) (n : Str) (d : Loader.Descriptor) : Loader.Metadata :=
  { m with
    general := if n = str% "generalDesc" then some d else m.general
    fixedLine := if n = str% "fixedLine" then some d else m.fixedLine
    mobile := if n = str% "mobile" then some d else m.mobile
    tollFree := if n = str% "tollFree" then some d else m.tollFree
    premiumRate := if n = str% "premiumRate" then some d else m.premiumRate
    sharedCost := if n = str% "sharedCost" then some d else m.sharedCost
    personalNumber := if n = str% "personalNumber" then some d else m.personalNumber
    voip := if n = str% "voip" then some d else m.voip
    pager := if n = str% "pager" then some d else m.pager
    uan := if n = str% "uan" then some d else m.uan
    emergency := if n = str% "emergency" then some d else m.emergency
    voicemail := if n = str% "voicemail" then some d else m.voicemail
    noInternational := if n = str% "noInternationalDialling" then some d else m.noInternational }

/-- The entry `m` after one more element `availableFormats`. -/
def withFormats (ts : List (Str × Str)) (m : Loader.Metadata) (n : Str) (cs : List Node) : Loader.Metadata :=
  { m with
    formats := if n = str% "availableFormats" then
      (elems (str% "numberFormat") cs).map fun e => formatOf ts e.1 e.2 else m.formats
    internationalFormats := if n = str% "availableFormats" then
      (elems (str% "numberFormat") cs).filterMap fun e => intlFormatOf ts e.1 e.2 else m.internationalFormats }

theorem bodyFrom_cons (ts : List (Str × Str)) (m : Loader.Metadata) (n : Str) (as : List (Str × Str)) (cs' cs : List Node) :
    bodyFrom ts m (.elem n as cs' :: cs) =
      bodyFrom ts (withFormats ts (withDescriptor m n (descriptorOf lens cs')) n cs') cs := by
  simp only [bodyFrom, field_cons, list_cons, withFormats, withDescriptor]

theorem setDescriptor_some (m : Loader.Metadata) (n : Str) (d : Loader.Descriptor) (h : n ∈ descriptorNames) :
    setDescriptor m (.utf8 n) d = some (withDescriptor m n d) := by
  simp only [descriptorNames, List.mem_cons, List.not_mem_nil, or_false] at h
  rcases h with rfl | rfl | rfl | rfl | rfl | rfl | rfl | rfl | rfl | rfl | rfl | rfl | rfl <;> rfl

theorem setDescriptor_none (m : Loader.Metadata) (n : Str) (d : Loader.Descriptor) (h : n ∉ descriptorNames) :
    setDescriptor m (.utf8 n) d = none := by
  simp only [descriptorNames, List.mem_cons, List.not_mem_nil, or_false, not_or] at h
  obtain ⟨h1, h2, h3, h4, h5, h6, h7, h8, h9, h10, h11, h12, h13⟩ := h
  simp only [setDescriptor, isName_utf8, h1, h2, h3, h4, h5, h6, h7, h8, h9, h10, h11, h12, h13, decide_false,
    Bool.false_eq_true, if_false]

theorem descriptorNames_formats : str% "availableFormats" ∉ descriptorNames := by decide
theorem descriptorNames_references : str% "references" ∉ descriptorNames := by decide
theorem descriptorNames_areaCode : str% "areaCodeOptional" ∉ descriptorNames := by decide

theorem withDescriptor_other (m : Loader.Metadata) (n : Str) (d : Loader.Descriptor) (h : n ∉ descriptorNames) :
    withDescriptor m n d = m := by
  simp only [descriptorNames, List.mem_cons, List.not_mem_nil, or_false, not_or] at h
  obtain ⟨h1, h2, h3, h4, h5, h6, h7, h8, h9, h10, h11, h12, h13⟩ := h
  simp only [withDescriptor, h1, h2, h3, h4, h5, h6, h7, h8, h9, h10, h11, h12, h13, if_false]

theorem withFormats_other (ts : List (Str × Str)) (m : Loader.Metadata) (n : Str) (cs : List Node)
    (h : n ≠ str% "availableFormats") : withFormats ts m n cs = m := by
  simp only [withFormats, h, if_false]

theorem territoryLoop_reads (ts : List (Str × Str)) (rest : List Event) (cs : List Node) : ∀ (f : Nat) (m : Loader.Metadata),
    m.defaults = defaultsOf ts → (events cs).length < f →
    Reads (territoryLoop f m (events cs ++ .stop (.utf8 (str% "territory")) :: rest)) (∀ c ∈ cs, TerritoryChild lens c)
      (bodyFrom ts m cs, rest) := by
  induction cs with
  | nil =>
    intro f m _ hf
    obtain ⟨f, rfl⟩ : ∃ g, f = g + 1 := ⟨f - 1, by omega⟩
    simp only [events, List.nil_append, territoryLoop, isName_utf8]
    exact (Reads.ok _ trivial).congr (by simp) (by simp [bodyFrom, lastElem, elems])
  | cons c cs ih =>
    intro f m hd hf
    obtain ⟨f, rfl⟩ : ∃ g, f = g + 1 := ⟨f - 1, by omega⟩
    rw [all_cons]
    cases c with
    | text s =>
      simp only [events, Node.events, List.cons_append, List.nil_append, territoryLoop] at hf ⊢
      refine (ih f m hd (by simpa using hf)).congr (by simp [TerritoryChild]) fun _ => ?_
      simp [bodyFrom, lastElem_cons_other]
    | comment =>
      simp only [events, Node.events, List.cons_append, List.nil_append, territoryLoop] at hf ⊢
      refine (ih f m hd (by simpa using hf)).congr (by simp [TerritoryChild]) fun _ => ?_
      simp [bodyFrom, lastElem_cons_other]
    | docType =>
      simp only [events, Node.events, List.cons_append, List.nil_append, territoryLoop]
      exact .fail _ (by simp) (by simp [TerritoryChild])
    | misc =>
      simp only [events, Node.events, List.cons_append, List.nil_append, territoryLoop]
      exact .fail _ (by simp) (by simp [TerritoryChild])
    | empty n as =>
      simp only [events, Node.events, List.cons_append, List.nil_append, territoryLoop]
      exact .fail _ (by simp) (by simp [TerritoryChild])
    | elem n as cs' =>
      simp only [events, Node.events, List.cons_append, List.append_assoc, List.nil_append, territoryLoop, isName_utf8] at hf ⊢
      simp only [List.length_cons, List.length_append] at hf
      rw [bodyFrom_cons]
      by_cases h1 : n = str% "references" ∨ n = str% "areaCodeOptional"
      · have h1' : (decide (n = str% "references") || decide (n = str% "areaCodeOptional")) = true := by simpa using h1
        rw [if_pos h1']
        have hn : n ∉ descriptorNames ∧ n ≠ str% "availableFormats" := by
          rcases h1 with rfl | rfl
          · exact ⟨descriptorNames_references, by decide⟩
          · exact ⟨descriptorNames_areaCode, by decide⟩
        refine ((ignore_reads cs' f n _ (by omega)).bind fun _ =>
          ih f m hd (by omega)).congr ?_ fun _ => ?_
        · simp only [TerritoryChild, h1, hn.1, hn.2, false_and, or_false, true_and]
        · rw [withDescriptor_other _ _ _ hn.1, withFormats_other _ _ _ _ hn.2]
      have h1' : ¬ (decide (n = str% "references") || decide (n = str% "areaCodeOptional")) = true := by simpa using h1
      rw [if_neg h1']
      by_cases h2 : n ∈ descriptorNames
      · have hn : n ≠ str% "availableFormats" := by rintro rfl; exact descriptorNames_formats h2
        rw [if_pos (by rw [setDescriptor_some m n {} h2]; rfl)]
        have hd' : m.defaults.descriptor = {} := by rw [hd]; rfl
        refine ((descriptor_reads n _ cs' f m.defaults.descriptor (by omega)).bind (Q := ∀ c ∈ cs, TerritoryChild lens c)
          (b := (bodyFrom ts (withDescriptor m n (descriptorOf lens cs')) cs, rest)) fun _ => ?_).congr ?_ fun _ => ?_
        · rw [hd', descriptorFrom_empty, setDescriptor_some m n _ h2]
          exact ih f _ hd (by omega)
        · simp only [TerritoryChild, h1, h2, hn, false_and, false_or, true_and, or_false]
        · rw [withFormats_other _ _ _ _ hn]
      rw [if_neg (by rw [setDescriptor_none m n {} h2]; simp), withDescriptor_other _ _ _ h2]
      by_cases h3 : n = str% "availableFormats"
      · subst h3
        rw [if_pos (by decide)]
        refine ((formats_reads ts _ _ m hd cs' f [] [] (by omega)).bind fun _ =>
          ih f _ (by exact hd) (by omega)).congr ?_ fun _ => ?_
        · simp only [TerritoryChild, h1, h2, false_and, false_or, true_and]
        · simp only [List.nil_append, withFormats, if_true]
      · rw [if_neg (by simpa using h3)]
        exact .fail _ (unhandledElement_ne_ok _ _)
          (by simp only [TerritoryChild, h1, h2, h3, false_and, or_false, not_false_eq_true])

theorem upd_isTrue (as : List (Str × Str)) (k : Str) : upd as k isTrue false = decide (attr as k = some (str% "true")) := by
  unfold upd isTrue
  cases h : attr as k <;> simp

theorem territoryFrom_defaults (as : List (Str × Str)) : (territoryFrom {} as).defaults = defaultsOf as := by
  simp only [territoryFrom, defaultsOf, upd_some, upd_isTrue, Option.or_none]

theorem territory_reads (as : List (Str × Str)) (cs : List Node) (rest : List Event) (f : Nat) (hf : (events cs).length < f) :
    Reads (territory f (attrEvents as) (events cs ++ .stop (.utf8 (str% "territory")) :: rest))
      (AttrsFit lens territoryKeys as ∧ ∀ c ∈ cs, TerritoryChild lens c) (territoryOf lens as cs, rest) := by
  unfold territory
  refine ((territoryAttrs_reads as _).bind fun _ =>
    territoryLoop_reads as rest cs f _ (territoryFrom_defaults as) hf).congr Iff.rfl fun _ => ?_
  have : upd as (str% "countryCode") (parseUInt u16Bound) none = (attr as (str% "countryCode")).bind (parseUInt u16Bound) := by
    unfold upd
    cases attr as (str% "countryCode") <;> rfl
  simp only [bodyFrom, territoryFrom, territoryOf, numberFormats, upd_some, upd_isTrue, Option.or_none, this]
  cases h : lastElem (str% "availableFormats") cs <;> simp [elems]

theorem territories_reads (rest : List Event) : ∀ (cs : List Node) (f : Nat) (acc : List Loader.Metadata),
    (events cs).length < f →
    Reads (territories f acc (events cs ++ .stop (.utf8 (str% "territories")) :: rest)) (∀ c ∈ cs, TerritoriesChild lens c)
      (acc ++ (elems (str% "territory") cs).map (fun e => territoryOf lens e.1 e.2), rest)
  | [], f + 1, acc, _ => by
    simp only [events, List.nil_append, territories, isName_utf8]
    exact (Reads.ok _ trivial).congr (by simp) (by simp [elems])
  | c :: cs, f + 1, acc, hf => by
    rw [all_cons]
    cases c with
    | text s =>
      simp only [events, Node.events, List.cons_append, List.nil_append, territories] at hf ⊢
      refine (territories_reads rest cs f acc (by simpa using hf)).congr (by simp [TerritoriesChild]) fun _ => ?_
      simp [elems_cons_other]
    | comment =>
      simp only [events, Node.events, List.cons_append, List.nil_append, territories] at hf ⊢
      refine (territories_reads rest cs f acc (by simpa using hf)).congr (by simp [TerritoriesChild]) fun _ => ?_
      simp [elems_cons_other]
    | docType =>
      simp only [events, Node.events, List.cons_append, List.nil_append, territories]
      exact .fail _ (by simp) (by simp [TerritoriesChild])
    | misc =>
      simp only [events, Node.events, List.cons_append, List.nil_append, territories]
      exact .fail _ (by simp) (by simp [TerritoriesChild])
    | empty n as =>
      simp only [events, Node.events, List.cons_append, List.nil_append, territories]
      exact .fail _ (by simp) (by simp [TerritoriesChild])
    | elem n as cs' =>
      simp only [events, Node.events, List.cons_append, List.append_assoc, List.nil_append, territories, isName_utf8] at hf ⊢
      simp only [List.length_cons, List.length_append] at hf
      by_cases h1 : n = str% "territory"
      · simp only [h1, decide_true, if_true]
        refine ((territory_reads as cs' _ f (by omega)).bind fun _ =>
          territories_reads rest cs f _ (by omega)).congr (by simp [TerritoriesChild]) fun _ => ?_
        simp [elems_cons_elem]
      · simp only [h1, decide_false, Bool.false_eq_true, if_false]
        refine ((ignore_reads cs' f n _ (by omega)).bind fun _ =>
          territories_reads rest cs f _ (by omega)).congr (by simp [TerritoriesChild, h1]) fun _ => ?_
        simp [elems_cons_elem, h1]

theorem metadata_reads (rest : List Event) : ∀ (cs : List Node) (f : Nat) (acc : List Loader.Metadata),
    (∀ as cs', .elem (str% "phoneNumberMetadata") as cs' ∉ cs) → (events cs).length < f →
    Reads (Loader.metadata f acc (events cs ++ .stop (.utf8 (str% "phoneNumberMetadata")) :: rest)) (∀ c ∈ cs, RootChild lens c)
      (acc ++ territoriesOf lens cs)
  | [], f + 1, acc, _, _ => by
    simp only [events, List.nil_append, Loader.metadata, isName_utf8]
    exact (Reads.ok _ trivial).congr (by simp) (by simp [territoriesOf, elems])
  | c :: cs, f + 1, acc, hn, hf => by
    rw [all_cons]
    have hn' : ∀ as cs', .elem (str% "phoneNumberMetadata") as cs' ∉ cs := fun as cs' h => hn as cs' (List.mem_cons_of_mem _ h)
    cases c with
    | text s =>
      simp only [events, Node.events, List.cons_append, List.nil_append, Loader.metadata] at hf ⊢
      refine (metadata_reads rest cs f acc hn' (by simpa using hf)).congr (by simp [RootChild]) fun _ => ?_
      simp [elems_cons_other, territoriesOf]
    | comment =>
      simp only [events, Node.events, List.cons_append, List.nil_append, Loader.metadata] at hf ⊢
      refine (metadata_reads rest cs f acc hn' (by simpa using hf)).congr (by simp [RootChild]) fun _ => ?_
      simp [elems_cons_other, territoriesOf]
    | docType =>
      simp only [events, Node.events, List.cons_append, List.nil_append, Loader.metadata] at hf ⊢
      refine (metadata_reads rest cs f acc hn' (by simpa using hf)).congr (by simp [RootChild]) fun _ => ?_
      simp [elems_cons_other, territoriesOf]
    | misc =>
      simp only [events, Node.events, List.cons_append, List.nil_append, Loader.metadata]
      exact .fail _ (by simp) (by simp [RootChild])
    | empty n as =>
      simp only [events, Node.events, List.cons_append, List.nil_append, Loader.metadata]
      exact .fail _ (by simp) (by simp [RootChild])
    | elem n as cs' =>
      have h0 : n ≠ str% "phoneNumberMetadata" := by rintro rfl; exact hn as cs' (List.mem_cons_self ..)
      simp only [events, Node.events, List.cons_append, List.append_assoc, List.nil_append, Loader.metadata, isName_utf8,
        h0, decide_false, Bool.false_eq_true, if_false] at hf ⊢
      simp only [List.length_cons, List.length_append] at hf
      by_cases h1 : n = str% "territories"
      · simp only [h1, decide_true, if_true]
        refine ((territories_reads _ cs' f [] (by omega)).bind fun _ =>
          metadata_reads rest cs f _ hn' (by omega)).congr (by simp [RootChild]) fun _ => ?_
        simp [elems_cons_elem, territoriesOf]
      · simp only [h1, decide_false, Bool.false_eq_true, if_false]
        refine ((ignore_reads cs' f n _ (by omega)).bind fun _ =>
          metadata_reads rest cs f _ hn' (by omega)).congr (by simp [RootChild, h1]) fun _ => ?_
        simp [elems_cons_elem, h1, territoriesOf]

/-- **C30**: a document is loaded exactly if everything in it is allowed, and then the result is what it says: one entry for
each `territory` element, in document order. `pre` is what stands before the root element; whatever follows it is not
looked at. -/
theorem C30_load (pre : List Node) (as : List (Str × Str)) (cs : List Node) (rest : List Event)
    (hpre : ∀ c ∈ pre, Prolog c) (hn : ∀ as' cs', .elem (str% "phoneNumberMetadata") as' cs' ∉ cs) (ms : List Loader.Metadata) :
    load (events pre ++ (Node.elem (str% "phoneNumberMetadata") as cs).events ++ rest) = .ok ms ↔
      (∀ c ∈ cs, RootChild lens c) ∧ ms = territoriesOf lens cs := by
  have key : ∀ (pre : List Node) (f : Nat), (∀ c ∈ pre, Prolog c) →
      (events pre).length + (events cs).length + 1 < f →
      Reads (Loader.metadata f [] (events pre ++ (Node.elem (str% "phoneNumberMetadata") as cs).events ++ rest))
        (∀ c ∈ cs, RootChild lens c) (territoriesOf lens cs) := by
    intro pre
    induction pre with
    | nil =>
      intro f _ hf
      obtain ⟨f, rfl⟩ : ∃ g, f = g + 1 := ⟨f - 1, by omega⟩
      simp only [events, Node.events, List.nil_append, List.cons_append, List.append_assoc, Loader.metadata, isName_utf8,
        decide_true, if_true]
      exact (metadata_reads rest cs f [] hn (by simp only [events, List.length_nil] at hf; omega)).congr Iff.rfl (by simp)
    | cons c pre ih =>
      intro f hp hf
      obtain ⟨f, rfl⟩ : ∃ g, f = g + 1 := ⟨f - 1, by omega⟩
      have hc := hp c (List.mem_cons_self ..)
      have ih := ih f (fun c h => hp c (List.mem_cons_of_mem _ h))
      simp only [events, List.length_append] at hf
      cases c with
      | text s =>
        simp only [Node.events, List.length_cons, List.length_nil] at hf
        simpa only [events, Node.events, List.cons_append, List.nil_append, Loader.metadata] using ih (by omega)
      | comment =>
        simp only [Node.events, List.length_cons, List.length_nil] at hf
        simpa only [events, Node.events, List.cons_append, List.nil_append, Loader.metadata] using ih (by omega)
      | docType =>
        simp only [Node.events, List.length_cons, List.length_nil] at hf
        simpa only [events, Node.events, List.cons_append, List.nil_append, Loader.metadata] using ih (by omega)
      | _ => exact absurd hc (by simp [Prolog])
  have h := key pre ((events pre ++ (Node.elem (str% "phoneNumberMetadata") as cs).events ++ rest).length + 1) hpre (by
    simp only [Node.events, List.length_append, List.length_cons, List.length_nil]; omega)
  rw [load]
  constructor
  · intro hl
    by_cases hp : ∀ c ∈ cs, RootChild lens c
    · rw [h.1 hp] at hl
      injection hl with hl
      exact ⟨hp, hl.symm⟩
    · exact absurd hl (h.2 hp ms)
  · rintro ⟨hp, rfl⟩
    exact h.1 hp

/-! ## Arbitrary event streams -/

/-- Some `possibleLengths` attribute in the stream has a value on which `lengths` panics with `p`. -/
def PanicIn (p : Panic) (es : List Event) : Prop :=
  ∃ attrs k v, .empty (.utf8 (str% "possibleLengths")) attrs ∈ es ∧ .ok k (.utf8 v) ∈ attrs ∧ lengths v = .panic p

theorem PanicIn.suffix {p : Panic} {es used : List Event} (h : PanicIn p es) : PanicIn p (used ++ es) := by
  obtain ⟨attrs, k, v, hm, h⟩ := h
  exact ⟨attrs, k, v, by simp [hm], h⟩

/-- The outcome of reading a stream: success leaves a shorter rest of the stream; an error is not the fuel error of the model;
a panic comes from a `possibleLengths` attribute of the stream. -/
def Tame {α : Type} (es : List Event) : Outcome LoadErr (α × List Event) → Prop
  | .ok (_, rest) => ∃ used, used ≠ [] ∧ es = used ++ rest
  | .err e => e ≠ .outOfFuel
  | .panic p => PanicIn p es

theorem Tame.cons {α : Type} {es : List Event} {o : Outcome LoadErr (α × List Event)} (e : Event) (h : Tame es o) :
    Tame (e :: es) o := by
  cases o with
  | ok x =>
    obtain ⟨used, _, rfl⟩ := h
    exact ⟨e :: used, by simp, rfl⟩
  | err e => exact h
  | panic p => exact h.suffix (used := [e])

theorem Tame.done {α : Type} {es : List Event} (e : Event) (a : α) : Tame (e :: es) (.ok (a, es)) := ⟨[e], by simp, rfl⟩

theorem Tame.bind {α β : Type} {es : List Event} {o : Outcome LoadErr (α × List Event)}
    {g : α × List Event → Outcome LoadErr (β × List Event)} (h : Tame es o)
    (h' : ∀ a rest, rest.length < es.length → Tame rest (g (a, rest))) : Tame es (o >>= g) := by
  cases o with
  | ok x =>
    obtain ⟨used, hu, rfl⟩ := h
    have hl : x.2.length < (used ++ x.2).length := by
      have := List.length_pos_iff.mpr hu
      simp only [List.length_append]; omega
    have h' := h' x.1 x.2 hl
    rw [Outcome.bind_ok]
    revert h'
    cases g (x.1, x.2) with
    | ok y =>
      rintro ⟨used', _, h2⟩
      exact ⟨used ++ used', by simp [hu], by rw [h2, List.append_assoc]⟩
    | err e => exact id
    | panic p => exact fun h => h.suffix
  | err e => exact h
  | panic p => exact h

/-- The same for a step that does not consume events. -/
def Calm {α : Type} (es : List Event) : Outcome LoadErr α → Prop
  | .ok _ => True
  | .err e => e ≠ .outOfFuel
  | .panic p => PanicIn p es

theorem Calm.bindT {α β : Type} {es : List Event} {o : Outcome LoadErr α} {g : α → Outcome LoadErr (β × List Event)}
    (h : Calm es o) (h' : ∀ a, Tame es (g a)) : Tame es (o >>= g) := by
  cases o with
  | ok x => exact h' x
  | err e => exact h
  | panic p => exact h

theorem Calm.bind {α β : Type} {es : List Event} {o : Outcome LoadErr α} {g : α → Outcome LoadErr β}
    (h : Calm es o) (h' : ∀ a, Calm es (g a)) : Calm es (o >>= g) := by
  cases o with
  | ok x => exact h' x
  | err e => exact h
  | panic p => exact h

theorem fromUtf8_calm (es : List Event) (r : Raw) : Calm es (fromUtf8 r) := by cases r <;> simp [fromUtf8, Calm]

theorem mismatched_tame {α : Type} (es : List Event) (n : Raw) :
    Tame es (mismatched n : Outcome LoadErr (α × List Event)) := by
  cases n <;> simp [mismatched, fromUtf8, Tame]

theorem unhandledElement_tame {α : Type} (es : List Event) (p : Str) (n : Raw) :
    Tame es (unhandledElement p n : Outcome LoadErr (α × List Event)) := by
  cases n <;> simp [unhandledElement, fromUtf8, Tame]

theorem err_tame {α : Type} (es : List Event) (e : MetadataErr) :
    Tame es (.err (.metadata e) : Outcome LoadErr (α × List Event)) := by simp [Tame]

theorem xml_tame {α : Type} (es : List Event) : Tame es (.err .xml : Outcome LoadErr (α × List Event)) := by simp [Tame]

theorem attrStr_calm (es : List Event) (a : Attr) : Calm es (attrStr a) := by
  cases a with
  | bad => simp [attrStr, Calm]
  | ok k v => exact (fromUtf8_calm es k).bind fun _ => (fromUtf8_calm es v).bind fun _ => trivial

theorem parseBool_calm (es : List Event) (v : Str) : Calm es (parseBool v) := by
  unfold parseBool
  split
  · trivial
  · split
    · trivial
    · simp [Calm]

theorem okOr_calm {α : Type} (es : List Event) (x : Option α) : Calm es (Outcome.okOr LoadErr.integer x) := by
  cases x <;> simp [Outcome.okOr, Calm]

theorem lengthPart_err (p : Str) : lengthPart p ≠ .err .outOfFuel := by
  unfold lengthPart
  split
  · simp
  · split
    · split
      · rename_i start stop _ _
        intro h
        rcases Outcome.bind_eq_err.mp h with h | ⟨a, _, h⟩
        · cases hd : dropBytes start 1 <;> simp [Outcome.slice, hd] at h
        rcases Outcome.bind_eq_err.mp h with h | ⟨b, _, h⟩
        · cases hp : parseUInt u16Bound a <;> simp [hp] at h
        split at h
        · simp at h
        rcases Outcome.bind_eq_err.mp h with h | ⟨c, _, h⟩
        · cases hd : takeBytes stop (byteLen stop - 1) <;> simp [Outcome.slice, hd] at h
        rcases Outcome.bind_eq_err.mp h with h | ⟨d, _, h⟩
        · cases hp : parseUInt u16Bound c <;> simp [hp] at h
        split at h <;> simp at h
      · simp
    · intro h
      rcases Outcome.bind_eq_err.mp h with h | ⟨b, _, h⟩
      · generalize parseUInt u16Bound _ = x at h
        cases x <;> simp at h
      · simp at h

theorem lengths_err (v : Str) : lengths v ≠ .err .outOfFuel := by
  unfold lengths
  generalize split ',' v = ps
  induction ps with
  | nil => simp [lengthParts]
  | cons p ps ih =>
    intro h
    rcases Outcome.bind_eq_err.mp h with h | ⟨b, _, h⟩
    · exact lengthPart_err _ h
    rcases Outcome.bind_eq_err.mp h with h | ⟨b, _, h⟩
    · exact ih h
    · simp at h

theorem lengths_calm {es : List Event} {attrs : List Attr} {k : Raw} {v : Str}
    (h : .empty (.utf8 (str% "possibleLengths")) attrs ∈ es) (h' : .ok k (.utf8 v) ∈ attrs) : Calm es (lengths v) := by
  cases hl : lengths v with
  | ok l => trivial
  | err e => exact fun he => lengths_err v (he ▸ hl)
  | panic p => exact ⟨attrs, k, v, h, h', hl⟩

theorem attrStr_ok {a : Attr} {x : Str × Str} (h : attrStr a = .ok x) : a = .ok (.utf8 x.1) (.utf8 x.2) := by
  rcases a with ⟨k | k, v | v⟩ | _ <;> simp [attrStr, fromUtf8] at h
  subst h
  rfl

theorem lengthAttrs_calm {es : List Event} {attrs : List Attr} (h : .empty (.utf8 (str% "possibleLengths")) attrs ∈ es) :
    ∀ (as : List Attr), (∀ a ∈ as, a ∈ attrs) → ∀ d : Loader.Descriptor, Calm es (Loader.lengthAttrs d as)
  | [], _, d => trivial
  | a :: as, hs, d => by
    have ih := lengthAttrs_calm h as fun b hb => hs b (List.mem_cons_of_mem _ hb)
    unfold Loader.lengthAttrs
    cases ha : attrStr a with
    | err e => have := attrStr_calm es a; rwa [ha] at this
    | panic p => have := attrStr_calm es a; rwa [ha] at this
    | ok x =>
      have hm := hs a (List.mem_cons_self ..)
      rw [attrStr_ok ha] at hm
      rw [Outcome.bind_ok]
      dsimp only
      split
      · exact (lengths_calm h hm).bind fun _ => ih _
      · split
        · exact (lengths_calm h hm).bind fun _ => ih _
        · simp [Calm]

theorem formatAttrs_calm (es : List Event) : ∀ (as : List Attr) (fm : Loader.Format), Calm es (formatAttrs fm as)
  | [], _ => trivial
  | a :: as, fm => by
    unfold formatAttrs
    refine (attrStr_calm es a).bind fun x => ?_
    dsimp only
    repeat' split
    · exact formatAttrs_calm es as _
    · exact formatAttrs_calm es as _
    · exact (parseBool_calm es _).bind fun _ => formatAttrs_calm es as _
    · exact formatAttrs_calm es as _
    · simp [Calm]

theorem calm_ite {α : Type} {es : List Event} {p : Prop} [Decidable p] {a b : Outcome LoadErr α} (ha : Calm es a)
    (hb : Calm es b) : Calm es (if p then a else b) := by
  split
  · exact ha
  · exact hb

theorem territoryAttr_calm (es : List Event) (m : Loader.Metadata) (k v : Str) : Calm es (territoryAttr m k v) := by
  have ok : ∀ m : Loader.Metadata, Calm es (.ok m) := fun _ => trivial
  have err : ∀ e, Calm es (.err (.metadata e) : Outcome LoadErr Loader.Metadata) := by simp [Calm]
  have flag : ∀ g : Bool → Loader.Metadata, Calm es (parseBool v >>= fun b => .ok (g b)) :=
    fun g => (parseBool_calm es _).bind fun _ => trivial
  have num : ∀ g : Nat → Loader.Metadata, Calm es (Outcome.okOr LoadErr.integer (parseUInt u16Bound v) >>= fun b => .ok (g b)) :=
    fun g => (okOr_calm es _).bind fun _ => trivial
  unfold territoryAttr
  exact calm_ite (ok _) <| calm_ite (num fun _ => _) <| calm_ite (ok _) <| calm_ite (ok _) <| calm_ite (ok _) <|
    calm_ite (ok _) <| calm_ite (ok _) <| calm_ite (ok _) <| calm_ite (flag fun _ => _) <| calm_ite (ok _) <|
    calm_ite (flag fun _ => _) <| calm_ite (ok _) <| calm_ite (flag fun _ => _) <| calm_ite (ok _) (err _)

theorem territoryAttrs_calm (es : List Event) : ∀ (as : List Attr) (m : Loader.Metadata), Calm es (territoryAttrs m as)
  | [], _ => trivial
  | a :: as, m => (attrStr_calm es a).bind fun _ => (territoryAttr_calm es m _ _).bind fun _ => territoryAttrs_calm es as _

theorem text_tame (n : Raw) : ∀ (es : List Event) (acc : Str), Tame es (Loader.text n acc es)
  | [], _ => err_tame _ _
  | e :: es, acc => by
    unfold Loader.text
    cases e <;> dsimp only
    case text s => exact (fromUtf8_calm _ s).bindT fun _ => (text_tame n es _).cons _
    case stop m =>
      split
      · exact .done _ _
      · exact mismatched_tame _ _
    case error => exact xml_tame _
    all_goals exact err_tame _ _

theorem ignore_tame : ∀ (f : Nat) (n : Raw) (es : List Event), es.length < f → Tame es (ignore f n es)
  | f + 1, _, [], _ => err_tame _ _
  | f + 1, n, e :: es, h => by
    have hl : es.length < f := by simpa using h
    unfold ignore
    cases e <;> dsimp only
    case start m as =>
      exact (Tame.bind (ignore_tame f m es hl) fun _ rest hr => ignore_tame f n rest (by omega)).cons _
    case stop m =>
      split
      · exact .done _ _
      · exact mismatched_tame _ _
    case error => exact xml_tame _
    case docType => exact err_tame _ _
    case other => exact err_tame _ _
    all_goals exact (ignore_tame f n es hl).cons _

theorem descriptor_tame (n : Raw) : ∀ (f : Nat) (d : Loader.Descriptor) (es : List Event), es.length < f →
    Tame es (Loader.descriptor f n d es)
  | f + 1, _, [], _ => err_tame _ _
  | f + 1, d, e :: es, h => by
    have hl : es.length < f := by simpa using h
    unfold Loader.descriptor
    cases e <;> dsimp only
    case start m as =>
      split
      · exact (Tame.bind (text_tame m es []) fun _ rest hr => descriptor_tame n f _ rest (by omega)).cons _
      · split
        · exact (Tame.bind (text_tame m es []) fun _ rest hr => descriptor_tame n f _ rest (by omega)).cons _
        · exact unhandledElement_tame _ _ _
    case empty m as =>
      split
      · rename_i hm
        have hm : m = .utf8 (str% "possibleLengths") := by simpa [isName] using hm
        subst hm
        exact (lengthAttrs_calm (List.mem_cons_self ..) as (fun _ h => h) d).bindT fun _ => (descriptor_tame n f _ es hl).cons _
      · exact unhandledElement_tame _ _ _
    case stop m =>
      split
      · exact .done _ _
      · exact mismatched_tame _ _
    case error => exact xml_tame _
    case docType => exact err_tame _ _
    case other => exact err_tame _ _
    all_goals exact (descriptor_tame n f d es hl).cons _

theorem formatLoop_tame (n : Raw) : ∀ (f : Nat) (fm : Loader.Format) (intl : Option Str) (es : List Event), es.length < f →
    Tame es (formatLoop f n fm intl es)
  | f + 1, _, _, [], _ => err_tame _ _
  | f + 1, fm, intl, e :: es, h => by
    have hl : es.length < f := by simpa using h
    unfold formatLoop
    cases e <;> dsimp only
    case start m as =>
      split
      · exact (Tame.bind (text_tame m es []) fun _ rest hr => formatLoop_tame n f _ _ rest (by omega)).cons _
      split
      · exact (Tame.bind (text_tame m es []) fun _ rest hr => formatLoop_tame n f _ _ rest (by omega)).cons _
      split
      · exact (Tame.bind (text_tame m es []) fun _ rest hr => formatLoop_tame n f _ _ rest (by omega)).cons _
      · exact unhandledElement_tame _ _ _
    case stop m =>
      split
      · exact .done _ _
      · exact mismatched_tame _ _
    case error => exact xml_tame _
    case text => exact (formatLoop_tame n f _ _ es hl).cons _
    case comment => exact (formatLoop_tame n f _ _ es hl).cons _
    all_goals exact err_tame _ _

theorem format_tame (f : Nat) (md : Loader.Metadata) (n : Raw) (as : List Attr) (es : List Event) (h : es.length < f) :
    Tame es (Loader.format f md n as es) :=
  (formatAttrs_calm es as _).bindT fun _ => formatLoop_tame n f _ _ es h

theorem formats_tame (md : Loader.Metadata) (n : Raw) : ∀ (f : Nat) (a b : List Loader.Format) (es : List Event),
    es.length < f → Tame es (Loader.formats f md n a b es)
  | f + 1, _, _, [], _ => err_tame _ _
  | f + 1, a, b, e :: es, h => by
    have hl : es.length < f := by simpa using h
    unfold Loader.formats
    cases e <;> dsimp only
    case start m as =>
      split
      · exact (Tame.bind (format_tame f md m as es hl) fun _ rest hr => formats_tame md n f _ _ rest (by omega)).cons _
      · exact unhandledElement_tame _ _ _
    case stop m =>
      split
      · exact .done _ _
      · exact mismatched_tame _ _
    case error => exact xml_tame _
    case text => exact (formats_tame md n f _ _ es hl).cons _
    case comment => exact (formats_tame md n f _ _ es hl).cons _
    all_goals exact err_tame _ _

theorem territoryLoop_tame (f : Nat) : ∀ (m : Loader.Metadata) (es : List Event), es.length < f →
    Tame es (territoryLoop f m es) := by
  induction f with
  | zero => intro m es h; omega
  | succ f ih =>
    intro m es h
    cases es with
    | nil => exact err_tame _ _
    | cons e es =>
    have hl : es.length < f := by simpa using h
    unfold territoryLoop
    cases e <;> dsimp only
    case start n as =>
      split
      · exact (Tame.bind (ignore_tame f n es hl) fun _ rest hr => ih _ rest (by omega)).cons _
      split
      · exact (Tame.bind (descriptor_tame n f _ es hl) fun _ rest hr => ih _ rest (by omega)).cons _
      split
      · exact (Tame.bind (formats_tame m n f [] [] es hl) fun _ rest hr => ih _ rest (by omega)).cons _
      · exact unhandledElement_tame _ _ _
    case stop m =>
      split
      · exact .done _ _
      · exact mismatched_tame _ _
    case error => exact xml_tame _
    case text => exact (ih _ es hl).cons _
    case comment => exact (ih _ es hl).cons _
    all_goals exact err_tame _ _

theorem territory_tame (f : Nat) (as : List Attr) (es : List Event) (h : es.length < f) : Tame es (territory f as es) :=
  (territoryAttrs_calm es as _).bindT fun _ => territoryLoop_tame f _ es h

theorem territories_tame : ∀ (f : Nat) (acc : List Loader.Metadata) (es : List Event), es.length < f →
    Tame es (territories f acc es)
  | f + 1, _, [], _ => err_tame _ _
  | f + 1, acc, e :: es, h => by
    have hl : es.length < f := by simpa using h
    unfold territories
    cases e <;> dsimp only
    case start n as =>
      split
      · exact (Tame.bind (territory_tame f as es hl) fun _ rest hr => territories_tame f _ rest (by omega)).cons _
      · exact (Tame.bind (ignore_tame f n es hl) fun _ rest hr => territories_tame f _ rest (by omega)).cons _
    case stop m =>
      split
      · exact .done _ _
      · exact mismatched_tame _ _
    case error => exact xml_tame _
    case text => exact (territories_tame f _ es hl).cons _
    case comment => exact (territories_tame f _ es hl).cons _
    all_goals exact err_tame _ _

theorem Calm.suffix {α : Type} {es : List Event} {o : Outcome LoadErr α} (used : List Event) (h : Calm es o) :
    Calm (used ++ es) o := by
  cases o with
  | ok x => trivial
  | err e => exact h
  | panic p => exact PanicIn.suffix h

theorem Tame.bindC {α β : Type} {es : List Event} {o : Outcome LoadErr (α × List Event)}
    {g : α × List Event → Outcome LoadErr β} (h : Tame es o)
    (h' : ∀ a rest, rest.length < es.length → Calm rest (g (a, rest))) : Calm es (o >>= g) := by
  cases o with
  | ok x =>
    obtain ⟨used, hu, rfl⟩ := h
    have hl : x.2.length < (used ++ x.2).length := by
      have := List.length_pos_iff.mpr hu
      simp only [List.length_append]; omega
    exact (h' x.1 x.2 hl).suffix used
  | err e => exact h
  | panic p => exact h

theorem metadata_calm : ∀ (f : Nat) (acc : List Loader.Metadata) (es : List Event), es.length < f →
    Calm es (Loader.metadata f acc es)
  | f + 1, _, [], _ => by simp [Loader.metadata, Calm]
  | f + 1, acc, e :: es, h => by
    have hl : es.length < f := by simpa using h
    unfold Loader.metadata
    cases e <;> dsimp only
    case start n as =>
      split
      · exact (metadata_calm f acc es hl).suffix [_]
      split
      · exact (Tame.bindC (territories_tame f [] es hl) fun _ rest hr => metadata_calm f _ rest (by omega)).suffix [_]
      · exact (Tame.bindC (ignore_tame f n es hl) fun _ rest hr => metadata_calm f _ rest (by omega)).suffix [_]
    case stop m =>
      split
      · trivial
      · cases m <;> simp [mismatched, fromUtf8, Calm]
    case text => exact (metadata_calm f _ es hl).suffix [_]
    case comment => exact (metadata_calm f _ es hl).suffix [_]
    case docType => exact (metadata_calm f _ es hl).suffix [_]
    all_goals simp [Calm]

/-- **C30**, arbitrary streams: whatever events the reader delivers, `load` reaches an answer (it never runs out of the fuel
the model gives it, which is one more than the number of events), and it panics only because of a `possibleLengths`
attribute in the stream. -/
theorem C30_any_stream (es : List Event) :
    load es ≠ .err .outOfFuel ∧ ∀ p, load es = .panic p → PanicIn p es := by
  have h := metadata_calm (es.length + 1) [] es (by omega)
  rw [← load] at h
  constructor
  · intro he
    rw [he] at h
    exact h rfl
  · intro p hp
    rw [hp] at h
    exact h

/-! ## Formats inherit, unknown things are refused -/

theorem mem_elems {n : Str} {cs : List Node} {e : List (Str × Str) × List Node} : e ∈ elems n cs ↔ .elem n e.1 e.2 ∈ cs := by
  simp only [elems, List.mem_filterMap]
  constructor
  · rintro ⟨c, hc, h⟩
    cases c with
    | elem n' as cs' =>
      dsimp only at h
      split at h
      · rename_i hn
        simp only [Option.some.injEq] at h
        subst h hn
        exact hc
      · simp at h
    | _ => simp at h
  · intro h
    exact ⟨_, h, by simp⟩

/-- **C32**: a `numberFormat` without an `intlFormat` has an international format exactly if it has a `format`, and then it is the
same as the national one. -/
theorem C32_no_intl (ts as : List (Str × Str)) (cs : List Node) (h : elems (str% "intlFormat") cs = []) :
    intlFormatOf ts as cs = if (formatOf ts as cs).format = none then none else some (formatOf ts as cs) := by
  have key : ∀ cs : List Node, elems (str% "intlFormat") cs = [] →
      formatTexts cs = (elems (str% "format") cs).map fun e => some (textOf e.2) := by
    intro cs
    induction cs with
    | nil => intro _; rfl
    | cons c cs ih =>
      intro h
      cases c with
      | elem n' as' cs' =>
        rw [elems_cons_elem] at h ⊢
        have h' := List.append_eq_nil_iff.mp h
        by_cases hn : n' = str% "intlFormat"
        · simp [hn] at h'
        · by_cases hf : n' = str% "format"
          · have := ih h'.2
            simp only [formatTexts] at this
            simp [formatTexts, hf, this]
          · have := ih h'.2
            simp only [formatTexts] at this
            simp [formatTexts, hf, hn, this]
      | _ =>
        rw [elems_cons_other _ _ _ (by simp)] at h ⊢
        rw [formatTexts_cons_other _ _ (by simp)]
        exact ih h
  have hf : (formatOf ts as cs).format = (elems (str% "format") cs).getLast?.map fun e => textOf e.2 := by
    simp [formatOf, lastElem, Function.comp_def]
  rw [intlFormatOf, key cs h, List.getLast?_map, hf]
  cases hl : (elems (str% "format") cs).getLast? with
  | none => simp
  | some e =>
    simp only [Option.map_some, Option.join_some, reduceCtorEq, if_false, Option.some.injEq]
    have : (formatOf ts as cs).format = some (textOf e.2) := by rw [hf, hl]; rfl
    rw [← this]

/-- **C32**: a `numberFormat` whose last `intlFormat` comes after every `format` has no international format if the text is `NA`,
and else the national one with that text. -/
theorem C32_intl (ts as as' : List (Str × Str)) (before cs' after : List Node) (hf : elems (str% "format") after = [])
    (hi : elems (str% "intlFormat") after = []) :
    intlFormatOf ts as (before ++ .elem (str% "intlFormat") as' cs' :: after) =
      if textOf cs' = str% "NA" then none
      else some { formatOf ts as (before ++ .elem (str% "intlFormat") as' cs' :: after) with format := some (textOf cs') } := by
  have key : ∀ cs : List Node, elems (str% "format") cs = [] → elems (str% "intlFormat") cs = [] → formatTexts cs = [] := by
    intro cs
    induction cs with
    | nil => intros; rfl
    | cons c cs ih =>
      intro h h'
      cases c with
      | elem n as cs' =>
        rw [elems_cons_elem] at h h'
        have h := List.append_eq_nil_iff.mp h
        have h' := List.append_eq_nil_iff.mp h'
        have h1 : n ≠ str% "format" := fun e => by simp [e] at h
        have h2 : n ≠ str% "intlFormat" := fun e => by simp [e] at h'
        have := ih h.2 h'.2
        simp only [formatTexts] at this
        simp [formatTexts, h1, h2, this]
      | _ =>
        rw [elems_cons_other _ _ _ (by simp)] at h h'
        rw [formatTexts_cons_other _ _ (by simp)]
        exact ih h h'
  have : (formatTexts (before ++ .elem (str% "intlFormat") as' cs' :: after)).getLast? =
      some (if textOf cs' = str% "NA" then none else some (textOf cs')) := by
    have h := key after hf hi
    simp only [formatTexts] at h
    simp [formatTexts, List.filterMap_append, h]
  rw [intlFormatOf, this]
  split <;> simp

/-- **C32**: the entries of an accepted document, with the formats of each. In every territory the national formats are the
`numberFormat` elements in order, and each has its own rules where it has them and those of the territory where not. -/
theorem C32_inherit (pre : List Node) (as : List (Str × Str)) (cs : List Node) (rest : List Event)
    (hpre : ∀ c ∈ pre, Prolog c) (hn : ∀ as' cs', .elem (str% "phoneNumberMetadata") as' cs' ∉ cs) (ms : List Loader.Metadata)
    (h : load (events pre ++ (Node.elem (str% "phoneNumberMetadata") as cs).events ++ rest) = .ok ms) :
    ∀ m ∈ ms, ∃ ts ∈ elems (str% "territories") cs, ∃ t ∈ elems (str% "territory") ts.2,
      m.formats.length = (numberFormats t.2).length ∧
      ∀ i (hi : i < (numberFormats t.2).length) (hi' : i < m.formats.length),
        (m.formats[i]).nationalPrefixFormattingRule =
          (match attr (numberFormats t.2)[i].1 (str% "nationalPrefixFormattingRule") with
           | some own => some own
           | none => attr t.1 (str% "nationalPrefixFormattingRule")) ∧
        (m.formats[i]).domesticCarrier =
          (match attr (numberFormats t.2)[i].1 (str% "carrierCodeFormattingRule") with
           | some own => some own
           | none => attr t.1 (str% "carrierCodeFormattingRule")) ∧
        ((m.formats[i]).nationalPrefixOptionalWhenFormatting = true ↔
          (match attr (numberFormats t.2)[i].1 (str% "nationalPrefixOptionalWhenFormatting") with
           | some own => own = str% "true"
           | none => attr t.1 (str% "nationalPrefixOptionalWhenFormatting") = some (str% "true"))) ∧
        (m.formats[i]).pattern = attr (numberFormats t.2)[i].1 (str% "pattern") := by
  obtain ⟨-, rfl⟩ := (C30_load pre as cs rest hpre hn ms).mp h
  intro m hm
  simp only [territoriesOf, List.mem_flatMap, List.mem_map] at hm
  obtain ⟨ts, hts, t, ht, rfl⟩ := hm
  refine ⟨ts, hts, t, ht, by simp [territoryOf], fun i hi hi' => ?_⟩
  have : (territoryOf lens t.1 t.2).formats[i] = formatOf t.1 (numberFormats t.2)[i].1 (numberFormats t.2)[i].2 := by
    simp [territoryOf]
  rw [this]
  refine ⟨?_, ?_, ?_, rfl⟩
  · show inherited _ _ _ = _
    unfold inherited
    cases attr (numberFormats t.2)[i].1 (str% "nationalPrefixFormattingRule") <;> simp
  · show inherited _ _ _ = _
    unfold inherited
    cases attr (numberFormats t.2)[i].1 (str% "carrierCodeFormattingRule") <;> simp
  · show decide (inherited _ _ _ = _) = true ↔ _
    rw [decide_eq_true_iff]
    unfold inherited
    cases attr (numberFormats t.2)[i].1 (str% "nationalPrefixOptionalWhenFormatting") <;> simp

theorem attrsFit_known {known : List (Str × Kind)} {as : List (Str × Str)} (h : AttrsFit lens known as) {a : Str × Str}
    (ha : a ∈ as) : a.1 ∈ known.map Prod.fst := by
  obtain ⟨kind, hk, _⟩ := h a ha
  exact List.mem_map_of_mem hk

theorem not_unknown {cs : List Node} (h : ∀ c ∈ cs, RootChild lens c) : ¬ Unknown cs := by
  rintro ⟨ts, hts, t, ht, hu⟩
  have h1 := h _ (mem_elems.mp hts)
  simp only [RootChild, if_true] at h1
  have h2 := h1 _ (mem_elems.mp ht)
  simp only [TerritoriesChild, if_true] at h2
  obtain ⟨ha, hc⟩ := h2
  rcases hu with ⟨a, ha', hu⟩ | ⟨n, as, cs', he, hu, hu'⟩ | ⟨n, hn, e, he, hu⟩ | ⟨e, he, hu⟩
  · exact hu (attrsFit_known ha ha')
  · have := hc _ he
    simp only [TerritoryChild] at this
    simp only [List.mem_cons, List.not_mem_nil, or_false, not_or] at hu'
    rcases this with ⟨h | h, _⟩ | ⟨h, _⟩ | ⟨h, _⟩
    · exact hu'.1 h
    · exact hu'.2.1 h
    · exact hu h
    · exact hu'.2.2 h
  · have := hc _ (mem_elems.mp he)
    simp only [TerritoryChild] at this
    have hd : ∀ c ∈ e.2, DescriptorChild lens c := by
      rcases this with ⟨h | h, _⟩ | ⟨_, h⟩ | ⟨h, _⟩
      · exact absurd (h ▸ hn) descriptorNames_references
      · exact absurd (h ▸ hn) descriptorNames_areaCode
      · exact h
      · exact absurd (h ▸ hn) descriptorNames_formats
    rcases hu with ⟨n', as', cs', he', h1, h2⟩ | ⟨n', as', he', h1 | ⟨a, ha, h1, h2⟩⟩
    · have := hd _ he'
      simp only [DescriptorChild] at this
      rcases this.1 with h | h
      · exact h1 h
      · exact h2 h
    · exact h1 (hd _ he').1
    · have := attrsFit_known (hd _ he').2 ha
      simp only [lengthKeys, List.map_cons, List.map_nil, List.mem_cons, List.not_mem_nil, or_false] at this
      rcases this with h | h
      · exact h1 h
      · exact h2 h
  · have := hc _ (mem_elems.mp he)
    simp only [TerritoryChild] at this
    have hd : ∀ c ∈ e.2, FormatsChild lens c := by
      rcases this with ⟨h | h, _⟩ | ⟨h, _⟩ | ⟨_, h⟩
      · exact absurd h (by decide)
      · exact absurd h (by decide)
      · exact absurd h descriptorNames_formats
      · exact h
    obtain ⟨n', as', cs', he', h1 | ⟨a, ha, h1⟩ | ⟨n2, as2, cs2, he2, h2⟩⟩ := hu
    · exact h1 (hd _ he').1
    · exact h1 (attrsFit_known (hd _ he').2.1 ha)
    · have := (hd _ he').2.2 _ he2
      simp only [FormatChild] at this
      exact h2 (by simpa using this.1)

/-- **C33**: a document in which some territory has an unknown attribute or contains an unknown element, at any of the
places where the loader looks, is not loaded; and the failure is an error unless a `possibleLengths` attribute makes the
loader panic first. -/
theorem C33_unknown (pre : List Node) (as : List (Str × Str)) (cs : List Node) (rest : List Event)
    (hpre : ∀ c ∈ pre, Prolog c) (hn : ∀ as' cs', .elem (str% "phoneNumberMetadata") as' cs' ∉ cs) (hu : Unknown cs) :
    let stream := events pre ++ (Node.elem (str% "phoneNumberMetadata") as cs).events ++ rest
    (∃ e, load stream = .err e) ∨ ∃ p, load stream = .panic p ∧ PanicIn p stream := by
  intro stream
  cases h : load stream with
  | ok ms => exact absurd hu (not_unknown ((C30_load pre as cs rest hpre hn ms).mp h).1)
  | err e => exact .inl ⟨e, rfl⟩
  | panic p => exact .inr ⟨p, rfl, (C30_any_stream stream).2 p h⟩

theorem clean_hasMisc : ∀ (cs : List Node), clean cs = true → ¬ hasMisc cs
  | [], _, h => h
  | c :: cs, hc, h => by
    simp only [clean, Bool.and_eq_true] at hc
    rcases h with h | h
    · cases c with
      | elem n as cs' => exact clean_hasMisc cs' hc.1 h
      | misc => simp [Node.clean] at hc
      | _ => exact h
    · exact clean_hasMisc cs hc.2 h

theorem hasMisc_iff : ∀ (cs : List Node), hasMisc cs ↔ ∃ c ∈ cs, c.hasMisc
  | [] => by simp [hasMisc]
  | c :: cs => by simp [hasMisc, hasMisc_iff cs]

theorem textOnly_hasMisc {cs : List Node} (h : TextOnly cs) : ¬ hasMisc cs := by
  rw [hasMisc_iff]
  rintro ⟨c, hc, hm⟩
  obtain ⟨s, rfl⟩ := h c hc
  exact hm

theorem rootChild_hasMisc {cs : List Node} (h : ∀ c ∈ cs, RootChild lens c) : ¬ hasMisc cs := by
  have hD : ∀ c, DescriptorChild lens c → ¬ c.hasMisc := by
    intro c hc hm
    cases c with
    | elem n as cs => exact textOnly_hasMisc hc.2 hm
    | misc => exact hc
    | _ => exact hm
  have hF : ∀ c, FormatChild c → ¬ c.hasMisc := by
    intro c hc hm
    cases c with
    | elem n as cs => exact textOnly_hasMisc hc.2 hm
    | misc => exact hc
    | _ => exact hm
  have hFs : ∀ c, FormatsChild lens c → ¬ c.hasMisc := by
    intro c hc hm
    cases c with
    | elem n as cs =>
      obtain ⟨c', h', hm'⟩ := (hasMisc_iff cs).mp hm
      exact hF c' (hc.2.2 c' h') hm'
    | misc => exact hc
    | _ => exact hm
  have hT : ∀ c, TerritoryChild lens c → ¬ c.hasMisc := by
    intro c hc hm
    cases c with
    | elem n as cs =>
      rcases hc with ⟨_, hc⟩ | ⟨_, hc⟩ | ⟨_, hc⟩
      · exact clean_hasMisc cs hc hm
      · obtain ⟨c', h', hm'⟩ := (hasMisc_iff cs).mp hm
        exact hD c' (hc c' h') hm'
      · obtain ⟨c', h', hm'⟩ := (hasMisc_iff cs).mp hm
        exact hFs c' (hc c' h') hm'
    | misc => exact hc
    | _ => exact hm
  have hTs : ∀ c, TerritoriesChild lens c → ¬ c.hasMisc := by
    intro c hc hm
    cases c with
    | elem n as cs =>
      simp only [TerritoriesChild] at hc
      split at hc
      · obtain ⟨c', h', hm'⟩ := (hasMisc_iff cs).mp hm
        exact hT c' (hc.2 c' h') hm'
      · exact clean_hasMisc cs hc hm
    | misc => exact hc
    | _ => exact hm
  intro hm
  obtain ⟨c, hc, hm⟩ := (hasMisc_iff cs).mp hm
  have hr := h c hc
  cases c with
  | elem n as cs =>
    simp only [RootChild] at hr
    split at hr
    · obtain ⟨c', h', hm'⟩ := (hasMisc_iff cs).mp hm
      exact hTs c' (hr c' h') hm'
    · exact clean_hasMisc cs hr hm
  | misc => exact hr
  | _ => exact hm

/-- **C59**: a document with an XML declaration (or processing instruction) before the root element is refused, whatever else
is in it. -/
theorem C59_declaration (pre : List Node) (hpre : ∀ c ∈ pre, Prolog c) (rest : List Event) :
    load (events pre ++ .other :: rest) = .err (.metadata (.unhandledEvent (str% "metadata"))) := by
  have key : ∀ (pre : List Node) (f : Nat), (∀ c ∈ pre, Prolog c) → (events pre).length < f → ∀ acc,
      Loader.metadata f acc (events pre ++ .other :: rest) = .err (.metadata (.unhandledEvent (str% "metadata"))) := by
    intro pre
    induction pre with
    | nil =>
      intro f _ hf acc
      obtain ⟨f, rfl⟩ : ∃ g, f = g + 1 := ⟨f - 1, by omega⟩
      simp only [events, List.nil_append, Loader.metadata]
    | cons c pre ih =>
      intro f hp hf acc
      obtain ⟨f, rfl⟩ : ∃ g, f = g + 1 := ⟨f - 1, by omega⟩
      have hc := hp c (List.mem_cons_self ..)
      have ih := ih f (fun c h => hp c (List.mem_cons_of_mem _ h))
      simp only [events, List.length_append] at hf
      cases c with
      | text s =>
        simp only [Node.events, List.length_cons, List.length_nil] at hf
        simpa only [events, Node.events, List.cons_append, List.nil_append, Loader.metadata] using ih (by omega) acc
      | comment =>
        simp only [Node.events, List.length_cons, List.length_nil] at hf
        simpa only [events, Node.events, List.cons_append, List.nil_append, Loader.metadata] using ih (by omega) acc
      | docType =>
        simp only [Node.events, List.length_cons, List.length_nil] at hf
        simpa only [events, Node.events, List.cons_append, List.nil_append, Loader.metadata] using ih (by omega) acc
      | _ => exact absurd hc (by simp [Prolog])
  exact key pre _ hpre (by simp only [List.length_append, List.length_cons]; omega) []

/-- **C59**: a document with a processing instruction, CDATA section or entity reference anywhere inside the root element
is not loaded, even where the content is skipped. -/
theorem C59_misc (pre : List Node) (as : List (Str × Str)) (cs : List Node) (rest : List Event)
    (hpre : ∀ c ∈ pre, Prolog c) (hn : ∀ as' cs', .elem (str% "phoneNumberMetadata") as' cs' ∉ cs) (hm : hasMisc cs)
    (ms : List Loader.Metadata) :
    load (events pre ++ (Node.elem (str% "phoneNumberMetadata") as cs).events ++ rest) ≠ .ok ms :=
  fun h => rootChild_hasMisc ((C30_load pre as cs rest hpre hn ms).mp h).1 hm

/-! ## A concrete document -/

/-- The children of the root of a small document, with `extra` added to its territory. -/
def sampleRoot (extra : List Node) : List Node :=
  [.text (str% "\n"), .comment,
   .elem (str% "territories") []
     [.text (str% "\n  "),
      .elem (str% "territory")
        [(str% "id", str% "AC"), (str% "countryCode", str% "247"), (str% "internationalPrefix", str% "00"),
         (str% "nationalPrefixFormattingRule", str% "$NP$FG"), (str% "mainCountryForCode", str% "true")]
        ([.elem (str% "references") [] [.elem (str% "sourceUrl") [] [.text (str% "x")], .empty (str% "br") []],
          .elem (str% "generalDesc") []
            [.elem (str% "nationalNumberPattern") [] [.text (str% "[01589]\\d"), .text (str% "{5}")],
             .empty (str% "possibleLengths") [(str% "national", str% "[5-6]"), (str% "localOnly", str% "4")]],
          .elem (str% "availableFormats") []
            [.elem (str% "numberFormat") [(str% "pattern", str% "(\\d{2})(\\d{4})")]
               [.elem (str% "leadingDigits") [] [.text (str% "[16]")], .elem (str% "format") [] [.text (str% "$1 $2")],
                .elem (str% "intlFormat") [] [.text (str% "NA")]],
             .elem (str% "numberFormat")
               [(str% "pattern", str% "(\\d{5})"), (str% "nationalPrefixFormattingRule", str% "$FG")]
               [.elem (str% "format") [] [.text (str% "$1")]]]] ++ extra)],
   .elem (str% "other") [] [.text (str% "skipped")]]

/-- What stands before the root. -/
def samplePrologue : List Node := [.text (str% " "), .comment, .docType]

theorem samplePrologue_ok : ∀ c ∈ samplePrologue, Prolog c := by simp [samplePrologue, Prolog]

theorem sampleRoot_ok (extra : List Node) : ∀ as' cs', .elem (str% "phoneNumberMetadata") as' cs' ∉ sampleRoot extra := by
  simp [sampleRoot]

/-- The event stream of the document. -/
def sampleStream (extra : List Node) : List Event :=
  events samplePrologue ++ (Node.elem (str% "phoneNumberMetadata") [] (sampleRoot extra)).events ++ [.error]

/-- The document meets the hypotheses of `C30_load` and is loaded. -/
example : ∃ m, load (sampleStream []) = .ok [m] ∧ m.id = some (str% "AC") ∧ m.countryCode = some 247 ∧
    m.formats.map (·.nationalPrefixFormattingRule) = [some (str% "$NP$FG"), some (str% "$FG")] ∧
    m.internationalFormats.map (·.format) = [some (str% "$1")] ∧ m.general.map (·.possibleLength) = some [5, 6] ∧
    m.general.map (·.nationalNumber) = some (some (str% "[01589]\\d{5}")) := by
  refine ⟨match load (sampleStream []) with | .ok [m] => m | _ => {}, ?_⟩
  refine ⟨by kernel_rfl, by kernel_rfl, by kernel_rfl, by kernel_rfl, by kernel_rfl, by kernel_rfl, by kernel_rfl⟩

/-- With an unknown element it meets the hypotheses of `C33_unknown`, with a CDATA section those of `C59_misc`. -/
example : Unknown (sampleRoot [.elem (str% "satellite") [] []]) ∧ hasMisc (sampleRoot [.elem (str% "references") [] [.misc]]) := by
  constructor
  · refine ⟨(_, _), mem_elems.mpr (.tail _ (.tail _ (.head _))), (_, _), mem_elems.mpr (.tail _ (.head _)), .inr (.inl ?_)⟩
    exact ⟨str% "satellite", [], [], List.mem_append_right _ (.head _), by decide, by decide⟩
  · simp [sampleRoot, hasMisc, Node.hasMisc]

end Phone.Xml
