import Verif.Model.Builder
import Verif.Spec.Builder
import Verif.Props.FormatExact
/-! # C75: settings of a formatter -/

namespace Phone
open Spec

/-- Perform a call. -/
def Builder.apply (b : Builder) : Setting → Builder
  | .database d => b.setDatabase d
  | .mode m => b.setMode m
  | .format f => b.setFormat f

theorem last_append {α β : Type} (f : α → Option β) (l : List α) (a : α) :
    ((l ++ [a]).filterMap f).getLast? = (f a).or (l.filterMap f).getLast? := by
  rw [List.filterMap_append]
  cases h : f a with
  | none => simp [h]
  | some b => simp [h]

/-- What a chain of calls amounts to. -/
theorem Builder.chain (b : Builder) (l : List Setting) :
    l.foldl Builder.apply b =
      ⟨b.number, (lastDatabase l).or b.database, (lastMode l).getD b.mode, (lastFormat l).or b.format⟩ := by
  suffices h : ∀ r : List Setting, r.reverse.foldl Builder.apply b =
      ⟨b.number, (lastDatabase r.reverse).or b.database, (lastMode r.reverse).getD b.mode, (lastFormat r.reverse).or b.format⟩ by
    have := h l.reverse
    rwa [List.reverse_reverse] at this
  intro r
  induction r with
  | nil => simp [lastDatabase, lastMode, lastFormat]
  | cons a r ih =>
    rw [List.reverse_cons, List.foldl_append, ih]
    simp only [lastDatabase, lastMode, lastFormat, last_append, List.foldl_cons, List.foldl_nil]
    cases a <;> simp [Builder.apply, Builder.setDatabase, Builder.setMode, Builder.setFormat]

variable [UnicodeTables]

/-- C75: however a formatter made with `format` is set up, the output is determined by the database, mode and format set last: without a
database the built-in one is used, without a mode E.164, without a format one of the metadata. -/
theorem C75_format (dflt : Database) (n : PhoneNumber) (l : List Setting) :
    (l.foldl Builder.apply (.format_ n)).fmt dflt =
      Formatter.fmt ((lastDatabase l).getD dflt) n ((lastMode l).getD .e164) (lastFormat l) := by
  rw [Builder.chain]
  simp [Builder.fmt, Builder.format_]

/-- C75: the same for `format_with`, which never looks at the built-in database. -/
theorem C75_format_with (dflt db : Database) (n : PhoneNumber) (l : List Setting) :
    (l.foldl Builder.apply (.formatWith db n)).fmt dflt =
      Formatter.fmt ((lastDatabase l).getD db) n ((lastMode l).getD .e164) (lastFormat l) := by
  rw [Builder.chain]
  simp only [Builder.fmt, Builder.formatWith]
  cases lastDatabase l <;> simp

/-- C75: settings of different kinds commute, and a setting replaces an earlier one of its kind. -/
theorem C75_order (dflt : Database) (b : Builder) (l l' : List Setting) (h1 : lastDatabase l = lastDatabase l')
    (h2 : lastMode l = lastMode l') (h3 : lastFormat l = lastFormat l') :
    (l.foldl Builder.apply b).fmt dflt = (l'.foldl Builder.apply b).fmt dflt := by
  rw [Builder.chain, Builder.chain, h1, h2, h3]

/-- Chains meeting the hypotheses. -/
example (d : Database) (f : Format) :
    lastDatabase [.mode .national, .database d, .format f] = lastDatabase [.format f, .mode .e164, .database d, .mode .national] ∧
    lastMode [.mode .national, .database d, .format f] = lastMode [.format f, .mode .e164, .database d, .mode .national] ∧
    lastFormat [.mode .national, .database d, .format f] = lastFormat [.format f, .mode .e164, .database d, .mode .national] := by
  simp [lastDatabase, lastMode, lastFormat]

end Phone
