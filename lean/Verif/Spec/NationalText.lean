import Verif.Spec.International
import Verif.Spec.Trunk
/-! # Specification for reading back what is written in national format -/

namespace Phone.Spec

/-- A part of a rule that is not a group. -/
def RulePart.fixed : RulePart → Prop
  | .text _ | .np | .cc => True
  | .fg | .one => False

/-- A rule that writes the digits `lead` before the group, with punctuation, and nothing but punctuation after it. -/
def Leads (np cc : Str) (rule : List RulePart) (lead : Str) : Prop :=
  ∃ before after, rule = before ++ .fg :: after ∧ (∀ p ∈ before ++ after, p.fixed) ∧
    Plain (ruleMeaning np cc [] (before ++ after)) ∧ digitsOf (ruleMeaning np cc [] before) = lead ∧
    digitsOf (ruleMeaning np cc [] after) = []

/-- The carrier code as the rules of a format see it. -/
def carrierText (f : Format) (n : PhoneNumber) : Str := if f.domesticCarrier = none then [] else n.carrier.getD []

/-- The digits written before the national number in national format: those of the rule, if there is one and the pattern of the format
fits (at the start of the number). -/
inductive LeadDigits [UnicodeTables] (md : Metadata) (f : Format) (n : PhoneNumber) : Str → Prop where
  | noRule : ruleFor f n.carrier = none → LeadDigits md f n []
  | rule {rule : List RulePart} {lead : Str} : ruleFor f n.carrier = some (ruleSource rule) → '$' ∈ f.format →
      '$' ∉ md.nationalPrefix.getD [] → '$' ∉ n.carrier.getD [] → PlainRule (md.nationalPrefix.getD []) (carrierText f n) rule →
      Leads (md.nationalPrefix.getD []) (carrierText f n) rule lead → (∃ m, f.pattern.find n.national.display = some m ∧ m.pre = []) →
      LeadDigits md f n lead
  | noMatch {rule : List RulePart} : ruleFor f n.carrier = some (ruleSource rule) → '$' ∈ f.format →
      '$' ∉ md.nationalPrefix.getD [] → '$' ∉ n.carrier.getD [] → PlainRule (md.nationalPrefix.getD []) (carrierText f n) rule →
      f.pattern.find n.national.display = none → LeadDigits md f n []

end Phone.Spec
