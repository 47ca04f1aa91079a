import Verif.Basic.KernelRfl
import Verif.Basic.Outcome
import Verif.Basic.Str
import Verif.Basic.Unicode
import Verif.Regex.Syntax
import Verif.Regex.Match
import Verif.Regex.Replace
import Verif.Regex.Parser
import Verif.Model.CountryId
import Verif.Model.Consts
import Verif.Model.NationalNumber
import Verif.Model.Types
import Verif.Model.Valid
import Verif.Model.Validator
import Verif.Model.Helper
import Verif.Model.Parse
import Verif.Model.Formatter
import Verif.Model.Database
import Verif.Model.Loader
import Verif.Data.All
import Verif.Basic.StrLemmas
import Verif.Regex.Lemmas
import Verif.Props.NationalNumber
import Verif.Spec.Database
import Verif.Spec.Sample
import Verif.Props.Database
import Verif.Regex.Lang
import Verif.Spec.Normalize
import Verif.Spec.Viable
import Verif.Props.Normalize
import Verif.Props.Viable
import Verif.Props.Stages
import Verif.Spec.Parse
import Verif.Props.Entries
import Verif.Props.Parse
import Verif.Regex.Dead
import Verif.Props.Read
import Verif.Props.ParseText
import Verif.Props.ParseErrors
import Verif.Spec.Rfc3966
import Verif.Props.Rfc3966
import Verif.Spec.Validator
import Verif.Props.Validator
import Verif.Spec.SameAnswers
import Verif.Props.SameAnswers
import Verif.Model.Hash
import Verif.Props.Equality
import Verif.Regex.Captures
import Verif.Regex.Template
import Verif.Spec.Format
import Verif.Props.Format
import Verif.Regex.Stars
import Verif.Builtin.Check
import Verif.Builtin.Part0
import Verif.Builtin.Part1
import Verif.Builtin.Part2
import Verif.Builtin.Part3
import Verif.Builtin.Brief
import Verif.Builtin.Db
import Verif.Builtin.Examples
import Verif.Props.Builtin
import Verif.Spec.RoundTrip
import Verif.Props.RoundTrip
import Verif.Spec.NationalPrefix
import Verif.Props.NationalPrefix
import Verif.Props.BuiltinPrefix
import Verif.Spec.Loader
import Verif.Props.Loader
import Verif.Props.Lengths
import Verif.Model.Lazy
import Verif.Spec.Lazy
import Verif.Props.Lazy
import Verif.Props.LazyBuiltin
import Verif.Spec.Fields
import Verif.Props.Fields
import Verif.Spec.Region
import Verif.Props.Region
import Verif.Spec.Dialling
import Verif.Props.Dialling
import Verif.Props.FormatExact
import Verif.Spec.Trunk
import Verif.Props.Trunk
import Verif.Spec.Natural
import Verif.Props.Extension
import Verif.Props.Natural
import Verif.Spec.Whole
import Verif.Props.Reading
import Verif.Props.Whole
import Verif.Props.WholeBuiltin
import Verif.Model.XmlReader
import Verif.Model.Postcard
import Verif.Data.XAll
import Verif.Data.SAll
import Verif.Shipped.Check
import Verif.Shipped.All
import Verif.Props.XmlReader
import Verif.Props.Shipped
import Verif.Props.Postcard
import Verif.Props.Default
import Verif.Props.Size
import Verif.Props.ShippedBuiltin
import Verif.Spec.Document
import Verif.Props.Document
import Verif.Spec.International
import Verif.Spec.Sole
import Verif.Regex.Filled
import Verif.Props.International
import Verif.Props.InternationalBuiltin
import Verif.Props.Sole
import Verif.Props.SoleBuiltin
import Verif.Spec.NationalText
import Verif.Props.NationalText
import Verif.Props.NationalTextBuiltin
import Verif.Props.ReadBack
import Verif.Props.ReadBackBuiltin
import Verif.Model.Builder
import Verif.Spec.Builder
import Verif.Props.Builder
import Verif.Props.Local
import Verif.Props.LocalBuiltin
import Verif.Props.Dashes
import Verif.Props.DashesBuiltin
import Verif.Model.Serde
import Verif.Spec.Serde
import Verif.Props.Serde
import Verif.Regex.Full
import Verif.Model.ConstsText
import Verif.Props.Consts
import Verif.Model.Nom
import Verif.Props.Nom
import Verif.Regex.Clash
import Verif.Props.ValidBack
import Verif.Props.ValidBackExceptions
import Verif.Regex.Using
import Verif.Props.ValidNational
import Verif.Props.LocalMore
import Verif.Props.ValidNationalExceptions
import Verif.Props.Examples
import Verif.Props.BareBack
import Verif.Props.ValidFrom
import Verif.Props.ValidDialled
import Verif.Regex.Cover
import Verif.Props.ValidFull
import Verif.Props.Countries
import Verif.Props.ValidZeros
import Verif.Props.Grouped
import Verif.Props.Distinct
import Verif.Props.DistinctOthers
import Verif.Props.Reshaped
import Verif.Props.ValidLength
import Verif.Props.Carriers
import Verif.Props.ErrorText
import Verif.Props.ErrorTextBuiltin
import Verif.Props.FromStr
import Verif.Props.Faults
import Verif.Props.Troubles
import Verif.Props.LengthText
import Verif.Tests.Suite
import Verif.Model.MetadataErrorText
import Verif.Props.MetadataTexts
import Verif.Props.Overlaps
import Verif.Props.Rivals
import Verif.Props.Scripts
import Verif.Props.Unused
import Verif.Props.ScriptsBuiltin
import Verif.Props.UnusedBuiltin
import Verif.Props.Tables
import Verif.Props.TablesBuiltin
import Verif.Props.BareExtension
import Verif.Props.BareExtensionBuiltin
import Verif.Props.LetterCase
import Verif.Props.Punctuation
import Verif.Props.Words
import Verif.Props.TwoNumbers
import Verif.Props.Misplaced
import Verif.Props.SecondNumber
