import Verif.Model.Database
/-! # Specification of the part of the metadata that results depend on -/

namespace Phone.Spec

/-- What is used of the description of a type: pattern and lengths, not the local lengths and the example. -/
def usedDescriptor (d : Descriptor) : Descriptor := { d with possibleLocalLength := [], example? := none }

/-- What is used of the descriptions: the general one but for its example, and those of ten types, not those of emergency numbers, short
codes, standard rate numbers, numbers of carriers and numbers that cannot be dialled from abroad. -/
def usedDescriptors (d : Descriptors) : Descriptors where
  general := { d.general with example? := none }
  fixedLine := d.fixedLine.map usedDescriptor
  mobile := d.mobile.map usedDescriptor
  tollFree := d.tollFree.map usedDescriptor
  premiumRate := d.premiumRate.map usedDescriptor
  sharedCost := d.sharedCost.map usedDescriptor
  personalNumber := d.personalNumber.map usedDescriptor
  voip := d.voip.map usedDescriptor
  pager := d.pager.map usedDescriptor
  uan := d.uan.map usedDescriptor
  voicemail := d.voicemail.map usedDescriptor
  emergency := none
  shortCode := none
  standardRate := none
  carrier := none
  noInternational := none

/-- What is used of a format: all but whether the national prefix is optional. -/
def usedFormat (f : Format) : Format := { f with nationalPrefixOptional := false }

/-- What is used of a territory: not the preferred international prefix, whether it is the main one of its code, and whether mobile
numbers are portable. -/
def usedMetadata (md : Metadata) : Metadata :=
  { md with
    descriptors := usedDescriptors md.descriptors
    preferredInternationalPrefix := none
    formats := md.formats.map usedFormat
    internationalFormats := md.internationalFormats.map usedFormat
    mainCountryForCode := false
    mobileNumberPortable := false }

/-- What is used of a database. -/
def usedDatabase (db : Database) : Database where
  byIdMap := db.byIdMap.map fun x => (x.1, usedMetadata x.2)
  byCodeMap := db.byCodeMap.map fun x => (x.1, x.2.map usedMetadata)
  regionsMap := db.regionsMap

/-- The description of a type in a document without what is not used. -/
def leanDescriptor (d : Loader.Descriptor) : Loader.Descriptor := { d with possibleLocalLength := [], example? := none }

/-- A format in a document without what is not used. -/
def leanFormat (f : Loader.Format) : Loader.Format := { f with nationalPrefixOptionalWhenFormatting := false }

/-- A territory of a document without what is not used; whether it is the main one of its code is kept. -/
def leanTerritory (m : Loader.Metadata) : Loader.Metadata :=
  { m with
    general := m.general.map fun d => { d with example? := none }
    fixedLine := m.fixedLine.map leanDescriptor
    mobile := m.mobile.map leanDescriptor
    tollFree := m.tollFree.map leanDescriptor
    premiumRate := m.premiumRate.map leanDescriptor
    sharedCost := m.sharedCost.map leanDescriptor
    personalNumber := m.personalNumber.map leanDescriptor
    voip := m.voip.map leanDescriptor
    pager := m.pager.map leanDescriptor
    uan := m.uan.map leanDescriptor
    voicemail := m.voicemail.map leanDescriptor
    emergency := none
    shortCode := none
    standardRate := none
    carrier := none
    noInternational := none
    preferredInternationalPrefix := none
    formats := m.formats.map leanFormat
    internationalFormats := m.internationalFormats.map leanFormat
    mobileNumberPortable := false
    defaults := {} }

/-- A field of a territory that is kept, and what it is without it. -/
inductive Field where
  | internationalPrefix | nationalPrefix | preferredExtensionPrefix | nationalPrefixForParsing | nationalPrefixTransformRule
  | formats | internationalFormats | mainCountryForCode | leadingDigits
  | generalLength | generalLocalLength
  | type (t : PType) | typeLength
  | formatLeadingDigits | formatNationalPrefix | formatDomesticCarrier
  deriving DecidableEq

/-- The ten types whose descriptions are kept. -/
def keptTypes : List PType :=
  [.fixedLine, .mobile, .tollFree, .premiumRate, .sharedCost, .personalNumber, .voip, .pager, .uan, .voicemail]

/-- A territory without the description of a type. -/
def withoutType (m : Loader.Metadata) : PType → Loader.Metadata
  | .fixedLine => { m with fixedLine := none }
  | .mobile => { m with mobile := none }
  | .tollFree => { m with tollFree := none }
  | .premiumRate => { m with premiumRate := none }
  | .sharedCost => { m with sharedCost := none }
  | .personalNumber => { m with personalNumber := none }
  | .voip => { m with voip := none }
  | .pager => { m with pager := none }
  | .uan => { m with uan := none }
  | .voicemail => { m with voicemail := none }
  | _ => m

/-- A territory without a field. -/
def without (m : Loader.Metadata) : Field → Loader.Metadata
  | .internationalPrefix => { m with internationalPrefix := none }
  | .nationalPrefix => { m with nationalPrefix := none }
  | .preferredExtensionPrefix => { m with preferredExtensionPrefix := none }
  | .nationalPrefixForParsing => { m with nationalPrefixForParsing := none }
  | .nationalPrefixTransformRule => { m with nationalPrefixTransformRule := none }
  | .formats => { m with formats := [] }
  | .internationalFormats => { m with internationalFormats := [] }
  | .mainCountryForCode => { m with mainCountryForCode := false }
  | .leadingDigits => { m with leadingDigits := none }
  | .generalLength => { m with general := m.general.map fun d => { d with possibleLength := [] } }
  | .generalLocalLength => { m with general := m.general.map fun d => { d with possibleLocalLength := [] } }
  | .type t => withoutType m t
  | .typeLength => { m with mobile := m.mobile.map fun d => { d with possibleLength := [] } }
  | .formatLeadingDigits => { m with formats := m.formats.map fun f => { f with leadingDigits := [] } }
  | .formatNationalPrefix => { m with formats := m.formats.map fun f => { f with nationalPrefixFormattingRule := none } }
  | .formatDomesticCarrier => { m with formats := m.formats.map fun f => { f with domesticCarrier := none } }

end Phone.Spec
