SHEAD = '''import Verif.Model.Types

/-!
# The values that XML can represent

GENERATED by `tools/gen_xplain.py` from the struct declarations of `/repo/cyclonedx.go`; do not edit by hand.

`T.XPlain x` says that `x` uses only what the XML format of the library can tell apart: strings consist of
characters that XML allows, lists are absent or not empty and have no elements that are left out, there is no
pointer to a nil slice, choice types hold one alternative, the fields that are not part of the XML format (tag
`xml:"-"`) are unset, integers are Go integers and a NaN is the usual one.  It is stated on the values alone,
without reference to how they are written or read.
-/

namespace Verif

/-- A character that may occur in an XML document (XML 1.0, production 2). -/
def XmlChar (c : Char) : Prop :=
  c.toNat = 0x9 ∨ c.toNat = 0xA ∨ c.toNat = 0xD ∨ (0x20 ≤ c.toNat ∧ c.toNat ≤ 0xD7FF) ∨
    (0xE000 ≤ c.toNat ∧ c.toNat ≤ 0xFFFD) ∨ (0x10000 ≤ c.toNat ∧ c.toNat ≤ 0x10FFFF)

/-- A string that may occur in an XML document. -/
def XString (s : String) : Prop := ∀ c ∈ s.toList, XmlChar c

/-- White space (the Unicode property White_Space). -/
def WhiteSpace (c : Char) : Prop :=
  c.toNat ∈ [0x9, 0xA, 0xB, 0xC, 0xD, 0x20, 0x85, 0xA0, 0x1680, 0x2028, 0x2029, 0x202F, 0x205F, 0x3000] ∨
    (0x2000 ≤ c.toNat ∧ c.toNat ≤ 0x200A)

/-- A string without white space at its beginning or end. -/
def Trimmed (s : String) : Prop :=
  (∀ c ∈ s.toList.head?, ¬ WhiteSpace c) ∧ (∀ c ∈ s.toList.getLast?, ¬ WhiteSpace c)

/-- If the number is a NaN, it is the one that parsing `NaN` yields: the exponent is all ones, and the fraction is
zero except for the first bit. -/
def F32.XPlain (x : F32) : Prop :=
  x.bits.toNat / 2 ^ 23 % 256 = 255 ∧ x.bits.toNat % 2 ^ 23 ≠ 0 → x.bits = 0x7FC00000
/-- If the number is a NaN, it is the one that parsing `NaN` yields. -/
def F64.XPlain (x : F64) : Prop :=
  x.bits.toNat / 2 ^ 52 % 2048 = 2047 ∧ x.bits.toNat % 2 ^ 52 ≠ 0 → x.bits = 0x7FF8000000000001

/-- The nil pointer, or a list that is not empty and whose elements satisfy `P`. -/
def PSlice.XEach {α : Type} (P : α → Prop) : PSlice α → Prop
  | .nil => True
  | .nilSlice => False
  | .list as => as ≠ [] ∧ ∀ a ∈ as, P a
'''
SPEC['CertificateState'] = '''/-- Either a predefined state that is not the empty string, or a custom one (cyclonedx.go:157-160). -/
def CertificateState.XPlain (x : CertificateState) : Prop :=
  (∃ p : PredefinedCertificateState, p.state ≠ "" ∧ XString p.state ∧ XString p.reason ∧ x = { predefined := some p }) ∨
  (∃ q : CustomCertificateState, XString q.name ∧ XString q.description ∧ XString q.reason ∧ x = { custom := some q })
'''
SPEC['CertificateExtension'] = '''/-- Either a common extension with a name, or a custom one. -/
def CertificateExtension.XPlain (x : CertificateExtension) : Prop :=
  (∃ p : CommonCertificateExtension, p.name ≠ "" ∧ XString p.name ∧ XString p.value ∧ x = { common := some p }) ∨
  (∃ q : CustomCertificateExtension, XString q.name ∧ XString q.value ∧ x = { custom := some q })
'''
SPEC['Copyright'] = '''/-- A text. -/
def Copyright.XPlain (x : Copyright) : Prop := XString x.text
'''
SPEC['LicenseExpressionDetail'] = '''/-- A detail without a reference of its own, which the XML format leaves out. -/
def LicenseExpressionDetail.XPlain (x : LicenseExpressionDetail) : Prop :=
  x.bomRef = "" ∧ XString x.licenseIdentifier ∧ (∀ y ∈ x.text, AttachedText.XPlain y) ∧ XString x.url
'''
SPEC['LicenseChoice'] = '''/-- Either a license alone, or an expression with its details (the licensing and the properties of an
expression are not part of the XML format). -/
def LicenseChoice.XPlain (x : LicenseChoice) : Prop :=
  (∃ l : License, l.XPlain ∧ x = { license := some l }) ∨
  (x.license = none ∧ x.expression ≠ "" ∧ XString x.expression ∧ XString x.bomRef ∧
    (∀ a ∈ x.acknowledgement, a ≠ "" ∧ XString a) ∧ x.expressionDetails.XEach LicenseExpressionDetail.XPlain ∧
    x.licensing = none ∧ x.properties = .nil)
'''
SPEC['Evidence'] = '''/-- Not nothing at all; a list of identities, and a call stack with frames. -/
def Evidence.XPlain (x : Evidence) : Prop :=
  x ≠ {} ∧ (∀ i ∈ x.identity, i.identity = none ∧ i.identities ≠ .nil ∧ i.identities.XEach EvidenceIdentity.XPlain) ∧
  x.occurrences.XEach EvidenceOccurrence.XPlain ∧ (∀ c ∈ x.callstack, c.frames ≠ .nil ∧ c.XPlain) ∧
  x.licenses.XEach LicenseChoice.XPlain ∧ x.copyright.XEach Copyright.XPlain
'''
SPEC['MLDatasetChoice'] = '''/-- Either a reference, or a component data that is not empty. -/
def MLDatasetChoice.XPlain (x : MLDatasetChoice) : Prop :=
  (x.ref ≠ "" ∧ XString x.ref ∧ x.componentData = none) ∨
  (∃ d : ComponentData, d.XPlain ∧ d ≠ {} ∧ x = { componentData := some d })
'''
SPEC['AsserterChoice'] = '''/-- An organization, an individual or a reference. -/
def AsserterChoice.XPlain (x : AsserterChoice) : Prop :=
  (∃ o : OrganizationalEntity, o.XPlain ∧ x = { organization := some o }) ∨
  (∃ i : OrganizationalContact, i.XPlain ∧ x = { individual := some i }) ∨
  (∃ r : BOMReference, XString r.val ∧ x = { bomRef := some r })
'''
SPEC['DataClassification'] = '''/-- Texts, a governance, and lists of URLs. -/
def DataClassification.XPlain (x : DataClassification) : Prop :=
  XString x.flow ∧ XString x.classification ∧ XString x.name ∧ XString x.description ∧
  (∀ g ∈ x.governance, g.XPlain) ∧ x.source.XEach XString ∧ x.destination.XEach XString
'''
SPEC['PatentChoice'] = '''/-- Either a patent or a patent family. -/
def PatentChoice.XPlain (x : PatentChoice) : Prop :=
  (∃ p : Patent, p.XPlain ∧ x = { patent := some p }) ∨ (∃ f : PatentFamily, f.XPlain ∧ x = { patentFamily := some f })
'''
SPEC['Definitions'] = '''/-- Standards and patents. -/
def Definitions.XPlain (x : Definitions) : Prop :=
  x.standards.XEach StandardDefinition.XPlain ∧ x.patents.XEach PatentChoice.XPlain
'''
SPEC['Dependency'] = '''/-- References. -/
def Dependency.XPlain (x : Dependency) : Prop :=
  XString x.ref ∧ x.dependencies.XEach XString ∧ x.provides.XEach XString
'''
SPEC['EnvironmentVariableChoice'] = '''/-- Either a property, or a string that is not empty. -/
def EnvironmentVariableChoice.XPlain (x : EnvironmentVariableChoice) : Prop :=
  (∃ p : Property, p.XPlain ∧ x = { property := some p }) ∨ (x.property = none ∧ x.value ≠ "" ∧ XString x.value)
'''
SPEC['ToolsChoice'] = '''/-- Not nothing at all; lists of tools, components and services. -/
def ToolsChoice.XPlain (x : ToolsChoice) : Prop :=
  x ≠ {} ∧ x.tools.XEach Tool.XPlain ∧ x.components.XEach Component.XPlain ∧ x.services.XEach Service.XPlain
'''
