import Verif.Spec.XmlFits
import Verif.Spec.Locate

/-!
# The BOMs that `EncodeVersion` writes as XML with the structure of the schema

`b.XFitsConverted v` says, of the BOM a caller hands to `EncodeVersion`, that the XML written for version `v` has the
structure that the XML schema of `v` declares.  Compared with `T.XFits v` it leaves out everything that the conversion
of `/repo/convert.go` removes or repairs; what it still asks for is what the conversion leaves behind, and what is
written in another way than the schema declares in any version.  `T.XFits` is used for the parts that the conversion
does not touch.  That no condition is missing and none is superfluous is
`Verif.Props.encodeVersionXML_valid_iff_converted`.
-/

namespace Verif

open Spec (walk walkService)

/-- Either an organisation or a person, not both. -/
def OneParty (o : Option OrganizationalEntityOrContact) : Prop :=
  ∀ p ∈ o, p.organization = none ∨ p.individual = none

/-- A license: all that later versions added is removed. -/
def License.XFitsConverted (v : Int) (x : License) : Prop :=
  SpecVersion1_5 ≤ v → ∀ y ∈ x.licensing, OneParty y.licensor ∧ OneParty y.licensee ∧ OneParty y.purchaser

/-- A list of licenses.  For version 1.0 all but plain licenses are removed.  For the versions 1.1 to 1.6 expressions
are kept, also several of them and beside licenses, and with the attributes declared from version 1.6 on. -/
def XFitsLicensesConverted (v : Int) (l : List LicenseChoice) : Prop :=
  SpecVersion1_1 ≤ v →
    (∀ x ∈ l, ∀ y ∈ x.license, License.XFitsConverted v y) ∧
    (v < SpecVersion1_7 →
      (v < SpecVersion1_6 → ∀ x ∈ l, x.license = none → x.expression ≠ "" →
        x.bomRef = "" ∧ x.acknowledgement.getD "" = "") ∧
      ((∀ x ∈ l, x.license ≠ none ∨ x.expression = "") ∨
        (∀ x ∈ l, x.license = none) ∧ (l.filter (·.expression ≠ "")).length ≤ 1))

/-- An evidence: for 1.3 and 1.4 its licenses are not converted; for 1.5 the first identity remains, without the
value concluded, and of an occurrence only what was declared then. -/
def Evidence.XFitsConverted (v : Int) (x : Evidence) : Prop :=
  (SpecVersion1_3 ≤ v → v < SpecVersion1_5 → XFitsLicenses v x.licenses.elems) ∧
  (SpecVersion1_5 ≤ v →
    XFitsLicensesConverted v x.licenses.elems ∧ (∀ y ∈ x.callstack, Callstack.XFits v y) ∧
    (v < SpecVersion1_6 →
      (∀ y ∈ x.occurrences.elems, y.location ≠ "") ∧
      ∀ y ∈ x.writtenIdentities.elems.head?, y.field ≠ "" ∧ ∀ m ∈ y.methods.elems, EvidenceIdentityMethod.XFits v m) ∧
    (SpecVersion1_6 ≤ v →
      (∀ y ∈ x.occurrences.elems, EvidenceOccurrence.XFits v y) ∧
      ∀ y ∈ x.writtenIdentities.elems, EvidenceIdentity.XFits v y))

/-- A model card: only the environmental considerations are removed, below version 1.6. -/
def MLModelCard.XFitsConverted (v : Int) (x : MLModelCard) : Prop :=
  SpecVersion1_5 ≤ v →
    (∀ y ∈ x.modelParameters, MLModelParameters.XFits v y) ∧
    ∀ y ∈ x.considerations,
      (y.users.elems.filter (· ≠ "")).length ≤ 1 ∧ (y.useCases.elems.filter (· ≠ "")).length ≤ 1 ∧
      (y.technicalLimitations.elems.filter (· ≠ "")).length ≤ 1 ∧
      (y.performanceTradeoffs.elems.filter (· ≠ "")).length ≤ 1 ∧
      (SpecVersion1_6 ≤ v → ∀ z ∈ y.environmentalConsiderations, MLModelCardEnvironmentalConsiderations.XFits v z)

/-- Properties of a cryptographic asset: what version 1.7 added is removed for version 1.6. -/
def CryptoProperties.XFitsConverted (v : Int) (x : CryptoProperties) : Prop :=
  (SpecVersion1_7 ≤ v → x.XFits v) ∧
  (SpecVersion1_6 ≤ v → v < SpecVersion1_7 →
    (∀ y ∈ x.certificateProperties, y.signatureAlgorithmRef.val = "" ∧ y.subjectPublicKeyRef.val = "") ∧
    (∀ y ∈ x.relatedCryptoMaterialProperties, y.algorithmRef.val = "" ∧ ∀ z ∈ y.securedBy, z.algorithmRef.val = "") ∧
    ∀ y ∈ x.protocolProperties,
      y.cipherSuites.elems.length ≤ 1 ∧
      (∀ z ∈ y.cipherSuites.elems,
        z.name = "" ∧ (∀ w ∈ z.algorithms.elems, w.val = "") ∧ ∀ w ∈ z.identifiers.elems, w = "") ∧
      (∀ z ∈ y.ikev2TransformTypes, IKEv2TransformTypes.XFits v z) ∧
      ∀ z ∈ y.cryptoRefArray.elems, z.val = "")

/-- None of the elements that have to follow the patent assertions is written. -/
def Component.NothingAfterPatents (c : Component) : Prop :=
  c.cpe = "" ∧ c.packageURL = "" ∧ (∀ y ∈ c.omniborID.elems, y = "") ∧ (∀ y ∈ c.swhid.elems, y = "") ∧
  c.swid = none ∧ c.modified = none ∧ c.pedigree = none ∧ c.externalReferences = .nil ∧ c.properties = .nil ∧
  c.components = .nil ∧ (∀ y ∈ c.evidence, ¬ Evidence.XWritten y) ∧ c.releaseNotes = none ∧ c.modelCard = none ∧
  c.data.elems = [] ∧ c.cryptoProperties = none ∧ c.tags = .nil ∧ c.isExternal = none

/-- None of the elements that have to follow the range of versions is written.  A scope that is not one of the three
known ones is removed. -/
def Component.NothingAfterVersion (c : Component) : Prop :=
  c.description = "" ∧ c.scope ∉ ["required", "optional", "excluded"] ∧ c.hashes = .nil ∧ c.licenses.elems = [] ∧
  c.copyright = "" ∧ c.patentAssertions = .nil ∧ c.NothingAfterPatents

/-- One component, without the components below it. -/
def Component.XOwnFits (v : Int) (c : Component) : Prop :=
  (SpecVersion1_2 ≤ v → ∀ y ∈ c.supplier, OrganizationalEntity.XFits v y) ∧
  (SpecVersion1_2 ≤ v → ∀ y ∈ c.swid, SWID.XFits v y) ∧
  XFitsLicensesConverted v c.licenses.elems ∧
  (∀ y ∈ c.evidence, Evidence.XFitsConverted v y) ∧
  (∀ y ∈ c.modelCard, MLModelCard.XFitsConverted v y) ∧
  (SpecVersion1_5 ≤ v → (v < SpecVersion1_7 → c.data.elems.length ≤ 1) ∧ ∀ y ∈ c.data.elems, ComponentData.XFits v y) ∧
  (∀ y ∈ c.cryptoProperties, CryptoProperties.XFitsConverted v y) ∧
  (SpecVersion1_6 ≤ v → c.authors = .nil ∨ c.author = "") ∧
  (SpecVersion1_7 ≤ v →
    (c.versionRange = "" ∨ c.version = "" ∧ c.NothingAfterVersion) ∧
    (c.patentAssertions = .nil ∨ c.NothingAfterPatents ∧ ∀ y ∈ c.patentAssertions.elems, PatentAssertion.XFits v y) ∧
    c.isExternal = none)

/-- A component and every component reached from it, through nested components and pedigrees. -/
def Component.XFitsConverted (v : Int) (c : Component) : Prop :=
  ∀ ss d, walk c ss = some d → d.XOwnFits v

/-- One service, without the services below it.  Its licenses and tags are not converted. -/
def Service.XOwnFits (v : Int) (s : Service) : Prop :=
  XFitsLicenses v s.licenses.elems ∧
  (s.tags = .nil ∨ SpecVersion1_6 ≤ v) ∧
  (s.data.elems = [] ∨ SpecVersion1_5 ≤ v) ∧
  (∀ y ∈ s.data.elems, y.flow = "" → y.classification = "") ∧
  (SpecVersion1_6 ≤ v → ∀ y ∈ s.data.elems, ∀ z ∈ y.governance, DataGovernance.XFits v z) ∧
  (SpecVersion1_5 ≤ v → s.trustZone = "" ∨
    s.data = .nil ∧ s.licenses.elems = [] ∧ s.externalReferences = .nil ∧ s.properties = .nil ∧ s.services = .nil ∧
    s.releaseNotes = none ∧ s.tags = .nil) ∧
  (SpecVersion1_7 ≤ v → s.patentAssertions = .nil ∨
    (s.externalReferences = .nil ∧ s.properties = .nil ∧ s.services = .nil ∧ s.releaseNotes = none ∧ s.tags = .nil) ∧
    ∀ y ∈ s.patentAssertions.elems, PatentAssertion.XFits v y)

/-- A service and every service reached from it. -/
def Service.XFitsConverted (v : Int) (s : Service) : Prop :=
  ∀ is t, walkService s is = some t → t.XOwnFits v

/-- Below version 1.5 components and services that are tools become tools of the old form; from 1.5 on they are left
as they are, except for the provider of a service. -/
def ToolsChoice.XFitsConverted (v : Int) (x : ToolsChoice) : Prop :=
  SpecVersion1_5 ≤ v →
    (∀ c ∈ x.components.elems, c.XFits v) ∧ ∀ s ∈ x.services.elems, Service.XFits v { s with provider := none }

/-- The metadata, which is removed below version 1.2. -/
def Metadata.XFitsConverted (v : Int) (x : Metadata) : Prop :=
  (SpecVersion1_5 ≤ v → ∀ y ∈ x.lifecycles.elems, Lifecycle.XFits v y) ∧
  (∀ y ∈ x.tools, ToolsChoice.XFitsConverted v y) ∧
  (∀ y ∈ x.component, Component.XFitsConverted v y) ∧
  (SpecVersion1_6 ≤ v → x.manufacturer = none ∨ x.manufacture = none) ∧
  (SpecVersion1_3 ≤ v → XFitsLicensesConverted v x.licenses.elems)

/-- The component of an annotator is not converted, its service only below version 1.6; only one of the four may be
set. -/
def Annotator.XFitsConverted (v : Int) (x : Annotator) : Prop :=
  (∀ y ∈ x.component, Component.XFits v y) ∧
  (v < SpecVersion1_6 → ∀ y ∈ x.service, Service.XFitsConverted v y) ∧
  (SpecVersion1_6 ≤ v → ∀ y ∈ x.service, Service.XFits v y) ∧
  ((x.individual = none ∧ x.component = none ∧ x.service = none) ∨
   (x.organization = none ∧ x.component = none ∧ x.service = none) ∨
   (x.organization = none ∧ x.individual = none ∧ x.service = none) ∨
   (x.organization = none ∧ x.individual = none ∧ x.component = none))

/-- A vulnerability. -/
def Vulnerability.XFitsConverted (v : Int) (x : Vulnerability) : Prop :=
  (∀ y ∈ x.references.elems, VulnerabilityReference.XFits v y) ∧
  (∀ y ∈ x.tools, ToolsChoice.XFitsConverted v y) ∧
  (∀ y ∈ x.affects.elems, Affects.XFits v y)

/-- A whole BOM.  Its properties are never removed; formulation, declarations and definitions are not converted, apart
from the patents of the definitions; below version 1.2 there must be a list of components. -/
def BOM.XFitsConverted (v : Int) (x : BOM) : Prop :=
  (SpecVersion1_2 ≤ v → ∀ y ∈ x.metadata, Metadata.XFitsConverted v y) ∧
  (v < SpecVersion1_2 → x.components ≠ .nil) ∧
  (∀ y ∈ x.components.elems, Component.XFitsConverted v y) ∧
  (SpecVersion1_2 ≤ v → ∀ y ∈ x.services.elems, Service.XFitsConverted v y) ∧
  (x.properties = .nil ∨ SpecVersion1_3 ≤ v) ∧
  (SpecVersion1_4 ≤ v → ∀ y ∈ x.vulnerabilities.elems, Vulnerability.XFitsConverted v y) ∧
  (SpecVersion1_5 ≤ v → ∀ y ∈ x.annotations.elems,
    (∃ a ∈ y.annotator, Annotator.XFitsConverted v a) ∧ y.timestamp ≠ "" ∧ y.text ≠ "") ∧
  (SpecVersion1_5 ≤ v → ∀ y ∈ x.formulation.elems, Formula.XFits v y) ∧
  (SpecVersion1_6 ≤ v → ∀ y ∈ x.declarations, Declarations.XFits v y) ∧
  (SpecVersion1_6 ≤ v → ∀ y ∈ x.definitions,
    (∀ d ∈ y.standards.elems, StandardDefinition.XFits v d) ∧ (SpecVersion1_7 ≤ v → y.XFits v)) ∧
  (SpecVersion1_7 ≤ v → x.citations = .nil ∨ x.citations.elems ≠ [] ∧ ∀ y ∈ x.citations.elems, Citation.XFits v y)

end Verif
