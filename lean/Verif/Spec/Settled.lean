import Verif.Spec.JsonListedConverted
import Verif.Spec.Schema
import Verif.Spec.Locate

/-!
# The BOMs that conversion leaves as they are

`b.Settled v` lists, of a BOM, what it must not have (and the little that it must have) for the conversion of
`/repo/convert.go` to version `v` to change nothing but the version it is stamped with.  It is stated on the values, in
terms of versions and of the tables of the published schemas, without the conversion.  That the list is exact is
`Verif.Props.convert_unchanged_iff`.
-/

namespace Verif

open Spec (walk walkService Known hashAlgorithmSince componentTypeSince scopeSince externalReferenceTypeSince
  aggregateSince scoringMethodSince cryptoPrimitiveSince protocolTypeSince)

/-- The schemas have the string, but only after version `v`. -/
def Spec.Late (table : List (String × Int)) (v : Int) (s : String) : Prop :=
  ∃ k, (s, k) ∈ table ∧ v < k

open Spec (Late)

/-- cyclonedx.go:1211-1216 -/
def OrganizationalContact.Settled (v : Int) (x : OrganizationalContact) : Prop :=
  x.bomRef = "" ∨ SpecVersion1_5 ≤ v

/-- cyclonedx.go:1218-1224 -/
def OrganizationalEntity.Settled (v : Int) (x : OrganizationalEntity) : Prop :=
  (x.bomRef = "" ∨ SpecVersion1_5 ≤ v) ∧
  (x.address = none ∨ SpecVersion1_6 ≤ v) ∧
  ∀ y ∈ x.contact.elems, OrganizationalContact.Settled v y

/-- cyclonedx.go:321-328 -/
def Composition.Settled (v : Int) (x : Composition) : Prop :=
  (x.bomRef = "" ∨ SpecVersion1_5 ≤ v) ∧
  (x.vulnerabilities = .nil ∨ SpecVersion1_5 ≤ v) ∧
  ¬ Late aggregateSince v x.aggregate

/-- cyclonedx.go:551-559; In version 1.5 the schema has these details of a data flow; conversion removes them all the
same. -/
def DataClassification.Settled (v : Int) (x : DataClassification) : Prop :=
  x.name = "" ∧ x.description = "" ∧ x.governance = none ∧ x.source = .nil ∧ x.destination = .nil ∨
  SpecVersion1_6 ≤ v

/-- cyclonedx.go:740-746 -/
def ExternalReference.Settled (v : Int) (x : ExternalReference) : Prop :=
  (Late externalReferenceTypeSince v x.type → x.type ∈ lateReferenceTypes) ∧
  (x.hashes = .nil ∨ SpecVersion1_3 ≤ v) ∧
  (x.properties = .nil ∨ SpecVersion1_7 ≤ v)

/-- A list of hashes that is there and empty becomes null. -/
def HashesSettled (v : Int) (hs : PSlice Hash) : Prop :=
  hs ≠ .list [] ∧ ∀ h ∈ hs.elems, Known hashAlgorithmSince v h.algorithm

/-- cyclonedx.go:1226-1229 -/
def OrganizationalEntityOrContact.Settled (v : Int) (x : OrganizationalEntityOrContact) : Prop :=
  ∀ y ∈ x.organization, OrganizationalEntity.Settled v y

/-- cyclonedx.go:995-1004 -/
def Licensing.Settled (v : Int) (x : Licensing) : Prop :=
  (∀ y ∈ x.licensor, OrganizationalEntityOrContact.Settled v y) ∧
  (∀ y ∈ x.licensee, OrganizationalEntityOrContact.Settled v y) ∧
  (∀ y ∈ x.purchaser, OrganizationalEntityOrContact.Settled v y)

/-- cyclonedx.go:936-945 -/
def License.Settled (v : Int) (x : License) : Prop :=
  (x.bomRef = "" ∨ SpecVersion1_5 ≤ v) ∧
  (x.acknowledgement = "" ∨ SpecVersion1_6 ≤ v) ∧
  (x.licensing = none ∨ SpecVersion1_5 ≤ v ∧ ∀ y ∈ x.licensing, Licensing.Settled v y) ∧
  (x.properties = .nil ∨ SpecVersion1_5 ≤ v)

/-- cyclonedx.go:956-964 -/
def LicenseChoice.Settled (v : Int) (x : LicenseChoice) : Prop :=
  (∀ y ∈ x.license, License.Settled v y) ∧
  (x.expressionDetails = .nil ∨ SpecVersion1_7 ≤ v) ∧
  (x.licensing = none ∨ SpecVersion1_7 ≤ v) ∧
  (x.properties = .nil ∨ SpecVersion1_7 ≤ v)

/-- Version 1.0 has licenses with an identifier or a name only. -/
def LicenseChoice.Plain1_0 (x : LicenseChoice) : Prop :=
  x.expression = "" ∧ ∃ l, x.license = some l ∧ (l.id ≠ "" ∨ l.name ≠ "") ∧ l.text = none ∧ l.url = ""

def LicensesSettled (v : Int) (ls : PSlice LicenseChoice) : Prop :=
  (SpecVersion1_1 ≤ v ∨ ls ≠ .list [] ∧ ∀ l ∈ ls.elems, l.Plain1_0) ∧
  ∀ l ∈ ls.elems, LicenseChoice.Settled v l

/-- cyclonedx.go:683-686; In version 1.5 there is one identity at most. -/
def EvidenceIdentityChoice.Settled (v : Int) (x : EvidenceIdentityChoice) : Prop :=
  SpecVersion1_6 ≤ v ∨ x.identities = .nil ∧ ∀ i ∈ x.identity, i.concludedValue = ""

/-- cyclonedx.go:731-738 -/
def EvidenceOccurrence.Settled (v : Int) (x : EvidenceOccurrence) : Prop :=
  x.line = none ∧ x.offset = none ∧ x.symbol = "" ∧ x.additionalContext = "" ∨ SpecVersion1_6 ≤ v

/-- cyclonedx.go:672-678; The licenses of evidence are converted from version 1.5 on only. -/
def Evidence.Settled (v : Int) (x : Evidence) : Prop :=
  SpecVersion1_3 ≤ v ∧
  (x.identity = none ∨ SpecVersion1_5 ≤ v ∧ ∀ y ∈ x.identity, EvidenceIdentityChoice.Settled v y) ∧
  (x.occurrences = .nil ∨ SpecVersion1_5 ≤ v ∧ ∀ y ∈ x.occurrences.elems, EvidenceOccurrence.Settled v y) ∧
  (x.callstack = none ∨ SpecVersion1_5 ≤ v) ∧
  (SpecVersion1_5 ≤ v → LicensesSettled v x.licenses)

/-- cyclonedx.go:1065-1070 -/
def MLModelCard.Settled (v : Int) (x : MLModelCard) : Prop :=
  SpecVersion1_5 ≤ v ∧
  ((∀ y ∈ x.considerations, y.environmentalConsiderations = none) ∨ SpecVersion1_6 ≤ v)

/-- cyclonedx.go:368-382 -/
def CryptoAlgorithmProperties.Settled (v : Int) (x : CryptoAlgorithmProperties) : Prop :=
  (x.algorithmFamily = "" ∨ SpecVersion1_7 ≤ v) ∧
  (x.ellipticCurve = "" ∨ SpecVersion1_7 ≤ v) ∧
  ¬ Late cryptoPrimitiveSince v x.primitive

/-- cyclonedx.go:171-191 -/
def CertificateProperties.Settled (v : Int) (x : CertificateProperties) : Prop :=
  (x.serialNumber = "" ∨ SpecVersion1_7 ≤ v) ∧
  (x.certificateFileExtension = "" ∨ SpecVersion1_7 ≤ v) ∧
  (x.fingerprint = none ∨ SpecVersion1_7 ≤ v) ∧
  (x.certificateState = .nil ∨ SpecVersion1_7 ≤ v) ∧
  (x.certificateExtensions = .nil ∨ SpecVersion1_7 ≤ v) ∧
  (x.relatedCryptographicAssets = .nil ∨ SpecVersion1_7 ≤ v) ∧
  (x.creationDate = "" ∨ SpecVersion1_7 ≤ v) ∧
  (x.activationDate = "" ∨ SpecVersion1_7 ≤ v) ∧
  (x.deactivationDate = "" ∨ SpecVersion1_7 ≤ v) ∧
  (x.revocationDate = "" ∨ SpecVersion1_7 ≤ v) ∧
  (x.destructionDate = "" ∨ SpecVersion1_7 ≤ v)

/-- cyclonedx.go:1282-1297 -/
def RelatedCryptoMaterialProperties.Settled (v : Int) (x : RelatedCryptoMaterialProperties) : Prop :=
  (x.fingerprint = none ∨ SpecVersion1_7 ≤ v) ∧
  (x.relatedCryptographicAssets = .nil ∨ SpecVersion1_7 ≤ v)

/-- cyclonedx.go:205-211 -/
def CipherSuite.Settled (v : Int) (x : CipherSuite) : Prop :=
  (x.tlsGroups = .nil ∨ SpecVersion1_7 ≤ v) ∧
  (x.tlsSignatureSchemes = .nil ∨ SpecVersion1_7 ≤ v)

/-- cyclonedx.go:509-516 -/
def CryptoProtocolProperties.Settled (v : Int) (x : CryptoProtocolProperties) : Prop :=
  ¬ Late protocolTypeSince v x.type ∧
  (x.relatedCryptographicAssets = .nil ∨ SpecVersion1_7 ≤ v) ∧
  ∀ y ∈ x.cipherSuites.elems, CipherSuite.Settled v y

/-- cyclonedx.go:500-507 -/
def CryptoProperties.Settled (v : Int) (x : CryptoProperties) : Prop :=
  SpecVersion1_6 ≤ v ∧
  (∀ y ∈ x.algorithmProperties, CryptoAlgorithmProperties.Settled v y) ∧
  (∀ y ∈ x.certificateProperties, CertificateProperties.Settled v y) ∧
  (∀ y ∈ x.relatedCryptoMaterialProperties, RelatedCryptoMaterialProperties.Settled v y) ∧
  (∀ y ∈ x.protocolProperties, CryptoProtocolProperties.Settled v y)

/-- cyclonedx.go:239-276; One component, without the components below it.  Of the scope `excluded` the schema knows
since version 1.1, of the
type `cryptographic-asset` since 1.6; the conversion takes the one away in 1.1 and the other in every version. -/
def Component.OwnSettled (v : Int) (c : Component) : Prop :=
  (c.bomRef = "" ∨ SpecVersion1_1 ≤ v) ∧
  (c.mimeType = "" ∨ SpecVersion1_2 ≤ v) ∧
  (Known componentTypeSince v c.type ∧ c.type ≠ "cryptographic-asset") ∧
  (c.supplier = none ∨ SpecVersion1_2 ≤ v) ∧
  (c.manufacturer = none ∨ SpecVersion1_6 ≤ v) ∧
  (c.author = "" ∨ SpecVersion1_2 ≤ v) ∧
  (c.authors = .nil ∨ SpecVersion1_6 ≤ v) ∧
  (c.version ≠ "" ∨ SpecVersion1_4 ≤ v) ∧
  (c.scope = "" ∨ Known scopeSince v c.scope ∧ (c.scope = "excluded" → SpecVersion1_2 ≤ v)) ∧
  HashesSettled v c.hashes ∧
  LicensesSettled v c.licenses ∧
  (c.omniborID = .nil ∨ SpecVersion1_6 ≤ v) ∧
  (c.swhid = .nil ∨ SpecVersion1_6 ≤ v) ∧
  (c.swid = none ∨ SpecVersion1_2 ≤ v) ∧
  (c.modified ≠ none ∨ SpecVersion1_1 ≤ v) ∧
  (c.pedigree = none ∨ SpecVersion1_1 ≤ v ∧ ∀ p ∈ c.pedigree, p.patches = .nil ∨ SpecVersion1_2 ≤ v) ∧
  (c.externalReferences = .nil ∨ SpecVersion1_1 ≤ v ∧ ∀ y ∈ c.externalReferences.elems, ExternalReference.Settled v y) ∧
  (c.properties = .nil ∨ SpecVersion1_3 ≤ v) ∧
  (∀ y ∈ c.evidence, Evidence.Settled v y) ∧
  (c.releaseNotes = none ∨ SpecVersion1_4 ≤ v) ∧
  (∀ y ∈ c.modelCard, MLModelCard.Settled v y) ∧
  (c.data = .nil ∨ SpecVersion1_5 ≤ v) ∧
  (∀ y ∈ c.cryptoProperties, CryptoProperties.Settled v y) ∧
  (c.tags = .nil ∨ SpecVersion1_6 ≤ v) ∧
  (c.isExternal = none ∨ SpecVersion1_7 ≤ v) ∧
  (c.patentAssertions = .nil ∨ SpecVersion1_7 ≤ v) ∧
  (c.versionRange = "" ∨ SpecVersion1_7 ≤ v)

/-- cyclonedx.go:239-276; A component and every component reached from it, through nested components and pedigrees. -/
def Component.Settled (v : Int) (c : Component) : Prop :=
  ∀ ss d, walk c ss = some d → d.OwnSettled v

/-- cyclonedx.go:1362-1382; One service, without the services below it.  Licenses, tags and the signature are not
converted. -/
def Service.OwnSettled (v : Int) (s : Service) : Prop :=
  (∀ y ∈ s.provider, OrganizationalEntity.Settled v y) ∧
  (∀ y ∈ s.data.elems, DataClassification.Settled v y) ∧
  (∀ y ∈ s.externalReferences.elems, ExternalReference.Settled v y) ∧
  (s.properties = .nil ∨ SpecVersion1_3 ≤ v) ∧
  (s.releaseNotes = none ∨ SpecVersion1_4 ≤ v) ∧
  (s.trustZone = "" ∨ SpecVersion1_5 ≤ v) ∧
  (s.patentAssertions = .nil ∨ SpecVersion1_7 ≤ v)

/-- cyclonedx.go:1362-1382; A service and every service reached from it. -/
def Service.Settled (v : Int) (s : Service) : Prop :=
  ∀ is t, walkService s is = some t → t.OwnSettled v

/-- cyclonedx.go:1594-1600 -/
def Tool.Settled (v : Int) (x : Tool) : Prop :=
  HashesSettled v x.hashes ∧
  (x.externalReferences = .nil ∨ SpecVersion1_4 ≤ v ∧ ∀ y ∈ x.externalReferences.elems, ExternalReference.Settled v y)

/-- cyclonedx.go:1610-1614; Of components and services that are tools only the providers of services are converted. -/
def ToolsChoice.Settled (v : Int) (x : ToolsChoice) : Prop :=
  (∀ y ∈ x.tools.elems, Tool.Settled v y) ∧
  (x.components = .nil ∨ SpecVersion1_5 ≤ v) ∧
  (x.services = .nil ∨ SpecVersion1_5 ≤ v ∧
    ∀ s ∈ x.services.elems, ∀ y ∈ s.provider, OrganizationalEntity.Settled v y)

/-- cyclonedx.go:1042-1054; The parts of the metadata, from version 1.2 on. -/
def Metadata.Settled (v : Int) (x : Metadata) : Prop :=
  (x.lifecycles = .nil ∨ SpecVersion1_5 ≤ v) ∧
  (∀ y ∈ x.tools, ToolsChoice.Settled v y) ∧
  (∀ y ∈ x.authors.elems, OrganizationalContact.Settled v y) ∧
  (∀ y ∈ x.component, Component.Settled v y) ∧
  (∀ y ∈ x.manufacture, OrganizationalEntity.Settled v y) ∧
  (x.manufacturer = none ∨ SpecVersion1_6 ≤ v) ∧
  (∀ y ∈ x.supplier, OrganizationalEntity.Settled v y) ∧
  (x.licenses = .nil ∨ SpecVersion1_3 ≤ v ∧ ∀ y ∈ x.licenses.elems, LicenseChoice.Settled v y) ∧
  (x.properties = .nil ∨ SpecVersion1_3 ≤ v) ∧
  (x.distributionConstraints = none ∨ SpecVersion1_7 ≤ v)

/-- cyclonedx.go:1634-1656; A rating must have a method, although no schema requires one. -/
def Vulnerability.Settled (v : Int) (x : Vulnerability) : Prop :=
  (∀ y ∈ x.ratings.elems, Known scoringMethodSince v y.method) ∧
  (x.workaround = "" ∨ SpecVersion1_5 ≤ v) ∧
  (x.proofOfConcept = none ∨ SpecVersion1_5 ≤ v) ∧
  (x.rejected = "" ∨ SpecVersion1_5 ≤ v) ∧
  (∀ c ∈ x.credits, (∀ y ∈ c.organizations.elems, OrganizationalEntity.Settled v y) ∧
    ∀ y ∈ c.individuals.elems, OrganizationalContact.Settled v y) ∧
  (∀ y ∈ x.tools, ToolsChoice.Settled v y) ∧
  (∀ y ∈ x.analysis, y.firstIssued = "" ∧ y.lastUpdated = "" ∨ SpecVersion1_5 ≤ v)

/-- cyclonedx.go:60-65; Annotators are converted below version 1.6 only, and only their organisation and their
service. -/
def Annotator.Settled (v : Int) (x : Annotator) : Prop :=
  SpecVersion1_6 ≤ v ∨
  (∀ y ∈ x.organization, OrganizationalEntity.Settled v y) ∧
  (∀ y ∈ x.service, Service.Settled v y)

/-- cyclonedx.go:105-131; A whole BOM. -/
def BOM.Settled (v : Int) (x : BOM) : Prop :=
  (x.serialNumber = "" ∨ SpecVersion1_1 ≤ v) ∧
  (x.metadata = none ∨ SpecVersion1_2 ≤ v ∧ ∀ y ∈ x.metadata, Metadata.Settled v y) ∧
  (∀ y ∈ x.components.elems, Component.Settled v y) ∧
  (x.services = .nil ∨ SpecVersion1_2 ≤ v ∧ ∀ y ∈ x.services.elems, Service.Settled v y) ∧
  (x.externalReferences = .nil ∨ SpecVersion1_1 ≤ v ∧ ∀ y ∈ x.externalReferences.elems, ExternalReference.Settled v y) ∧
  (x.dependencies = .nil ∨ SpecVersion1_2 ≤ v ∧ ∀ y ∈ x.dependencies.elems, y.provides = .nil ∨ SpecVersion1_6 ≤ v) ∧
  (x.compositions = .nil ∨ SpecVersion1_3 ≤ v ∧ ∀ y ∈ x.compositions.elems, Composition.Settled v y) ∧
  (x.vulnerabilities = .nil ∨ SpecVersion1_4 ≤ v ∧ ∀ y ∈ x.vulnerabilities.elems, Vulnerability.Settled v y) ∧
  (x.annotations = .nil ∨ SpecVersion1_5 ≤ v ∧ ∀ y ∈ x.annotations.elems, ∀ a ∈ y.annotator, Annotator.Settled v a) ∧
  (x.formulation = .nil ∨ SpecVersion1_5 ≤ v) ∧
  (x.declarations = none ∨ SpecVersion1_6 ≤ v) ∧
  (x.definitions = none ∨ SpecVersion1_6 ≤ v ∧ ∀ y ∈ x.definitions, y.patents = .nil ∨ SpecVersion1_7 ≤ v) ∧
  (x.citations = .nil ∨ SpecVersion1_7 ≤ v)

/-! ### What is changed although the JSON schema allows it -/

/-- No component reached from this one has the type `cryptographic-asset` or a list of hashes that is there and empty. -/
def Component.Kept (c : Component) : Prop :=
  ∀ ss d, walk c ss = some d → d.type ≠ "cryptographic-asset" ∧ d.hashes ≠ .list []

/-- In version 1.5, no service reached from this one has details of data flows. -/
def Service.Kept (v : Int) (s : Service) : Prop :=
  v = SpecVersion1_5 → ∀ is t, walkService s is = some t → ∀ x ∈ t.data.elems,
    x.name = "" ∧ x.description = "" ∧ x.governance = none ∧ x.source = .nil ∧ x.destination = .nil

/-- No tool has a list of hashes that is there and empty. -/
def ToolsChoice.Kept (x : ToolsChoice) : Prop :=
  ∀ y ∈ x.tools.elems, y.hashes ≠ .list []

/-- A BOM without what the conversion to version `v` changes although the JSON schema of that version allows it:
components of the type `cryptographic-asset`, empty lists of hashes, details of data flows in version 1.5, and ratings
without a method. -/
def BOM.Kept (v : Int) (x : BOM) : Prop :=
  (∀ m ∈ x.metadata, (∀ c ∈ m.component, Component.Kept c) ∧ ∀ t ∈ m.tools, ToolsChoice.Kept t) ∧
  (∀ c ∈ x.components.elems, Component.Kept c) ∧
  (∀ s ∈ x.services.elems, Service.Kept v s) ∧
  (∀ y ∈ x.vulnerabilities.elems, (∀ r ∈ y.ratings.elems, r.method ≠ "") ∧ ∀ t ∈ y.tools, ToolsChoice.Kept t) ∧
  (∀ y ∈ x.annotations.elems, ∀ a ∈ y.annotator, ∀ s ∈ a.service, Service.Kept v s)

/-! ### What is changed although the XML schema allows it -/

/-- No component reached from this one has the type `cryptographic-asset`; in version 1.1, none has the scope `excluded`;
in version 1.5, none has evidence of its identity (whose list of one becomes a single one, which is written in the same
way). -/
def Component.XKept (v : Int) (c : Component) : Prop :=
  ∀ ss d, walk c ss = some d →
    d.type ≠ "cryptographic-asset" ∧ (d.scope = "excluded" → SpecVersion1_2 ≤ v) ∧
    (v = SpecVersion1_5 → ∀ e ∈ d.evidence, e.identity = none)

/-- A BOM without what the conversion to version `v` changes although the XML schema of that version allows it: what
`Component.XKept` excludes, details of data flows in version 1.5, and ratings without a method. -/
def BOM.XKept (v : Int) (x : BOM) : Prop :=
  (∀ m ∈ x.metadata, ∀ c ∈ m.component, Component.XKept v c) ∧
  (∀ c ∈ x.components.elems, Component.XKept v c) ∧
  (∀ s ∈ x.services.elems, Service.Kept v s) ∧
  (∀ y ∈ x.vulnerabilities.elems, ∀ r ∈ y.ratings.elems, r.method ≠ "") ∧
  (∀ y ∈ x.annotations.elems, ∀ a ∈ y.annotator, ∀ s ∈ a.service, Service.Kept v s)

end Verif
