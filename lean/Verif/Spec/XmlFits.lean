import Verif.Model.Types
import Verif.Model.Version

/-!
# The values that are written as the XML schema of a version declares

GENERATED by `tools/gen_xfits.py` from the struct declarations of `/repo/cyclonedx.go` and the XML schemas in
`/repo/schema`; do not edit by hand.

`T.XFits v x` says of the value `x` that the element written for it has only the attributes and elements that the
schema of version `v` declares, in the order it asks for, each as often as it allows, and all that it requires, at
any depth.  A field that no version declares must be empty; one declared since `u` must be empty or `u ≤ v`; one that
is required must not be empty.  Where the library writes the fields in another order than the schema has them, one of
the two must be empty.  Types without such conditions are left out.  It is stated on the values, without reference
to how they are written; `Verif.Xml.FitsLaws` proves that it is exact.
-/

namespace Verif

/-- cyclonedx.go:40-44 -/
def AffectedVersions.XFits (_v : Int) (x : AffectedVersions) : Prop :=
  (x.version ≠ "" ∧ x.range = "" ∨ x.version = "" ∧ x.range ≠ "")

/-- cyclonedx.go:46-49 -/
def Affects.XFits (v : Int) (x : Affects) : Prop :=
  (∀ y ∈ x.range.elems, AffectedVersions.XFits v y)

/-- cyclonedx.go:290-294 -/
def ComponentDataContents.XFits (_v : Int) (x : ComponentDataContents) : Prop :=
  (x.properties.elems = [])

/-- cyclonedx.go:1211-1216 -/
def OrganizationalContact.XFits (v : Int) (x : OrganizationalContact) : Prop :=
  (x.bomRef = "" ∨ SpecVersion1_5 ≤ v)

/-- cyclonedx.go:1218-1224 -/
def OrganizationalEntity.XFits (v : Int) (x : OrganizationalEntity) : Prop :=
  (x.bomRef = "" ∨ SpecVersion1_5 ≤ v) ∧
  (x.address = none ∨ SpecVersion1_6 ≤ v) ∧
  (∀ y ∈ x.contact.elems, OrganizationalContact.XFits v y)

/-- cyclonedx.go:296-299 -/
def ComponentDataGovernanceResponsibleParty.XFits (v : Int) (x : ComponentDataGovernanceResponsibleParty) : Prop :=
  ((∀ y ∈ x.organization, OrganizationalEntity.XFits v y) ∧ x.contact = none ∨ x.organization = none ∧ x.contact = none)

/-- cyclonedx.go:570-574 -/
def DataGovernance.XFits (v : Int) (x : DataGovernance) : Prop :=
  (∀ y ∈ x.custodians.elems, ComponentDataGovernanceResponsibleParty.XFits v y) ∧
  (∀ y ∈ x.stewards.elems, ComponentDataGovernanceResponsibleParty.XFits v y) ∧
  (∀ y ∈ x.owners.elems, ComponentDataGovernanceResponsibleParty.XFits v y)

/-- cyclonedx.go:278-288 -/
def ComponentData.XFits (v : Int) (x : ComponentData) : Prop :=
  x.type ≠ "" ∧
  (∀ y ∈ x.contents, ComponentDataContents.XFits v y) ∧
  (∀ y ∈ x.governance, DataGovernance.XFits v y)

/-- cyclonedx.go:1874-1877; something is written for it. -/
def CertificateState.XWritten (x : CertificateState) : Prop := x.predefined ≠ none ∨ x.custom ≠ none

/-- cyclonedx.go:1907-1910; something is written for it. -/
def CertificateExtension.XWritten (x : CertificateExtension) : Prop := x.common ≠ none ∨ x.custom ≠ none

/-- cyclonedx.go:1907-1910; a common extension needs a value. -/
def CertificateExtension.XFits (_v : Int) (x : CertificateExtension) : Prop := ∀ y ∈ x.common, y.value ≠ ""

/-- cyclonedx.go:171-191 -/
def CertificateProperties.XFits (v : Int) (x : CertificateProperties) : Prop :=
  (x.serialNumber = "" ∨ SpecVersion1_7 ≤ v) ∧
  x.signatureAlgorithmRef.val = "" ∧
  x.subjectPublicKeyRef.val = "" ∧
  (x.certificateFileExtension = "" ∨ SpecVersion1_7 ≤ v) ∧
  (x.fingerprint = none ∨ SpecVersion1_7 ≤ v) ∧
  ((∀ y ∈ x.certificateState.elems, ¬ CertificateState.XWritten y) ∨ SpecVersion1_7 ≤ v) ∧
  (x.creationDate = "" ∨ x.certificateExtensions = .nil ∧ x.relatedCryptographicAssets = .nil) ∧
  (x.creationDate = "" ∨ SpecVersion1_7 ≤ v) ∧
  (x.activationDate = "" ∨ x.certificateExtensions = .nil ∧ x.relatedCryptographicAssets = .nil) ∧
  (x.activationDate = "" ∨ SpecVersion1_7 ≤ v) ∧
  (x.deactivationDate = "" ∨ x.certificateExtensions = .nil ∧ x.relatedCryptographicAssets = .nil) ∧
  (x.deactivationDate = "" ∨ SpecVersion1_7 ≤ v) ∧
  (x.revocationDate = "" ∨ x.certificateExtensions = .nil ∧ x.relatedCryptographicAssets = .nil) ∧
  (x.revocationDate = "" ∨ SpecVersion1_7 ≤ v) ∧
  (x.destructionDate = "" ∨ x.certificateExtensions = .nil ∧ x.relatedCryptographicAssets = .nil) ∧
  (x.destructionDate = "" ∨ SpecVersion1_7 ≤ v) ∧
  (x.certificateExtensions = .nil ∨ SpecVersion1_7 ≤ v ∧ (∀ y ∈ x.certificateExtensions.elems, CertificateExtension.XFits v y)) ∧
  (x.relatedCryptographicAssets = .nil ∨ SpecVersion1_7 ≤ v)

/-- cyclonedx.go:368-382 -/
def CryptoAlgorithmProperties.XFits (v : Int) (x : CryptoAlgorithmProperties) : Prop :=
  (x.algorithmFamily = "" ∨ x.parameterSetIdentifier = "") ∧
  (x.algorithmFamily = "" ∨ SpecVersion1_7 ≤ v) ∧
  (x.ellipticCurve = "" ∨ SpecVersion1_7 ≤ v)

/-- cyclonedx.go:205-211 -/
def CipherSuite.XFits (_v : Int) (x : CipherSuite) : Prop :=
  x.name = "" ∧
  (∀ y ∈ x.algorithms.elems, y.val = "") ∧
  (∀ y ∈ x.identifiers.elems, y = "") ∧
  x.tlsGroups = .nil ∧
  x.tlsSignatureSchemes = .nil

/-- cyclonedx.go:1826-1830; before version 1.7 only the reference is declared. -/
def IKEv2Auth.XFits (v : Int) (x : IKEv2Auth) : Prop :=
  x.bomRef.val ≠ "" ∨ (x.name = "" ∨ SpecVersion1_7 ≤ v) ∧ (x.algorithm = "" ∨ SpecVersion1_7 ≤ v)

/-- cyclonedx.go:1834-1839; before version 1.7 only the reference is declared. -/
def IKEv2Enc.XFits (v : Int) (x : IKEv2Enc) : Prop :=
  x.bomRef.val ≠ "" ∨ (x.name = "" ∨ SpecVersion1_7 ≤ v) ∧ (x.keyLength = none ∨ SpecVersion1_7 ≤ v) ∧ (x.algorithm = "" ∨ SpecVersion1_7 ≤ v)

/-- cyclonedx.go:1843-1847; before version 1.7 only the reference is declared. -/
def IKEv2Integ.XFits (v : Int) (x : IKEv2Integ) : Prop :=
  x.bomRef.val ≠ "" ∨ (x.name = "" ∨ SpecVersion1_7 ≤ v) ∧ (x.algorithm = "" ∨ SpecVersion1_7 ≤ v)

/-- cyclonedx.go:1851-1855; before version 1.7 only the reference is declared. -/
def IKEv2Ke.XFits (v : Int) (x : IKEv2Ke) : Prop :=
  x.bomRef.val ≠ "" ∨ (x.group = none ∨ SpecVersion1_7 ≤ v) ∧ (x.algorithm = "" ∨ SpecVersion1_7 ≤ v)

/-- cyclonedx.go:1859-1863; before version 1.7 only the reference is declared. -/
def IKEv2Prf.XFits (v : Int) (x : IKEv2Prf) : Prop :=
  x.bomRef.val ≠ "" ∨ (x.name = "" ∨ SpecVersion1_7 ≤ v) ∧ (x.algorithm = "" ∨ SpecVersion1_7 ≤ v)

/-- cyclonedx.go:537-544 -/
def IKEv2TransformTypes.XFits (v : Int) (x : IKEv2TransformTypes) : Prop :=
  (∀ y ∈ x.encr.elems, IKEv2Enc.XFits v y) ∧
  (∀ y ∈ x.prf.elems, IKEv2Prf.XFits v y) ∧
  (∀ y ∈ x.integ.elems, IKEv2Integ.XFits v y) ∧
  (∀ y ∈ x.ke.elems, IKEv2Ke.XFits v y) ∧
  (∀ y ∈ x.auth.elems, IKEv2Auth.XFits v y)

/-- cyclonedx.go:509-516 -/
def CryptoProtocolProperties.XFits (v : Int) (x : CryptoProtocolProperties) : Prop :=
  (x.cipherSuites.elems.length ≤ 1 ∧ ∀ y ∈ x.cipherSuites.elems, CipherSuite.XFits v y) ∧
  (∀ y ∈ x.ikev2TransformTypes, IKEv2TransformTypes.XFits v y) ∧
  (∀ y ∈ x.cryptoRefArray.elems, y.val = "") ∧
  x.relatedCryptographicAssets = .nil

/-- cyclonedx.go:546-549 -/
def SecuredBy.XFits (_v : Int) (x : SecuredBy) : Prop :=
  x.algorithmRef.val = ""

/-- cyclonedx.go:1282-1297 -/
def RelatedCryptoMaterialProperties.XFits (v : Int) (x : RelatedCryptoMaterialProperties) : Prop :=
  x.algorithmRef.val = "" ∧
  (∀ y ∈ x.securedBy, SecuredBy.XFits v y) ∧
  (x.fingerprint = none ∨ SpecVersion1_7 ≤ v) ∧
  (x.relatedCryptographicAssets = .nil ∨ SpecVersion1_7 ≤ v)

/-- cyclonedx.go:500-507 -/
def CryptoProperties.XFits (v : Int) (x : CryptoProperties) : Prop :=
  (∀ y ∈ x.algorithmProperties, CryptoAlgorithmProperties.XFits v y) ∧
  (∀ y ∈ x.certificateProperties, CertificateProperties.XFits v y) ∧
  (∀ y ∈ x.relatedCryptoMaterialProperties, RelatedCryptoMaterialProperties.XFits v y) ∧
  (∀ y ∈ x.protocolProperties, CryptoProtocolProperties.XFits v y)

/-- cyclonedx.go:161-169 -/
def CallstackFrame.XFits (_v : Int) (x : CallstackFrame) : Prop :=
  x.module ≠ ""

/-- cyclonedx.go:157-159 -/
def Callstack.XFits (v : Int) (x : Callstack) : Prop :=
  (∀ y ∈ x.frames.elems, CallstackFrame.XFits v y)

/-- cyclonedx.go:710-714 -/
def EvidenceIdentityMethod.XFits (_v : Int) (x : EvidenceIdentityMethod) : Prop :=
  x.technique ≠ "" ∧
  x.confidence ≠ none

/-- cyclonedx.go:688-694 -/
def EvidenceIdentity.XFits (v : Int) (x : EvidenceIdentity) : Prop :=
  x.field ≠ "" ∧
  (x.concludedValue = "" ∨ SpecVersion1_6 ≤ v) ∧
  (∀ y ∈ x.methods.elems, EvidenceIdentityMethod.XFits v y)

/-- cyclonedx.go:731-738 -/
def EvidenceOccurrence.XFits (_v : Int) (x : EvidenceOccurrence) : Prop :=
  x.line = none ∧
  x.offset = none ∧
  x.symbol = "" ∧
  x.additionalContext = "" ∧
  x.location ≠ ""

/-- cyclonedx.go:1226-1229 -/
def OrganizationalEntityOrContact.XFits (v : Int) (x : OrganizationalEntityOrContact) : Prop :=
  ((∀ y ∈ x.organization, OrganizationalEntity.XFits v y) ∧ x.individual = none ∨ x.organization = none ∧ (∀ y ∈ x.individual, OrganizationalContact.XFits v y))

/-- cyclonedx.go:995-1004 -/
def Licensing.XFits (v : Int) (x : Licensing) : Prop :=
  (∀ y ∈ x.licensor, OrganizationalEntityOrContact.XFits v y) ∧
  (∀ y ∈ x.licensee, OrganizationalEntityOrContact.XFits v y) ∧
  (∀ y ∈ x.purchaser, OrganizationalEntityOrContact.XFits v y)

/-- cyclonedx.go:936-945 -/
def License.XFits (v : Int) (x : License) : Prop :=
  (x.bomRef = "" ∨ SpecVersion1_5 ≤ v) ∧
  (x.acknowledgement = "" ∨ SpecVersion1_6 ≤ v) ∧
  (x.text = none ∨ SpecVersion1_1 ≤ v) ∧
  (x.url = "" ∨ SpecVersion1_1 ≤ v) ∧
  (x.licensing = none ∨ SpecVersion1_5 ≤ v ∧ (∀ y ∈ x.licensing, Licensing.XFits v y)) ∧
  (x.properties = .nil ∨ SpecVersion1_5 ≤ v)

/-- cyclonedx.go:956-964; an expression with details is declared from version 1.7 on, the attributes of one without
from version 1.6 on. -/
def LicenseChoice.XFits (v : Int) (x : LicenseChoice) : Prop :=
  (∀ y ∈ x.license, License.XFits v y) ∧
  (x.license = none → x.expression ≠ "" →
    x.expressionDetails = .nil ∧ (SpecVersion1_6 ≤ v ∨ x.bomRef = "" ∧ x.acknowledgement.getD "" = "") ∨
    x.expressionDetails ≠ .nil ∧ SpecVersion1_7 ≤ v)

/-- The licenses of a component, a service, the metadata or an evidence.  Before version 1.7 they are either all
licenses or a single expression; in version 1.0 there are no expressions, and there has to be a license. -/
def XFitsLicenses (v : Int) (l : List LicenseChoice) : Prop :=
  l = [] ∨ (∀ x ∈ l, x.XFits v) ∧
    (SpecVersion1_7 ≤ v ∨
      (∀ x ∈ l, x.license ≠ none ∨ x.expression = "") ∧ (SpecVersion1_1 ≤ v ∨ ∃ x ∈ l, x.license ≠ none) ∨
      SpecVersion1_1 ≤ v ∧ (∀ x ∈ l, x.license = none) ∧ (l.filter (·.expression ≠ "")).length ≤ 1)

/-- The identities of an evidence: the list if it is set, and otherwise the single one. -/
def Evidence.writtenIdentities (x : Evidence) : PSlice EvidenceIdentity :=
  match x.identity with
  | none => .nil
  | some c =>
    match c.identities, c.identity with
    | .nil, some i => .list [i]
    | .nil, none => .nil
    | is, _ => is

/-- cyclonedx.go:672-678; something is written for it. -/
def Evidence.XWritten (x : Evidence) : Prop :=
  x.identity ≠ none ∨ x.occurrences ≠ .nil ∨ x.callstack ≠ none ∨ x.licenses ≠ .nil ∨ x.copyright ≠ .nil

/-- cyclonedx.go:672-678 -/
def Evidence.XFits (v : Int) (x : Evidence) : Prop :=
  (v < SpecVersion1_6 ∧ ((x.writtenIdentities.elems = []) ∨ SpecVersion1_5 ≤ v ∧ (x.writtenIdentities.elems.length ≤ 1 ∧ ∀ y ∈ x.writtenIdentities.elems, EvidenceIdentity.XFits v y)) ∨ SpecVersion1_6 ≤ v ∧ (∀ y ∈ x.writtenIdentities.elems, EvidenceIdentity.XFits v y)) ∧
  (x.occurrences = .nil ∨ SpecVersion1_5 ≤ v ∧ (∀ y ∈ x.occurrences.elems, EvidenceOccurrence.XFits v y)) ∧
  (x.callstack = none ∨ SpecVersion1_5 ≤ v ∧ (∀ y ∈ x.callstack, Callstack.XFits v y)) ∧
  XFitsLicenses v x.licenses.elems

/-- cyclonedx.go:740-746 -/
def ExternalReference.XFits (v : Int) (x : ExternalReference) : Prop :=
  (x.hashes = .nil ∨ SpecVersion1_3 ≤ v) ∧
  (x.properties = .nil ∨ SpecVersion1_7 ≤ v)

/-- cyclonedx.go:1136-1143 -/
def MLModelEnergyProvider.XFits (v : Int) (x : MLModelEnergyProvider) : Prop :=
  (∃ y ∈ x.organization, OrganizationalEntity.XFits v y) ∧
  x.energyProvided ≠ none ∧
  (∀ y ∈ x.externalReferences.elems, ExternalReference.XFits v y)

/-- cyclonedx.go:1108-1115 -/
def MLModelEnergyConsumption.XFits (v : Int) (x : MLModelEnergyConsumption) : Prop :=
  (x.energyProviders.elems ≠ [] ∧ ∀ y ∈ x.energyProviders.elems, MLModelEnergyProvider.XFits v y)

/-- cyclonedx.go:1082-1085 -/
def MLModelCardEnvironmentalConsiderations.XFits (v : Int) (x : MLModelCardEnvironmentalConsiderations) : Prop :=
  (∀ y ∈ x.energyConsumptions.elems, MLModelEnergyConsumption.XFits v y)

/-- cyclonedx.go:1072-1080 -/
def MLModelCardConsiderations.XFits (v : Int) (x : MLModelCardConsiderations) : Prop :=
  ((x.users.elems.filter (· ≠ "")).length ≤ 1) ∧
  ((x.useCases.elems.filter (· ≠ "")).length ≤ 1) ∧
  ((x.technicalLimitations.elems.filter (· ≠ "")).length ≤ 1) ∧
  ((x.performanceTradeoffs.elems.filter (· ≠ "")).length ≤ 1) ∧
  (x.environmentalConsiderations = none ∨ SpecVersion1_6 ≤ v ∧ (∀ y ∈ x.environmentalConsiderations, MLModelCardEnvironmentalConsiderations.XFits v y))

/-- cyclonedx.go:1056-1059; something is written for it. -/
def MLDatasetChoice.XWritten (x : MLDatasetChoice) : Prop := x.ref ≠ "" ∨ x.componentData ≠ none

/-- cyclonedx.go:1056-1059; a reference is written inside an element `dataset`, where the schema has it instead of that
element. -/
def MLDatasetChoice.XFits (v : Int) (x : MLDatasetChoice) : Prop :=
  x.ref = "" ∧ ∀ y ∈ x.componentData, ComponentData.XFits v y

/-- cyclonedx.go:1061-1063 -/
def MLInputOutputParameters.XFits (_v : Int) (x : MLInputOutputParameters) : Prop :=
  x.format ≠ ""

/-- cyclonedx.go:1165-1173 -/
def MLModelParameters.XFits (v : Int) (x : MLModelParameters) : Prop :=
  (∀ y ∈ x.datasets.elems, MLDatasetChoice.XFits v y) ∧
  (∀ y ∈ x.inputs.elems, MLInputOutputParameters.XFits v y) ∧
  (∀ y ∈ x.outputs.elems, MLInputOutputParameters.XFits v y)

/-- cyclonedx.go:1065-1070 -/
def MLModelCard.XFits (v : Int) (x : MLModelCard) : Prop :=
  (∀ y ∈ x.modelParameters, MLModelParameters.XFits v y) ∧
  (∀ y ∈ x.considerations, MLModelCardConsiderations.XFits v y)

/-- cyclonedx.go:1449-1457 -/
def SWID.XFits (_v : Int) (x : SWID) : Prop :=
  x.url = ""

/-- cyclonedx.go:1772-1776; something is written for it. -/
def AsserterChoice.XWritten (x : AsserterChoice) : Prop :=
  x.organization ≠ none ∨ x.individual ≠ none ∨ x.bomRef ≠ none

/-- cyclonedx.go:1772-1776; a reference is written as an attribute, where the schema has text. -/
def AsserterChoice.XFits (v : Int) (x : AsserterChoice) : Prop :=
  (∀ y ∈ x.organization, OrganizationalEntity.XFits v y) ∧ (∀ y ∈ x.individual, OrganizationalContact.XFits v y) ∧
  (x.organization = none → x.individual = none → x.bomRef = none)

/-- cyclonedx.go:1779-1785 -/
def PatentAssertion.XFits (v : Int) (x : PatentAssertion) : Prop :=
  x.patentRefs = .nil ∧
  x.patentRefs = .nil ∧
  (∃ y ∈ x.asserter, AsserterChoice.XWritten y ∧ AsserterChoice.XFits v y)

mutual
/-- cyclonedx.go:239-276 -/
def Component.XFits (v : Int) : Component → Prop
  | .mk bomRef mimeType _ supplier manufacturer author authors _ _ _ version description scope hashes licenses copyright cpe packageURL omniborID swhid swid modified pedigree externalReferences properties components evidence releaseNotes modelCard data cryptoProperties tags isExternal patentAssertions versionRange _ =>
    (bomRef = "" ∨ SpecVersion1_1 ≤ v) ∧
    (mimeType = "" ∨ SpecVersion1_2 ≤ v) ∧
    (supplier = none ∨ SpecVersion1_2 ≤ v ∧ (∀ y ∈ supplier, OrganizationalEntity.XFits v y)) ∧
    (manufacturer = none ∨ SpecVersion1_6 ≤ v ∧ (∀ y ∈ manufacturer, OrganizationalEntity.XFits v y)) ∧
    (authors = .nil ∨ author = "") ∧
    (authors = .nil ∨ SpecVersion1_6 ≤ v ∧ (∀ y ∈ authors.elems, OrganizationalContact.XFits v y)) ∧
    (author = "" ∨ SpecVersion1_2 ≤ v) ∧
    (versionRange = "" ∨ description = "" ∧ scope = "" ∧ hashes = .nil ∧ (licenses.elems = []) ∧ copyright = "" ∧ cpe = "" ∧ packageURL = "" ∧ (∀ y ∈ omniborID.elems, y = "") ∧ (∀ y ∈ swhid.elems, y = "") ∧ swid = none ∧ modified = none ∧ pedigree = none ∧ externalReferences = .nil ∧ properties = .nil ∧ components = .nil ∧ (∀ y ∈ evidence, ¬ Evidence.XWritten y) ∧ releaseNotes = none ∧ modelCard = none ∧ (data.elems = []) ∧ cryptoProperties = none ∧ tags = .nil ∧ isExternal = none ∧ patentAssertions = .nil) ∧
    (v < SpecVersion1_7 ∧ (v < SpecVersion1_4 ∧ version ≠ "" ∧ versionRange = "" ∨ SpecVersion1_4 ≤ v ∧ versionRange = "") ∨ SpecVersion1_7 ≤ v ∧ (version = "" ∧ versionRange = "" ∨ (version ≠ "" ∧ versionRange = "" ∨ version = "" ∧ versionRange ≠ ""))) ∧
    XFitsLicenses v licenses.elems ∧
    (patentAssertions = .nil ∨ cpe = "" ∧ packageURL = "" ∧ (∀ y ∈ omniborID.elems, y = "") ∧ (∀ y ∈ swhid.elems, y = "") ∧ swid = none ∧ modified = none ∧ pedigree = none ∧ externalReferences = .nil ∧ properties = .nil ∧ components = .nil ∧ (∀ y ∈ evidence, ¬ Evidence.XWritten y) ∧ releaseNotes = none ∧ modelCard = none ∧ (data.elems = []) ∧ cryptoProperties = none ∧ tags = .nil ∧ isExternal = none) ∧
    (patentAssertions = .nil ∨ SpecVersion1_7 ≤ v ∧ (∀ y ∈ patentAssertions.elems, PatentAssertion.XFits v y)) ∧
    ((∀ y ∈ omniborID.elems, y = "") ∨ SpecVersion1_6 ≤ v) ∧
    ((∀ y ∈ swhid.elems, y = "") ∨ SpecVersion1_6 ≤ v) ∧
    (swid = none ∨ SpecVersion1_2 ≤ v ∧ (∀ y ∈ swid, SWID.XFits v y)) ∧
    (SpecVersion1_1 ≤ v ∨ modified ≠ none) ∧
    (pedigree = none ∨ SpecVersion1_1 ≤ v ∧ XFitsPedigreeOpt v pedigree) ∧
    (externalReferences = .nil ∨ SpecVersion1_1 ≤ v ∧ (∀ y ∈ externalReferences.elems, ExternalReference.XFits v y)) ∧
    (properties = .nil ∨ SpecVersion1_3 ≤ v) ∧
    XFitsComponents v components ∧
    ((∀ y ∈ evidence, ¬ Evidence.XWritten y) ∨ SpecVersion1_3 ≤ v ∧ (∀ y ∈ evidence, Evidence.XFits v y)) ∧
    (releaseNotes = none ∨ SpecVersion1_4 ≤ v) ∧
    (modelCard = none ∨ SpecVersion1_5 ≤ v ∧ (∀ y ∈ modelCard, MLModelCard.XFits v y)) ∧
    (v < SpecVersion1_7 ∧ ((data.elems = []) ∨ SpecVersion1_5 ≤ v ∧ (data.elems.length ≤ 1 ∧ ∀ y ∈ data.elems, ComponentData.XFits v y)) ∨ SpecVersion1_7 ≤ v ∧ (∀ y ∈ data.elems, ComponentData.XFits v y)) ∧
    (cryptoProperties = none ∨ SpecVersion1_6 ≤ v ∧ (∀ y ∈ cryptoProperties, CryptoProperties.XFits v y)) ∧
    (tags = .nil ∨ SpecVersion1_6 ≤ v) ∧
    isExternal = none
/-- A list of components, at any depth. -/
def XFitsComponents (v : Int) : PSlice Component → Prop
  | .nil => True
  | .nilSlice => True
  | .list xs => XFitsComponentList v xs
/-- A list of components, at any depth. -/
def XFitsComponentList (v : Int) : List Component → Prop
  | [] => True
  | c :: cs => c.XFits v ∧ XFitsComponentList v cs
/-- An optional pedigree. -/
def XFitsPedigreeOpt (v : Int) : Option (Pedigree Component) → Prop
  | none => True
  | some p => XFitsPedigree v p
/-- cyclonedx.go:1252-1259 -/
def XFitsPedigree (v : Int) : Pedigree Component → Prop
  | .mk ancestors descendants variants _ patches _ =>
    XFitsComponents v ancestors ∧
    XFitsComponents v descendants ∧
    XFitsComponents v variants ∧
    (patches = .nil ∨ SpecVersion1_2 ≤ v)
end

/-- cyclonedx.go:551-559; a classification needs a flow. -/
def DataClassification.XFits (v : Int) (x : DataClassification) : Prop :=
  (x.flow = "" → x.classification = "") ∧ ∀ y ∈ x.governance, DataGovernance.XFits v y

mutual
/-- cyclonedx.go:1362-1382 -/
def Service.XFits (v : Int) : Service → Prop
  | .mk _ provider _ _ _ _ _ _ _ data licenses externalReferences properties services releaseNotes tags trustZone patentAssertions _ =>
    (∀ y ∈ provider, OrganizationalEntity.XFits v y) ∧
    (trustZone = "" ∨ data = .nil ∧ (licenses.elems = []) ∧ externalReferences = .nil ∧ properties = .nil ∧ services = .nil ∧ releaseNotes = none ∧ tags = .nil) ∧
    (trustZone = "" ∨ SpecVersion1_5 ≤ v) ∧
    ((data.elems = []) ∨ SpecVersion1_5 ≤ v ∧ (∀ y ∈ data.elems, DataClassification.XFits v y)) ∧
    XFitsLicenses v licenses.elems ∧
    (patentAssertions = .nil ∨ externalReferences = .nil ∧ properties = .nil ∧ services = .nil ∧ releaseNotes = none ∧ tags = .nil) ∧
    (patentAssertions = .nil ∨ SpecVersion1_7 ≤ v ∧ (∀ y ∈ patentAssertions.elems, PatentAssertion.XFits v y)) ∧
    (∀ y ∈ externalReferences.elems, ExternalReference.XFits v y) ∧
    (properties = .nil ∨ SpecVersion1_3 ≤ v) ∧
    XFitsServices v services ∧
    (releaseNotes = none ∨ SpecVersion1_4 ≤ v) ∧
    (tags = .nil ∨ SpecVersion1_6 ≤ v)
/-- A list of services, at any depth. -/
def XFitsServices (v : Int) : PSlice Service → Prop
  | .nil => True
  | .nilSlice => True
  | .list xs => XFitsServiceList v xs
/-- A list of services, at any depth. -/
def XFitsServiceList (v : Int) : List Service → Prop
  | [] => True
  | c :: cs => c.XFits v ∧ XFitsServiceList v cs
end

/-- cyclonedx.go:60-65 -/
def Annotator.XFits (v : Int) (x : Annotator) : Prop :=
  ((∀ y ∈ x.organization, OrganizationalEntity.XFits v y) ∧ x.individual = none ∧ x.component = none ∧ x.service = none ∨ (x.organization = none ∧ (∀ y ∈ x.individual, OrganizationalContact.XFits v y) ∧ x.component = none ∧ x.service = none ∨ (x.organization = none ∧ x.individual = none ∧ (∀ y ∈ x.component, Component.XFits v y) ∧ x.service = none ∨ x.organization = none ∧ x.individual = none ∧ x.component = none ∧ (∀ y ∈ x.service, Service.XFits v y))))

/-- cyclonedx.go:51-58 -/
def Annotation.XFits (v : Int) (x : Annotation) : Prop :=
  (∃ y ∈ x.annotator, Annotator.XFits v y) ∧
  x.timestamp ≠ "" ∧
  x.text ≠ ""

/-- cyclonedx.go:67-71 -/
def Assessor.XFits (v : Int) (x : Assessor) : Prop :=
  (∀ y ∈ x.organization, OrganizationalEntity.XFits v y)

/-- cyclonedx.go:94-98 -/
def AttestationConformance.XFits (_v : Int) (x : AttestationConformance) : Prop :=
  x.score ≠ none ∧
  (∀ y ∈ x.mitigationStrategies.elems, y.val = "")

/-- cyclonedx.go:100-103 -/
def AttestationConfidence.XFits (_v : Int) (x : AttestationConfidence) : Prop :=
  x.score ≠ none

/-- cyclonedx.go:86-92 -/
def AttestationMap.XFits (v : Int) (x : AttestationMap) : Prop :=
  (∀ y ∈ x.claims.elems, y.val = "") ∧
  (∀ y ∈ x.counterClaims.elems, y.val = "") ∧
  (∀ y ∈ x.conformance, AttestationConformance.XFits v y) ∧
  (∀ y ∈ x.confidence, AttestationConfidence.XFits v y)

/-- cyclonedx.go:79-84 -/
def Attestation.XFits (v : Int) (x : Attestation) : Prop :=
  x.assessor.val = "" ∧
  (∀ y ∈ x.map.elems, AttestationMap.XFits v y)

/-- cyclonedx.go:321-328 -/
def Composition.XFits (v : Int) (x : Composition) : Prop :=
  (x.bomRef = "" ∨ SpecVersion1_5 ≤ v) ∧
  (x.vulnerabilities = .nil ∨ SpecVersion1_5 ≤ v)

/-- cyclonedx.go:193-203 -/
def Claim.XFits (v : Int) (x : Claim) : Prop :=
  x.target.val = "" ∧
  (∀ y ∈ x.mitigationStrategies.elems, y.val = "") ∧
  (∀ y ∈ x.evidence.elems, y.val = "") ∧
  (∀ y ∈ x.counterEvidence.elems, y.val = "") ∧
  (∀ y ∈ x.externalReferences.elems, ExternalReference.XFits v y)

/-- cyclonedx.go:611-617 -/
def EvidenceData.XFits (v : Int) (x : EvidenceData) : Prop :=
  x.classification = none ∧
  (∀ y ∈ x.governance, DataGovernance.XFits v y)

/-- cyclonedx.go:586-596 -/
def DeclarationEvidence.XFits (v : Int) (x : DeclarationEvidence) : Prop :=
  (∀ y ∈ x.data.elems, EvidenceData.XFits v y) ∧
  (∀ y ∈ x.author, OrganizationalContact.XFits v y) ∧
  (∀ y ∈ x.reviewer, OrganizationalContact.XFits v y)

/-- cyclonedx.go:624-628 -/
def Targets.XFits (v : Int) (x : Targets) : Prop :=
  (∀ y ∈ x.organizations.elems, OrganizationalEntity.XFits v y) ∧
  (∀ y ∈ x.components.elems, Component.XFits v y) ∧
  (∀ y ∈ x.services.elems, Service.XFits v y)

/-- cyclonedx.go:636-642 -/
def Signatory.XFits (v : Int) (x : Signatory) : Prop :=
  (∀ y ∈ x.organization, OrganizationalEntity.XFits v y) ∧
  (∀ y ∈ x.externalReference, ExternalReference.XFits v y)

/-- cyclonedx.go:630-634 -/
def Affirmation.XFits (v : Int) (x : Affirmation) : Prop :=
  (∀ y ∈ x.signatories.elems, Signatory.XFits v y)

/-- cyclonedx.go:576-584 -/
def Declarations.XFits (v : Int) (x : Declarations) : Prop :=
  (∀ y ∈ x.assessors.elems, Assessor.XFits v y) ∧
  (∀ y ∈ x.attestations.elems, Attestation.XFits v y) ∧
  (∀ y ∈ x.claims.elems, Claim.XFits v y) ∧
  (∀ y ∈ x.evidence.elems, DeclarationEvidence.XFits v y) ∧
  (∀ y ∈ x.targets, Targets.XFits v y) ∧
  (∀ y ∈ x.affirmation, Affirmation.XFits v y)

/-- cyclonedx.go:1743-1758 -/
def Patent.XFits (v : Int) (x : Patent) : Prop :=
  (∀ y ∈ x.patentAssignee.elems, OrganizationalEntityOrContact.XFits v y) ∧
  (∀ y ∈ x.externalReferences.elems, ExternalReference.XFits v y)

/-- cyclonedx.go:1761-1767 -/
def PatentFamily.XFits (v : Int) (x : PatentFamily) : Prop :=
  x.members = .nil ∧
  (∀ y ∈ x.externalReferences.elems, ExternalReference.XFits v y)

/-- cyclonedx.go:1429-1439 -/
def StandardRequirement.XFits (v : Int) (x : StandardRequirement) : Prop :=
  (SpecVersion1_7 ≤ v ∨ (x.descriptions.elems.filter (· ≠ "")).length ≤ 1) ∧
  (∀ y ∈ x.externalReferences.elems, ExternalReference.XFits v y)

/-- cyclonedx.go:1416-1427 -/
def StandardDefinition.XFits (v : Int) (x : StandardDefinition) : Prop :=
  x.name ≠ "" ∧
  x.version ≠ "" ∧
  x.description ≠ "" ∧
  x.owner ≠ "" ∧
  (∀ y ∈ x.requirements.elems, StandardRequirement.XFits v y) ∧
  (∀ y ∈ x.externalReferences.elems, ExternalReference.XFits v y)

/-- cyclonedx.go:598-601 and 606-609; the patent of a choice hides the family. -/
def Definitions.XFits (v : Int) (x : Definitions) : Prop :=
  (∀ y ∈ x.standards.elems, StandardDefinition.XFits v y) ∧
  (x.patents = .nil ∨ SpecVersion1_7 ≤ v ∧ ∀ y ∈ x.patents.elems,
    (∀ z ∈ y.patent, Patent.XFits v z) ∧ (y.patent = none → ∀ z ∈ y.patentFamily, PatentFamily.XFits v z))

/-- cyclonedx.go:644-648 -/
def Dependency.XFits (v : Int) (x : Dependency) : Prop := x.provides.elems = [] ∨ SpecVersion1_6 ≤ v

/-- cyclonedx.go:1337-1340 -/
def ResourceReferenceChoice.XFits (v : Int) (x : ResourceReferenceChoice) : Prop :=
  (x.ref ≠ "" ∧ x.externalReference = none ∨ x.ref = "" ∧ (∃ y ∈ x.externalReference, ExternalReference.XFits v y))

/-- cyclonedx.go:1482-1490 -/
def TaskInput.XFits (v : Int) (x : TaskInput) : Prop :=
  ((∃ y ∈ x.resource, ResourceReferenceChoice.XFits v y) ∧ x.parameters = .nil ∧ (x.environmentVars.elems = []) ∧ x.data = none ∨ (x.resource = none ∧ x.parameters ≠ .nil ∧ (x.environmentVars.elems = []) ∧ x.data = none ∨ (x.resource = none ∧ x.parameters = .nil ∧ (x.environmentVars.elems ≠ []) ∧ x.data = none ∨ x.resource = none ∧ x.parameters = .nil ∧ (x.environmentVars.elems = []) ∧ x.data ≠ none))) ∧
  (∀ y ∈ x.source, ResourceReferenceChoice.XFits v y) ∧
  (∀ y ∈ x.target, ResourceReferenceChoice.XFits v y)

/-- cyclonedx.go:1492-1501 -/
def TaskOutput.XFits (v : Int) (x : TaskOutput) : Prop :=
  ((x.environmentVars.elems = []) ∨ x.parameters = .nil) ∧
  (x.data = none ∨ x.parameters = .nil) ∧
  ((∃ y ∈ x.resource, ResourceReferenceChoice.XFits v y) ∧ (x.environmentVars.elems = []) ∧ x.data = none ∨ (x.resource = none ∧ (x.environmentVars.elems ≠ []) ∧ x.data = none ∨ x.resource = none ∧ (x.environmentVars.elems = []) ∧ x.data ≠ none)) ∧
  x.parameters = .nil ∧
  (∀ y ∈ x.source, ResourceReferenceChoice.XFits v y) ∧
  (∀ y ∈ x.target, ResourceReferenceChoice.XFits v y)

/-- cyclonedx.go:662-670 -/
def Event.XFits (v : Int) (x : Event) : Prop :=
  (∀ y ∈ x.source, ResourceReferenceChoice.XFits v y) ∧
  (∀ y ∈ x.target, ResourceReferenceChoice.XFits v y)

/-- cyclonedx.go:1521-1534 -/
def TaskTrigger.XFits (v : Int) (x : TaskTrigger) : Prop :=
  x.bomRef ≠ "" ∧
  x.uid ≠ "" ∧
  (∀ y ∈ x.resourceReferences.elems, ResourceReferenceChoice.XFits v y) ∧
  x.type ≠ "" ∧
  (∀ y ∈ x.event, Event.XFits v y) ∧
  (∀ y ∈ x.inputs.elems, TaskInput.XFits v y) ∧
  (∀ y ∈ x.outputs.elems, TaskOutput.XFits v y)

/-- cyclonedx.go:1568-1581 -/
def TaskWorkspace.XFits (v : Int) (x : TaskWorkspace) : Prop :=
  x.bomRef ≠ "" ∧
  (x.uid = "" ∧ x.name = "" ∧ x.aliases = .nil ∧ x.description = "" ∧ x.resourceReferences = .nil ∧ x.accessMode = "" ∧ x.mountPath = "" ∧ x.managedDataType = "" ∧ x.volumeRequest = "" ∧ x.volume = none ∧ x.properties = .nil ∨ x.uid ≠ "" ∧ (∀ y ∈ x.resourceReferences.elems, ResourceReferenceChoice.XFits v y))

/-- cyclonedx.go:1459-1475 -/
def Task.XFits (v : Int) (x : Task) : Prop :=
  x.bomRef ≠ "" ∧
  x.uid ≠ "" ∧
  (x.resourceReferences = .nil ∨ x.properties = .nil) ∧
  (∀ y ∈ x.resourceReferences.elems, ResourceReferenceChoice.XFits v y) ∧
  (x.taskTypes = .nil ∨ x.properties = .nil) ∧
  x.taskTypes ≠ .nil ∧
  (x.trigger = none ∨ x.properties = .nil) ∧
  (∀ y ∈ x.trigger, TaskTrigger.XFits v y) ∧
  (x.steps = .nil ∨ x.properties = .nil) ∧
  (x.inputs = .nil ∨ x.properties = .nil) ∧
  (∀ y ∈ x.inputs.elems, TaskInput.XFits v y) ∧
  (x.outputs = .nil ∨ x.properties = .nil) ∧
  (∀ y ∈ x.outputs.elems, TaskOutput.XFits v y) ∧
  (x.timeStart = "" ∨ x.properties = .nil) ∧
  (x.timeEnd = "" ∨ x.properties = .nil) ∧
  (x.workspaces = .nil ∨ x.properties = .nil) ∧
  (∀ y ∈ x.workspaces.elems, TaskWorkspace.XFits v y) ∧
  (x.runtimeTopology = .nil ∨ x.properties = .nil) ∧
  (∀ y ∈ x.runtimeTopology.elems, Dependency.XFits v y)

/-- cyclonedx.go:1689-1707 -/
def Workflow.XFits (v : Int) (x : Workflow) : Prop :=
  x.bomRef ≠ "" ∧
  x.uid ≠ "" ∧
  (∀ y ∈ x.resourceReferences.elems, ResourceReferenceChoice.XFits v y) ∧
  (∀ y ∈ x.tasks.elems, Task.XFits v y) ∧
  (∀ y ∈ x.taskDependencies.elems, Dependency.XFits v y) ∧
  x.taskTypes ≠ .nil ∧
  (∀ y ∈ x.trigger, TaskTrigger.XFits v y) ∧
  (∀ y ∈ x.inputs.elems, TaskInput.XFits v y) ∧
  (∀ y ∈ x.outputs.elems, TaskOutput.XFits v y) ∧
  (∀ y ∈ x.workspaces.elems, TaskWorkspace.XFits v y) ∧
  (∀ y ∈ x.runtimeTopology.elems, Dependency.XFits v y)

/-- cyclonedx.go:800-806 -/
def Formula.XFits (v : Int) (x : Formula) : Prop :=
  (∀ y ∈ x.components.elems, Component.XFits v y) ∧
  (∀ y ∈ x.services.elems, Service.XFits v y) ∧
  (∀ y ∈ x.workflows.elems, Workflow.XFits v y)

/-- cyclonedx.go:1006-1010 -/
def Lifecycle.XFits (_v : Int) (x : Lifecycle) : Prop :=
  (x.name = "" ∧ x.phase ≠ "" ∧ x.description = "" ∨ x.name ≠ "" ∧ x.phase = "")

/-- cyclonedx.go:1594-1600 -/
def Tool.XFits (v : Int) (x : Tool) : Prop :=
  (x.externalReferences = .nil ∨ SpecVersion1_4 ≤ v ∧ (∀ y ∈ x.externalReferences.elems, ExternalReference.XFits v y))

/-- cyclonedx.go:1610-1614; something is written for it. -/
def ToolsChoice.XWritten (x : ToolsChoice) : Prop := x.tools ≠ .nil ∨ x.components ≠ .nil ∨ x.services ≠ .nil

/-- cyclonedx.go:1610-1614; the form with components and services is declared from version 1.5 on. -/
def ToolsChoice.XFits (v : Int) (x : ToolsChoice) : Prop :=
  (∀ y ∈ x.tools.elems, Tool.XFits v y) ∧
  (x.components = .nil ∧ x.services = .nil ∨ SpecVersion1_5 ≤ v ∧
    (∀ y ∈ x.components.elems, Component.XFits v y) ∧ (∀ y ∈ x.services.elems, Service.XFits v y))

/-- cyclonedx.go:1042-1054 -/
def Metadata.XFits (v : Int) (x : Metadata) : Prop :=
  (x.lifecycles = .nil ∨ SpecVersion1_5 ≤ v ∧ (∀ y ∈ x.lifecycles.elems, Lifecycle.XFits v y)) ∧
  (∀ y ∈ x.tools, ToolsChoice.XFits v y) ∧
  (∀ y ∈ x.authors.elems, OrganizationalContact.XFits v y) ∧
  (∀ y ∈ x.component, Component.XFits v y) ∧
  (x.manufacturer = none ∨ x.manufacture = none) ∧
  (x.manufacturer = none ∨ SpecVersion1_6 ≤ v ∧ (∀ y ∈ x.manufacturer, OrganizationalEntity.XFits v y)) ∧
  (∀ y ∈ x.manufacture, OrganizationalEntity.XFits v y) ∧
  (∀ y ∈ x.supplier, OrganizationalEntity.XFits v y) ∧
  ((x.licenses.elems = []) ∨ SpecVersion1_3 ≤ v ∧ XFitsLicenses v x.licenses.elems) ∧
  (x.properties = .nil ∨ SpecVersion1_3 ≤ v) ∧
  (x.distributionConstraints = none ∨ SpecVersion1_7 ≤ v)

/-- cyclonedx.go:349-352 -/
def Credits.XFits (v : Int) (x : Credits) : Prop :=
  (∀ y ∈ x.organizations.elems, OrganizationalEntity.XFits v y) ∧
  (∀ y ∈ x.individuals.elems, OrganizationalContact.XFits v y)

/-- cyclonedx.go:1658-1665 -/
def VulnerabilityAnalysis.XFits (v : Int) (x : VulnerabilityAnalysis) : Prop :=
  (x.firstIssued = "" ∨ SpecVersion1_5 ≤ v) ∧
  (x.lastUpdated = "" ∨ SpecVersion1_5 ≤ v)

/-- cyclonedx.go:1676-1679 -/
def VulnerabilityReference.XFits (v : Int) (x : VulnerabilityReference) : Prop :=
  (v < SpecVersion1_6 ∨ x.id ≠ "") ∧
  (v < SpecVersion1_6 ∨ x.source ≠ none)

/-- cyclonedx.go:1634-1656 -/
def Vulnerability.XFits (v : Int) (x : Vulnerability) : Prop :=
  (∀ y ∈ x.references.elems, VulnerabilityReference.XFits v y) ∧
  (x.workaround = "" ∨ SpecVersion1_5 ≤ v) ∧
  (x.proofOfConcept = none ∨ SpecVersion1_5 ≤ v) ∧
  (x.rejected = "" ∨ SpecVersion1_5 ≤ v) ∧
  (∀ y ∈ x.credits, Credits.XFits v y) ∧
  (∀ y ∈ x.tools, ToolsChoice.XFits v y) ∧
  (∀ y ∈ x.analysis, VulnerabilityAnalysis.XFits v y) ∧
  (∀ y ∈ x.affects.elems, Affects.XFits v y)

/-- cyclonedx.go:1712-1721 -/
def Citation.XFits (_v : Int) (x : Citation) : Prop :=
  ((x.pointers ≠ .nil ∧ (∃ y ∈ x.pointers.elems, y ≠ "")) ∧ x.expressions = .nil ∨ x.pointers = .nil ∧ (x.expressions ≠ .nil ∧ (∃ y ∈ x.expressions.elems, y ≠ ""))) ∧
  x.timestamp ≠ "" ∧
  x.attributedTo = none

/-- cyclonedx.go:105-131 -/
def BOM.XFits (v : Int) (x : BOM) : Prop :=
  (x.serialNumber = "" ∨ SpecVersion1_1 ≤ v) ∧
  (x.metadata = none ∨ SpecVersion1_2 ≤ v ∧ (∀ y ∈ x.metadata, Metadata.XFits v y)) ∧
  (v < SpecVersion1_2 ∧ (x.components ≠ .nil ∧ (∀ y ∈ x.components.elems, Component.XFits v y)) ∨ SpecVersion1_2 ≤ v ∧ (∀ y ∈ x.components.elems, Component.XFits v y)) ∧
  (x.services = .nil ∨ SpecVersion1_2 ≤ v ∧ (∀ y ∈ x.services.elems, Service.XFits v y)) ∧
  (x.externalReferences = .nil ∨ SpecVersion1_1 ≤ v ∧ (∀ y ∈ x.externalReferences.elems, ExternalReference.XFits v y)) ∧
  (x.dependencies = .nil ∨ SpecVersion1_2 ≤ v ∧ (∀ y ∈ x.dependencies.elems, Dependency.XFits v y)) ∧
  (x.compositions = .nil ∨ SpecVersion1_3 ≤ v ∧ (∀ y ∈ x.compositions.elems, Composition.XFits v y)) ∧
  (x.properties = .nil ∨ SpecVersion1_3 ≤ v) ∧
  (x.vulnerabilities = .nil ∨ SpecVersion1_4 ≤ v ∧ (∀ y ∈ x.vulnerabilities.elems, Vulnerability.XFits v y)) ∧
  (x.annotations = .nil ∨ SpecVersion1_5 ≤ v ∧ (∀ y ∈ x.annotations.elems, Annotation.XFits v y)) ∧
  (x.formulation = .nil ∨ SpecVersion1_5 ≤ v ∧ (∀ y ∈ x.formulation.elems, Formula.XFits v y)) ∧
  (x.declarations = none ∨ SpecVersion1_6 ≤ v ∧ (∀ y ∈ x.declarations, Declarations.XFits v y)) ∧
  (x.definitions = none ∨ SpecVersion1_6 ≤ v ∧ (∀ y ∈ x.definitions, Definitions.XFits v y)) ∧
  (x.citations = .nil ∨ SpecVersion1_7 ≤ v ∧ (x.citations.elems ≠ [] ∧ ∀ y ∈ x.citations.elems, Citation.XFits v y))

end Verif
