import Verif.Model.Types
import Verif.Model.Version

/-!
# The values whose deep copy uses only what the JSON schema of a version declares

GENERATED by `tools/gen_copied.py` from the struct declarations of `/repo/cyclonedx.go` and the JSON schemas in
`/repo/schema`; do not edit by hand.

`T.FitsCopied v x` is `T.Fits v` (`Verif.Spec.JsonFits`) of the deep copy that `EncodeVersion` makes, stated on
`x` itself: the copy of a pointer to a nil or empty list, to an empty string or to zero is a nil pointer.
`Verif.Proofs.FitsCopied` proves that.  Types not listed here always fit once copied.
-/

namespace Verif

/-- cyclonedx.go:1211-1216 -/
def OrganizationalContact.FitsCopied (v : Int) (x : OrganizationalContact) : Prop :=
  (x.bomRef = "" ∨ SpecVersion1_5 ≤ v)

/-- cyclonedx.go:1218-1224 -/
def OrganizationalEntity.FitsCopied (v : Int) (x : OrganizationalEntity) : Prop :=
  (x.bomRef = "" ∨ SpecVersion1_5 ≤ v) ∧
  (x.address = none ∨ SpecVersion1_6 ≤ v) ∧
  (∀ y ∈ x.contact.elems, OrganizationalContact.FitsCopied v y)

/-- cyclonedx.go:296-299 -/
def ComponentDataGovernanceResponsibleParty.FitsCopied (v : Int) (x : ComponentDataGovernanceResponsibleParty) : Prop :=
  (∀ y ∈ x.organization, OrganizationalEntity.FitsCopied v y) ∧
  (∀ y ∈ x.contact, OrganizationalContact.FitsCopied v y)

/-- cyclonedx.go:570-574 -/
def DataGovernance.FitsCopied (v : Int) (x : DataGovernance) : Prop :=
  (∀ y ∈ x.custodians.elems, ComponentDataGovernanceResponsibleParty.FitsCopied v y) ∧
  (∀ y ∈ x.stewards.elems, ComponentDataGovernanceResponsibleParty.FitsCopied v y) ∧
  (∀ y ∈ x.owners.elems, ComponentDataGovernanceResponsibleParty.FitsCopied v y)

/-- cyclonedx.go:278-288 -/
def ComponentData.FitsCopied (v : Int) (x : ComponentData) : Prop :=
  (∀ y ∈ x.governance, DataGovernance.FitsCopied v y)

/-- cyclonedx.go:171-191 -/
def CertificateProperties.FitsCopied (v : Int) (x : CertificateProperties) : Prop :=
  (x.serialNumber = "" ∨ SpecVersion1_7 ≤ v) ∧
  (x.certificateFileExtension = "" ∨ SpecVersion1_7 ≤ v) ∧
  (x.fingerprint = none ∨ SpecVersion1_7 ≤ v) ∧
  (x.certificateState.elems = [] ∨ SpecVersion1_7 ≤ v) ∧
  (x.certificateExtensions.elems = [] ∨ SpecVersion1_7 ≤ v) ∧
  (x.relatedCryptographicAssets.elems = [] ∨ SpecVersion1_7 ≤ v) ∧
  (x.creationDate = "" ∨ SpecVersion1_7 ≤ v) ∧
  (x.activationDate = "" ∨ SpecVersion1_7 ≤ v) ∧
  (x.deactivationDate = "" ∨ SpecVersion1_7 ≤ v) ∧
  (x.revocationDate = "" ∨ SpecVersion1_7 ≤ v) ∧
  (x.destructionDate = "" ∨ SpecVersion1_7 ≤ v)

/-- cyclonedx.go:368-382 -/
def CryptoAlgorithmProperties.FitsCopied (v : Int) (x : CryptoAlgorithmProperties) : Prop :=
  (x.algorithmFamily = "" ∨ SpecVersion1_7 ≤ v) ∧
  (x.ellipticCurve = "" ∨ SpecVersion1_7 ≤ v)

/-- cyclonedx.go:205-211 -/
def CipherSuite.FitsCopied (v : Int) (x : CipherSuite) : Prop :=
  (x.tlsGroups.elems = [] ∨ SpecVersion1_7 ≤ v) ∧
  (x.tlsSignatureSchemes.elems = [] ∨ SpecVersion1_7 ≤ v)

/-- cyclonedx.go:1826-1830 -/
def IKEv2Auth.FitsCopied (v : Int) (x : IKEv2Auth) : Prop := x.bomRef ≠ ⟨""⟩ ∨ SpecVersion1_7 ≤ v

/-- cyclonedx.go:1834-1839 -/
def IKEv2Enc.FitsCopied (v : Int) (x : IKEv2Enc) : Prop := x.bomRef ≠ ⟨""⟩ ∨ SpecVersion1_7 ≤ v

/-- cyclonedx.go:1843-1847 -/
def IKEv2Integ.FitsCopied (v : Int) (x : IKEv2Integ) : Prop := x.bomRef ≠ ⟨""⟩ ∨ SpecVersion1_7 ≤ v

/-- cyclonedx.go:1851-1855 -/
def IKEv2Ke.FitsCopied (v : Int) (x : IKEv2Ke) : Prop := x.bomRef ≠ ⟨""⟩ ∨ SpecVersion1_7 ≤ v

/-- cyclonedx.go:1859-1863 -/
def IKEv2Prf.FitsCopied (v : Int) (x : IKEv2Prf) : Prop := x.bomRef ≠ ⟨""⟩ ∨ SpecVersion1_7 ≤ v

/-- cyclonedx.go:537-544 -/
def IKEv2TransformTypes.FitsCopied (v : Int) (x : IKEv2TransformTypes) : Prop :=
  (∀ y ∈ x.encr.elems, IKEv2Enc.FitsCopied v y) ∧
  (∀ y ∈ x.prf.elems, IKEv2Prf.FitsCopied v y) ∧
  (∀ y ∈ x.integ.elems, IKEv2Integ.FitsCopied v y) ∧
  (∀ y ∈ x.ke.elems, IKEv2Ke.FitsCopied v y) ∧
  (∀ y ∈ x.auth.elems, IKEv2Auth.FitsCopied v y)

/-- cyclonedx.go:509-516 -/
def CryptoProtocolProperties.FitsCopied (v : Int) (x : CryptoProtocolProperties) : Prop :=
  (∀ y ∈ x.cipherSuites.elems, CipherSuite.FitsCopied v y) ∧
  (∀ y ∈ x.ikev2TransformTypes, IKEv2TransformTypes.FitsCopied v y) ∧
  (x.relatedCryptographicAssets.elems = [] ∨ SpecVersion1_7 ≤ v)

/-- cyclonedx.go:1282-1297 -/
def RelatedCryptoMaterialProperties.FitsCopied (v : Int) (x : RelatedCryptoMaterialProperties) : Prop :=
  (x.fingerprint = none ∨ SpecVersion1_7 ≤ v) ∧
  (x.relatedCryptographicAssets.elems = [] ∨ SpecVersion1_7 ≤ v)

/-- cyclonedx.go:500-507 -/
def CryptoProperties.FitsCopied (v : Int) (x : CryptoProperties) : Prop :=
  (∀ y ∈ x.algorithmProperties, CryptoAlgorithmProperties.FitsCopied v y) ∧
  (∀ y ∈ x.certificateProperties, CertificateProperties.FitsCopied v y) ∧
  (∀ y ∈ x.relatedCryptoMaterialProperties, RelatedCryptoMaterialProperties.FitsCopied v y) ∧
  (∀ y ∈ x.protocolProperties, CryptoProtocolProperties.FitsCopied v y)

/-- cyclonedx.go:688-694 -/
def EvidenceIdentity.FitsCopied (v : Int) (x : EvidenceIdentity) : Prop :=
  (x.concludedValue = "" ∨ SpecVersion1_6 ≤ v)

/-- cyclonedx.go:683-686 -/
def EvidenceIdentityChoice.FitsCopied (v : Int) (x : EvidenceIdentityChoice) : Prop :=
  (x.identity = none → x.identities.elems ≠ []) ∧ (∀ y ∈ x.identity, EvidenceIdentity.FitsCopied v y) ∧
  (x.identities.elems = [] ∨ SpecVersion1_6 ≤ v ∧ ∀ y ∈ x.identities.elems, EvidenceIdentity.FitsCopied v y)

/-- cyclonedx.go:731-738 -/
def EvidenceOccurrence.FitsCopied (v : Int) (x : EvidenceOccurrence) : Prop :=
  ((∀ y ∈ x.line, y = 0) ∨ SpecVersion1_6 ≤ v) ∧
  ((∀ y ∈ x.offset, y = 0) ∨ SpecVersion1_6 ≤ v) ∧
  (x.symbol = "" ∨ SpecVersion1_6 ≤ v) ∧
  (x.additionalContext = "" ∨ SpecVersion1_6 ≤ v)

/-- cyclonedx.go:1226-1229 -/
def OrganizationalEntityOrContact.FitsCopied (v : Int) (x : OrganizationalEntityOrContact) : Prop :=
  (∀ y ∈ x.organization, OrganizationalEntity.FitsCopied v y) ∧
  (∀ y ∈ x.individual, OrganizationalContact.FitsCopied v y)

/-- cyclonedx.go:1226-1229, at the place patentAssignee of the schema -/
def OrganizationalEntityOrContact.FitsCopiedPatentAssignee (_v : Int) (x : OrganizationalEntityOrContact) : Prop :=
  x.organization = none ∧
  x.individual = none

/-- cyclonedx.go:995-1004 -/
def Licensing.FitsCopied (v : Int) (x : Licensing) : Prop :=
  (∀ y ∈ x.licensor, OrganizationalEntityOrContact.FitsCopied v y) ∧
  (∀ y ∈ x.licensee, OrganizationalEntityOrContact.FitsCopied v y) ∧
  (∀ y ∈ x.purchaser, OrganizationalEntityOrContact.FitsCopied v y)

/-- cyclonedx.go:936-945 -/
def License.FitsCopied (v : Int) (x : License) : Prop :=
  (x.bomRef = "" ∨ SpecVersion1_5 ≤ v) ∧
  (x.acknowledgement = "" ∨ SpecVersion1_6 ≤ v) ∧
  (x.licensing = none ∨ SpecVersion1_5 ≤ v ∧ ∀ y ∈ x.licensing, Licensing.FitsCopied v y) ∧
  (x.properties.elems = [] ∨ SpecVersion1_5 ≤ v)

/-- cyclonedx.go:956-964 -/
def LicenseChoice.FitsCopied (v : Int) (x : LicenseChoice) : Prop :=
  (∀ y ∈ x.license, License.FitsCopied v y) ∧
  (x.expressionDetails.elems = [] ∨ SpecVersion1_7 ≤ v) ∧
  ((∀ y ∈ x.acknowledgement, y = "") ∨ SpecVersion1_6 ≤ v) ∧
  (x.bomRef = "" ∨ SpecVersion1_6 ≤ v) ∧
  (x.licensing = none ∨ SpecVersion1_7 ≤ v ∧ ∀ y ∈ x.licensing, Licensing.FitsCopied v y) ∧
  (x.properties.elems = [] ∨ SpecVersion1_7 ≤ v)

/-- cyclonedx.go:672-678 -/
def Evidence.FitsCopied (v : Int) (x : Evidence) : Prop :=
  (x.identity = none ∨ SpecVersion1_5 ≤ v ∧ ∀ y ∈ x.identity, EvidenceIdentityChoice.FitsCopied v y) ∧
  (x.occurrences.elems = [] ∨ SpecVersion1_5 ≤ v ∧ ∀ y ∈ x.occurrences.elems, EvidenceOccurrence.FitsCopied v y) ∧
  (x.callstack = none ∨ SpecVersion1_5 ≤ v) ∧
  (∀ y ∈ x.licenses.elems, LicenseChoice.FitsCopied v y)

/-- cyclonedx.go:740-746 -/
def ExternalReference.FitsCopied (v : Int) (x : ExternalReference) : Prop :=
  (x.hashes.elems = [] ∨ SpecVersion1_3 ≤ v) ∧
  (x.properties.elems = [] ∨ SpecVersion1_7 ≤ v)

/-- cyclonedx.go:1136-1143 -/
def MLModelEnergyProvider.FitsCopied (v : Int) (x : MLModelEnergyProvider) : Prop :=
  (x.organization ≠ none ∧ ∀ y ∈ x.organization, OrganizationalEntity.FitsCopied v y) ∧
  x.energyProvided ≠ none ∧
  (∀ y ∈ x.externalReferences.elems, ExternalReference.FitsCopied v y)

/-- cyclonedx.go:1108-1115 -/
def MLModelEnergyConsumption.FitsCopied (v : Int) (x : MLModelEnergyConsumption) : Prop :=
  (x.energyProviders.elems ≠ [] ∧ ∀ y ∈ x.energyProviders.elems, MLModelEnergyProvider.FitsCopied v y)

/-- cyclonedx.go:1082-1085 -/
def MLModelCardEnvironmentalConsiderations.FitsCopied (v : Int) (x : MLModelCardEnvironmentalConsiderations) : Prop :=
  (∀ y ∈ x.energyConsumptions.elems, MLModelEnergyConsumption.FitsCopied v y)

/-- cyclonedx.go:1072-1080 -/
def MLModelCardConsiderations.FitsCopied (v : Int) (x : MLModelCardConsiderations) : Prop :=
  (x.environmentalConsiderations = none ∨ SpecVersion1_6 ≤ v ∧ ∀ y ∈ x.environmentalConsiderations, MLModelCardEnvironmentalConsiderations.FitsCopied v y)

/-- cyclonedx.go:1056-1059 -/
def MLDatasetChoice.FitsCopied (v : Int) (x : MLDatasetChoice) : Prop :=
  x.ref = "" → ∀ y ∈ x.componentData, ComponentData.FitsCopied v y

/-- cyclonedx.go:1165-1173 -/
def MLModelParameters.FitsCopied (v : Int) (x : MLModelParameters) : Prop :=
  (∀ y ∈ x.datasets.elems, MLDatasetChoice.FitsCopied v y)

/-- cyclonedx.go:1065-1070 -/
def MLModelCard.FitsCopied (v : Int) (x : MLModelCard) : Prop :=
  (∀ y ∈ x.modelParameters, MLModelParameters.FitsCopied v y) ∧
  (∀ y ∈ x.considerations, MLModelCardConsiderations.FitsCopied v y)

/-- cyclonedx.go:1772-1776 -/
def AsserterChoice.FitsCopied (_v : Int) (x : AsserterChoice) : Prop :=
  x.organization = none ∧ x.individual = none ∧ ∀ y ∈ x.bomRef, y = ⟨""⟩

/-- cyclonedx.go:1779-1785 -/
def PatentAssertion.FitsCopied (v : Int) (x : PatentAssertion) : Prop :=
  (x.asserter ≠ none ∧ ∀ y ∈ x.asserter, AsserterChoice.FitsCopied v y)

mutual
/-- cyclonedx.go:239-276 -/
def Component.FitsCopied (v : Int) : Component → Prop
  | .mk _ _ _ supplier manufacturer _ authors _ _ _ _ _ _ _ licenses _ _ _ omniborID swhid _ _ pedigree externalReferences properties components evidence releaseNotes modelCard data cryptoProperties tags isExternal patentAssertions versionRange signature =>
    (∀ y ∈ supplier, OrganizationalEntity.FitsCopied v y) ∧
    (manufacturer = none ∨ SpecVersion1_6 ≤ v ∧ ∀ y ∈ manufacturer, OrganizationalEntity.FitsCopied v y) ∧
    (authors.elems = [] ∨ SpecVersion1_6 ≤ v ∧ ∀ y ∈ authors.elems, OrganizationalContact.FitsCopied v y) ∧
    (∀ y ∈ licenses.elems, LicenseChoice.FitsCopied v y) ∧
    (omniborID.elems = [] ∨ SpecVersion1_6 ≤ v) ∧
    (swhid.elems = [] ∨ SpecVersion1_6 ≤ v) ∧
    FitsCopiedPedigreeOpt v pedigree ∧
    (∀ y ∈ externalReferences.elems, ExternalReference.FitsCopied v y) ∧
    (properties.elems = [] ∨ SpecVersion1_3 ≤ v) ∧
    FitsCopiedComponents v components ∧
    (evidence = none ∨ SpecVersion1_3 ≤ v ∧ ∀ y ∈ evidence, Evidence.FitsCopied v y) ∧
    (releaseNotes = none ∨ SpecVersion1_4 ≤ v) ∧
    (modelCard = none ∨ SpecVersion1_5 ≤ v ∧ ∀ y ∈ modelCard, MLModelCard.FitsCopied v y) ∧
    (data.elems = [] ∨ SpecVersion1_5 ≤ v ∧ ∀ y ∈ data.elems, ComponentData.FitsCopied v y) ∧
    (cryptoProperties = none ∨ SpecVersion1_6 ≤ v ∧ ∀ y ∈ cryptoProperties, CryptoProperties.FitsCopied v y) ∧
    (tags.elems = [] ∨ SpecVersion1_6 ≤ v) ∧
    ((∀ y ∈ isExternal, y = false) ∨ SpecVersion1_7 ≤ v) ∧
    (patentAssertions.elems = [] ∨ SpecVersion1_7 ≤ v ∧ ∀ y ∈ patentAssertions.elems, PatentAssertion.FitsCopied v y) ∧
    (versionRange = "" ∨ SpecVersion1_7 ≤ v) ∧
    (signature = none ∨ SpecVersion1_4 ≤ v)
/-- A list of components, at any depth. -/
def FitsCopiedComponents (v : Int) : PSlice Component → Prop
  | .nil => True
  | .nilSlice => True
  | .list xs => FitsCopiedComponentList v xs
/-- A list of components, at any depth. -/
def FitsCopiedComponentList (v : Int) : List Component → Prop
  | [] => True
  | c :: cs => c.FitsCopied v ∧ FitsCopiedComponentList v cs
/-- An optional pedigree. -/
def FitsCopiedPedigreeOpt (v : Int) : Option (Pedigree Component) → Prop
  | none => True
  | some p => FitsCopiedPedigree v p
/-- cyclonedx.go:1252-1259 -/
def FitsCopiedPedigree (v : Int) : Pedigree Component → Prop
  | .mk ancestors descendants variants _ _ _ =>
    FitsCopiedComponents v ancestors ∧
    FitsCopiedComponents v descendants ∧
    FitsCopiedComponents v variants
end

/-- cyclonedx.go:551-559 -/
def DataClassification.FitsCopied (v : Int) (x : DataClassification) : Prop :=
  (x.name = "" ∨ SpecVersion1_5 ≤ v) ∧
  (x.description = "" ∨ SpecVersion1_5 ≤ v) ∧
  (x.governance = none ∨ SpecVersion1_5 ≤ v ∧ ∀ y ∈ x.governance, DataGovernance.FitsCopied v y) ∧
  (x.source.elems = [] ∨ SpecVersion1_5 ≤ v) ∧
  (x.destination.elems = [] ∨ SpecVersion1_5 ≤ v)

mutual
/-- cyclonedx.go:1362-1382 -/
def Service.FitsCopied (v : Int) : Service → Prop
  | .mk _ provider _ _ _ _ _ _ _ data licenses externalReferences properties services releaseNotes tags trustZone patentAssertions signature =>
    (∀ y ∈ provider, OrganizationalEntity.FitsCopied v y) ∧
    (∀ y ∈ data.elems, DataClassification.FitsCopied v y) ∧
    (∀ y ∈ licenses.elems, LicenseChoice.FitsCopied v y) ∧
    (∀ y ∈ externalReferences.elems, ExternalReference.FitsCopied v y) ∧
    (properties.elems = [] ∨ SpecVersion1_3 ≤ v) ∧
    FitsCopiedServices v services ∧
    (releaseNotes = none ∨ SpecVersion1_4 ≤ v) ∧
    (tags.elems = [] ∨ SpecVersion1_6 ≤ v) ∧
    (trustZone = "" ∨ SpecVersion1_5 ≤ v) ∧
    (patentAssertions.elems = [] ∨ SpecVersion1_7 ≤ v ∧ ∀ y ∈ patentAssertions.elems, PatentAssertion.FitsCopied v y) ∧
    (signature = none ∨ SpecVersion1_4 ≤ v)
/-- A list of services, at any depth. -/
def FitsCopiedServices (v : Int) : PSlice Service → Prop
  | .nil => True
  | .nilSlice => True
  | .list xs => FitsCopiedServiceList v xs
/-- A list of services, at any depth. -/
def FitsCopiedServiceList (v : Int) : List Service → Prop
  | [] => True
  | c :: cs => c.FitsCopied v ∧ FitsCopiedServiceList v cs
end

/-- cyclonedx.go:60-65 -/
def Annotator.FitsCopied (v : Int) (x : Annotator) : Prop :=
  (∀ y ∈ x.organization, OrganizationalEntity.FitsCopied v y) ∧
  (∀ y ∈ x.individual, OrganizationalContact.FitsCopied v y) ∧
  (∀ y ∈ x.component, Component.FitsCopied v y) ∧
  (∀ y ∈ x.service, Service.FitsCopied v y)

/-- cyclonedx.go:51-58 -/
def Annotation.FitsCopied (v : Int) (x : Annotation) : Prop :=
  (∀ y ∈ x.annotator, Annotator.FitsCopied v y)

/-- cyclonedx.go:67-71 -/
def Assessor.FitsCopied (v : Int) (x : Assessor) : Prop :=
  (∀ y ∈ x.organization, OrganizationalEntity.FitsCopied v y)

/-- cyclonedx.go:321-328 -/
def Composition.FitsCopied (v : Int) (x : Composition) : Prop :=
  (x.bomRef = "" ∨ SpecVersion1_5 ≤ v) ∧
  (x.vulnerabilities.elems = [] ∨ SpecVersion1_5 ≤ v) ∧
  (x.signature = none ∨ SpecVersion1_4 ≤ v)

/-- cyclonedx.go:193-203 -/
def Claim.FitsCopied (v : Int) (x : Claim) : Prop :=
  (∀ y ∈ x.externalReferences.elems, ExternalReference.FitsCopied v y)

/-- cyclonedx.go:611-617 -/
def EvidenceData.FitsCopied (v : Int) (x : EvidenceData) : Prop :=
  x.classification = none ∧
  (∀ y ∈ x.governance, DataGovernance.FitsCopied v y)

/-- cyclonedx.go:586-596 -/
def DeclarationEvidence.FitsCopied (v : Int) (x : DeclarationEvidence) : Prop :=
  (∀ y ∈ x.data.elems, EvidenceData.FitsCopied v y) ∧
  (∀ y ∈ x.author, OrganizationalContact.FitsCopied v y) ∧
  (∀ y ∈ x.reviewer, OrganizationalContact.FitsCopied v y)

/-- cyclonedx.go:624-628 -/
def Targets.FitsCopied (v : Int) (x : Targets) : Prop :=
  (∀ y ∈ x.organizations.elems, OrganizationalEntity.FitsCopied v y) ∧
  (∀ y ∈ x.components.elems, Component.FitsCopied v y) ∧
  (∀ y ∈ x.services.elems, Service.FitsCopied v y)

/-- cyclonedx.go:636-642 -/
def Signatory.FitsCopied (v : Int) (x : Signatory) : Prop :=
  (∀ y ∈ x.organization, OrganizationalEntity.FitsCopied v y) ∧
  (∀ y ∈ x.externalReference, ExternalReference.FitsCopied v y)

/-- cyclonedx.go:630-634 -/
def Affirmation.FitsCopied (v : Int) (x : Affirmation) : Prop :=
  (∀ y ∈ x.signatories.elems, Signatory.FitsCopied v y)

/-- cyclonedx.go:576-584 -/
def Declarations.FitsCopied (v : Int) (x : Declarations) : Prop :=
  (∀ y ∈ x.assessors.elems, Assessor.FitsCopied v y) ∧
  (∀ y ∈ x.claims.elems, Claim.FitsCopied v y) ∧
  (∀ y ∈ x.evidence.elems, DeclarationEvidence.FitsCopied v y) ∧
  (∀ y ∈ x.targets, Targets.FitsCopied v y) ∧
  (∀ y ∈ x.affirmation, Affirmation.FitsCopied v y)

/-- cyclonedx.go:1743-1758 -/
def Patent.FitsCopied (v : Int) (x : Patent) : Prop :=
  (∀ y ∈ x.patentAssignee.elems, OrganizationalEntityOrContact.FitsCopiedPatentAssignee v y) ∧
  (∀ y ∈ x.externalReferences.elems, ExternalReference.FitsCopied v y)

/-- cyclonedx.go:1761-1767 -/
def PatentFamily.FitsCopied (v : Int) (x : PatentFamily) : Prop :=
  (∀ y ∈ x.externalReferences.elems, ExternalReference.FitsCopied v y)

/-- cyclonedx.go:606-609 -/
def PatentChoice.FitsCopied (v : Int) (x : PatentChoice) : Prop :=
  (∀ y ∈ x.patent, Patent.FitsCopied v y) ∧ (x.patent = none → ∀ y ∈ x.patentFamily, PatentFamily.FitsCopied v y)

/-- cyclonedx.go:1429-1439 -/
def StandardRequirement.FitsCopied (v : Int) (x : StandardRequirement) : Prop :=
  (∀ y ∈ x.externalReferences.elems, ExternalReference.FitsCopied v y)

/-- cyclonedx.go:1416-1427 -/
def StandardDefinition.FitsCopied (v : Int) (x : StandardDefinition) : Prop :=
  (∀ y ∈ x.requirements.elems, StandardRequirement.FitsCopied v y) ∧
  (∀ y ∈ x.externalReferences.elems, ExternalReference.FitsCopied v y)

/-- cyclonedx.go:598-601 -/
def Definitions.FitsCopied (v : Int) (x : Definitions) : Prop :=
  (∀ y ∈ x.standards.elems, StandardDefinition.FitsCopied v y) ∧
  (x.patents.elems = [] ∨ SpecVersion1_7 ≤ v ∧ ∀ y ∈ x.patents.elems, PatentChoice.FitsCopied v y)

/-- cyclonedx.go:644-648 -/
def Dependency.FitsCopied (v : Int) (x : Dependency) : Prop :=
  (x.provides.elems = [] ∨ SpecVersion1_6 ≤ v)

/-- cyclonedx.go:1337-1340 -/
def ResourceReferenceChoice.FitsCopied (v : Int) (x : ResourceReferenceChoice) : Prop :=
  (∀ y ∈ x.externalReference, ExternalReference.FitsCopied v y)

/-- cyclonedx.go:1482-1490 -/
def TaskInput.FitsCopied (v : Int) (x : TaskInput) : Prop :=
  (∀ y ∈ x.resource, ResourceReferenceChoice.FitsCopied v y) ∧
  (∀ y ∈ x.source, ResourceReferenceChoice.FitsCopied v y) ∧
  (∀ y ∈ x.target, ResourceReferenceChoice.FitsCopied v y)

/-- cyclonedx.go:1492-1501 -/
def TaskOutput.FitsCopied (v : Int) (x : TaskOutput) : Prop :=
  (∀ y ∈ x.resource, ResourceReferenceChoice.FitsCopied v y) ∧
  x.parameters.elems = [] ∧
  (∀ y ∈ x.source, ResourceReferenceChoice.FitsCopied v y) ∧
  (∀ y ∈ x.target, ResourceReferenceChoice.FitsCopied v y)

/-- cyclonedx.go:662-670 -/
def Event.FitsCopied (v : Int) (x : Event) : Prop :=
  (∀ y ∈ x.source, ResourceReferenceChoice.FitsCopied v y) ∧
  (∀ y ∈ x.target, ResourceReferenceChoice.FitsCopied v y)

/-- cyclonedx.go:1521-1534 -/
def TaskTrigger.FitsCopied (v : Int) (x : TaskTrigger) : Prop :=
  (∀ y ∈ x.resourceReferences.elems, ResourceReferenceChoice.FitsCopied v y) ∧
  (∀ y ∈ x.event, Event.FitsCopied v y) ∧
  (∀ y ∈ x.inputs.elems, TaskInput.FitsCopied v y) ∧
  (∀ y ∈ x.outputs.elems, TaskOutput.FitsCopied v y)

/-- cyclonedx.go:1568-1581 -/
def TaskWorkspace.FitsCopied (v : Int) (x : TaskWorkspace) : Prop :=
  (∀ y ∈ x.resourceReferences.elems, ResourceReferenceChoice.FitsCopied v y)

/-- cyclonedx.go:1459-1475 -/
def Task.FitsCopied (v : Int) (x : Task) : Prop :=
  (∀ y ∈ x.resourceReferences.elems, ResourceReferenceChoice.FitsCopied v y) ∧
  (∀ y ∈ x.trigger, TaskTrigger.FitsCopied v y) ∧
  (∀ y ∈ x.inputs.elems, TaskInput.FitsCopied v y) ∧
  (∀ y ∈ x.outputs.elems, TaskOutput.FitsCopied v y) ∧
  (∀ y ∈ x.workspaces.elems, TaskWorkspace.FitsCopied v y) ∧
  (∀ y ∈ x.runtimeTopology.elems, Dependency.FitsCopied v y)

/-- cyclonedx.go:1689-1707 -/
def Workflow.FitsCopied (v : Int) (x : Workflow) : Prop :=
  (∀ y ∈ x.resourceReferences.elems, ResourceReferenceChoice.FitsCopied v y) ∧
  (∀ y ∈ x.tasks.elems, Task.FitsCopied v y) ∧
  (∀ y ∈ x.taskDependencies.elems, Dependency.FitsCopied v y) ∧
  (∀ y ∈ x.trigger, TaskTrigger.FitsCopied v y) ∧
  (∀ y ∈ x.inputs.elems, TaskInput.FitsCopied v y) ∧
  (∀ y ∈ x.outputs.elems, TaskOutput.FitsCopied v y) ∧
  (∀ y ∈ x.workspaces.elems, TaskWorkspace.FitsCopied v y) ∧
  (∀ y ∈ x.runtimeTopology.elems, Dependency.FitsCopied v y)

/-- cyclonedx.go:800-806 -/
def Formula.FitsCopied (v : Int) (x : Formula) : Prop :=
  (∀ y ∈ x.components.elems, Component.FitsCopied v y) ∧
  (∀ y ∈ x.services.elems, Service.FitsCopied v y) ∧
  (∀ y ∈ x.workflows.elems, Workflow.FitsCopied v y)

/-- cyclonedx.go:1594-1600 -/
def Tool.FitsCopied (v : Int) (x : Tool) : Prop :=
  (x.externalReferences.elems = [] ∨ SpecVersion1_4 ≤ v ∧ ∀ y ∈ x.externalReferences.elems, ExternalReference.FitsCopied v y)

/-- cyclonedx.go:1610-1614 -/
def ToolsChoice.FitsCopied (v : Int) (x : ToolsChoice) : Prop :=
  (∀ y ∈ x.tools.elems, Tool.FitsCopied v y) ∧
  (x.components.elems = [] ∧ x.services.elems = [] ∨ SpecVersion1_5 ≤ v ∧
    (∀ y ∈ x.components.elems, Component.FitsCopied v y) ∧ (∀ y ∈ x.services.elems, Service.FitsCopied v y))

/-- cyclonedx.go:1042-1054 -/
def Metadata.FitsCopied (v : Int) (x : Metadata) : Prop :=
  (x.lifecycles.elems = [] ∨ SpecVersion1_5 ≤ v) ∧
  (∀ y ∈ x.tools, ToolsChoice.FitsCopied v y) ∧
  (∀ y ∈ x.authors.elems, OrganizationalContact.FitsCopied v y) ∧
  (∀ y ∈ x.component, Component.FitsCopied v y) ∧
  (∀ y ∈ x.manufacture, OrganizationalEntity.FitsCopied v y) ∧
  (x.manufacturer = none ∨ SpecVersion1_6 ≤ v ∧ ∀ y ∈ x.manufacturer, OrganizationalEntity.FitsCopied v y) ∧
  (∀ y ∈ x.supplier, OrganizationalEntity.FitsCopied v y) ∧
  (x.licenses.elems = [] ∨ SpecVersion1_3 ≤ v ∧ ∀ y ∈ x.licenses.elems, LicenseChoice.FitsCopied v y) ∧
  (x.properties.elems = [] ∨ SpecVersion1_3 ≤ v) ∧
  (x.distributionConstraints = none ∨ SpecVersion1_7 ≤ v)

/-- cyclonedx.go:349-352 -/
def Credits.FitsCopied (v : Int) (x : Credits) : Prop :=
  (∀ y ∈ x.organizations.elems, OrganizationalEntity.FitsCopied v y) ∧
  (∀ y ∈ x.individuals.elems, OrganizationalContact.FitsCopied v y)

/-- cyclonedx.go:1658-1665 -/
def VulnerabilityAnalysis.FitsCopied (v : Int) (x : VulnerabilityAnalysis) : Prop :=
  (x.firstIssued = "" ∨ SpecVersion1_5 ≤ v) ∧
  (x.lastUpdated = "" ∨ SpecVersion1_5 ≤ v)

/-- cyclonedx.go:1634-1656 -/
def Vulnerability.FitsCopied (v : Int) (x : Vulnerability) : Prop :=
  (x.workaround = "" ∨ SpecVersion1_5 ≤ v) ∧
  (x.proofOfConcept = none ∨ SpecVersion1_5 ≤ v) ∧
  (x.rejected = "" ∨ SpecVersion1_5 ≤ v) ∧
  (∀ y ∈ x.credits, Credits.FitsCopied v y) ∧
  (∀ y ∈ x.tools, ToolsChoice.FitsCopied v y) ∧
  (∀ y ∈ x.analysis, VulnerabilityAnalysis.FitsCopied v y)

/-- cyclonedx.go:105-131 -/
def BOM.FitsCopied (v : Int) (x : BOM) : Prop :=
  (∀ y ∈ x.metadata, Metadata.FitsCopied v y) ∧
  (∀ y ∈ x.components.elems, Component.FitsCopied v y) ∧
  (∀ y ∈ x.services.elems, Service.FitsCopied v y) ∧
  (∀ y ∈ x.externalReferences.elems, ExternalReference.FitsCopied v y) ∧
  (∀ y ∈ x.dependencies.elems, Dependency.FitsCopied v y) ∧
  (x.compositions.elems = [] ∨ SpecVersion1_3 ≤ v ∧ ∀ y ∈ x.compositions.elems, Composition.FitsCopied v y) ∧
  (x.properties.elems = [] ∨ SpecVersion1_5 ≤ v) ∧
  (x.vulnerabilities.elems = [] ∨ SpecVersion1_4 ≤ v ∧ ∀ y ∈ x.vulnerabilities.elems, Vulnerability.FitsCopied v y) ∧
  (x.annotations.elems = [] ∨ SpecVersion1_5 ≤ v ∧ ∀ y ∈ x.annotations.elems, Annotation.FitsCopied v y) ∧
  (x.formulation.elems = [] ∨ SpecVersion1_5 ≤ v ∧ ∀ y ∈ x.formulation.elems, Formula.FitsCopied v y) ∧
  (x.declarations = none ∨ SpecVersion1_6 ≤ v ∧ ∀ y ∈ x.declarations, Declarations.FitsCopied v y) ∧
  (x.definitions = none ∨ SpecVersion1_6 ≤ v ∧ ∀ y ∈ x.definitions, Definitions.FitsCopied v y) ∧
  (x.citations.elems = [] ∨ SpecVersion1_7 ≤ v) ∧
  (x.signature = none ∨ SpecVersion1_4 ≤ v)

end Verif
