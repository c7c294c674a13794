import Verif.Model.Types
import Verif.Model.Version

/-!
# The values that use only what the JSON schema of a version declares

GENERATED by `tools/gen_fits.py` from the struct declarations of `/repo/cyclonedx.go` and the JSON schemas in
`/repo/schema`; do not edit by hand.

`T.Fits v x` says that nothing in `x`, at any depth, is in a field that the schema of version `v` does not
declare, and that no list is the pointer to a nil slice (which is written as `null`, and no schema declares
`null` anywhere).  A field that no version declares must be empty; one declared since `u` must be empty or
`u ≤ v`.  Types without such fields have no condition.  It is stated on the values, without reference to how
they are written; `Verif.Json.FitsLaws` proves that it is exact.
-/

namespace Verif

/-- cyclonedx.go:46-49 -/
def Affects.Fits (_v : Int) (x : Affects) : Prop :=
  x.range ≠ .nilSlice

/-- cyclonedx.go:290-294 -/
def ComponentDataContents.Fits (_v : Int) (x : ComponentDataContents) : Prop :=
  x.properties ≠ .nilSlice

/-- cyclonedx.go:306-309 -/
def ComponentDataGraphics.Fits (_v : Int) (x : ComponentDataGraphics) : Prop :=
  x.collection ≠ .nilSlice

/-- cyclonedx.go:1211-1216 -/
def OrganizationalContact.Fits (v : Int) (x : OrganizationalContact) : Prop :=
  (x.bomRef = "" ∨ SpecVersion1_5 ≤ v)

/-- cyclonedx.go:1218-1224 -/
def OrganizationalEntity.Fits (v : Int) (x : OrganizationalEntity) : Prop :=
  (x.bomRef = "" ∨ SpecVersion1_5 ≤ v) ∧
  (x.address = none ∨ SpecVersion1_6 ≤ v) ∧
  x.url ≠ .nilSlice ∧
  x.contact ≠ .nilSlice ∧ (∀ y ∈ x.contact.elems, OrganizationalContact.Fits v y)

/-- cyclonedx.go:296-299 -/
def ComponentDataGovernanceResponsibleParty.Fits (v : Int) (x : ComponentDataGovernanceResponsibleParty) : Prop :=
  (∀ y ∈ x.organization, OrganizationalEntity.Fits v y) ∧
  (∀ y ∈ x.contact, OrganizationalContact.Fits v y)

/-- cyclonedx.go:570-574 -/
def DataGovernance.Fits (v : Int) (x : DataGovernance) : Prop :=
  x.custodians ≠ .nilSlice ∧ (∀ y ∈ x.custodians.elems, ComponentDataGovernanceResponsibleParty.Fits v y) ∧
  x.stewards ≠ .nilSlice ∧ (∀ y ∈ x.stewards.elems, ComponentDataGovernanceResponsibleParty.Fits v y) ∧
  x.owners ≠ .nilSlice ∧ (∀ y ∈ x.owners.elems, ComponentDataGovernanceResponsibleParty.Fits v y)

/-- cyclonedx.go:278-288 -/
def ComponentData.Fits (v : Int) (x : ComponentData) : Prop :=
  (∀ y ∈ x.contents, ComponentDataContents.Fits v y) ∧
  x.sensitiveData ≠ .nilSlice ∧
  (∀ y ∈ x.graphics, ComponentDataGraphics.Fits v y) ∧
  (∀ y ∈ x.governance, DataGovernance.Fits v y)

/-- cyclonedx.go:171-191 -/
def CertificateProperties.Fits (v : Int) (x : CertificateProperties) : Prop :=
  (x.serialNumber = "" ∨ SpecVersion1_7 ≤ v) ∧
  (x.certificateFileExtension = "" ∨ SpecVersion1_7 ≤ v) ∧
  (x.fingerprint = none ∨ SpecVersion1_7 ≤ v) ∧
  (x.certificateState = .nil ∨ SpecVersion1_7 ≤ v ∧ x.certificateState ≠ .nilSlice) ∧
  (x.certificateExtensions = .nil ∨ SpecVersion1_7 ≤ v ∧ x.certificateExtensions ≠ .nilSlice) ∧
  (x.relatedCryptographicAssets = .nil ∨ SpecVersion1_7 ≤ v ∧ x.relatedCryptographicAssets ≠ .nilSlice) ∧
  (x.creationDate = "" ∨ SpecVersion1_7 ≤ v) ∧
  (x.activationDate = "" ∨ SpecVersion1_7 ≤ v) ∧
  (x.deactivationDate = "" ∨ SpecVersion1_7 ≤ v) ∧
  (x.revocationDate = "" ∨ SpecVersion1_7 ≤ v) ∧
  (x.destructionDate = "" ∨ SpecVersion1_7 ≤ v)

/-- cyclonedx.go:368-382 -/
def CryptoAlgorithmProperties.Fits (v : Int) (x : CryptoAlgorithmProperties) : Prop :=
  (x.algorithmFamily = "" ∨ SpecVersion1_7 ≤ v) ∧
  (x.ellipticCurve = "" ∨ SpecVersion1_7 ≤ v) ∧
  x.certificationLevel ≠ .nilSlice ∧
  x.cryptoFunctions ≠ .nilSlice

/-- cyclonedx.go:205-211 -/
def CipherSuite.Fits (v : Int) (x : CipherSuite) : Prop :=
  x.algorithms ≠ .nilSlice ∧
  x.identifiers ≠ .nilSlice ∧
  (x.tlsGroups = .nil ∨ SpecVersion1_7 ≤ v ∧ x.tlsGroups ≠ .nilSlice) ∧
  (x.tlsSignatureSchemes = .nil ∨ SpecVersion1_7 ≤ v ∧ x.tlsSignatureSchemes ≠ .nilSlice)

/-- cyclonedx.go:1826-1830; before version 1.7 only the reference is declared. -/
def IKEv2Auth.Fits (v : Int) (x : IKEv2Auth) : Prop := x.bomRef ≠ ⟨""⟩ ∨ SpecVersion1_7 ≤ v

/-- cyclonedx.go:1834-1839; before version 1.7 only the reference is declared. -/
def IKEv2Enc.Fits (v : Int) (x : IKEv2Enc) : Prop := x.bomRef ≠ ⟨""⟩ ∨ SpecVersion1_7 ≤ v

/-- cyclonedx.go:1843-1847; before version 1.7 only the reference is declared. -/
def IKEv2Integ.Fits (v : Int) (x : IKEv2Integ) : Prop := x.bomRef ≠ ⟨""⟩ ∨ SpecVersion1_7 ≤ v

/-- cyclonedx.go:1851-1855; before version 1.7 only the reference is declared. -/
def IKEv2Ke.Fits (v : Int) (x : IKEv2Ke) : Prop := x.bomRef ≠ ⟨""⟩ ∨ SpecVersion1_7 ≤ v

/-- cyclonedx.go:1859-1863; before version 1.7 only the reference is declared. -/
def IKEv2Prf.Fits (v : Int) (x : IKEv2Prf) : Prop := x.bomRef ≠ ⟨""⟩ ∨ SpecVersion1_7 ≤ v

/-- cyclonedx.go:537-544 -/
def IKEv2TransformTypes.Fits (v : Int) (x : IKEv2TransformTypes) : Prop :=
  x.encr ≠ .nilSlice ∧ (∀ y ∈ x.encr.elems, IKEv2Enc.Fits v y) ∧
  x.prf ≠ .nilSlice ∧ (∀ y ∈ x.prf.elems, IKEv2Prf.Fits v y) ∧
  x.integ ≠ .nilSlice ∧ (∀ y ∈ x.integ.elems, IKEv2Integ.Fits v y) ∧
  x.ke ≠ .nilSlice ∧ (∀ y ∈ x.ke.elems, IKEv2Ke.Fits v y) ∧
  x.auth ≠ .nilSlice ∧ (∀ y ∈ x.auth.elems, IKEv2Auth.Fits v y)

/-- cyclonedx.go:509-516 -/
def CryptoProtocolProperties.Fits (v : Int) (x : CryptoProtocolProperties) : Prop :=
  x.cipherSuites ≠ .nilSlice ∧ (∀ y ∈ x.cipherSuites.elems, CipherSuite.Fits v y) ∧
  (∀ y ∈ x.ikev2TransformTypes, IKEv2TransformTypes.Fits v y) ∧
  x.cryptoRefArray ≠ .nilSlice ∧
  (x.relatedCryptographicAssets = .nil ∨ SpecVersion1_7 ≤ v ∧ x.relatedCryptographicAssets ≠ .nilSlice)

/-- cyclonedx.go:1282-1297 -/
def RelatedCryptoMaterialProperties.Fits (v : Int) (x : RelatedCryptoMaterialProperties) : Prop :=
  (x.fingerprint = none ∨ SpecVersion1_7 ≤ v) ∧
  (x.relatedCryptographicAssets = .nil ∨ SpecVersion1_7 ≤ v ∧ x.relatedCryptographicAssets ≠ .nilSlice)

/-- cyclonedx.go:500-507 -/
def CryptoProperties.Fits (v : Int) (x : CryptoProperties) : Prop :=
  (∀ y ∈ x.algorithmProperties, CryptoAlgorithmProperties.Fits v y) ∧
  (∀ y ∈ x.certificateProperties, CertificateProperties.Fits v y) ∧
  (∀ y ∈ x.relatedCryptoMaterialProperties, RelatedCryptoMaterialProperties.Fits v y) ∧
  (∀ y ∈ x.protocolProperties, CryptoProtocolProperties.Fits v y)

/-- cyclonedx.go:161-169 -/
def CallstackFrame.Fits (_v : Int) (x : CallstackFrame) : Prop :=
  x.parameters ≠ .nilSlice

/-- cyclonedx.go:157-159 -/
def Callstack.Fits (v : Int) (x : Callstack) : Prop :=
  x.frames ≠ .nilSlice ∧ (∀ y ∈ x.frames.elems, CallstackFrame.Fits v y)

/-- cyclonedx.go:688-694 -/
def EvidenceIdentity.Fits (v : Int) (x : EvidenceIdentity) : Prop :=
  (x.concludedValue = "" ∨ SpecVersion1_6 ≤ v) ∧
  x.methods ≠ .nilSlice ∧
  x.tools ≠ .nilSlice

/-- cyclonedx.go:683-686; a list of identities is declared from version 1.6 on, and nothing at all is not. -/
def EvidenceIdentityChoice.Fits (v : Int) (x : EvidenceIdentityChoice) : Prop :=
  (x.identity = none → x.identities ≠ .nil) ∧ (∀ y ∈ x.identity, EvidenceIdentity.Fits v y) ∧
  (x.identities = .nil ∨ SpecVersion1_6 ≤ v ∧ x.identities ≠ .nilSlice ∧
    ∀ y ∈ x.identities.elems, EvidenceIdentity.Fits v y)

/-- cyclonedx.go:731-738 -/
def EvidenceOccurrence.Fits (v : Int) (x : EvidenceOccurrence) : Prop :=
  (x.line = none ∨ SpecVersion1_6 ≤ v) ∧
  (x.offset = none ∨ SpecVersion1_6 ≤ v) ∧
  (x.symbol = "" ∨ SpecVersion1_6 ≤ v) ∧
  (x.additionalContext = "" ∨ SpecVersion1_6 ≤ v)

/-- cyclonedx.go:1226-1229 -/
def OrganizationalEntityOrContact.Fits (v : Int) (x : OrganizationalEntityOrContact) : Prop :=
  (∀ y ∈ x.organization, OrganizationalEntity.Fits v y) ∧
  (∀ y ∈ x.individual, OrganizationalContact.Fits v y)

/-- cyclonedx.go:1226-1229, at the place patentAssignee of the schema -/
def OrganizationalEntityOrContact.FitsPatentAssignee (_v : Int) (x : OrganizationalEntityOrContact) : Prop :=
  x.organization = none ∧
  x.individual = none

/-- cyclonedx.go:995-1004 -/
def Licensing.Fits (v : Int) (x : Licensing) : Prop :=
  x.altIDs ≠ .nilSlice ∧
  (∀ y ∈ x.licensor, OrganizationalEntityOrContact.Fits v y) ∧
  (∀ y ∈ x.licensee, OrganizationalEntityOrContact.Fits v y) ∧
  (∀ y ∈ x.purchaser, OrganizationalEntityOrContact.Fits v y) ∧
  x.licenseTypes ≠ .nilSlice

/-- cyclonedx.go:936-945 -/
def License.Fits (v : Int) (x : License) : Prop :=
  (x.bomRef = "" ∨ SpecVersion1_5 ≤ v) ∧
  (x.acknowledgement = "" ∨ SpecVersion1_6 ≤ v) ∧
  (x.licensing = none ∨ SpecVersion1_5 ≤ v ∧ ∀ y ∈ x.licensing, Licensing.Fits v y) ∧
  (x.properties = .nil ∨ SpecVersion1_5 ≤ v ∧ x.properties ≠ .nilSlice)

/-- cyclonedx.go:956-964 -/
def LicenseChoice.Fits (v : Int) (x : LicenseChoice) : Prop :=
  (∀ y ∈ x.license, License.Fits v y) ∧
  (x.expressionDetails = .nil ∨ SpecVersion1_7 ≤ v ∧ x.expressionDetails ≠ .nilSlice) ∧
  (x.acknowledgement = none ∨ SpecVersion1_6 ≤ v) ∧
  (x.bomRef = "" ∨ SpecVersion1_6 ≤ v) ∧
  (x.licensing = none ∨ SpecVersion1_7 ≤ v ∧ ∀ y ∈ x.licensing, Licensing.Fits v y) ∧
  (x.properties = .nil ∨ SpecVersion1_7 ≤ v ∧ x.properties ≠ .nilSlice)

/-- cyclonedx.go:672-678 -/
def Evidence.Fits (v : Int) (x : Evidence) : Prop :=
  (x.identity = none ∨ SpecVersion1_5 ≤ v ∧ ∀ y ∈ x.identity, EvidenceIdentityChoice.Fits v y) ∧
  (x.occurrences = .nil ∨ SpecVersion1_5 ≤ v ∧ x.occurrences ≠ .nilSlice ∧ ∀ y ∈ x.occurrences.elems, EvidenceOccurrence.Fits v y) ∧
  (x.callstack = none ∨ SpecVersion1_5 ≤ v ∧ ∀ y ∈ x.callstack, Callstack.Fits v y) ∧
  x.licenses ≠ .nilSlice ∧ (∀ y ∈ x.licenses.elems, LicenseChoice.Fits v y) ∧
  x.copyright ≠ .nilSlice

/-- cyclonedx.go:740-746 -/
def ExternalReference.Fits (v : Int) (x : ExternalReference) : Prop :=
  (x.hashes = .nil ∨ SpecVersion1_3 ≤ v ∧ x.hashes ≠ .nilSlice) ∧
  (x.properties = .nil ∨ SpecVersion1_7 ≤ v ∧ x.properties ≠ .nilSlice)

/-- cyclonedx.go:916-923 -/
def JSFSigner.Fits (_v : Int) (x : JSFSigner) : Prop :=
  x.certificatePath ≠ .nilSlice ∧
  x.excludes ≠ .nilSlice

/-- cyclonedx.go:909-914 -/
def JSFSignature.Fits (v : Int) (x : JSFSignature) : Prop :=
  x.signers ≠ .nilSlice ∧ (∀ y ∈ x.signers.elems, JSFSigner.Fits v y) ∧
  x.chain ≠ .nilSlice ∧ (∀ y ∈ x.chain.elems, JSFSigner.Fits v y)

/-- cyclonedx.go:1136-1143 -/
def MLModelEnergyProvider.Fits (v : Int) (x : MLModelEnergyProvider) : Prop :=
  (x.organization ≠ none ∧ ∀ y ∈ x.organization, OrganizationalEntity.Fits v y) ∧
  (x.energyProvided ≠ none) ∧
  x.externalReferences ≠ .nilSlice ∧ (∀ y ∈ x.externalReferences.elems, ExternalReference.Fits v y)

/-- cyclonedx.go:1108-1115 -/
def MLModelEnergyConsumption.Fits (v : Int) (x : MLModelEnergyConsumption) : Prop :=
  (x.energyProviders ≠ .nil ∧ x.energyProviders ≠ .nilSlice ∧ ∀ y ∈ x.energyProviders.elems, MLModelEnergyProvider.Fits v y) ∧
  x.properties ≠ .nilSlice

/-- cyclonedx.go:1082-1085 -/
def MLModelCardEnvironmentalConsiderations.Fits (v : Int) (x : MLModelCardEnvironmentalConsiderations) : Prop :=
  x.energyConsumptions ≠ .nilSlice ∧ (∀ y ∈ x.energyConsumptions.elems, MLModelEnergyConsumption.Fits v y) ∧
  x.properties ≠ .nilSlice

/-- cyclonedx.go:1072-1080 -/
def MLModelCardConsiderations.Fits (v : Int) (x : MLModelCardConsiderations) : Prop :=
  x.users ≠ .nilSlice ∧
  x.useCases ≠ .nilSlice ∧
  x.technicalLimitations ≠ .nilSlice ∧
  x.performanceTradeoffs ≠ .nilSlice ∧
  x.ethicalConsiderations ≠ .nilSlice ∧
  (x.environmentalConsiderations = none ∨ SpecVersion1_6 ≤ v ∧ ∀ y ∈ x.environmentalConsiderations, MLModelCardEnvironmentalConsiderations.Fits v y) ∧
  x.fairnessAssessments ≠ .nilSlice

/-- cyclonedx.go:1056-1059; the reference hides the data. -/
def MLDatasetChoice.Fits (v : Int) (x : MLDatasetChoice) : Prop :=
  x.ref = "" → ∀ y ∈ x.componentData, ComponentData.Fits v y

/-- cyclonedx.go:1165-1173 -/
def MLModelParameters.Fits (v : Int) (x : MLModelParameters) : Prop :=
  x.datasets ≠ .nilSlice ∧ (∀ y ∈ x.datasets.elems, MLDatasetChoice.Fits v y) ∧
  x.inputs ≠ .nilSlice ∧
  x.outputs ≠ .nilSlice

/-- cyclonedx.go:1189-1192 -/
def MLQuantitativeAnalysis.Fits (v : Int) (x : MLQuantitativeAnalysis) : Prop :=
  x.performanceMetrics ≠ .nilSlice ∧
  (∀ y ∈ x.graphics, ComponentDataGraphics.Fits v y)

/-- cyclonedx.go:1065-1070 -/
def MLModelCard.Fits (v : Int) (x : MLModelCard) : Prop :=
  (∀ y ∈ x.modelParameters, MLModelParameters.Fits v y) ∧
  (∀ y ∈ x.quantitativeAnalysis, MLQuantitativeAnalysis.Fits v y) ∧
  (∀ y ∈ x.considerations, MLModelCardConsiderations.Fits v y)

/-- cyclonedx.go:892-899 -/
def Issue.Fits (_v : Int) (x : Issue) : Prop :=
  x.references ≠ .nilSlice

/-- cyclonedx.go:1237-1241 -/
def Patch.Fits (v : Int) (x : Patch) : Prop :=
  x.resolves ≠ .nilSlice ∧ (∀ y ∈ x.resolves.elems, Issue.Fits v y)

/-- cyclonedx.go:1323-1335 -/
def ReleaseNotes.Fits (v : Int) (x : ReleaseNotes) : Prop :=
  x.aliases ≠ .nilSlice ∧
  x.tags ≠ .nilSlice ∧
  x.resolves ≠ .nilSlice ∧ (∀ y ∈ x.resolves.elems, Issue.Fits v y) ∧
  x.notes ≠ .nilSlice ∧
  x.properties ≠ .nilSlice

/-- cyclonedx.go:1772-1776; the schema declares the organization, the contact or the reference itself in the
place of the choice, not an object that holds it. -/
def AsserterChoice.Fits (_v : Int) (x : AsserterChoice) : Prop :=
  x.organization = none ∧ x.individual = none ∧ x.bomRef = none

/-- cyclonedx.go:1779-1785 -/
def PatentAssertion.Fits (v : Int) (x : PatentAssertion) : Prop :=
  x.patentRefs ≠ .nilSlice ∧
  (x.asserter ≠ none ∧ ∀ y ∈ x.asserter, AsserterChoice.Fits v y)

mutual
/-- cyclonedx.go:239-276 -/
def Component.Fits (v : Int) : Component → Prop
  | .mk _ _ _ supplier manufacturer _ authors _ _ _ _ _ _ hashes licenses _ _ _ omniborID swhid _ _ pedigree externalReferences properties components evidence releaseNotes modelCard data cryptoProperties tags isExternal patentAssertions versionRange signature =>
    (∀ y ∈ supplier, OrganizationalEntity.Fits v y) ∧
    (manufacturer = none ∨ SpecVersion1_6 ≤ v ∧ ∀ y ∈ manufacturer, OrganizationalEntity.Fits v y) ∧
    (authors = .nil ∨ SpecVersion1_6 ≤ v ∧ authors ≠ .nilSlice ∧ ∀ y ∈ authors.elems, OrganizationalContact.Fits v y) ∧
    hashes ≠ .nilSlice ∧
    licenses ≠ .nilSlice ∧ (∀ y ∈ licenses.elems, LicenseChoice.Fits v y) ∧
    (omniborID = .nil ∨ SpecVersion1_6 ≤ v ∧ omniborID ≠ .nilSlice) ∧
    (swhid = .nil ∨ SpecVersion1_6 ≤ v ∧ swhid ≠ .nilSlice) ∧
    FitsPedigreeOpt v pedigree ∧
    externalReferences ≠ .nilSlice ∧ (∀ y ∈ externalReferences.elems, ExternalReference.Fits v y) ∧
    (properties = .nil ∨ SpecVersion1_3 ≤ v ∧ properties ≠ .nilSlice) ∧
    FitsComponents v components ∧
    (evidence = none ∨ SpecVersion1_3 ≤ v ∧ ∀ y ∈ evidence, Evidence.Fits v y) ∧
    (releaseNotes = none ∨ SpecVersion1_4 ≤ v ∧ ∀ y ∈ releaseNotes, ReleaseNotes.Fits v y) ∧
    (modelCard = none ∨ SpecVersion1_5 ≤ v ∧ ∀ y ∈ modelCard, MLModelCard.Fits v y) ∧
    (data = .nil ∨ SpecVersion1_5 ≤ v ∧ data ≠ .nilSlice ∧ ∀ y ∈ data.elems, ComponentData.Fits v y) ∧
    (cryptoProperties = none ∨ SpecVersion1_6 ≤ v ∧ ∀ y ∈ cryptoProperties, CryptoProperties.Fits v y) ∧
    (tags = .nil ∨ SpecVersion1_6 ≤ v ∧ tags ≠ .nilSlice) ∧
    (isExternal = none ∨ SpecVersion1_7 ≤ v) ∧
    (patentAssertions = .nil ∨ SpecVersion1_7 ≤ v ∧ patentAssertions ≠ .nilSlice ∧ ∀ y ∈ patentAssertions.elems, PatentAssertion.Fits v y) ∧
    (versionRange = "" ∨ SpecVersion1_7 ≤ v) ∧
    (signature = none ∨ SpecVersion1_4 ≤ v ∧ ∀ y ∈ signature, JSFSignature.Fits v y)
/-- A list of components, at any depth. -/
def FitsComponents (v : Int) : PSlice Component → Prop
  | .nil => True
  | .nilSlice => False
  | .list xs => FitsComponentList v xs
/-- A list of components, at any depth. -/
def FitsComponentList (v : Int) : List Component → Prop
  | [] => True
  | c :: cs => c.Fits v ∧ FitsComponentList v cs
/-- An optional pedigree. -/
def FitsPedigreeOpt (v : Int) : Option (Pedigree Component) → Prop
  | none => True
  | some p => FitsPedigree v p
/-- cyclonedx.go:1252-1259 -/
def FitsPedigree (v : Int) : Pedigree Component → Prop
  | .mk ancestors descendants variants commits patches _ =>
    FitsComponents v ancestors ∧
    FitsComponents v descendants ∧
    FitsComponents v variants ∧
    commits ≠ .nilSlice ∧
    patches ≠ .nilSlice ∧ (∀ y ∈ patches.elems, Patch.Fits v y)
end

/-- cyclonedx.go:551-559 -/
def DataClassification.Fits (v : Int) (x : DataClassification) : Prop :=
  (x.name = "" ∨ SpecVersion1_5 ≤ v) ∧
  (x.description = "" ∨ SpecVersion1_5 ≤ v) ∧
  (x.governance = none ∨ SpecVersion1_5 ≤ v ∧ ∀ y ∈ x.governance, DataGovernance.Fits v y) ∧
  (x.source = .nil ∨ SpecVersion1_5 ≤ v ∧ x.source ≠ .nilSlice) ∧
  (x.destination = .nil ∨ SpecVersion1_5 ≤ v ∧ x.destination ≠ .nilSlice)

mutual
/-- cyclonedx.go:1362-1382 -/
def Service.Fits (v : Int) : Service → Prop
  | .mk _ provider _ _ _ _ endpoints _ _ data licenses externalReferences properties services releaseNotes tags trustZone patentAssertions signature =>
    (∀ y ∈ provider, OrganizationalEntity.Fits v y) ∧
    endpoints ≠ .nilSlice ∧
    data ≠ .nilSlice ∧ (∀ y ∈ data.elems, DataClassification.Fits v y) ∧
    licenses ≠ .nilSlice ∧ (∀ y ∈ licenses.elems, LicenseChoice.Fits v y) ∧
    externalReferences ≠ .nilSlice ∧ (∀ y ∈ externalReferences.elems, ExternalReference.Fits v y) ∧
    (properties = .nil ∨ SpecVersion1_3 ≤ v ∧ properties ≠ .nilSlice) ∧
    FitsServices v services ∧
    (releaseNotes = none ∨ SpecVersion1_4 ≤ v ∧ ∀ y ∈ releaseNotes, ReleaseNotes.Fits v y) ∧
    (tags = .nil ∨ SpecVersion1_6 ≤ v ∧ tags ≠ .nilSlice) ∧
    (trustZone = "" ∨ SpecVersion1_5 ≤ v) ∧
    (patentAssertions = .nil ∨ SpecVersion1_7 ≤ v ∧ patentAssertions ≠ .nilSlice ∧ ∀ y ∈ patentAssertions.elems, PatentAssertion.Fits v y) ∧
    (signature = none ∨ SpecVersion1_4 ≤ v ∧ ∀ y ∈ signature, JSFSignature.Fits v y)
/-- A list of services, at any depth. -/
def FitsServices (v : Int) : PSlice Service → Prop
  | .nil => True
  | .nilSlice => False
  | .list xs => FitsServiceList v xs
/-- A list of services, at any depth. -/
def FitsServiceList (v : Int) : List Service → Prop
  | [] => True
  | c :: cs => c.Fits v ∧ FitsServiceList v cs
end

/-- cyclonedx.go:60-65 -/
def Annotator.Fits (v : Int) (x : Annotator) : Prop :=
  (∀ y ∈ x.organization, OrganizationalEntity.Fits v y) ∧
  (∀ y ∈ x.individual, OrganizationalContact.Fits v y) ∧
  (∀ y ∈ x.component, Component.Fits v y) ∧
  (∀ y ∈ x.service, Service.Fits v y)

/-- cyclonedx.go:51-58 -/
def Annotation.Fits (v : Int) (x : Annotation) : Prop :=
  x.subjects ≠ .nilSlice ∧
  (∀ y ∈ x.annotator, Annotator.Fits v y) ∧
  (∀ y ∈ x.signature, JSFSignature.Fits v y)

/-- cyclonedx.go:67-71 -/
def Assessor.Fits (v : Int) (x : Assessor) : Prop :=
  (∀ y ∈ x.organization, OrganizationalEntity.Fits v y)

/-- cyclonedx.go:94-98 -/
def AttestationConformance.Fits (_v : Int) (x : AttestationConformance) : Prop :=
  x.mitigationStrategies ≠ .nilSlice

/-- cyclonedx.go:86-92 -/
def AttestationMap.Fits (v : Int) (x : AttestationMap) : Prop :=
  x.claims ≠ .nilSlice ∧
  x.counterClaims ≠ .nilSlice ∧
  (∀ y ∈ x.conformance, AttestationConformance.Fits v y)

/-- cyclonedx.go:79-84 -/
def Attestation.Fits (v : Int) (x : Attestation) : Prop :=
  x.map ≠ .nilSlice ∧ (∀ y ∈ x.map.elems, AttestationMap.Fits v y) ∧
  (∀ y ∈ x.signature, JSFSignature.Fits v y)

/-- cyclonedx.go:321-328 -/
def Composition.Fits (v : Int) (x : Composition) : Prop :=
  (x.bomRef = "" ∨ SpecVersion1_5 ≤ v) ∧
  x.assemblies ≠ .nilSlice ∧
  x.dependencies ≠ .nilSlice ∧
  (x.vulnerabilities = .nil ∨ SpecVersion1_5 ≤ v ∧ x.vulnerabilities ≠ .nilSlice) ∧
  (x.signature = none ∨ SpecVersion1_4 ≤ v ∧ ∀ y ∈ x.signature, JSFSignature.Fits v y)

/-- cyclonedx.go:193-203 -/
def Claim.Fits (v : Int) (x : Claim) : Prop :=
  x.mitigationStrategies ≠ .nilSlice ∧
  x.evidence ≠ .nilSlice ∧
  x.counterEvidence ≠ .nilSlice ∧
  x.externalReferences ≠ .nilSlice ∧ (∀ y ∈ x.externalReferences.elems, ExternalReference.Fits v y) ∧
  (∀ y ∈ x.signature, JSFSignature.Fits v y)

/-- cyclonedx.go:611-617 -/
def EvidenceData.Fits (v : Int) (x : EvidenceData) : Prop :=
  x.classification = none ∧
  x.sensitiveData ≠ .nilSlice ∧
  (∀ y ∈ x.governance, DataGovernance.Fits v y)

/-- cyclonedx.go:586-596 -/
def DeclarationEvidence.Fits (v : Int) (x : DeclarationEvidence) : Prop :=
  x.data ≠ .nilSlice ∧ (∀ y ∈ x.data.elems, EvidenceData.Fits v y) ∧
  (∀ y ∈ x.author, OrganizationalContact.Fits v y) ∧
  (∀ y ∈ x.reviewer, OrganizationalContact.Fits v y) ∧
  (∀ y ∈ x.signature, JSFSignature.Fits v y)

/-- cyclonedx.go:624-628 -/
def Targets.Fits (v : Int) (x : Targets) : Prop :=
  x.organizations ≠ .nilSlice ∧ (∀ y ∈ x.organizations.elems, OrganizationalEntity.Fits v y) ∧
  x.components ≠ .nilSlice ∧ (∀ y ∈ x.components.elems, Component.Fits v y) ∧
  x.services ≠ .nilSlice ∧ (∀ y ∈ x.services.elems, Service.Fits v y)

/-- cyclonedx.go:636-642 -/
def Signatory.Fits (v : Int) (x : Signatory) : Prop :=
  (∀ y ∈ x.signature, JSFSignature.Fits v y) ∧
  (∀ y ∈ x.organization, OrganizationalEntity.Fits v y) ∧
  (∀ y ∈ x.externalReference, ExternalReference.Fits v y)

/-- cyclonedx.go:630-634 -/
def Affirmation.Fits (v : Int) (x : Affirmation) : Prop :=
  x.signatories ≠ .nilSlice ∧ (∀ y ∈ x.signatories.elems, Signatory.Fits v y) ∧
  (∀ y ∈ x.signature, JSFSignature.Fits v y)

/-- cyclonedx.go:576-584 -/
def Declarations.Fits (v : Int) (x : Declarations) : Prop :=
  x.assessors ≠ .nilSlice ∧ (∀ y ∈ x.assessors.elems, Assessor.Fits v y) ∧
  x.attestations ≠ .nilSlice ∧ (∀ y ∈ x.attestations.elems, Attestation.Fits v y) ∧
  x.claims ≠ .nilSlice ∧ (∀ y ∈ x.claims.elems, Claim.Fits v y) ∧
  x.evidence ≠ .nilSlice ∧ (∀ y ∈ x.evidence.elems, DeclarationEvidence.Fits v y) ∧
  (∀ y ∈ x.targets, Targets.Fits v y) ∧
  (∀ y ∈ x.affirmation, Affirmation.Fits v y) ∧
  (∀ y ∈ x.signature, JSFSignature.Fits v y)

/-- cyclonedx.go:1743-1758 -/
def Patent.Fits (v : Int) (x : Patent) : Prop :=
  x.patentAssignee ≠ .nilSlice ∧ (∀ y ∈ x.patentAssignee.elems, OrganizationalEntityOrContact.FitsPatentAssignee v y) ∧
  x.externalReferences ≠ .nilSlice ∧ (∀ y ∈ x.externalReferences.elems, ExternalReference.Fits v y)

/-- cyclonedx.go:1761-1767 -/
def PatentFamily.Fits (v : Int) (x : PatentFamily) : Prop :=
  x.members ≠ .nilSlice ∧
  x.externalReferences ≠ .nilSlice ∧ (∀ y ∈ x.externalReferences.elems, ExternalReference.Fits v y)

/-- cyclonedx.go:606-609; the patent hides the family. -/
def PatentChoice.Fits (v : Int) (x : PatentChoice) : Prop :=
  (∀ y ∈ x.patent, Patent.Fits v y) ∧ (x.patent = none → ∀ y ∈ x.patentFamily, PatentFamily.Fits v y)

/-- cyclonedx.go:1429-1439 -/
def StandardRequirement.Fits (v : Int) (x : StandardRequirement) : Prop :=
  x.descriptions ≠ .nilSlice ∧
  x.openCRE ≠ .nilSlice ∧
  x.properties ≠ .nilSlice ∧
  x.externalReferences ≠ .nilSlice ∧ (∀ y ∈ x.externalReferences.elems, ExternalReference.Fits v y)

/-- cyclonedx.go:1441-1447 -/
def StandardLevel.Fits (_v : Int) (x : StandardLevel) : Prop :=
  x.requirements ≠ .nilSlice

/-- cyclonedx.go:1416-1427 -/
def StandardDefinition.Fits (v : Int) (x : StandardDefinition) : Prop :=
  x.requirements ≠ .nilSlice ∧ (∀ y ∈ x.requirements.elems, StandardRequirement.Fits v y) ∧
  x.levels ≠ .nilSlice ∧ (∀ y ∈ x.levels.elems, StandardLevel.Fits v y) ∧
  x.externalReferences ≠ .nilSlice ∧ (∀ y ∈ x.externalReferences.elems, ExternalReference.Fits v y) ∧
  (∀ y ∈ x.signature, JSFSignature.Fits v y)

/-- cyclonedx.go:598-601 -/
def Definitions.Fits (v : Int) (x : Definitions) : Prop :=
  x.standards ≠ .nilSlice ∧ (∀ y ∈ x.standards.elems, StandardDefinition.Fits v y) ∧
  (x.patents = .nil ∨ SpecVersion1_7 ≤ v ∧ x.patents ≠ .nilSlice ∧ ∀ y ∈ x.patents.elems, PatentChoice.Fits v y)

/-- cyclonedx.go:644-648 -/
def Dependency.Fits (v : Int) (x : Dependency) : Prop :=
  x.dependencies ≠ .nilSlice ∧
  (x.provides = .nil ∨ SpecVersion1_6 ≤ v ∧ x.provides ≠ .nilSlice)

/-- cyclonedx.go:1337-1340 -/
def ResourceReferenceChoice.Fits (v : Int) (x : ResourceReferenceChoice) : Prop :=
  (∀ y ∈ x.externalReference, ExternalReference.Fits v y)

/-- cyclonedx.go:1482-1490 -/
def TaskInput.Fits (v : Int) (x : TaskInput) : Prop :=
  (∀ y ∈ x.resource, ResourceReferenceChoice.Fits v y) ∧
  x.parameters ≠ .nilSlice ∧
  x.environmentVars ≠ .nilSlice ∧
  (∀ y ∈ x.source, ResourceReferenceChoice.Fits v y) ∧
  (∀ y ∈ x.target, ResourceReferenceChoice.Fits v y) ∧
  x.properties ≠ .nilSlice

/-- cyclonedx.go:1492-1501 -/
def TaskOutput.Fits (v : Int) (x : TaskOutput) : Prop :=
  (∀ y ∈ x.resource, ResourceReferenceChoice.Fits v y) ∧
  x.parameters = .nil ∧
  x.environmentVars ≠ .nilSlice ∧
  (∀ y ∈ x.source, ResourceReferenceChoice.Fits v y) ∧
  (∀ y ∈ x.target, ResourceReferenceChoice.Fits v y) ∧
  x.properties ≠ .nilSlice

/-- cyclonedx.go:1477-1480 -/
def TaskCommand.Fits (_v : Int) (x : TaskCommand) : Prop :=
  x.properties ≠ .nilSlice

/-- cyclonedx.go:1514-1519 -/
def TaskStep.Fits (v : Int) (x : TaskStep) : Prop :=
  x.commands ≠ .nilSlice ∧ (∀ y ∈ x.commands.elems, TaskCommand.Fits v y) ∧
  x.properties ≠ .nilSlice

/-- cyclonedx.go:662-670 -/
def Event.Fits (v : Int) (x : Event) : Prop :=
  (∀ y ∈ x.source, ResourceReferenceChoice.Fits v y) ∧
  (∀ y ∈ x.target, ResourceReferenceChoice.Fits v y) ∧
  x.properties ≠ .nilSlice

/-- cyclonedx.go:1536-1540 -/
def TaskTriggerCondition.Fits (_v : Int) (x : TaskTriggerCondition) : Prop :=
  x.properties ≠ .nilSlice

/-- cyclonedx.go:1521-1534 -/
def TaskTrigger.Fits (v : Int) (x : TaskTrigger) : Prop :=
  x.resourceReferences ≠ .nilSlice ∧ (∀ y ∈ x.resourceReferences.elems, ResourceReferenceChoice.Fits v y) ∧
  (∀ y ∈ x.event, Event.Fits v y) ∧
  x.conditions ≠ .nilSlice ∧ (∀ y ∈ x.conditions.elems, TaskTriggerCondition.Fits v y) ∧
  x.inputs ≠ .nilSlice ∧ (∀ y ∈ x.inputs.elems, TaskInput.Fits v y) ∧
  x.outputs ≠ .nilSlice ∧ (∀ y ∈ x.outputs.elems, TaskOutput.Fits v y) ∧
  x.properties ≠ .nilSlice

/-- cyclonedx.go:1616-1625 -/
def Volume.Fits (_v : Int) (x : Volume) : Prop :=
  x.properties ≠ .nilSlice

/-- cyclonedx.go:1568-1581 -/
def TaskWorkspace.Fits (v : Int) (x : TaskWorkspace) : Prop :=
  x.aliases ≠ .nilSlice ∧
  x.resourceReferences ≠ .nilSlice ∧ (∀ y ∈ x.resourceReferences.elems, ResourceReferenceChoice.Fits v y) ∧
  (∀ y ∈ x.volume, Volume.Fits v y) ∧
  x.properties ≠ .nilSlice

/-- cyclonedx.go:1459-1475 -/
def Task.Fits (v : Int) (x : Task) : Prop :=
  x.properties ≠ .nilSlice ∧
  x.resourceReferences ≠ .nilSlice ∧ (∀ y ∈ x.resourceReferences.elems, ResourceReferenceChoice.Fits v y) ∧
  x.taskTypes ≠ .nilSlice ∧
  (∀ y ∈ x.trigger, TaskTrigger.Fits v y) ∧
  x.steps ≠ .nilSlice ∧ (∀ y ∈ x.steps.elems, TaskStep.Fits v y) ∧
  x.inputs ≠ .nilSlice ∧ (∀ y ∈ x.inputs.elems, TaskInput.Fits v y) ∧
  x.outputs ≠ .nilSlice ∧ (∀ y ∈ x.outputs.elems, TaskOutput.Fits v y) ∧
  x.workspaces ≠ .nilSlice ∧ (∀ y ∈ x.workspaces.elems, TaskWorkspace.Fits v y) ∧
  x.runtimeTopology ≠ .nilSlice ∧ (∀ y ∈ x.runtimeTopology.elems, Dependency.Fits v y)

/-- cyclonedx.go:1689-1707 -/
def Workflow.Fits (v : Int) (x : Workflow) : Prop :=
  x.resourceReferences ≠ .nilSlice ∧ (∀ y ∈ x.resourceReferences.elems, ResourceReferenceChoice.Fits v y) ∧
  x.tasks ≠ .nilSlice ∧ (∀ y ∈ x.tasks.elems, Task.Fits v y) ∧
  x.taskDependencies ≠ .nilSlice ∧ (∀ y ∈ x.taskDependencies.elems, Dependency.Fits v y) ∧
  x.taskTypes ≠ .nilSlice ∧
  (∀ y ∈ x.trigger, TaskTrigger.Fits v y) ∧
  x.steps ≠ .nilSlice ∧ (∀ y ∈ x.steps.elems, TaskStep.Fits v y) ∧
  x.inputs ≠ .nilSlice ∧ (∀ y ∈ x.inputs.elems, TaskInput.Fits v y) ∧
  x.outputs ≠ .nilSlice ∧ (∀ y ∈ x.outputs.elems, TaskOutput.Fits v y) ∧
  x.workspaces ≠ .nilSlice ∧ (∀ y ∈ x.workspaces.elems, TaskWorkspace.Fits v y) ∧
  x.runtimeTopology ≠ .nilSlice ∧ (∀ y ∈ x.runtimeTopology.elems, Dependency.Fits v y) ∧
  x.properties ≠ .nilSlice

/-- cyclonedx.go:800-806 -/
def Formula.Fits (v : Int) (x : Formula) : Prop :=
  x.components ≠ .nilSlice ∧ (∀ y ∈ x.components.elems, Component.Fits v y) ∧
  x.services ≠ .nilSlice ∧ (∀ y ∈ x.services.elems, Service.Fits v y) ∧
  x.workflows ≠ .nilSlice ∧ (∀ y ∈ x.workflows.elems, Workflow.Fits v y) ∧
  x.properties ≠ .nilSlice

/-- cyclonedx.go:1594-1600 -/
def Tool.Fits (v : Int) (x : Tool) : Prop :=
  x.hashes ≠ .nilSlice ∧
  (x.externalReferences = .nil ∨ SpecVersion1_4 ≤ v ∧ x.externalReferences ≠ .nilSlice ∧ ∀ y ∈ x.externalReferences.elems, ExternalReference.Fits v y)

/-- cyclonedx.go:1610-1614; the form with components and services is declared from version 1.5 on. -/
def ToolsChoice.Fits (v : Int) (x : ToolsChoice) : Prop :=
  (x.tools ≠ .nilSlice ∧ ∀ y ∈ x.tools.elems, Tool.Fits v y) ∧
  (x.components = .nil ∧ x.services = .nil ∨ SpecVersion1_5 ≤ v ∧
    (x.components ≠ .nilSlice ∧ ∀ y ∈ x.components.elems, Component.Fits v y) ∧
    (x.services ≠ .nilSlice ∧ ∀ y ∈ x.services.elems, Service.Fits v y))

/-- cyclonedx.go:1042-1054 -/
def Metadata.Fits (v : Int) (x : Metadata) : Prop :=
  (x.lifecycles = .nil ∨ SpecVersion1_5 ≤ v ∧ x.lifecycles ≠ .nilSlice) ∧
  (∀ y ∈ x.tools, ToolsChoice.Fits v y) ∧
  x.authors ≠ .nilSlice ∧ (∀ y ∈ x.authors.elems, OrganizationalContact.Fits v y) ∧
  (∀ y ∈ x.component, Component.Fits v y) ∧
  (∀ y ∈ x.manufacture, OrganizationalEntity.Fits v y) ∧
  (x.manufacturer = none ∨ SpecVersion1_6 ≤ v ∧ ∀ y ∈ x.manufacturer, OrganizationalEntity.Fits v y) ∧
  (∀ y ∈ x.supplier, OrganizationalEntity.Fits v y) ∧
  (x.licenses = .nil ∨ SpecVersion1_3 ≤ v ∧ x.licenses ≠ .nilSlice ∧ ∀ y ∈ x.licenses.elems, LicenseChoice.Fits v y) ∧
  (x.properties = .nil ∨ SpecVersion1_3 ≤ v ∧ x.properties ≠ .nilSlice) ∧
  (x.distributionConstraints = none ∨ SpecVersion1_7 ≤ v)

/-- cyclonedx.go:349-352 -/
def Credits.Fits (v : Int) (x : Credits) : Prop :=
  x.organizations ≠ .nilSlice ∧ (∀ y ∈ x.organizations.elems, OrganizationalEntity.Fits v y) ∧
  x.individuals ≠ .nilSlice ∧ (∀ y ∈ x.individuals.elems, OrganizationalContact.Fits v y)

/-- cyclonedx.go:1271-1275 -/
def ProofOfConcept.Fits (_v : Int) (x : ProofOfConcept) : Prop :=
  x.supportingMaterial ≠ .nilSlice

/-- cyclonedx.go:1658-1665 -/
def VulnerabilityAnalysis.Fits (v : Int) (x : VulnerabilityAnalysis) : Prop :=
  x.response ≠ .nilSlice ∧
  (x.firstIssued = "" ∨ SpecVersion1_5 ≤ v) ∧
  (x.lastUpdated = "" ∨ SpecVersion1_5 ≤ v)

/-- cyclonedx.go:1634-1656 -/
def Vulnerability.Fits (v : Int) (x : Vulnerability) : Prop :=
  x.references ≠ .nilSlice ∧
  x.ratings ≠ .nilSlice ∧
  x.cwes ≠ .nilSlice ∧
  (x.workaround = "" ∨ SpecVersion1_5 ≤ v) ∧
  (x.proofOfConcept = none ∨ SpecVersion1_5 ≤ v ∧ ∀ y ∈ x.proofOfConcept, ProofOfConcept.Fits v y) ∧
  x.advisories ≠ .nilSlice ∧
  (x.rejected = "" ∨ SpecVersion1_5 ≤ v) ∧
  (∀ y ∈ x.credits, Credits.Fits v y) ∧
  (∀ y ∈ x.tools, ToolsChoice.Fits v y) ∧
  (∀ y ∈ x.analysis, VulnerabilityAnalysis.Fits v y) ∧
  x.affects ≠ .nilSlice ∧ (∀ y ∈ x.affects.elems, Affects.Fits v y) ∧
  x.properties ≠ .nilSlice

/-- cyclonedx.go:1712-1721 -/
def Citation.Fits (v : Int) (x : Citation) : Prop :=
  x.pointers ≠ .nilSlice ∧
  x.expressions ≠ .nilSlice ∧
  (∀ y ∈ x.signature, JSFSignature.Fits v y)

/-- cyclonedx.go:105-131 -/
def BOM.Fits (v : Int) (x : BOM) : Prop :=
  (∀ y ∈ x.metadata, Metadata.Fits v y) ∧
  x.components ≠ .nilSlice ∧ (∀ y ∈ x.components.elems, Component.Fits v y) ∧
  x.services ≠ .nilSlice ∧ (∀ y ∈ x.services.elems, Service.Fits v y) ∧
  x.externalReferences ≠ .nilSlice ∧ (∀ y ∈ x.externalReferences.elems, ExternalReference.Fits v y) ∧
  x.dependencies ≠ .nilSlice ∧ (∀ y ∈ x.dependencies.elems, Dependency.Fits v y) ∧
  (x.compositions = .nil ∨ SpecVersion1_3 ≤ v ∧ x.compositions ≠ .nilSlice ∧ ∀ y ∈ x.compositions.elems, Composition.Fits v y) ∧
  (x.properties = .nil ∨ SpecVersion1_5 ≤ v ∧ x.properties ≠ .nilSlice) ∧
  (x.vulnerabilities = .nil ∨ SpecVersion1_4 ≤ v ∧ x.vulnerabilities ≠ .nilSlice ∧ ∀ y ∈ x.vulnerabilities.elems, Vulnerability.Fits v y) ∧
  (x.annotations = .nil ∨ SpecVersion1_5 ≤ v ∧ x.annotations ≠ .nilSlice ∧ ∀ y ∈ x.annotations.elems, Annotation.Fits v y) ∧
  (x.formulation = .nil ∨ SpecVersion1_5 ≤ v ∧ x.formulation ≠ .nilSlice ∧ ∀ y ∈ x.formulation.elems, Formula.Fits v y) ∧
  (x.declarations = none ∨ SpecVersion1_6 ≤ v ∧ ∀ y ∈ x.declarations, Declarations.Fits v y) ∧
  (x.definitions = none ∨ SpecVersion1_6 ≤ v ∧ ∀ y ∈ x.definitions, Definitions.Fits v y) ∧
  (x.citations = .nil ∨ SpecVersion1_7 ≤ v ∧ x.citations ≠ .nilSlice ∧ ∀ y ∈ x.citations.elems, Citation.Fits v y) ∧
  (x.signature = none ∨ SpecVersion1_4 ≤ v ∧ ∀ y ∈ x.signature, JSFSignature.Fits v y)

end Verif
