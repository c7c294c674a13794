import Verif.Model.Types

/-!
# The values that JSON can represent

GENERATED by `tools/gen_plain.py` from the struct declarations of `/repo/cyclonedx.go`; do not edit by
hand.

`T.Plain x` says that `x` uses only what the JSON format of the library can tell apart: no pointer to a nil
slice anywhere, a version that has a name or none, choice types hold one alternative, the fields that are not part of the JSON format
(tag `json:"-"`) are unset, and integers are Go integers.  It is stated on the values alone, without
reference to how they are written or read.
-/

namespace Verif

/-- Not a pointer to a nil slice, and every element satisfies `P`. -/
def PSlice.Each {α : Type} (P : α → Prop) (p : PSlice α) : Prop := p ≠ .nilSlice ∧ ∀ x ∈ p.elems, P x

/-- cyclonedx.go:35-38 -/
def Advisory.Plain (_ : Advisory) : Prop :=
  True

/-- cyclonedx.go:40-44 -/
def AffectedVersions.Plain (_ : AffectedVersions) : Prop :=
  True

/-- cyclonedx.go:46-49 -/
def Affects.Plain (x : Affects) : Prop :=
  x.range.Each AffectedVersions.Plain

/-- cyclonedx.go:73-77 -/
def AttachedText.Plain (_ : AttachedText) : Prop :=
  True

/-- cyclonedx.go:1277-1280 -/
def Property.Plain (_ : Property) : Prop :=
  True

/-- cyclonedx.go:290-294 -/
def ComponentDataContents.Plain (x : ComponentDataContents) : Prop :=
  (∀ y ∈ x.attachment, AttachedText.Plain y) ∧
  x.properties.Each Property.Plain

/-- cyclonedx.go:301-304 -/
def ComponentDataGraphic.Plain (x : ComponentDataGraphic) : Prop :=
  (∀ y ∈ x.image, AttachedText.Plain y)

/-- cyclonedx.go:306-309 -/
def ComponentDataGraphics.Plain (x : ComponentDataGraphics) : Prop :=
  x.collection.Each ComponentDataGraphic.Plain

/-- cyclonedx.go:1211-1216 -/
def OrganizationalContact.Plain (_ : OrganizationalContact) : Prop :=
  True

/-- cyclonedx.go:1261-1269 -/
def PostalAddress.Plain (_ : PostalAddress) : Prop :=
  True

/-- cyclonedx.go:1218-1224 -/
def OrganizationalEntity.Plain (x : OrganizationalEntity) : Prop :=
  (∀ y ∈ x.address, PostalAddress.Plain y) ∧
  x.url ≠ .nilSlice ∧
  x.contact.Each OrganizationalContact.Plain

/-- cyclonedx.go:296-299 -/
def ComponentDataGovernanceResponsibleParty.Plain (x : ComponentDataGovernanceResponsibleParty) : Prop :=
  (∀ y ∈ x.organization, OrganizationalEntity.Plain y) ∧
  (∀ y ∈ x.contact, OrganizationalContact.Plain y)

/-- cyclonedx.go:570-574 -/
def DataGovernance.Plain (x : DataGovernance) : Prop :=
  x.custodians.Each ComponentDataGovernanceResponsibleParty.Plain ∧
  x.stewards.Each ComponentDataGovernanceResponsibleParty.Plain ∧
  x.owners.Each ComponentDataGovernanceResponsibleParty.Plain

/-- cyclonedx.go:278-288 -/
def ComponentData.Plain (x : ComponentData) : Prop :=
  (∀ y ∈ x.contents, ComponentDataContents.Plain y) ∧
  x.sensitiveData ≠ .nilSlice ∧
  (∀ y ∈ x.graphics, ComponentDataGraphics.Plain y) ∧
  (∀ y ∈ x.governance, DataGovernance.Plain y)

/-- cyclonedx.go:808-811 -/
def Hash.Plain (_ : Hash) : Prop :=
  True

/-- cyclonedx.go:1866-1869 -/
def RelatedCryptographicAsset.Plain (_ : RelatedCryptographicAsset) : Prop :=
  True

/-- cyclonedx.go:1880-1883 -/
def PredefinedCertificateState.Plain (_ : PredefinedCertificateState) : Prop :=
  True

/-- cyclonedx.go:1886-1890 -/
def CustomCertificateState.Plain (_ : CustomCertificateState) : Prop :=
  True

/-- Either a predefined state that is not the empty string, or a custom one. -/
def CertificateState.Plain (x : CertificateState) : Prop :=
  (∃ p, p.Plain ∧ p.state ≠ "" ∧ x = { predefined := some p }) ∨ (∃ q, q.Plain ∧ x = { custom := some q })

/-- cyclonedx.go:1913-1916 -/
def CommonCertificateExtension.Plain (_ : CommonCertificateExtension) : Prop :=
  True

/-- cyclonedx.go:1919-1922 -/
def CustomCertificateExtension.Plain (_ : CustomCertificateExtension) : Prop :=
  True

/-- Either a common extension with a name, or a custom one. -/
def CertificateExtension.Plain (x : CertificateExtension) : Prop :=
  (∃ p, p.Plain ∧ p.name ≠ "" ∧ x = { common := some p }) ∨ (∃ q, q.Plain ∧ x = { custom := some q })

/-- cyclonedx.go:171-191 -/
def CertificateProperties.Plain (x : CertificateProperties) : Prop :=
  (∀ y ∈ x.fingerprint, Hash.Plain y) ∧
  x.certificateState.Each CertificateState.Plain ∧
  x.certificateExtensions.Each CertificateExtension.Plain ∧
  x.relatedCryptographicAssets.Each RelatedCryptographicAsset.Plain

/-- cyclonedx.go:368-382 -/
def CryptoAlgorithmProperties.Plain (x : CryptoAlgorithmProperties) : Prop :=
  x.certificationLevel ≠ .nilSlice ∧
  x.cryptoFunctions ≠ .nilSlice ∧
  (∀ y ∈ x.classicalSecurityLevel, InInt64 y) ∧
  (∀ y ∈ x.nistQuantumSecurityLevel, InInt64 y)

/-- cyclonedx.go:205-211 -/
def CipherSuite.Plain (x : CipherSuite) : Prop :=
  x.algorithms ≠ .nilSlice ∧
  x.identifiers ≠ .nilSlice ∧
  x.tlsGroups ≠ .nilSlice ∧
  x.tlsSignatureSchemes ≠ .nilSlice

/-- Either a reference alone, or everything but a reference (cyclonedx.go:1826-1830). -/
def IKEv2Auth.Plain (x : IKEv2Auth) : Prop :=
  x = { bomRef := x.bomRef } ∨ x.bomRef.val = ""

/-- Either a reference alone, or everything but a reference (cyclonedx.go:1834-1839). -/
def IKEv2Enc.Plain (x : IKEv2Enc) : Prop :=
  x = { bomRef := x.bomRef } ∨ x.bomRef.val = "" ∧ (∀ y ∈ x.keyLength, InInt64 y)

/-- Either a reference alone, or everything but a reference (cyclonedx.go:1843-1847). -/
def IKEv2Integ.Plain (x : IKEv2Integ) : Prop :=
  x = { bomRef := x.bomRef } ∨ x.bomRef.val = ""

/-- Either a reference alone, or everything but a reference (cyclonedx.go:1851-1855). -/
def IKEv2Ke.Plain (x : IKEv2Ke) : Prop :=
  x = { bomRef := x.bomRef } ∨ x.bomRef.val = "" ∧ (∀ y ∈ x.group, InInt64 y)

/-- Either a reference alone, or everything but a reference (cyclonedx.go:1859-1863). -/
def IKEv2Prf.Plain (x : IKEv2Prf) : Prop :=
  x = { bomRef := x.bomRef } ∨ x.bomRef.val = ""

/-- cyclonedx.go:537-544 -/
def IKEv2TransformTypes.Plain (x : IKEv2TransformTypes) : Prop :=
  x.encr.Each IKEv2Enc.Plain ∧
  x.prf.Each IKEv2Prf.Plain ∧
  x.integ.Each IKEv2Integ.Plain ∧
  x.ke.Each IKEv2Ke.Plain ∧
  x.auth.Each IKEv2Auth.Plain

/-- cyclonedx.go:509-516 -/
def CryptoProtocolProperties.Plain (x : CryptoProtocolProperties) : Prop :=
  x.cipherSuites.Each CipherSuite.Plain ∧
  (∀ y ∈ x.ikev2TransformTypes, IKEv2TransformTypes.Plain y) ∧
  x.cryptoRefArray ≠ .nilSlice ∧
  x.relatedCryptographicAssets.Each RelatedCryptographicAsset.Plain

/-- cyclonedx.go:546-549 -/
def SecuredBy.Plain (_ : SecuredBy) : Prop :=
  True

/-- cyclonedx.go:1282-1297 -/
def RelatedCryptoMaterialProperties.Plain (x : RelatedCryptoMaterialProperties) : Prop :=
  (∀ y ∈ x.size, InInt64 y) ∧
  (∀ y ∈ x.securedBy, SecuredBy.Plain y) ∧
  (∀ y ∈ x.fingerprint, Hash.Plain y) ∧
  x.relatedCryptographicAssets.Each RelatedCryptographicAsset.Plain

/-- cyclonedx.go:500-507 -/
def CryptoProperties.Plain (x : CryptoProperties) : Prop :=
  (∀ y ∈ x.algorithmProperties, CryptoAlgorithmProperties.Plain y) ∧
  (∀ y ∈ x.certificateProperties, CertificateProperties.Plain y) ∧
  (∀ y ∈ x.relatedCryptoMaterialProperties, RelatedCryptoMaterialProperties.Plain y) ∧
  (∀ y ∈ x.protocolProperties, CryptoProtocolProperties.Plain y)

/-- cyclonedx.go:161-169 -/
def CallstackFrame.Plain (x : CallstackFrame) : Prop :=
  x.parameters ≠ .nilSlice ∧
  (∀ y ∈ x.line, InInt64 y) ∧
  (∀ y ∈ x.column, InInt64 y)

/-- cyclonedx.go:157-159 -/
def Callstack.Plain (x : Callstack) : Prop :=
  x.frames.Each CallstackFrame.Plain

/-- cyclonedx.go:345-347 -/
def Copyright.Plain (_ : Copyright) : Prop :=
  True

/-- cyclonedx.go:710-714 -/
def EvidenceIdentityMethod.Plain (_ : EvidenceIdentityMethod) : Prop :=
  True

/-- cyclonedx.go:688-694 -/
def EvidenceIdentity.Plain (x : EvidenceIdentity) : Prop :=
  x.methods.Each EvidenceIdentityMethod.Plain ∧
  x.tools ≠ .nilSlice

/-- Either one identity or a list of identities. -/
def EvidenceIdentityChoice.Plain (x : EvidenceIdentityChoice) : Prop :=
  (∃ i, i.Plain ∧ x = { identity := some i }) ∨
  (∃ ids : List EvidenceIdentity, (∀ i ∈ ids, i.Plain) ∧ x = { identities := .list ids })

/-- cyclonedx.go:731-738 -/
def EvidenceOccurrence.Plain (x : EvidenceOccurrence) : Prop :=
  (∀ y ∈ x.line, InInt64 y) ∧
  (∀ y ∈ x.offset, InInt64 y)

/-- cyclonedx.go:1226-1229 -/
def OrganizationalEntityOrContact.Plain (x : OrganizationalEntityOrContact) : Prop :=
  (∀ y ∈ x.organization, OrganizationalEntity.Plain y) ∧
  (∀ y ∈ x.individual, OrganizationalContact.Plain y)

/-- cyclonedx.go:995-1004 -/
def Licensing.Plain (x : Licensing) : Prop :=
  x.altIDs ≠ .nilSlice ∧
  (∀ y ∈ x.licensor, OrganizationalEntityOrContact.Plain y) ∧
  (∀ y ∈ x.licensee, OrganizationalEntityOrContact.Plain y) ∧
  (∀ y ∈ x.purchaser, OrganizationalEntityOrContact.Plain y) ∧
  x.licenseTypes ≠ .nilSlice

/-- cyclonedx.go:936-945 -/
def License.Plain (x : License) : Prop :=
  (∀ y ∈ x.text, AttachedText.Plain y) ∧
  (∀ y ∈ x.licensing, Licensing.Plain y) ∧
  x.properties.Each Property.Plain

/-- cyclonedx.go:967-972 -/
def LicenseExpressionDetail.Plain (x : LicenseExpressionDetail) : Prop :=
  (∀ y ∈ x.text, AttachedText.Plain y)

/-- cyclonedx.go:956-964 -/
def LicenseChoice.Plain (x : LicenseChoice) : Prop :=
  (∀ y ∈ x.license, License.Plain y) ∧
  x.expressionDetails.Each LicenseExpressionDetail.Plain ∧
  (∀ y ∈ x.licensing, Licensing.Plain y) ∧
  x.properties.Each Property.Plain

/-- cyclonedx.go:672-678 -/
def Evidence.Plain (x : Evidence) : Prop :=
  (∀ y ∈ x.identity, EvidenceIdentityChoice.Plain y) ∧
  x.occurrences.Each EvidenceOccurrence.Plain ∧
  (∀ y ∈ x.callstack, Callstack.Plain y) ∧
  x.licenses.Each LicenseChoice.Plain ∧
  x.copyright.Each Copyright.Plain

/-- cyclonedx.go:740-746 -/
def ExternalReference.Plain (x : ExternalReference) : Prop :=
  x.hashes.Each Hash.Plain ∧
  x.properties.Each Property.Plain

/-- cyclonedx.go:925-934 -/
def JSFPublicKey.Plain (_ : JSFPublicKey) : Prop :=
  True

/-- cyclonedx.go:916-923 -/
def JSFSigner.Plain (x : JSFSigner) : Prop :=
  JSFPublicKey.Plain x.publicKey ∧
  x.certificatePath ≠ .nilSlice ∧
  x.excludes ≠ .nilSlice

/-- cyclonedx.go:909-914 -/
def JSFSignature.Plain (x : JSFSignature) : Prop :=
  x.jsfSigner = none ∧
  x.signers.Each JSFSigner.Plain ∧
  x.chain.Each JSFSigner.Plain

/-- cyclonedx.go:1099-1102 -/
def MLModelCO2Measure.Plain (_ : MLModelCO2Measure) : Prop :=
  True

/-- cyclonedx.go:1131-1134 -/
def MLModelEnergyMeasure.Plain (_ : MLModelEnergyMeasure) : Prop :=
  True

/-- cyclonedx.go:1136-1143 -/
def MLModelEnergyProvider.Plain (x : MLModelEnergyProvider) : Prop :=
  (∀ y ∈ x.organization, OrganizationalEntity.Plain y) ∧
  (∀ y ∈ x.energyProvided, MLModelEnergyMeasure.Plain y) ∧
  x.externalReferences.Each ExternalReference.Plain

/-- cyclonedx.go:1108-1115 -/
def MLModelEnergyConsumption.Plain (x : MLModelEnergyConsumption) : Prop :=
  x.energyProviders.Each MLModelEnergyProvider.Plain ∧
  MLModelEnergyMeasure.Plain x.activityEnergyCost ∧
  (∀ y ∈ x.co2CostEquivalent, MLModelCO2Measure.Plain y) ∧
  (∀ y ∈ x.co2CostOffset, MLModelCO2Measure.Plain y) ∧
  x.properties.Each Property.Plain

/-- cyclonedx.go:1082-1085 -/
def MLModelCardEnvironmentalConsiderations.Plain (x : MLModelCardEnvironmentalConsiderations) : Prop :=
  x.energyConsumptions.Each MLModelEnergyConsumption.Plain ∧
  x.properties.Each Property.Plain

/-- cyclonedx.go:1087-1090 -/
def MLModelCardEthicalConsideration.Plain (_ : MLModelCardEthicalConsideration) : Prop :=
  True

/-- cyclonedx.go:1092-1097 -/
def MLModelCardFairnessAssessment.Plain (_ : MLModelCardFairnessAssessment) : Prop :=
  True

/-- cyclonedx.go:1072-1080 -/
def MLModelCardConsiderations.Plain (x : MLModelCardConsiderations) : Prop :=
  x.users ≠ .nilSlice ∧
  x.useCases ≠ .nilSlice ∧
  x.technicalLimitations ≠ .nilSlice ∧
  x.performanceTradeoffs ≠ .nilSlice ∧
  x.ethicalConsiderations.Each MLModelCardEthicalConsideration.Plain ∧
  (∀ y ∈ x.environmentalConsiderations, MLModelCardEnvironmentalConsiderations.Plain y) ∧
  x.fairnessAssessments.Each MLModelCardFairnessAssessment.Plain

/-- Either a reference, or a component data that is not empty (or nothing). -/
def MLDatasetChoice.Plain (x : MLDatasetChoice) : Prop :=
  (x.ref = "" ∨ x.componentData = none) ∧ ∀ d ∈ x.componentData, d.Plain ∧ d ≠ {}

/-- cyclonedx.go:1061-1063 -/
def MLInputOutputParameters.Plain (_ : MLInputOutputParameters) : Prop :=
  True

/-- cyclonedx.go:1175-1177 -/
def MLModelParametersApproach.Plain (_ : MLModelParametersApproach) : Prop :=
  True

/-- cyclonedx.go:1165-1173 -/
def MLModelParameters.Plain (x : MLModelParameters) : Prop :=
  (∀ y ∈ x.approach, MLModelParametersApproach.Plain y) ∧
  x.datasets.Each MLDatasetChoice.Plain ∧
  x.inputs.Each MLInputOutputParameters.Plain ∧
  x.outputs.Each MLInputOutputParameters.Plain

/-- cyclonedx.go:1201-1204 -/
def MLPerformanceMetricConfidenceInterval.Plain (_ : MLPerformanceMetricConfidenceInterval) : Prop :=
  True

/-- cyclonedx.go:1194-1199 -/
def MLPerformanceMetric.Plain (x : MLPerformanceMetric) : Prop :=
  (∀ y ∈ x.confidenceInterval, MLPerformanceMetricConfidenceInterval.Plain y)

/-- cyclonedx.go:1189-1192 -/
def MLQuantitativeAnalysis.Plain (x : MLQuantitativeAnalysis) : Prop :=
  x.performanceMetrics.Each MLPerformanceMetric.Plain ∧
  (∀ y ∈ x.graphics, ComponentDataGraphics.Plain y)

/-- cyclonedx.go:1065-1070 -/
def MLModelCard.Plain (x : MLModelCard) : Prop :=
  (∀ y ∈ x.modelParameters, MLModelParameters.Plain y) ∧
  (∀ y ∈ x.quantitativeAnalysis, MLQuantitativeAnalysis.Plain y) ∧
  (∀ y ∈ x.considerations, MLModelCardConsiderations.Plain y)

/-- cyclonedx.go:832-836 -/
def IdentifiableAction.Plain (_ : IdentifiableAction) : Prop :=
  True

/-- cyclonedx.go:231-237 -/
def Commit.Plain (x : Commit) : Prop :=
  (∀ y ∈ x.author, IdentifiableAction.Plain y) ∧
  (∀ y ∈ x.committer, IdentifiableAction.Plain y)

/-- cyclonedx.go:650-653 -/
def Diff.Plain (x : Diff) : Prop :=
  (∀ y ∈ x.text, AttachedText.Plain y)

/-- cyclonedx.go:1398-1401 -/
def Source.Plain (_ : Source) : Prop :=
  True

/-- cyclonedx.go:892-899 -/
def Issue.Plain (x : Issue) : Prop :=
  (∀ y ∈ x.source, Source.Plain y) ∧
  x.references ≠ .nilSlice

/-- cyclonedx.go:1237-1241 -/
def Patch.Plain (x : Patch) : Prop :=
  (∀ y ∈ x.diff, Diff.Plain y) ∧
  x.resolves.Each Issue.Plain

/-- cyclonedx.go:1206-1209 -/
def Note.Plain (x : Note) : Prop :=
  AttachedText.Plain x.text

/-- cyclonedx.go:1323-1335 -/
def ReleaseNotes.Plain (x : ReleaseNotes) : Prop :=
  x.aliases ≠ .nilSlice ∧
  x.tags ≠ .nilSlice ∧
  x.resolves.Each Issue.Plain ∧
  x.notes.Each Note.Plain ∧
  x.properties.Each Property.Plain

/-- cyclonedx.go:1449-1457 -/
def SWID.Plain (x : SWID) : Prop :=
  (∀ y ∈ x.text, AttachedText.Plain y) ∧
  (∀ y ∈ x.tagVersion, InInt64 y)

/-- An organization, an individual or a reference (or nothing). -/
def AsserterChoice.Plain (x : AsserterChoice) : Prop :=
  (∃ o, o.Plain ∧ x = { organization := some o }) ∨ (∃ i, i.Plain ∧ x = { individual := some i }) ∨
    (∃ r, x = { bomRef := some r }) ∨ x = {}

/-- cyclonedx.go:1779-1785 -/
def PatentAssertion.Plain (x : PatentAssertion) : Prop :=
  x.patentRefs ≠ .nilSlice ∧
  (∀ y ∈ x.asserter, AsserterChoice.Plain y)

mutual
/-- cyclonedx.go:239-276 -/
def Component.Plain : Component → Prop
  | .mk _ _ _ supplier manufacturer _ authors _ _ _ _ _ _ hashes licenses _ _ _ omniborID swhid swid _ pedigree externalReferences properties components evidence releaseNotes modelCard data cryptoProperties tags _ patentAssertions _ signature =>
    (∀ y ∈ supplier, OrganizationalEntity.Plain y) ∧
    (∀ y ∈ manufacturer, OrganizationalEntity.Plain y) ∧
    authors.Each OrganizationalContact.Plain ∧
    hashes.Each Hash.Plain ∧
    licenses.Each LicenseChoice.Plain ∧
    omniborID ≠ .nilSlice ∧
    swhid ≠ .nilSlice ∧
    (∀ y ∈ swid, SWID.Plain y) ∧
    PlainPedigreeOpt pedigree ∧
    externalReferences.Each ExternalReference.Plain ∧
    properties.Each Property.Plain ∧
    PlainComponents components ∧
    (∀ y ∈ evidence, Evidence.Plain y) ∧
    (∀ y ∈ releaseNotes, ReleaseNotes.Plain y) ∧
    (∀ y ∈ modelCard, MLModelCard.Plain y) ∧
    data.Each ComponentData.Plain ∧
    (∀ y ∈ cryptoProperties, CryptoProperties.Plain y) ∧
    tags ≠ .nilSlice ∧
    patentAssertions.Each PatentAssertion.Plain ∧
    (∀ y ∈ signature, JSFSignature.Plain y)
/-- A list of components, at any depth. -/
def PlainComponents : PSlice Component → Prop
  | .nil => True
  | .nilSlice => False
  | .list xs => PlainComponentList xs
/-- A list of components, at any depth. -/
def PlainComponentList : List Component → Prop
  | [] => True
  | c :: cs => c.Plain ∧ PlainComponentList cs
/-- An optional pedigree. -/
def PlainPedigreeOpt : Option (Pedigree Component) → Prop
  | none => True
  | some p => PlainPedigree p
/-- cyclonedx.go:1252-1259 -/
def PlainPedigree : Pedigree Component → Prop
  | .mk ancestors descendants variants commits patches _ =>
    PlainComponents ancestors ∧
    PlainComponents descendants ∧
    PlainComponents variants ∧
    commits.Each Commit.Plain ∧
    patches.Each Patch.Plain
end

/-- cyclonedx.go:551-559 -/
def DataClassification.Plain (x : DataClassification) : Prop :=
  (∀ y ∈ x.governance, DataGovernance.Plain y) ∧
  x.source ≠ .nilSlice ∧
  x.destination ≠ .nilSlice

mutual
/-- cyclonedx.go:1362-1382 -/
def Service.Plain : Service → Prop
  | .mk _ provider _ _ _ _ endpoints _ _ data licenses externalReferences properties services releaseNotes tags _ patentAssertions signature =>
    (∀ y ∈ provider, OrganizationalEntity.Plain y) ∧
    endpoints ≠ .nilSlice ∧
    data.Each DataClassification.Plain ∧
    licenses.Each LicenseChoice.Plain ∧
    externalReferences.Each ExternalReference.Plain ∧
    properties.Each Property.Plain ∧
    PlainServices services ∧
    (∀ y ∈ releaseNotes, ReleaseNotes.Plain y) ∧
    tags ≠ .nilSlice ∧
    patentAssertions.Each PatentAssertion.Plain ∧
    (∀ y ∈ signature, JSFSignature.Plain y)
/-- A list of services, at any depth. -/
def PlainServices : PSlice Service → Prop
  | .nil => True
  | .nilSlice => False
  | .list xs => PlainServiceList xs
/-- A list of services, at any depth. -/
def PlainServiceList : List Service → Prop
  | [] => True
  | c :: cs => c.Plain ∧ PlainServiceList cs
end

/-- cyclonedx.go:60-65 -/
def Annotator.Plain (x : Annotator) : Prop :=
  (∀ y ∈ x.organization, OrganizationalEntity.Plain y) ∧
  (∀ y ∈ x.individual, OrganizationalContact.Plain y) ∧
  (∀ y ∈ x.component, Component.Plain y) ∧
  (∀ y ∈ x.service, Service.Plain y)

/-- cyclonedx.go:51-58 -/
def Annotation.Plain (x : Annotation) : Prop :=
  x.subjects ≠ .nilSlice ∧
  (∀ y ∈ x.annotator, Annotator.Plain y) ∧
  (∀ y ∈ x.signature, JSFSignature.Plain y)

/-- cyclonedx.go:67-71 -/
def Assessor.Plain (x : Assessor) : Prop :=
  (∀ y ∈ x.organization, OrganizationalEntity.Plain y)

/-- cyclonedx.go:94-98 -/
def AttestationConformance.Plain (x : AttestationConformance) : Prop :=
  x.mitigationStrategies ≠ .nilSlice

/-- cyclonedx.go:100-103 -/
def AttestationConfidence.Plain (_ : AttestationConfidence) : Prop :=
  True

/-- cyclonedx.go:86-92 -/
def AttestationMap.Plain (x : AttestationMap) : Prop :=
  x.claims ≠ .nilSlice ∧
  x.counterClaims ≠ .nilSlice ∧
  (∀ y ∈ x.conformance, AttestationConformance.Plain y) ∧
  (∀ y ∈ x.confidence, AttestationConfidence.Plain y)

/-- cyclonedx.go:79-84 -/
def Attestation.Plain (x : Attestation) : Prop :=
  x.map.Each AttestationMap.Plain ∧
  (∀ y ∈ x.signature, JSFSignature.Plain y)

/-- cyclonedx.go:321-328 -/
def Composition.Plain (x : Composition) : Prop :=
  x.assemblies ≠ .nilSlice ∧
  x.dependencies ≠ .nilSlice ∧
  x.vulnerabilities ≠ .nilSlice ∧
  (∀ y ∈ x.signature, JSFSignature.Plain y)

/-- cyclonedx.go:193-203 -/
def Claim.Plain (x : Claim) : Prop :=
  x.mitigationStrategies ≠ .nilSlice ∧
  x.evidence ≠ .nilSlice ∧
  x.counterEvidence ≠ .nilSlice ∧
  x.externalReferences.Each ExternalReference.Plain ∧
  (∀ y ∈ x.signature, JSFSignature.Plain y)

/-- cyclonedx.go:619-622 -/
def EvidenceDataContents.Plain (x : EvidenceDataContents) : Prop :=
  (∀ y ∈ x.attachment, AttachedText.Plain y)

/-- cyclonedx.go:611-617 -/
def EvidenceData.Plain (x : EvidenceData) : Prop :=
  (∀ y ∈ x.contents, EvidenceDataContents.Plain y) ∧
  (∀ y ∈ x.classification, DataClassification.Plain y) ∧
  x.sensitiveData ≠ .nilSlice ∧
  (∀ y ∈ x.governance, DataGovernance.Plain y)

/-- cyclonedx.go:586-596 -/
def DeclarationEvidence.Plain (x : DeclarationEvidence) : Prop :=
  x.data.Each EvidenceData.Plain ∧
  (∀ y ∈ x.author, OrganizationalContact.Plain y) ∧
  (∀ y ∈ x.reviewer, OrganizationalContact.Plain y) ∧
  (∀ y ∈ x.signature, JSFSignature.Plain y)

/-- cyclonedx.go:624-628 -/
def Targets.Plain (x : Targets) : Prop :=
  x.organizations.Each OrganizationalEntity.Plain ∧
  x.components.Each Component.Plain ∧
  x.services.Each Service.Plain

/-- cyclonedx.go:636-642 -/
def Signatory.Plain (x : Signatory) : Prop :=
  (∀ y ∈ x.signature, JSFSignature.Plain y) ∧
  (∀ y ∈ x.organization, OrganizationalEntity.Plain y) ∧
  (∀ y ∈ x.externalReference, ExternalReference.Plain y)

/-- cyclonedx.go:630-634 -/
def Affirmation.Plain (x : Affirmation) : Prop :=
  x.signatories.Each Signatory.Plain ∧
  (∀ y ∈ x.signature, JSFSignature.Plain y)

/-- cyclonedx.go:576-584 -/
def Declarations.Plain (x : Declarations) : Prop :=
  x.assessors.Each Assessor.Plain ∧
  x.attestations.Each Attestation.Plain ∧
  x.claims.Each Claim.Plain ∧
  x.evidence.Each DeclarationEvidence.Plain ∧
  (∀ y ∈ x.targets, Targets.Plain y) ∧
  (∀ y ∈ x.affirmation, Affirmation.Plain y) ∧
  (∀ y ∈ x.signature, JSFSignature.Plain y)

/-- cyclonedx.go:1802-1806 -/
def PriorityApplication.Plain (_ : PriorityApplication) : Prop :=
  True

/-- cyclonedx.go:1743-1758 -/
def Patent.Plain (x : Patent) : Prop :=
  (∀ y ∈ x.priorityApplication, PriorityApplication.Plain y) ∧
  x.patentAssignee.Each OrganizationalEntityOrContact.Plain ∧
  x.externalReferences.Each ExternalReference.Plain

/-- cyclonedx.go:1761-1767 -/
def PatentFamily.Plain (x : PatentFamily) : Prop :=
  (∀ y ∈ x.priorityApplication, PriorityApplication.Plain y) ∧
  x.members ≠ .nilSlice ∧
  x.externalReferences.Each ExternalReference.Plain

/-- Either a patent, or a patent family with an identifier. -/
def PatentChoice.Plain (x : PatentChoice) : Prop :=
  (∃ p, p.Plain ∧ x = { patent := some p }) ∨
  (∃ q, q.Plain ∧ q.familyID ≠ "" ∧ x = { patentFamily := some q })

/-- cyclonedx.go:1429-1439 -/
def StandardRequirement.Plain (x : StandardRequirement) : Prop :=
  x.descriptions ≠ .nilSlice ∧
  x.openCRE ≠ .nilSlice ∧
  x.properties.Each Property.Plain ∧
  x.externalReferences.Each ExternalReference.Plain

/-- cyclonedx.go:1441-1447 -/
def StandardLevel.Plain (x : StandardLevel) : Prop :=
  x.requirements ≠ .nilSlice

/-- cyclonedx.go:1416-1427 -/
def StandardDefinition.Plain (x : StandardDefinition) : Prop :=
  x.requirements.Each StandardRequirement.Plain ∧
  x.levels.Each StandardLevel.Plain ∧
  x.externalReferences.Each ExternalReference.Plain ∧
  (∀ y ∈ x.signature, JSFSignature.Plain y)

/-- cyclonedx.go:598-601 -/
def Definitions.Plain (x : Definitions) : Prop :=
  x.standards.Each StandardDefinition.Plain ∧
  x.patents.Each PatentChoice.Plain

/-- cyclonedx.go:644-648 -/
def Dependency.Plain (x : Dependency) : Prop :=
  x.dependencies ≠ .nilSlice ∧
  x.provides ≠ .nilSlice

/-- cyclonedx.go:1337-1340 -/
def ResourceReferenceChoice.Plain (x : ResourceReferenceChoice) : Prop :=
  (∀ y ∈ x.externalReference, ExternalReference.Plain y)

/-- Either a property that is not empty, or a string (or nothing). -/
def EnvironmentVariableChoice.Plain (x : EnvironmentVariableChoice) : Prop :=
  x.property = none ∨ (∃ p, x.property = some p ∧ ¬ (p.name = "" ∧ p.value = "")) ∧ x.value = ""

/-- cyclonedx.go:1231-1235 -/
def Parameter.Plain (_ : Parameter) : Prop :=
  True

/-- cyclonedx.go:1482-1490 -/
def TaskInput.Plain (x : TaskInput) : Prop :=
  (∀ y ∈ x.resource, ResourceReferenceChoice.Plain y) ∧
  x.parameters.Each Parameter.Plain ∧
  x.environmentVars.Each EnvironmentVariableChoice.Plain ∧
  (∀ y ∈ x.data, AttachedText.Plain y) ∧
  (∀ y ∈ x.source, ResourceReferenceChoice.Plain y) ∧
  (∀ y ∈ x.target, ResourceReferenceChoice.Plain y) ∧
  x.properties.Each Property.Plain

/-- cyclonedx.go:1492-1501 -/
def TaskOutput.Plain (x : TaskOutput) : Prop :=
  (∀ y ∈ x.resource, ResourceReferenceChoice.Plain y) ∧
  x.parameters.Each Parameter.Plain ∧
  x.environmentVars.Each EnvironmentVariableChoice.Plain ∧
  (∀ y ∈ x.data, AttachedText.Plain y) ∧
  (∀ y ∈ x.source, ResourceReferenceChoice.Plain y) ∧
  (∀ y ∈ x.target, ResourceReferenceChoice.Plain y) ∧
  x.properties.Each Property.Plain

/-- cyclonedx.go:1477-1480 -/
def TaskCommand.Plain (x : TaskCommand) : Prop :=
  x.properties.Each Property.Plain

/-- cyclonedx.go:1514-1519 -/
def TaskStep.Plain (x : TaskStep) : Prop :=
  x.commands.Each TaskCommand.Plain ∧
  x.properties.Each Property.Plain

/-- cyclonedx.go:662-670 -/
def Event.Plain (x : Event) : Prop :=
  (∀ y ∈ x.data, AttachedText.Plain y) ∧
  (∀ y ∈ x.source, ResourceReferenceChoice.Plain y) ∧
  (∀ y ∈ x.target, ResourceReferenceChoice.Plain y) ∧
  x.properties.Each Property.Plain

/-- cyclonedx.go:1536-1540 -/
def TaskTriggerCondition.Plain (x : TaskTriggerCondition) : Prop :=
  x.properties.Each Property.Plain

/-- cyclonedx.go:1521-1534 -/
def TaskTrigger.Plain (x : TaskTrigger) : Prop :=
  x.resourceReferences.Each ResourceReferenceChoice.Plain ∧
  (∀ y ∈ x.event, Event.Plain y) ∧
  x.conditions.Each TaskTriggerCondition.Plain ∧
  x.inputs.Each TaskInput.Plain ∧
  x.outputs.Each TaskOutput.Plain ∧
  x.properties.Each Property.Plain

/-- cyclonedx.go:1616-1625 -/
def Volume.Plain (x : Volume) : Prop :=
  x.properties.Each Property.Plain

/-- cyclonedx.go:1568-1581 -/
def TaskWorkspace.Plain (x : TaskWorkspace) : Prop :=
  x.aliases ≠ .nilSlice ∧
  x.resourceReferences.Each ResourceReferenceChoice.Plain ∧
  (∀ y ∈ x.volume, Volume.Plain y) ∧
  x.properties.Each Property.Plain

/-- cyclonedx.go:1459-1475 -/
def Task.Plain (x : Task) : Prop :=
  x.properties.Each Property.Plain ∧
  x.resourceReferences.Each ResourceReferenceChoice.Plain ∧
  x.taskTypes ≠ .nilSlice ∧
  (∀ y ∈ x.trigger, TaskTrigger.Plain y) ∧
  x.steps.Each TaskStep.Plain ∧
  x.inputs.Each TaskInput.Plain ∧
  x.outputs.Each TaskOutput.Plain ∧
  x.workspaces.Each TaskWorkspace.Plain ∧
  x.runtimeTopology.Each Dependency.Plain

/-- cyclonedx.go:1689-1707 -/
def Workflow.Plain (x : Workflow) : Prop :=
  x.resourceReferences.Each ResourceReferenceChoice.Plain ∧
  x.tasks.Each Task.Plain ∧
  x.taskDependencies.Each Dependency.Plain ∧
  x.taskTypes ≠ .nilSlice ∧
  (∀ y ∈ x.trigger, TaskTrigger.Plain y) ∧
  x.steps.Each TaskStep.Plain ∧
  x.inputs.Each TaskInput.Plain ∧
  x.outputs.Each TaskOutput.Plain ∧
  x.workspaces.Each TaskWorkspace.Plain ∧
  x.runtimeTopology.Each Dependency.Plain ∧
  x.properties.Each Property.Plain

/-- cyclonedx.go:800-806 -/
def Formula.Plain (x : Formula) : Prop :=
  x.components.Each Component.Plain ∧
  x.services.Each Service.Plain ∧
  x.workflows.Each Workflow.Plain ∧
  x.properties.Each Property.Plain

/-- cyclonedx.go:1006-1010 -/
def Lifecycle.Plain (_ : Lifecycle) : Prop :=
  True

/-- cyclonedx.go:1594-1600 -/
def Tool.Plain (x : Tool) : Prop :=
  x.hashes.Each Hash.Plain ∧
  x.externalReferences.Each ExternalReference.Plain

/-- Either the legacy list of tools, or lists of components and services. -/
def ToolsChoice.Plain (x : ToolsChoice) : Prop :=
  (x.tools = .nil ∨ x.components = .nil ∧ x.services = .nil) ∧ x.tools.Each Tool.Plain ∧
    x.components.Each Component.Plain ∧ x.services.Each Service.Plain

/-- cyclonedx.go:1809-1811 -/
def DistributionConstraints.Plain (_ : DistributionConstraints) : Prop :=
  True

/-- cyclonedx.go:1042-1054 -/
def Metadata.Plain (x : Metadata) : Prop :=
  x.lifecycles.Each Lifecycle.Plain ∧
  (∀ y ∈ x.tools, ToolsChoice.Plain y) ∧
  x.authors.Each OrganizationalContact.Plain ∧
  (∀ y ∈ x.component, Component.Plain y) ∧
  (∀ y ∈ x.manufacture, OrganizationalEntity.Plain y) ∧
  (∀ y ∈ x.manufacturer, OrganizationalEntity.Plain y) ∧
  (∀ y ∈ x.supplier, OrganizationalEntity.Plain y) ∧
  x.licenses.Each LicenseChoice.Plain ∧
  x.properties.Each Property.Plain ∧
  (∀ y ∈ x.distributionConstraints, DistributionConstraints.Plain y)

/-- cyclonedx.go:349-352 -/
def Credits.Plain (x : Credits) : Prop :=
  x.organizations.Each OrganizationalEntity.Plain ∧
  x.individuals.Each OrganizationalContact.Plain

/-- cyclonedx.go:1271-1275 -/
def ProofOfConcept.Plain (x : ProofOfConcept) : Prop :=
  x.supportingMaterial.Each AttachedText.Plain

/-- cyclonedx.go:1658-1665 -/
def VulnerabilityAnalysis.Plain (x : VulnerabilityAnalysis) : Prop :=
  x.response ≠ .nilSlice

/-- cyclonedx.go:1667-1674 -/
def VulnerabilityRating.Plain (x : VulnerabilityRating) : Prop :=
  (∀ y ∈ x.source, Source.Plain y)

/-- cyclonedx.go:1676-1679 -/
def VulnerabilityReference.Plain (x : VulnerabilityReference) : Prop :=
  (∀ y ∈ x.source, Source.Plain y)

/-- cyclonedx.go:1634-1656 -/
def Vulnerability.Plain (x : Vulnerability) : Prop :=
  (∀ y ∈ x.source, Source.Plain y) ∧
  x.references.Each VulnerabilityReference.Plain ∧
  x.ratings.Each VulnerabilityRating.Plain ∧
  x.cwes.Each InInt64 ∧
  (∀ y ∈ x.proofOfConcept, ProofOfConcept.Plain y) ∧
  x.advisories.Each Advisory.Plain ∧
  (∀ y ∈ x.credits, Credits.Plain y) ∧
  (∀ y ∈ x.tools, ToolsChoice.Plain y) ∧
  (∀ y ∈ x.analysis, VulnerabilityAnalysis.Plain y) ∧
  x.affects.Each Affects.Plain ∧
  x.properties.Each Property.Plain

/-- cyclonedx.go:1712-1721 -/
def Citation.Plain (x : Citation) : Prop :=
  x.pointers ≠ .nilSlice ∧
  x.expressions ≠ .nilSlice ∧
  (∀ y ∈ x.signature, JSFSignature.Plain y)

/-- cyclonedx.go:105-131 -/
def BOM.Plain (x : BOM) : Prop :=
  x.xmlName = {} ∧
  x.xmlns = "" ∧
  (0 ≤ x.specVersion ∧ x.specVersion ≤ 8) ∧
  InInt64 x.version ∧
  (∀ y ∈ x.metadata, Metadata.Plain y) ∧
  x.components.Each Component.Plain ∧
  x.services.Each Service.Plain ∧
  x.externalReferences.Each ExternalReference.Plain ∧
  x.dependencies.Each Dependency.Plain ∧
  x.compositions.Each Composition.Plain ∧
  x.properties.Each Property.Plain ∧
  x.vulnerabilities.Each Vulnerability.Plain ∧
  x.annotations.Each Annotation.Plain ∧
  x.formulation.Each Formula.Plain ∧
  (∀ y ∈ x.declarations, Declarations.Plain y) ∧
  (∀ y ∈ x.definitions, Definitions.Plain y) ∧
  x.citations.Each Citation.Plain ∧
  (∀ y ∈ x.signature, JSFSignature.Plain y)

end Verif
