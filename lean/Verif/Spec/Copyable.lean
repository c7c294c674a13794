import Verif.Model.Gob

/-!
# The values that the deep copy leaves alone

GENERATED by `tools/gen_gob.py` from the struct declarations of `/repo/cyclonedx.go`; do not edit by hand.

`T.Copyable x`: nowhere in `x` is a pointer to a zero scalar, a pointer to a nil or empty slice, or a negative
zero.
-/

namespace Verif

/-- Not a pointer to a nil or empty slice, and every element satisfies `P`. -/
def PSlice.Filled {α : Type} (P : α → Prop) (p : PSlice α) : Prop :=
  p ≠ .nilSlice ∧ p ≠ .list [] ∧ ∀ x ∈ p.elems, P x

/-- cyclonedx.go:35-38 -/
def Advisory.Copyable (_ : Advisory) : Prop :=
  True

/-- cyclonedx.go:40-44 -/
def AffectedVersions.Copyable (_ : AffectedVersions) : Prop :=
  True

/-- cyclonedx.go:46-49 -/
def Affects.Copyable (x : Affects) : Prop :=
  x.range.Filled AffectedVersions.Copyable

/-- cyclonedx.go:73-77 -/
def AttachedText.Copyable (_ : AttachedText) : Prop :=
  True

/-- cyclonedx.go:1277-1280 -/
def Property.Copyable (_ : Property) : Prop :=
  True

/-- cyclonedx.go:290-294 -/
def ComponentDataContents.Copyable (x : ComponentDataContents) : Prop :=
  (∀ y ∈ x.attachment, AttachedText.Copyable y) ∧
  x.properties.Filled Property.Copyable

/-- cyclonedx.go:301-304 -/
def ComponentDataGraphic.Copyable (x : ComponentDataGraphic) : Prop :=
  (∀ y ∈ x.image, AttachedText.Copyable y)

/-- cyclonedx.go:306-309 -/
def ComponentDataGraphics.Copyable (x : ComponentDataGraphics) : Prop :=
  x.collection.Filled ComponentDataGraphic.Copyable

/-- cyclonedx.go:1211-1216 -/
def OrganizationalContact.Copyable (_ : OrganizationalContact) : Prop :=
  True

/-- cyclonedx.go:1261-1269 -/
def PostalAddress.Copyable (_ : PostalAddress) : Prop :=
  True

/-- cyclonedx.go:1218-1224 -/
def OrganizationalEntity.Copyable (x : OrganizationalEntity) : Prop :=
  (∀ y ∈ x.address, PostalAddress.Copyable y) ∧
  x.url.Filled (fun _ => True) ∧
  x.contact.Filled OrganizationalContact.Copyable

/-- cyclonedx.go:296-299 -/
def ComponentDataGovernanceResponsibleParty.Copyable (x : ComponentDataGovernanceResponsibleParty) : Prop :=
  (∀ y ∈ x.organization, OrganizationalEntity.Copyable y) ∧
  (∀ y ∈ x.contact, OrganizationalContact.Copyable y)

/-- cyclonedx.go:570-574 -/
def DataGovernance.Copyable (x : DataGovernance) : Prop :=
  x.custodians.Filled ComponentDataGovernanceResponsibleParty.Copyable ∧
  x.stewards.Filled ComponentDataGovernanceResponsibleParty.Copyable ∧
  x.owners.Filled ComponentDataGovernanceResponsibleParty.Copyable

/-- cyclonedx.go:278-288 -/
def ComponentData.Copyable (x : ComponentData) : Prop :=
  (∀ y ∈ x.contents, ComponentDataContents.Copyable y) ∧
  x.sensitiveData.Filled (fun _ => True) ∧
  (∀ y ∈ x.graphics, ComponentDataGraphics.Copyable y) ∧
  (∀ y ∈ x.governance, DataGovernance.Copyable y)

/-- cyclonedx.go:808-811 -/
def Hash.Copyable (_ : Hash) : Prop :=
  True

/-- cyclonedx.go:1866-1869 -/
def RelatedCryptographicAsset.Copyable (_ : RelatedCryptographicAsset) : Prop :=
  True

/-- cyclonedx.go:1880-1883 -/
def PredefinedCertificateState.Copyable (_ : PredefinedCertificateState) : Prop :=
  True

/-- cyclonedx.go:1886-1890 -/
def CustomCertificateState.Copyable (_ : CustomCertificateState) : Prop :=
  True

/-- cyclonedx.go:1874-1877 -/
def CertificateState.Copyable (x : CertificateState) : Prop :=
  (∀ y ∈ x.predefined, PredefinedCertificateState.Copyable y) ∧
  (∀ y ∈ x.custom, CustomCertificateState.Copyable y)

/-- cyclonedx.go:1913-1916 -/
def CommonCertificateExtension.Copyable (_ : CommonCertificateExtension) : Prop :=
  True

/-- cyclonedx.go:1919-1922 -/
def CustomCertificateExtension.Copyable (_ : CustomCertificateExtension) : Prop :=
  True

/-- cyclonedx.go:1907-1910 -/
def CertificateExtension.Copyable (x : CertificateExtension) : Prop :=
  (∀ y ∈ x.common, CommonCertificateExtension.Copyable y) ∧
  (∀ y ∈ x.custom, CustomCertificateExtension.Copyable y)

/-- cyclonedx.go:171-191 -/
def CertificateProperties.Copyable (x : CertificateProperties) : Prop :=
  (∀ y ∈ x.fingerprint, Hash.Copyable y) ∧
  x.certificateState.Filled CertificateState.Copyable ∧
  x.certificateExtensions.Filled CertificateExtension.Copyable ∧
  x.relatedCryptographicAssets.Filled RelatedCryptographicAsset.Copyable

/-- cyclonedx.go:368-382 -/
def CryptoAlgorithmProperties.Copyable (x : CryptoAlgorithmProperties) : Prop :=
  x.certificationLevel.Filled (fun _ => True) ∧
  x.cryptoFunctions.Filled (fun _ => True) ∧
  x.classicalSecurityLevel ≠ some 0 ∧
  x.nistQuantumSecurityLevel ≠ some 0

/-- cyclonedx.go:205-211 -/
def CipherSuite.Copyable (x : CipherSuite) : Prop :=
  x.algorithms.Filled (fun _ => True) ∧
  x.identifiers.Filled (fun _ => True) ∧
  x.tlsGroups.Filled (fun _ => True) ∧
  x.tlsSignatureSchemes.Filled (fun _ => True)

/-- cyclonedx.go:1826-1830 -/
def IKEv2Auth.Copyable (_ : IKEv2Auth) : Prop :=
  True

/-- cyclonedx.go:1834-1839 -/
def IKEv2Enc.Copyable (x : IKEv2Enc) : Prop :=
  x.keyLength ≠ some 0

/-- cyclonedx.go:1843-1847 -/
def IKEv2Integ.Copyable (_ : IKEv2Integ) : Prop :=
  True

/-- cyclonedx.go:1851-1855 -/
def IKEv2Ke.Copyable (x : IKEv2Ke) : Prop :=
  x.group ≠ some 0

/-- cyclonedx.go:1859-1863 -/
def IKEv2Prf.Copyable (_ : IKEv2Prf) : Prop :=
  True

/-- cyclonedx.go:537-544 -/
def IKEv2TransformTypes.Copyable (x : IKEv2TransformTypes) : Prop :=
  x.encr.Filled IKEv2Enc.Copyable ∧
  x.prf.Filled IKEv2Prf.Copyable ∧
  x.integ.Filled IKEv2Integ.Copyable ∧
  x.ke.Filled IKEv2Ke.Copyable ∧
  x.auth.Filled IKEv2Auth.Copyable

/-- cyclonedx.go:509-516 -/
def CryptoProtocolProperties.Copyable (x : CryptoProtocolProperties) : Prop :=
  x.cipherSuites.Filled CipherSuite.Copyable ∧
  (∀ y ∈ x.ikev2TransformTypes, IKEv2TransformTypes.Copyable y) ∧
  x.cryptoRefArray.Filled (fun _ => True) ∧
  x.relatedCryptographicAssets.Filled RelatedCryptographicAsset.Copyable

/-- cyclonedx.go:546-549 -/
def SecuredBy.Copyable (_ : SecuredBy) : Prop :=
  True

/-- cyclonedx.go:1282-1297 -/
def RelatedCryptoMaterialProperties.Copyable (x : RelatedCryptoMaterialProperties) : Prop :=
  x.size ≠ some 0 ∧
  (∀ y ∈ x.securedBy, SecuredBy.Copyable y) ∧
  (∀ y ∈ x.fingerprint, Hash.Copyable y) ∧
  x.relatedCryptographicAssets.Filled RelatedCryptographicAsset.Copyable

/-- cyclonedx.go:500-507 -/
def CryptoProperties.Copyable (x : CryptoProperties) : Prop :=
  (∀ y ∈ x.algorithmProperties, CryptoAlgorithmProperties.Copyable y) ∧
  (∀ y ∈ x.certificateProperties, CertificateProperties.Copyable y) ∧
  (∀ y ∈ x.relatedCryptoMaterialProperties, RelatedCryptoMaterialProperties.Copyable y) ∧
  (∀ y ∈ x.protocolProperties, CryptoProtocolProperties.Copyable y)

/-- cyclonedx.go:161-169 -/
def CallstackFrame.Copyable (x : CallstackFrame) : Prop :=
  x.parameters.Filled (fun _ => True) ∧
  x.line ≠ some 0 ∧
  x.column ≠ some 0

/-- cyclonedx.go:157-159 -/
def Callstack.Copyable (x : Callstack) : Prop :=
  x.frames.Filled CallstackFrame.Copyable

/-- cyclonedx.go:345-347 -/
def Copyright.Copyable (_ : Copyright) : Prop :=
  True

/-- cyclonedx.go:710-714 -/
def EvidenceIdentityMethod.Copyable (x : EvidenceIdentityMethod) : Prop :=
  (∀ y ∈ x.confidence, ¬ y.isZero)

/-- cyclonedx.go:688-694 -/
def EvidenceIdentity.Copyable (x : EvidenceIdentity) : Prop :=
  (∀ y ∈ x.confidence, ¬ y.isZero) ∧
  x.methods.Filled EvidenceIdentityMethod.Copyable ∧
  x.tools.Filled (fun _ => True)

/-- cyclonedx.go:683-686 -/
def EvidenceIdentityChoice.Copyable (x : EvidenceIdentityChoice) : Prop :=
  (∀ y ∈ x.identity, EvidenceIdentity.Copyable y) ∧
  x.identities.Filled EvidenceIdentity.Copyable

/-- cyclonedx.go:731-738 -/
def EvidenceOccurrence.Copyable (x : EvidenceOccurrence) : Prop :=
  x.line ≠ some 0 ∧
  x.offset ≠ some 0

/-- cyclonedx.go:1226-1229 -/
def OrganizationalEntityOrContact.Copyable (x : OrganizationalEntityOrContact) : Prop :=
  (∀ y ∈ x.organization, OrganizationalEntity.Copyable y) ∧
  (∀ y ∈ x.individual, OrganizationalContact.Copyable y)

/-- cyclonedx.go:995-1004 -/
def Licensing.Copyable (x : Licensing) : Prop :=
  x.altIDs.Filled (fun _ => True) ∧
  (∀ y ∈ x.licensor, OrganizationalEntityOrContact.Copyable y) ∧
  (∀ y ∈ x.licensee, OrganizationalEntityOrContact.Copyable y) ∧
  (∀ y ∈ x.purchaser, OrganizationalEntityOrContact.Copyable y) ∧
  x.licenseTypes.Filled (fun _ => True)

/-- cyclonedx.go:936-945 -/
def License.Copyable (x : License) : Prop :=
  (∀ y ∈ x.text, AttachedText.Copyable y) ∧
  (∀ y ∈ x.licensing, Licensing.Copyable y) ∧
  x.properties.Filled Property.Copyable

/-- cyclonedx.go:967-972 -/
def LicenseExpressionDetail.Copyable (x : LicenseExpressionDetail) : Prop :=
  (∀ y ∈ x.text, AttachedText.Copyable y)

/-- cyclonedx.go:956-964 -/
def LicenseChoice.Copyable (x : LicenseChoice) : Prop :=
  (∀ y ∈ x.license, License.Copyable y) ∧
  x.expressionDetails.Filled LicenseExpressionDetail.Copyable ∧
  x.acknowledgement ≠ some "" ∧
  (∀ y ∈ x.licensing, Licensing.Copyable y) ∧
  x.properties.Filled Property.Copyable

/-- cyclonedx.go:672-678 -/
def Evidence.Copyable (x : Evidence) : Prop :=
  (∀ y ∈ x.identity, EvidenceIdentityChoice.Copyable y) ∧
  x.occurrences.Filled EvidenceOccurrence.Copyable ∧
  (∀ y ∈ x.callstack, Callstack.Copyable y) ∧
  x.licenses.Filled LicenseChoice.Copyable ∧
  x.copyright.Filled Copyright.Copyable

/-- cyclonedx.go:740-746 -/
def ExternalReference.Copyable (x : ExternalReference) : Prop :=
  x.hashes.Filled Hash.Copyable ∧
  x.properties.Filled Property.Copyable

/-- cyclonedx.go:925-934 -/
def JSFPublicKey.Copyable (_ : JSFPublicKey) : Prop :=
  True

/-- cyclonedx.go:916-923 -/
def JSFSigner.Copyable (x : JSFSigner) : Prop :=
  x.publicKey.Copyable ∧
  x.certificatePath.Filled (fun _ => True) ∧
  x.excludes.Filled (fun _ => True)

/-- cyclonedx.go:909-914 -/
def JSFSignature.Copyable (x : JSFSignature) : Prop :=
  (∀ y ∈ x.jsfSigner, JSFSigner.Copyable y) ∧
  x.signers.Filled JSFSigner.Copyable ∧
  x.chain.Filled JSFSigner.Copyable

/-- cyclonedx.go:1099-1102 -/
def MLModelCO2Measure.Copyable (x : MLModelCO2Measure) : Prop :=
  x.value ≠ F32.negZero

/-- cyclonedx.go:1131-1134 -/
def MLModelEnergyMeasure.Copyable (x : MLModelEnergyMeasure) : Prop :=
  x.value ≠ F32.negZero

/-- cyclonedx.go:1136-1143 -/
def MLModelEnergyProvider.Copyable (x : MLModelEnergyProvider) : Prop :=
  (∀ y ∈ x.organization, OrganizationalEntity.Copyable y) ∧
  (∀ y ∈ x.energyProvided, MLModelEnergyMeasure.Copyable y) ∧
  x.externalReferences.Filled ExternalReference.Copyable

/-- cyclonedx.go:1108-1115 -/
def MLModelEnergyConsumption.Copyable (x : MLModelEnergyConsumption) : Prop :=
  x.energyProviders.Filled MLModelEnergyProvider.Copyable ∧
  x.activityEnergyCost.Copyable ∧
  (∀ y ∈ x.co2CostEquivalent, MLModelCO2Measure.Copyable y) ∧
  (∀ y ∈ x.co2CostOffset, MLModelCO2Measure.Copyable y) ∧
  x.properties.Filled Property.Copyable

/-- cyclonedx.go:1082-1085 -/
def MLModelCardEnvironmentalConsiderations.Copyable (x : MLModelCardEnvironmentalConsiderations) : Prop :=
  x.energyConsumptions.Filled MLModelEnergyConsumption.Copyable ∧
  x.properties.Filled Property.Copyable

/-- cyclonedx.go:1087-1090 -/
def MLModelCardEthicalConsideration.Copyable (_ : MLModelCardEthicalConsideration) : Prop :=
  True

/-- cyclonedx.go:1092-1097 -/
def MLModelCardFairnessAssessment.Copyable (_ : MLModelCardFairnessAssessment) : Prop :=
  True

/-- cyclonedx.go:1072-1080 -/
def MLModelCardConsiderations.Copyable (x : MLModelCardConsiderations) : Prop :=
  x.users.Filled (fun _ => True) ∧
  x.useCases.Filled (fun _ => True) ∧
  x.technicalLimitations.Filled (fun _ => True) ∧
  x.performanceTradeoffs.Filled (fun _ => True) ∧
  x.ethicalConsiderations.Filled MLModelCardEthicalConsideration.Copyable ∧
  (∀ y ∈ x.environmentalConsiderations, MLModelCardEnvironmentalConsiderations.Copyable y) ∧
  x.fairnessAssessments.Filled MLModelCardFairnessAssessment.Copyable

/-- cyclonedx.go:1056-1059 -/
def MLDatasetChoice.Copyable (x : MLDatasetChoice) : Prop :=
  (∀ y ∈ x.componentData, ComponentData.Copyable y)

/-- cyclonedx.go:1061-1063 -/
def MLInputOutputParameters.Copyable (_ : MLInputOutputParameters) : Prop :=
  True

/-- cyclonedx.go:1175-1177 -/
def MLModelParametersApproach.Copyable (_ : MLModelParametersApproach) : Prop :=
  True

/-- cyclonedx.go:1165-1173 -/
def MLModelParameters.Copyable (x : MLModelParameters) : Prop :=
  (∀ y ∈ x.approach, MLModelParametersApproach.Copyable y) ∧
  x.datasets.Filled MLDatasetChoice.Copyable ∧
  x.inputs.Filled MLInputOutputParameters.Copyable ∧
  x.outputs.Filled MLInputOutputParameters.Copyable

/-- cyclonedx.go:1201-1204 -/
def MLPerformanceMetricConfidenceInterval.Copyable (_ : MLPerformanceMetricConfidenceInterval) : Prop :=
  True

/-- cyclonedx.go:1194-1199 -/
def MLPerformanceMetric.Copyable (x : MLPerformanceMetric) : Prop :=
  (∀ y ∈ x.confidenceInterval, MLPerformanceMetricConfidenceInterval.Copyable y)

/-- cyclonedx.go:1189-1192 -/
def MLQuantitativeAnalysis.Copyable (x : MLQuantitativeAnalysis) : Prop :=
  x.performanceMetrics.Filled MLPerformanceMetric.Copyable ∧
  (∀ y ∈ x.graphics, ComponentDataGraphics.Copyable y)

/-- cyclonedx.go:1065-1070 -/
def MLModelCard.Copyable (x : MLModelCard) : Prop :=
  (∀ y ∈ x.modelParameters, MLModelParameters.Copyable y) ∧
  (∀ y ∈ x.quantitativeAnalysis, MLQuantitativeAnalysis.Copyable y) ∧
  (∀ y ∈ x.considerations, MLModelCardConsiderations.Copyable y)

/-- cyclonedx.go:832-836 -/
def IdentifiableAction.Copyable (_ : IdentifiableAction) : Prop :=
  True

/-- cyclonedx.go:231-237 -/
def Commit.Copyable (x : Commit) : Prop :=
  (∀ y ∈ x.author, IdentifiableAction.Copyable y) ∧
  (∀ y ∈ x.committer, IdentifiableAction.Copyable y)

/-- cyclonedx.go:650-653 -/
def Diff.Copyable (x : Diff) : Prop :=
  (∀ y ∈ x.text, AttachedText.Copyable y)

/-- cyclonedx.go:1398-1401 -/
def Source.Copyable (_ : Source) : Prop :=
  True

/-- cyclonedx.go:892-899 -/
def Issue.Copyable (x : Issue) : Prop :=
  (∀ y ∈ x.source, Source.Copyable y) ∧
  x.references.Filled (fun _ => True)

/-- cyclonedx.go:1237-1241 -/
def Patch.Copyable (x : Patch) : Prop :=
  (∀ y ∈ x.diff, Diff.Copyable y) ∧
  x.resolves.Filled Issue.Copyable

/-- cyclonedx.go:1206-1209 -/
def Note.Copyable (x : Note) : Prop :=
  x.text.Copyable

/-- cyclonedx.go:1323-1335 -/
def ReleaseNotes.Copyable (x : ReleaseNotes) : Prop :=
  x.aliases.Filled (fun _ => True) ∧
  x.tags.Filled (fun _ => True) ∧
  x.resolves.Filled Issue.Copyable ∧
  x.notes.Filled Note.Copyable ∧
  x.properties.Filled Property.Copyable

/-- cyclonedx.go:1449-1457 -/
def SWID.Copyable (x : SWID) : Prop :=
  (∀ y ∈ x.text, AttachedText.Copyable y) ∧
  x.tagVersion ≠ some 0 ∧
  x.patch ≠ some false

/-- cyclonedx.go:1772-1776 -/
def AsserterChoice.Copyable (x : AsserterChoice) : Prop :=
  (∀ y ∈ x.organization, OrganizationalEntity.Copyable y) ∧
  (∀ y ∈ x.individual, OrganizationalContact.Copyable y) ∧
  x.bomRef ≠ some ⟨""⟩

/-- cyclonedx.go:1779-1785 -/
def PatentAssertion.Copyable (x : PatentAssertion) : Prop :=
  x.patentRefs.Filled (fun _ => True) ∧
  (∀ y ∈ x.asserter, AsserterChoice.Copyable y)

mutual
/-- cyclonedx.go:239-276 -/
def Component.Copyable : Component → Prop
  | .mk _ _ _ supplier manufacturer _ authors _ _ _ _ _ _ hashes licenses _ _ _ omniborID swhid swid modified pedigree externalReferences properties components evidence releaseNotes modelCard data cryptoProperties tags isExternal patentAssertions _ signature =>
    (∀ y ∈ supplier, OrganizationalEntity.Copyable y) ∧
    (∀ y ∈ manufacturer, OrganizationalEntity.Copyable y) ∧
    authors.Filled OrganizationalContact.Copyable ∧
    hashes.Filled Hash.Copyable ∧
    licenses.Filled LicenseChoice.Copyable ∧
    omniborID.Filled (fun _ => True) ∧
    swhid.Filled (fun _ => True) ∧
    (∀ y ∈ swid, SWID.Copyable y) ∧
    modified ≠ some false ∧
    CopyablePedigreeOpt pedigree ∧
    externalReferences.Filled ExternalReference.Copyable ∧
    properties.Filled Property.Copyable ∧
    CopyableComponents components ∧
    (∀ y ∈ evidence, Evidence.Copyable y) ∧
    (∀ y ∈ releaseNotes, ReleaseNotes.Copyable y) ∧
    (∀ y ∈ modelCard, MLModelCard.Copyable y) ∧
    data.Filled ComponentData.Copyable ∧
    (∀ y ∈ cryptoProperties, CryptoProperties.Copyable y) ∧
    tags.Filled (fun _ => True) ∧
    isExternal ≠ some false ∧
    patentAssertions.Filled PatentAssertion.Copyable ∧
    (∀ y ∈ signature, JSFSignature.Copyable y)
/-- A list of components. -/
def CopyableComponents : PSlice Component → Prop
  | .nil => True
  | .list (c :: cs) => c.Copyable ∧ CopyableComponentList cs
  | _ => False
/-- The elements of a list of components. -/
def CopyableComponentList : List Component → Prop
  | [] => True
  | c :: cs => c.Copyable ∧ CopyableComponentList cs
/-- `*Pedigree` -/
def CopyablePedigreeOpt : Option (Pedigree Component) → Prop
  | none => True
  | some p => CopyablePedigree p
/-- cyclonedx.go:1252-1259 -/
def CopyablePedigree : Pedigree Component → Prop
  | .mk ancestors descendants variants commits patches _ =>
    CopyableComponents ancestors ∧
    CopyableComponents descendants ∧
    CopyableComponents variants ∧
    commits.Filled Commit.Copyable ∧
    patches.Filled Patch.Copyable
end

/-- cyclonedx.go:551-559 -/
def DataClassification.Copyable (x : DataClassification) : Prop :=
  (∀ y ∈ x.governance, DataGovernance.Copyable y) ∧
  x.source.Filled (fun _ => True) ∧
  x.destination.Filled (fun _ => True)

mutual
/-- cyclonedx.go:1362-1382 -/
def Service.Copyable : Service → Prop
  | .mk _ provider _ _ _ _ endpoints authenticated crossesTrustBoundary data licenses externalReferences properties services releaseNotes tags _ patentAssertions signature =>
    (∀ y ∈ provider, OrganizationalEntity.Copyable y) ∧
    endpoints.Filled (fun _ => True) ∧
    authenticated ≠ some false ∧
    crossesTrustBoundary ≠ some false ∧
    data.Filled DataClassification.Copyable ∧
    licenses.Filled LicenseChoice.Copyable ∧
    externalReferences.Filled ExternalReference.Copyable ∧
    properties.Filled Property.Copyable ∧
    CopyableServices services ∧
    (∀ y ∈ releaseNotes, ReleaseNotes.Copyable y) ∧
    tags.Filled (fun _ => True) ∧
    patentAssertions.Filled PatentAssertion.Copyable ∧
    (∀ y ∈ signature, JSFSignature.Copyable y)
/-- A list of services. -/
def CopyableServices : PSlice Service → Prop
  | .nil => True
  | .list (c :: cs) => c.Copyable ∧ CopyableServiceList cs
  | _ => False
/-- The elements of a list of services. -/
def CopyableServiceList : List Service → Prop
  | [] => True
  | c :: cs => c.Copyable ∧ CopyableServiceList cs
end

/-- cyclonedx.go:60-65 -/
def Annotator.Copyable (x : Annotator) : Prop :=
  (∀ y ∈ x.organization, OrganizationalEntity.Copyable y) ∧
  (∀ y ∈ x.individual, OrganizationalContact.Copyable y) ∧
  (∀ y ∈ x.component, Component.Copyable y) ∧
  (∀ y ∈ x.service, Service.Copyable y)

/-- cyclonedx.go:51-58 -/
def Annotation.Copyable (x : Annotation) : Prop :=
  x.subjects.Filled (fun _ => True) ∧
  (∀ y ∈ x.annotator, Annotator.Copyable y) ∧
  (∀ y ∈ x.signature, JSFSignature.Copyable y)

/-- cyclonedx.go:67-71 -/
def Assessor.Copyable (x : Assessor) : Prop :=
  (∀ y ∈ x.organization, OrganizationalEntity.Copyable y)

/-- cyclonedx.go:94-98 -/
def AttestationConformance.Copyable (x : AttestationConformance) : Prop :=
  (∀ y ∈ x.score, ¬ y.isZero) ∧
  x.mitigationStrategies.Filled (fun _ => True)

/-- cyclonedx.go:100-103 -/
def AttestationConfidence.Copyable (x : AttestationConfidence) : Prop :=
  (∀ y ∈ x.score, ¬ y.isZero)

/-- cyclonedx.go:86-92 -/
def AttestationMap.Copyable (x : AttestationMap) : Prop :=
  x.claims.Filled (fun _ => True) ∧
  x.counterClaims.Filled (fun _ => True) ∧
  (∀ y ∈ x.conformance, AttestationConformance.Copyable y) ∧
  (∀ y ∈ x.confidence, AttestationConfidence.Copyable y)

/-- cyclonedx.go:79-84 -/
def Attestation.Copyable (x : Attestation) : Prop :=
  x.map.Filled AttestationMap.Copyable ∧
  (∀ y ∈ x.signature, JSFSignature.Copyable y)

/-- cyclonedx.go:321-328 -/
def Composition.Copyable (x : Composition) : Prop :=
  x.assemblies.Filled (fun _ => True) ∧
  x.dependencies.Filled (fun _ => True) ∧
  x.vulnerabilities.Filled (fun _ => True) ∧
  (∀ y ∈ x.signature, JSFSignature.Copyable y)

/-- cyclonedx.go:193-203 -/
def Claim.Copyable (x : Claim) : Prop :=
  x.mitigationStrategies.Filled (fun _ => True) ∧
  x.evidence.Filled (fun _ => True) ∧
  x.counterEvidence.Filled (fun _ => True) ∧
  x.externalReferences.Filled ExternalReference.Copyable ∧
  (∀ y ∈ x.signature, JSFSignature.Copyable y)

/-- cyclonedx.go:619-622 -/
def EvidenceDataContents.Copyable (x : EvidenceDataContents) : Prop :=
  (∀ y ∈ x.attachment, AttachedText.Copyable y)

/-- cyclonedx.go:611-617 -/
def EvidenceData.Copyable (x : EvidenceData) : Prop :=
  (∀ y ∈ x.contents, EvidenceDataContents.Copyable y) ∧
  (∀ y ∈ x.classification, DataClassification.Copyable y) ∧
  x.sensitiveData.Filled (fun _ => True) ∧
  (∀ y ∈ x.governance, DataGovernance.Copyable y)

/-- cyclonedx.go:586-596 -/
def DeclarationEvidence.Copyable (x : DeclarationEvidence) : Prop :=
  x.data.Filled EvidenceData.Copyable ∧
  (∀ y ∈ x.author, OrganizationalContact.Copyable y) ∧
  (∀ y ∈ x.reviewer, OrganizationalContact.Copyable y) ∧
  (∀ y ∈ x.signature, JSFSignature.Copyable y)

/-- cyclonedx.go:624-628 -/
def Targets.Copyable (x : Targets) : Prop :=
  x.organizations.Filled OrganizationalEntity.Copyable ∧
  x.components.Filled Component.Copyable ∧
  x.services.Filled Service.Copyable

/-- cyclonedx.go:636-642 -/
def Signatory.Copyable (x : Signatory) : Prop :=
  (∀ y ∈ x.signature, JSFSignature.Copyable y) ∧
  (∀ y ∈ x.organization, OrganizationalEntity.Copyable y) ∧
  (∀ y ∈ x.externalReference, ExternalReference.Copyable y)

/-- cyclonedx.go:630-634 -/
def Affirmation.Copyable (x : Affirmation) : Prop :=
  x.signatories.Filled Signatory.Copyable ∧
  (∀ y ∈ x.signature, JSFSignature.Copyable y)

/-- cyclonedx.go:576-584 -/
def Declarations.Copyable (x : Declarations) : Prop :=
  x.assessors.Filled Assessor.Copyable ∧
  x.attestations.Filled Attestation.Copyable ∧
  x.claims.Filled Claim.Copyable ∧
  x.evidence.Filled DeclarationEvidence.Copyable ∧
  (∀ y ∈ x.targets, Targets.Copyable y) ∧
  (∀ y ∈ x.affirmation, Affirmation.Copyable y) ∧
  (∀ y ∈ x.signature, JSFSignature.Copyable y)

/-- cyclonedx.go:1802-1806 -/
def PriorityApplication.Copyable (_ : PriorityApplication) : Prop :=
  True

/-- cyclonedx.go:1743-1758 -/
def Patent.Copyable (x : Patent) : Prop :=
  (∀ y ∈ x.priorityApplication, PriorityApplication.Copyable y) ∧
  x.patentAssignee.Filled OrganizationalEntityOrContact.Copyable ∧
  x.externalReferences.Filled ExternalReference.Copyable

/-- cyclonedx.go:1761-1767 -/
def PatentFamily.Copyable (x : PatentFamily) : Prop :=
  (∀ y ∈ x.priorityApplication, PriorityApplication.Copyable y) ∧
  x.members.Filled (fun _ => True) ∧
  x.externalReferences.Filled ExternalReference.Copyable

/-- cyclonedx.go:606-609 -/
def PatentChoice.Copyable (x : PatentChoice) : Prop :=
  (∀ y ∈ x.patent, Patent.Copyable y) ∧
  (∀ y ∈ x.patentFamily, PatentFamily.Copyable y)

/-- cyclonedx.go:1429-1439 -/
def StandardRequirement.Copyable (x : StandardRequirement) : Prop :=
  x.descriptions.Filled (fun _ => True) ∧
  x.openCRE.Filled (fun _ => True) ∧
  x.properties.Filled Property.Copyable ∧
  x.externalReferences.Filled ExternalReference.Copyable

/-- cyclonedx.go:1441-1447 -/
def StandardLevel.Copyable (x : StandardLevel) : Prop :=
  x.requirements.Filled (fun _ => True)

/-- cyclonedx.go:1416-1427 -/
def StandardDefinition.Copyable (x : StandardDefinition) : Prop :=
  x.requirements.Filled StandardRequirement.Copyable ∧
  x.levels.Filled StandardLevel.Copyable ∧
  x.externalReferences.Filled ExternalReference.Copyable ∧
  (∀ y ∈ x.signature, JSFSignature.Copyable y)

/-- cyclonedx.go:598-601 -/
def Definitions.Copyable (x : Definitions) : Prop :=
  x.standards.Filled StandardDefinition.Copyable ∧
  x.patents.Filled PatentChoice.Copyable

/-- cyclonedx.go:644-648 -/
def Dependency.Copyable (x : Dependency) : Prop :=
  x.dependencies.Filled (fun _ => True) ∧
  x.provides.Filled (fun _ => True)

/-- cyclonedx.go:1337-1340 -/
def ResourceReferenceChoice.Copyable (x : ResourceReferenceChoice) : Prop :=
  (∀ y ∈ x.externalReference, ExternalReference.Copyable y)

/-- cyclonedx.go:657-660 -/
def EnvironmentVariableChoice.Copyable (x : EnvironmentVariableChoice) : Prop :=
  (∀ y ∈ x.property, Property.Copyable y)

/-- cyclonedx.go:1231-1235 -/
def Parameter.Copyable (_ : Parameter) : Prop :=
  True

/-- cyclonedx.go:1482-1490 -/
def TaskInput.Copyable (x : TaskInput) : Prop :=
  (∀ y ∈ x.resource, ResourceReferenceChoice.Copyable y) ∧
  x.parameters.Filled Parameter.Copyable ∧
  x.environmentVars.Filled EnvironmentVariableChoice.Copyable ∧
  (∀ y ∈ x.data, AttachedText.Copyable y) ∧
  (∀ y ∈ x.source, ResourceReferenceChoice.Copyable y) ∧
  (∀ y ∈ x.target, ResourceReferenceChoice.Copyable y) ∧
  x.properties.Filled Property.Copyable

/-- cyclonedx.go:1492-1501 -/
def TaskOutput.Copyable (x : TaskOutput) : Prop :=
  (∀ y ∈ x.resource, ResourceReferenceChoice.Copyable y) ∧
  x.parameters.Filled Parameter.Copyable ∧
  x.environmentVars.Filled EnvironmentVariableChoice.Copyable ∧
  (∀ y ∈ x.data, AttachedText.Copyable y) ∧
  (∀ y ∈ x.source, ResourceReferenceChoice.Copyable y) ∧
  (∀ y ∈ x.target, ResourceReferenceChoice.Copyable y) ∧
  x.properties.Filled Property.Copyable

/-- cyclonedx.go:1477-1480 -/
def TaskCommand.Copyable (x : TaskCommand) : Prop :=
  x.properties.Filled Property.Copyable

/-- cyclonedx.go:1514-1519 -/
def TaskStep.Copyable (x : TaskStep) : Prop :=
  x.commands.Filled TaskCommand.Copyable ∧
  x.properties.Filled Property.Copyable

/-- cyclonedx.go:662-670 -/
def Event.Copyable (x : Event) : Prop :=
  (∀ y ∈ x.data, AttachedText.Copyable y) ∧
  (∀ y ∈ x.source, ResourceReferenceChoice.Copyable y) ∧
  (∀ y ∈ x.target, ResourceReferenceChoice.Copyable y) ∧
  x.properties.Filled Property.Copyable

/-- cyclonedx.go:1536-1540 -/
def TaskTriggerCondition.Copyable (x : TaskTriggerCondition) : Prop :=
  x.properties.Filled Property.Copyable

/-- cyclonedx.go:1521-1534 -/
def TaskTrigger.Copyable (x : TaskTrigger) : Prop :=
  x.resourceReferences.Filled ResourceReferenceChoice.Copyable ∧
  (∀ y ∈ x.event, Event.Copyable y) ∧
  x.conditions.Filled TaskTriggerCondition.Copyable ∧
  x.inputs.Filled TaskInput.Copyable ∧
  x.outputs.Filled TaskOutput.Copyable ∧
  x.properties.Filled Property.Copyable

/-- cyclonedx.go:1616-1625 -/
def Volume.Copyable (x : Volume) : Prop :=
  x.persistent ≠ some false ∧
  x.remote ≠ some false ∧
  x.properties.Filled Property.Copyable

/-- cyclonedx.go:1568-1581 -/
def TaskWorkspace.Copyable (x : TaskWorkspace) : Prop :=
  x.aliases.Filled (fun _ => True) ∧
  x.resourceReferences.Filled ResourceReferenceChoice.Copyable ∧
  (∀ y ∈ x.volume, Volume.Copyable y) ∧
  x.properties.Filled Property.Copyable

/-- cyclonedx.go:1459-1475 -/
def Task.Copyable (x : Task) : Prop :=
  x.properties.Filled Property.Copyable ∧
  x.resourceReferences.Filled ResourceReferenceChoice.Copyable ∧
  x.taskTypes.Filled (fun _ => True) ∧
  (∀ y ∈ x.trigger, TaskTrigger.Copyable y) ∧
  x.steps.Filled TaskStep.Copyable ∧
  x.inputs.Filled TaskInput.Copyable ∧
  x.outputs.Filled TaskOutput.Copyable ∧
  x.workspaces.Filled TaskWorkspace.Copyable ∧
  x.runtimeTopology.Filled Dependency.Copyable

/-- cyclonedx.go:1689-1707 -/
def Workflow.Copyable (x : Workflow) : Prop :=
  x.resourceReferences.Filled ResourceReferenceChoice.Copyable ∧
  x.tasks.Filled Task.Copyable ∧
  x.taskDependencies.Filled Dependency.Copyable ∧
  x.taskTypes.Filled (fun _ => True) ∧
  (∀ y ∈ x.trigger, TaskTrigger.Copyable y) ∧
  x.steps.Filled TaskStep.Copyable ∧
  x.inputs.Filled TaskInput.Copyable ∧
  x.outputs.Filled TaskOutput.Copyable ∧
  x.workspaces.Filled TaskWorkspace.Copyable ∧
  x.runtimeTopology.Filled Dependency.Copyable ∧
  x.properties.Filled Property.Copyable

/-- cyclonedx.go:800-806 -/
def Formula.Copyable (x : Formula) : Prop :=
  x.components.Filled Component.Copyable ∧
  x.services.Filled Service.Copyable ∧
  x.workflows.Filled Workflow.Copyable ∧
  x.properties.Filled Property.Copyable

/-- cyclonedx.go:1006-1010 -/
def Lifecycle.Copyable (_ : Lifecycle) : Prop :=
  True

/-- cyclonedx.go:1594-1600 -/
def Tool.Copyable (x : Tool) : Prop :=
  x.hashes.Filled Hash.Copyable ∧
  x.externalReferences.Filled ExternalReference.Copyable

/-- cyclonedx.go:1610-1614 -/
def ToolsChoice.Copyable (x : ToolsChoice) : Prop :=
  x.tools.Filled Tool.Copyable ∧
  x.components.Filled Component.Copyable ∧
  x.services.Filled Service.Copyable

/-- cyclonedx.go:1809-1811 -/
def DistributionConstraints.Copyable (_ : DistributionConstraints) : Prop :=
  True

/-- cyclonedx.go:1042-1054 -/
def Metadata.Copyable (x : Metadata) : Prop :=
  x.lifecycles.Filled Lifecycle.Copyable ∧
  (∀ y ∈ x.tools, ToolsChoice.Copyable y) ∧
  x.authors.Filled OrganizationalContact.Copyable ∧
  (∀ y ∈ x.component, Component.Copyable y) ∧
  (∀ y ∈ x.manufacture, OrganizationalEntity.Copyable y) ∧
  (∀ y ∈ x.manufacturer, OrganizationalEntity.Copyable y) ∧
  (∀ y ∈ x.supplier, OrganizationalEntity.Copyable y) ∧
  x.licenses.Filled LicenseChoice.Copyable ∧
  x.properties.Filled Property.Copyable ∧
  (∀ y ∈ x.distributionConstraints, DistributionConstraints.Copyable y)

/-- cyclonedx.go:349-352 -/
def Credits.Copyable (x : Credits) : Prop :=
  x.organizations.Filled OrganizationalEntity.Copyable ∧
  x.individuals.Filled OrganizationalContact.Copyable

/-- cyclonedx.go:1271-1275 -/
def ProofOfConcept.Copyable (x : ProofOfConcept) : Prop :=
  x.supportingMaterial.Filled AttachedText.Copyable

/-- cyclonedx.go:1658-1665 -/
def VulnerabilityAnalysis.Copyable (x : VulnerabilityAnalysis) : Prop :=
  x.response.Filled (fun _ => True)

/-- cyclonedx.go:1667-1674 -/
def VulnerabilityRating.Copyable (x : VulnerabilityRating) : Prop :=
  (∀ y ∈ x.source, Source.Copyable y) ∧
  (∀ y ∈ x.score, ¬ y.isZero)

/-- cyclonedx.go:1676-1679 -/
def VulnerabilityReference.Copyable (x : VulnerabilityReference) : Prop :=
  (∀ y ∈ x.source, Source.Copyable y)

/-- cyclonedx.go:1634-1656 -/
def Vulnerability.Copyable (x : Vulnerability) : Prop :=
  (∀ y ∈ x.source, Source.Copyable y) ∧
  x.references.Filled VulnerabilityReference.Copyable ∧
  x.ratings.Filled VulnerabilityRating.Copyable ∧
  x.cwes.Filled (fun _ => True) ∧
  (∀ y ∈ x.proofOfConcept, ProofOfConcept.Copyable y) ∧
  x.advisories.Filled Advisory.Copyable ∧
  (∀ y ∈ x.credits, Credits.Copyable y) ∧
  (∀ y ∈ x.tools, ToolsChoice.Copyable y) ∧
  (∀ y ∈ x.analysis, VulnerabilityAnalysis.Copyable y) ∧
  x.affects.Filled Affects.Copyable ∧
  x.properties.Filled Property.Copyable

/-- cyclonedx.go:1712-1721 -/
def Citation.Copyable (x : Citation) : Prop :=
  x.pointers.Filled (fun _ => True) ∧
  x.expressions.Filled (fun _ => True) ∧
  x.attributedTo ≠ some ⟨""⟩ ∧
  (∀ y ∈ x.signature, JSFSignature.Copyable y)

/-- cyclonedx.go:105-131 -/
def BOM.Copyable (x : BOM) : Prop :=
  (∀ y ∈ x.metadata, Metadata.Copyable y) ∧
  x.components.Filled Component.Copyable ∧
  x.services.Filled Service.Copyable ∧
  x.externalReferences.Filled ExternalReference.Copyable ∧
  x.dependencies.Filled Dependency.Copyable ∧
  x.compositions.Filled Composition.Copyable ∧
  x.properties.Filled Property.Copyable ∧
  x.vulnerabilities.Filled Vulnerability.Copyable ∧
  x.annotations.Filled Annotation.Copyable ∧
  x.formulation.Filled Formula.Copyable ∧
  (∀ y ∈ x.declarations, Declarations.Copyable y) ∧
  (∀ y ∈ x.definitions, Definitions.Copyable y) ∧
  x.citations.Filled Citation.Copyable ∧
  (∀ y ∈ x.signature, JSFSignature.Copyable y)

/-- A choice of tools with at least one entry. -/
def ToolsChoice.NonEmpty (x : ToolsChoice) : Prop :=
  x.tools.elems ≠ [] ∨ x.components.elems ≠ [] ∨ x.services.elems ≠ []

/-- Every choice of tools in the document has at least one entry. -/
def BOM.ToolsNonEmpty (b : BOM) : Prop :=
  (∀ m ∈ b.metadata, ∀ t ∈ m.tools, t.NonEmpty) ∧
  (∀ x ∈ b.vulnerabilities.elems, ∀ t ∈ x.tools, t.NonEmpty)

end Verif
