import Verif.Model.Types

/-!
# The deep copy: model of /repo/copy.go

GENERATED by `tools/gen_gob.py` from the struct declarations of `/repo/cyclonedx.go`; do not edit by hand.

`BOM.copy` (copy.go:30-43) encodes the BOM with `encoding/gob` and decodes it into a new variable.  gob has no
pointers: a struct field is sent if it is not the zero value of its type *after* following pointers, and an
empty slice counts as zero; a field that is not sent stays nil in the new variable.  So

* a pointer to `false`, `0` or `""` becomes nil, and so does a pointer to a zero or negative zero
  floating-point number;
* a pointer to a nil or empty slice becomes nil;
* a floating-point field holding negative zero becomes zero (gob compares with `!= 0`);
* a pointer to a struct is sent even if all its fields are zero, and so is a struct that is not behind a pointer;
* the elements of a slice are all sent.

None of the types has a custom gob encoding, an interface, a map, a channel, a slice of pointers or no exported
field, so encoding and decoding cannot fail.  Not modelled: gob refuses messages of more than one gigabyte,
and does not end on a cyclic BOM (a slice that contains itself).
-/

namespace Verif

/-- Negative zero. -/
def F32.negZero : F32 := ⟨0x80000000⟩
/-- Negative zero. -/
def F64.negZero : F64 := ⟨0x8000000000000000⟩
/-- Go's `x == 0`. -/
def F32.isZero (x : F32) : Bool := x = ⟨0⟩ ∨ x = F32.negZero
/-- Go's `x == 0`. -/
def F64.isZero (x : F64) : Bool := x = ⟨0⟩ ∨ x = F64.negZero
/-- A number sent by gob as a struct field: negative zero is not sent. -/
def F32.noNegZero (x : F32) : F32 := if x = F32.negZero then ⟨0⟩ else x
/-- A number sent by gob as a struct field: negative zero is not sent. -/
def F64.noNegZero (x : F64) : F64 := if x = F64.negZero then ⟨0⟩ else x

namespace Gob
/-- `*string` and pointers to named string types, as a struct field. -/
def string : Option String → Option String
  | some s => if s = "" then none else some s
  | none => none
/-- `*BOMReference` -/
def ref : Option BOMReference → Option BOMReference
  | some s => if s.val = "" then none else some s
  | none => none
/-- `*bool` -/
def bool : Option Bool → Option Bool
  | some b => if b then some b else none
  | none => none
/-- `*int` -/
def int : Option Int → Option Int
  | some i => if i = 0 then none else some i
  | none => none
/-- `*float32` -/
def float32 : Option F32 → Option F32
  | some x => if x.isZero then none else some x
  | none => none
/-- `*float64` -/
def float64 : Option F64 → Option F64
  | some x => if x.isZero then none else some x
  | none => none
end Gob

/-- `*[]T` as a struct field. -/
def PSlice.copyWith {α : Type} (f : α → α) : PSlice α → PSlice α
  | .list (x :: xs) => .list (f x :: xs.map f)
  | _ => .nil

/-- cyclonedx.go:35-38 -/
def Advisory.copy (x : Advisory) : Advisory :=
  ⟨x.title, x.url⟩

/-- cyclonedx.go:40-44 -/
def AffectedVersions.copy (x : AffectedVersions) : AffectedVersions :=
  ⟨x.version, x.range, x.status⟩

/-- cyclonedx.go:46-49 -/
def Affects.copy (x : Affects) : Affects :=
  ⟨x.ref, x.range.copyWith AffectedVersions.copy⟩

/-- cyclonedx.go:73-77 -/
def AttachedText.copy (x : AttachedText) : AttachedText :=
  ⟨x.content, x.contentType, x.encoding⟩

/-- cyclonedx.go:1277-1280 -/
def Property.copy (x : Property) : Property :=
  ⟨x.name, x.value⟩

/-- cyclonedx.go:290-294 -/
def ComponentDataContents.copy (x : ComponentDataContents) : ComponentDataContents :=
  ⟨x.attachment.map AttachedText.copy, x.url, x.properties.copyWith Property.copy⟩

/-- cyclonedx.go:301-304 -/
def ComponentDataGraphic.copy (x : ComponentDataGraphic) : ComponentDataGraphic :=
  ⟨x.name, x.image.map AttachedText.copy⟩

/-- cyclonedx.go:306-309 -/
def ComponentDataGraphics.copy (x : ComponentDataGraphics) : ComponentDataGraphics :=
  ⟨x.description, x.collection.copyWith ComponentDataGraphic.copy⟩

/-- cyclonedx.go:1211-1216 -/
def OrganizationalContact.copy (x : OrganizationalContact) : OrganizationalContact :=
  ⟨x.bomRef, x.name, x.email, x.phone⟩

/-- cyclonedx.go:1261-1269 -/
def PostalAddress.copy (x : PostalAddress) : PostalAddress :=
  ⟨x.bomRef, x.country, x.region, x.locality, x.postOfficeBoxNumber, x.postalCode, x.streetAddress⟩

/-- cyclonedx.go:1218-1224 -/
def OrganizationalEntity.copy (x : OrganizationalEntity) : OrganizationalEntity :=
  ⟨x.bomRef, x.name, x.address.map PostalAddress.copy, x.url.copyWith _root_.id, x.contact.copyWith OrganizationalContact.copy⟩

/-- cyclonedx.go:296-299 -/
def ComponentDataGovernanceResponsibleParty.copy (x : ComponentDataGovernanceResponsibleParty) : ComponentDataGovernanceResponsibleParty :=
  ⟨x.organization.map OrganizationalEntity.copy, x.contact.map OrganizationalContact.copy⟩

/-- cyclonedx.go:570-574 -/
def DataGovernance.copy (x : DataGovernance) : DataGovernance :=
  ⟨x.custodians.copyWith ComponentDataGovernanceResponsibleParty.copy, x.stewards.copyWith ComponentDataGovernanceResponsibleParty.copy, x.owners.copyWith ComponentDataGovernanceResponsibleParty.copy⟩

/-- cyclonedx.go:278-288 -/
def ComponentData.copy (x : ComponentData) : ComponentData :=
  ⟨x.bomRef, x.type, x.name, x.contents.map ComponentDataContents.copy, x.classification, x.sensitiveData.copyWith _root_.id, x.graphics.map ComponentDataGraphics.copy, x.description, x.governance.map DataGovernance.copy⟩

/-- cyclonedx.go:808-811 -/
def Hash.copy (x : Hash) : Hash :=
  ⟨x.algorithm, x.value⟩

/-- cyclonedx.go:1866-1869 -/
def RelatedCryptographicAsset.copy (x : RelatedCryptographicAsset) : RelatedCryptographicAsset :=
  ⟨x.type, x.ref⟩

/-- cyclonedx.go:1880-1883 -/
def PredefinedCertificateState.copy (x : PredefinedCertificateState) : PredefinedCertificateState :=
  ⟨x.state, x.reason⟩

/-- cyclonedx.go:1886-1890 -/
def CustomCertificateState.copy (x : CustomCertificateState) : CustomCertificateState :=
  ⟨x.name, x.description, x.reason⟩

/-- cyclonedx.go:1874-1877 -/
def CertificateState.copy (x : CertificateState) : CertificateState :=
  ⟨x.predefined.map PredefinedCertificateState.copy, x.custom.map CustomCertificateState.copy⟩

/-- cyclonedx.go:1913-1916 -/
def CommonCertificateExtension.copy (x : CommonCertificateExtension) : CommonCertificateExtension :=
  ⟨x.name, x.value⟩

/-- cyclonedx.go:1919-1922 -/
def CustomCertificateExtension.copy (x : CustomCertificateExtension) : CustomCertificateExtension :=
  ⟨x.name, x.value⟩

/-- cyclonedx.go:1907-1910 -/
def CertificateExtension.copy (x : CertificateExtension) : CertificateExtension :=
  ⟨x.common.map CommonCertificateExtension.copy, x.custom.map CustomCertificateExtension.copy⟩

/-- cyclonedx.go:171-191 -/
def CertificateProperties.copy (x : CertificateProperties) : CertificateProperties :=
  ⟨x.serialNumber, x.subjectName, x.issuerName, x.notValidBefore, x.notValidAfter, x.signatureAlgorithmRef, x.subjectPublicKeyRef, x.certificateFormat, x.certificateExtension, x.certificateFileExtension, x.fingerprint.map Hash.copy, x.certificateState.copyWith CertificateState.copy, x.certificateExtensions.copyWith CertificateExtension.copy, x.relatedCryptographicAssets.copyWith RelatedCryptographicAsset.copy, x.creationDate, x.activationDate, x.deactivationDate, x.revocationDate, x.destructionDate⟩

/-- cyclonedx.go:368-382 -/
def CryptoAlgorithmProperties.copy (x : CryptoAlgorithmProperties) : CryptoAlgorithmProperties :=
  ⟨x.primitive, x.parameterSetIdentifier, x.algorithmFamily, x.curve, x.ellipticCurve, x.executionEnvironment, x.implementationPlatform, x.certificationLevel.copyWith _root_.id, x.mode, x.padding, x.cryptoFunctions.copyWith _root_.id, Gob.int x.classicalSecurityLevel, Gob.int x.nistQuantumSecurityLevel⟩

/-- cyclonedx.go:205-211 -/
def CipherSuite.copy (x : CipherSuite) : CipherSuite :=
  ⟨x.name, x.algorithms.copyWith _root_.id, x.identifiers.copyWith _root_.id, x.tlsGroups.copyWith _root_.id, x.tlsSignatureSchemes.copyWith _root_.id⟩

/-- cyclonedx.go:1826-1830 -/
def IKEv2Auth.copy (x : IKEv2Auth) : IKEv2Auth :=
  ⟨x.bomRef, x.name, x.algorithm⟩

/-- cyclonedx.go:1834-1839 -/
def IKEv2Enc.copy (x : IKEv2Enc) : IKEv2Enc :=
  ⟨x.bomRef, x.name, Gob.int x.keyLength, x.algorithm⟩

/-- cyclonedx.go:1843-1847 -/
def IKEv2Integ.copy (x : IKEv2Integ) : IKEv2Integ :=
  ⟨x.bomRef, x.name, x.algorithm⟩

/-- cyclonedx.go:1851-1855 -/
def IKEv2Ke.copy (x : IKEv2Ke) : IKEv2Ke :=
  ⟨x.bomRef, Gob.int x.group, x.algorithm⟩

/-- cyclonedx.go:1859-1863 -/
def IKEv2Prf.copy (x : IKEv2Prf) : IKEv2Prf :=
  ⟨x.bomRef, x.name, x.algorithm⟩

/-- cyclonedx.go:537-544 -/
def IKEv2TransformTypes.copy (x : IKEv2TransformTypes) : IKEv2TransformTypes :=
  ⟨x.encr.copyWith IKEv2Enc.copy, x.prf.copyWith IKEv2Prf.copy, x.integ.copyWith IKEv2Integ.copy, x.ke.copyWith IKEv2Ke.copy, x.esn, x.auth.copyWith IKEv2Auth.copy⟩

/-- cyclonedx.go:509-516 -/
def CryptoProtocolProperties.copy (x : CryptoProtocolProperties) : CryptoProtocolProperties :=
  ⟨x.type, x.version, x.cipherSuites.copyWith CipherSuite.copy, x.ikev2TransformTypes.map IKEv2TransformTypes.copy, x.cryptoRefArray.copyWith _root_.id, x.relatedCryptographicAssets.copyWith RelatedCryptographicAsset.copy⟩

/-- cyclonedx.go:546-549 -/
def SecuredBy.copy (x : SecuredBy) : SecuredBy :=
  ⟨x.mechanism, x.algorithmRef⟩

/-- cyclonedx.go:1282-1297 -/
def RelatedCryptoMaterialProperties.copy (x : RelatedCryptoMaterialProperties) : RelatedCryptoMaterialProperties :=
  ⟨x.type, x.id, x.state, x.algorithmRef, x.creationDate, x.activationDate, x.updateDate, x.expirationDate, x.value, Gob.int x.size, x.format, x.securedBy.map SecuredBy.copy, x.fingerprint.map Hash.copy, x.relatedCryptographicAssets.copyWith RelatedCryptographicAsset.copy⟩

/-- cyclonedx.go:500-507 -/
def CryptoProperties.copy (x : CryptoProperties) : CryptoProperties :=
  ⟨x.assetType, x.algorithmProperties.map CryptoAlgorithmProperties.copy, x.certificateProperties.map CertificateProperties.copy, x.relatedCryptoMaterialProperties.map RelatedCryptoMaterialProperties.copy, x.protocolProperties.map CryptoProtocolProperties.copy, x.oid⟩

/-- cyclonedx.go:161-169 -/
def CallstackFrame.copy (x : CallstackFrame) : CallstackFrame :=
  ⟨x.package, x.module, x.function, x.parameters.copyWith _root_.id, Gob.int x.line, Gob.int x.column, x.fullFilename⟩

/-- cyclonedx.go:157-159 -/
def Callstack.copy (x : Callstack) : Callstack :=
  ⟨x.frames.copyWith CallstackFrame.copy⟩

/-- cyclonedx.go:345-347 -/
def Copyright.copy (x : Copyright) : Copyright :=
  ⟨x.text⟩

/-- cyclonedx.go:710-714 -/
def EvidenceIdentityMethod.copy (x : EvidenceIdentityMethod) : EvidenceIdentityMethod :=
  ⟨x.technique, Gob.float32 x.confidence, x.value⟩

/-- cyclonedx.go:688-694 -/
def EvidenceIdentity.copy (x : EvidenceIdentity) : EvidenceIdentity :=
  ⟨x.field, Gob.float32 x.confidence, x.concludedValue, x.methods.copyWith EvidenceIdentityMethod.copy, x.tools.copyWith _root_.id⟩

/-- cyclonedx.go:683-686 -/
def EvidenceIdentityChoice.copy (x : EvidenceIdentityChoice) : EvidenceIdentityChoice :=
  ⟨x.identity.map EvidenceIdentity.copy, x.identities.copyWith EvidenceIdentity.copy⟩

/-- cyclonedx.go:731-738 -/
def EvidenceOccurrence.copy (x : EvidenceOccurrence) : EvidenceOccurrence :=
  ⟨x.bomRef, x.location, Gob.int x.line, Gob.int x.offset, x.symbol, x.additionalContext⟩

/-- cyclonedx.go:1226-1229 -/
def OrganizationalEntityOrContact.copy (x : OrganizationalEntityOrContact) : OrganizationalEntityOrContact :=
  ⟨x.organization.map OrganizationalEntity.copy, x.individual.map OrganizationalContact.copy⟩

/-- cyclonedx.go:995-1004 -/
def Licensing.copy (x : Licensing) : Licensing :=
  ⟨x.altIDs.copyWith _root_.id, x.licensor.map OrganizationalEntityOrContact.copy, x.licensee.map OrganizationalEntityOrContact.copy, x.purchaser.map OrganizationalEntityOrContact.copy, x.purchaseOrder, x.licenseTypes.copyWith _root_.id, x.lastRenewal, x.expiration⟩

/-- cyclonedx.go:936-945 -/
def License.copy (x : License) : License :=
  ⟨x.bomRef, x.id, x.name, x.acknowledgement, x.text.map AttachedText.copy, x.url, x.licensing.map Licensing.copy, x.properties.copyWith Property.copy⟩

/-- cyclonedx.go:967-972 -/
def LicenseExpressionDetail.copy (x : LicenseExpressionDetail) : LicenseExpressionDetail :=
  ⟨x.licenseIdentifier, x.bomRef, x.text.map AttachedText.copy, x.url⟩

/-- cyclonedx.go:956-964 -/
def LicenseChoice.copy (x : LicenseChoice) : LicenseChoice :=
  ⟨x.license.map License.copy, x.expression, x.expressionDetails.copyWith LicenseExpressionDetail.copy, Gob.string x.acknowledgement, x.bomRef, x.licensing.map Licensing.copy, x.properties.copyWith Property.copy⟩

/-- cyclonedx.go:672-678 -/
def Evidence.copy (x : Evidence) : Evidence :=
  ⟨x.identity.map EvidenceIdentityChoice.copy, x.occurrences.copyWith EvidenceOccurrence.copy, x.callstack.map Callstack.copy, x.licenses.copyWith LicenseChoice.copy, x.copyright.copyWith Copyright.copy⟩

/-- cyclonedx.go:740-746 -/
def ExternalReference.copy (x : ExternalReference) : ExternalReference :=
  ⟨x.url, x.comment, x.hashes.copyWith Hash.copy, x.type, x.properties.copyWith Property.copy⟩

/-- cyclonedx.go:925-934 -/
def JSFPublicKey.copy (x : JSFPublicKey) : JSFPublicKey :=
  ⟨x.kty, x.crv, x.x, x.y, x.n, x.e⟩

/-- cyclonedx.go:916-923 -/
def JSFSigner.copy (x : JSFSigner) : JSFSigner :=
  ⟨x.algorithm, x.keyID, x.publicKey.copy, x.certificatePath.copyWith _root_.id, x.excludes.copyWith _root_.id, x.value⟩

/-- cyclonedx.go:909-914 -/
def JSFSignature.copy (x : JSFSignature) : JSFSignature :=
  ⟨x.jsfSigner.map JSFSigner.copy, x.signers.copyWith JSFSigner.copy, x.chain.copyWith JSFSigner.copy⟩

/-- cyclonedx.go:1099-1102 -/
def MLModelCO2Measure.copy (x : MLModelCO2Measure) : MLModelCO2Measure :=
  ⟨x.value.noNegZero, x.unit⟩

/-- cyclonedx.go:1131-1134 -/
def MLModelEnergyMeasure.copy (x : MLModelEnergyMeasure) : MLModelEnergyMeasure :=
  ⟨x.value.noNegZero, x.unit⟩

/-- cyclonedx.go:1136-1143 -/
def MLModelEnergyProvider.copy (x : MLModelEnergyProvider) : MLModelEnergyProvider :=
  ⟨x.bomRef, x.description, x.organization.map OrganizationalEntity.copy, x.energySource, x.energyProvided.map MLModelEnergyMeasure.copy, x.externalReferences.copyWith ExternalReference.copy⟩

/-- cyclonedx.go:1108-1115 -/
def MLModelEnergyConsumption.copy (x : MLModelEnergyConsumption) : MLModelEnergyConsumption :=
  ⟨x.activity, x.energyProviders.copyWith MLModelEnergyProvider.copy, x.activityEnergyCost.copy, x.co2CostEquivalent.map MLModelCO2Measure.copy, x.co2CostOffset.map MLModelCO2Measure.copy, x.properties.copyWith Property.copy⟩

/-- cyclonedx.go:1082-1085 -/
def MLModelCardEnvironmentalConsiderations.copy (x : MLModelCardEnvironmentalConsiderations) : MLModelCardEnvironmentalConsiderations :=
  ⟨x.energyConsumptions.copyWith MLModelEnergyConsumption.copy, x.properties.copyWith Property.copy⟩

/-- cyclonedx.go:1087-1090 -/
def MLModelCardEthicalConsideration.copy (x : MLModelCardEthicalConsideration) : MLModelCardEthicalConsideration :=
  ⟨x.name, x.mitigationStrategy⟩

/-- cyclonedx.go:1092-1097 -/
def MLModelCardFairnessAssessment.copy (x : MLModelCardFairnessAssessment) : MLModelCardFairnessAssessment :=
  ⟨x.groupAtRisk, x.benefits, x.harms, x.mitigationStrategy⟩

/-- cyclonedx.go:1072-1080 -/
def MLModelCardConsiderations.copy (x : MLModelCardConsiderations) : MLModelCardConsiderations :=
  ⟨x.users.copyWith _root_.id, x.useCases.copyWith _root_.id, x.technicalLimitations.copyWith _root_.id, x.performanceTradeoffs.copyWith _root_.id, x.ethicalConsiderations.copyWith MLModelCardEthicalConsideration.copy, x.environmentalConsiderations.map MLModelCardEnvironmentalConsiderations.copy, x.fairnessAssessments.copyWith MLModelCardFairnessAssessment.copy⟩

/-- cyclonedx.go:1056-1059 -/
def MLDatasetChoice.copy (x : MLDatasetChoice) : MLDatasetChoice :=
  ⟨x.ref, x.componentData.map ComponentData.copy⟩

/-- cyclonedx.go:1061-1063 -/
def MLInputOutputParameters.copy (x : MLInputOutputParameters) : MLInputOutputParameters :=
  ⟨x.format⟩

/-- cyclonedx.go:1175-1177 -/
def MLModelParametersApproach.copy (x : MLModelParametersApproach) : MLModelParametersApproach :=
  ⟨x.type⟩

/-- cyclonedx.go:1165-1173 -/
def MLModelParameters.copy (x : MLModelParameters) : MLModelParameters :=
  ⟨x.approach.map MLModelParametersApproach.copy, x.task, x.architectureFamily, x.modelArchitecture, x.datasets.copyWith MLDatasetChoice.copy, x.inputs.copyWith MLInputOutputParameters.copy, x.outputs.copyWith MLInputOutputParameters.copy⟩

/-- cyclonedx.go:1201-1204 -/
def MLPerformanceMetricConfidenceInterval.copy (x : MLPerformanceMetricConfidenceInterval) : MLPerformanceMetricConfidenceInterval :=
  ⟨x.lowerBound, x.upperBound⟩

/-- cyclonedx.go:1194-1199 -/
def MLPerformanceMetric.copy (x : MLPerformanceMetric) : MLPerformanceMetric :=
  ⟨x.type, x.value, x.slice, x.confidenceInterval.map MLPerformanceMetricConfidenceInterval.copy⟩

/-- cyclonedx.go:1189-1192 -/
def MLQuantitativeAnalysis.copy (x : MLQuantitativeAnalysis) : MLQuantitativeAnalysis :=
  ⟨x.performanceMetrics.copyWith MLPerformanceMetric.copy, x.graphics.map ComponentDataGraphics.copy⟩

/-- cyclonedx.go:1065-1070 -/
def MLModelCard.copy (x : MLModelCard) : MLModelCard :=
  ⟨x.bomRef, x.modelParameters.map MLModelParameters.copy, x.quantitativeAnalysis.map MLQuantitativeAnalysis.copy, x.considerations.map MLModelCardConsiderations.copy⟩

/-- cyclonedx.go:832-836 -/
def IdentifiableAction.copy (x : IdentifiableAction) : IdentifiableAction :=
  ⟨x.timestamp, x.name, x.email⟩

/-- cyclonedx.go:231-237 -/
def Commit.copy (x : Commit) : Commit :=
  ⟨x.uid, x.url, x.author.map IdentifiableAction.copy, x.committer.map IdentifiableAction.copy, x.message⟩

/-- cyclonedx.go:650-653 -/
def Diff.copy (x : Diff) : Diff :=
  ⟨x.text.map AttachedText.copy, x.url⟩

/-- cyclonedx.go:1398-1401 -/
def Source.copy (x : Source) : Source :=
  ⟨x.name, x.url⟩

/-- cyclonedx.go:892-899 -/
def Issue.copy (x : Issue) : Issue :=
  ⟨x.id, x.name, x.description, x.source.map Source.copy, x.references.copyWith _root_.id, x.type⟩

/-- cyclonedx.go:1237-1241 -/
def Patch.copy (x : Patch) : Patch :=
  ⟨x.diff.map Diff.copy, x.resolves.copyWith Issue.copy, x.type⟩

/-- cyclonedx.go:1206-1209 -/
def Note.copy (x : Note) : Note :=
  ⟨x.locale, x.text.copy⟩

/-- cyclonedx.go:1323-1335 -/
def ReleaseNotes.copy (x : ReleaseNotes) : ReleaseNotes :=
  ⟨x.type, x.title, x.featuredImage, x.socialImage, x.description, x.timestamp, x.aliases.copyWith _root_.id, x.tags.copyWith _root_.id, x.resolves.copyWith Issue.copy, x.notes.copyWith Note.copy, x.properties.copyWith Property.copy⟩

/-- cyclonedx.go:1449-1457 -/
def SWID.copy (x : SWID) : SWID :=
  ⟨x.text.map AttachedText.copy, x.url, x.tagID, x.name, x.version, Gob.int x.tagVersion, Gob.bool x.patch⟩

/-- cyclonedx.go:1772-1776 -/
def AsserterChoice.copy (x : AsserterChoice) : AsserterChoice :=
  ⟨x.organization.map OrganizationalEntity.copy, x.individual.map OrganizationalContact.copy, Gob.ref x.bomRef⟩

/-- cyclonedx.go:1779-1785 -/
def PatentAssertion.copy (x : PatentAssertion) : PatentAssertion :=
  ⟨x.bomRef, x.patentRefs.copyWith _root_.id, x.assertionType, x.asserter.map AsserterChoice.copy, x.notes⟩

mutual
/-- cyclonedx.go:239-276 -/
def Component.copy : Component → Component
  | .mk bomRef mimeType type supplier manufacturer author authors publisher group name version description scope hashes licenses copyright cpe packageURL omniborID swhid swid modified pedigree externalReferences properties components evidence releaseNotes modelCard data cryptoProperties tags isExternal patentAssertions versionRange signature =>
    .mk (bomRef) (mimeType) (type) (supplier.map OrganizationalEntity.copy) (manufacturer.map OrganizationalEntity.copy) (author) (authors.copyWith OrganizationalContact.copy) (publisher) (group) (name) (version) (description) (scope) (hashes.copyWith Hash.copy) (licenses.copyWith LicenseChoice.copy) (copyright) (cpe) (packageURL) (omniborID.copyWith _root_.id) (swhid.copyWith _root_.id) (swid.map SWID.copy) (Gob.bool modified) (copyPedigreeOpt pedigree) (externalReferences.copyWith ExternalReference.copy) (properties.copyWith Property.copy) (copyComponents components) (evidence.map Evidence.copy) (releaseNotes.map ReleaseNotes.copy) (modelCard.map MLModelCard.copy) (data.copyWith ComponentData.copy) (cryptoProperties.map CryptoProperties.copy) (tags.copyWith _root_.id) (Gob.bool isExternal) (patentAssertions.copyWith PatentAssertion.copy) (versionRange) (signature.map JSFSignature.copy)
/-- A list of components. -/
def copyComponents : PSlice Component → PSlice Component
  | .list (x :: xs) => .list (x.copy :: copyComponentList xs)
  | _ => .nil
/-- The elements of a list of components. -/
def copyComponentList : List Component → List Component
  | [] => []
  | c :: cs => c.copy :: copyComponentList cs
/-- `*Pedigree` -/
def copyPedigreeOpt : Option (Pedigree Component) → Option (Pedigree Component)
  | none => none
  | some p => some (copyPedigree p)
/-- cyclonedx.go:1252-1259 -/
def copyPedigree : Pedigree Component → Pedigree Component
  | .mk ancestors descendants variants commits patches notes =>
    .mk (copyComponents ancestors) (copyComponents descendants) (copyComponents variants) (commits.copyWith Commit.copy) (patches.copyWith Patch.copy) (notes)
end

/-- cyclonedx.go:551-559 -/
def DataClassification.copy (x : DataClassification) : DataClassification :=
  ⟨x.flow, x.classification, x.name, x.description, x.governance.map DataGovernance.copy, x.source.copyWith _root_.id, x.destination.copyWith _root_.id⟩

mutual
/-- cyclonedx.go:1362-1382 -/
def Service.copy : Service → Service
  | .mk bomRef provider group name version description endpoints authenticated crossesTrustBoundary data licenses externalReferences properties services releaseNotes tags trustZone patentAssertions signature =>
    .mk (bomRef) (provider.map OrganizationalEntity.copy) (group) (name) (version) (description) (endpoints.copyWith _root_.id) (Gob.bool authenticated) (Gob.bool crossesTrustBoundary) (data.copyWith DataClassification.copy) (licenses.copyWith LicenseChoice.copy) (externalReferences.copyWith ExternalReference.copy) (properties.copyWith Property.copy) (copyServices services) (releaseNotes.map ReleaseNotes.copy) (tags.copyWith _root_.id) (trustZone) (patentAssertions.copyWith PatentAssertion.copy) (signature.map JSFSignature.copy)
/-- A list of services. -/
def copyServices : PSlice Service → PSlice Service
  | .list (x :: xs) => .list (x.copy :: copyServiceList xs)
  | _ => .nil
/-- The elements of a list of services. -/
def copyServiceList : List Service → List Service
  | [] => []
  | c :: cs => c.copy :: copyServiceList cs
end

/-- cyclonedx.go:60-65 -/
def Annotator.copy (x : Annotator) : Annotator :=
  ⟨x.organization.map OrganizationalEntity.copy, x.individual.map OrganizationalContact.copy, x.component.map Component.copy, x.service.map Service.copy⟩

/-- cyclonedx.go:51-58 -/
def Annotation.copy (x : Annotation) : Annotation :=
  ⟨x.bomRef, x.subjects.copyWith _root_.id, x.annotator.map Annotator.copy, x.timestamp, x.text, x.signature.map JSFSignature.copy⟩

/-- cyclonedx.go:67-71 -/
def Assessor.copy (x : Assessor) : Assessor :=
  ⟨x.bomRef, x.thirdParty, x.organization.map OrganizationalEntity.copy⟩

/-- cyclonedx.go:94-98 -/
def AttestationConformance.copy (x : AttestationConformance) : AttestationConformance :=
  ⟨Gob.float64 x.score, x.rationale, x.mitigationStrategies.copyWith _root_.id⟩

/-- cyclonedx.go:100-103 -/
def AttestationConfidence.copy (x : AttestationConfidence) : AttestationConfidence :=
  ⟨Gob.float64 x.score, x.rationale⟩

/-- cyclonedx.go:86-92 -/
def AttestationMap.copy (x : AttestationMap) : AttestationMap :=
  ⟨x.requirement, x.claims.copyWith _root_.id, x.counterClaims.copyWith _root_.id, x.conformance.map AttestationConformance.copy, x.confidence.map AttestationConfidence.copy⟩

/-- cyclonedx.go:79-84 -/
def Attestation.copy (x : Attestation) : Attestation :=
  ⟨x.summary, x.assessor, x.map.copyWith AttestationMap.copy, x.signature.map JSFSignature.copy⟩

/-- cyclonedx.go:321-328 -/
def Composition.copy (x : Composition) : Composition :=
  ⟨x.bomRef, x.aggregate, x.assemblies.copyWith _root_.id, x.dependencies.copyWith _root_.id, x.vulnerabilities.copyWith _root_.id, x.signature.map JSFSignature.copy⟩

/-- cyclonedx.go:193-203 -/
def Claim.copy (x : Claim) : Claim :=
  ⟨x.bomRef, x.target, x.predicate, x.mitigationStrategies.copyWith _root_.id, x.reasoning, x.evidence.copyWith _root_.id, x.counterEvidence.copyWith _root_.id, x.externalReferences.copyWith ExternalReference.copy, x.signature.map JSFSignature.copy⟩

/-- cyclonedx.go:619-622 -/
def EvidenceDataContents.copy (x : EvidenceDataContents) : EvidenceDataContents :=
  ⟨x.attachment.map AttachedText.copy, x.url⟩

/-- cyclonedx.go:611-617 -/
def EvidenceData.copy (x : EvidenceData) : EvidenceData :=
  ⟨x.name, x.contents.map EvidenceDataContents.copy, x.classification.map DataClassification.copy, x.sensitiveData.copyWith _root_.id, x.governance.map DataGovernance.copy⟩

/-- cyclonedx.go:586-596 -/
def DeclarationEvidence.copy (x : DeclarationEvidence) : DeclarationEvidence :=
  ⟨x.bomRef, x.propertyName, x.description, x.data.copyWith EvidenceData.copy, x.created, x.expires, x.author.map OrganizationalContact.copy, x.reviewer.map OrganizationalContact.copy, x.signature.map JSFSignature.copy⟩

/-- cyclonedx.go:624-628 -/
def Targets.copy (x : Targets) : Targets :=
  ⟨x.organizations.copyWith OrganizationalEntity.copy, x.components.copyWith Component.copy, x.services.copyWith Service.copy⟩

/-- cyclonedx.go:636-642 -/
def Signatory.copy (x : Signatory) : Signatory :=
  ⟨x.name, x.role, x.signature.map JSFSignature.copy, x.organization.map OrganizationalEntity.copy, x.externalReference.map ExternalReference.copy⟩

/-- cyclonedx.go:630-634 -/
def Affirmation.copy (x : Affirmation) : Affirmation :=
  ⟨x.statement, x.signatories.copyWith Signatory.copy, x.signature.map JSFSignature.copy⟩

/-- cyclonedx.go:576-584 -/
def Declarations.copy (x : Declarations) : Declarations :=
  ⟨x.assessors.copyWith Assessor.copy, x.attestations.copyWith Attestation.copy, x.claims.copyWith Claim.copy, x.evidence.copyWith DeclarationEvidence.copy, x.targets.map Targets.copy, x.affirmation.map Affirmation.copy, x.signature.map JSFSignature.copy⟩

/-- cyclonedx.go:1802-1806 -/
def PriorityApplication.copy (x : PriorityApplication) : PriorityApplication :=
  ⟨x.applicationNumber, x.jurisdiction, x.filingDate⟩

/-- cyclonedx.go:1743-1758 -/
def Patent.copy (x : Patent) : Patent :=
  ⟨x.bomRef, x.patentNumber, x.applicationNumber, x.jurisdiction, x.priorityApplication.map PriorityApplication.copy, x.publicationNumber, x.title, x.abstract, x.filingDate, x.grantDate, x.patentExpirationDate, x.patentLegalStatus, x.patentAssignee.copyWith OrganizationalEntityOrContact.copy, x.externalReferences.copyWith ExternalReference.copy⟩

/-- cyclonedx.go:1761-1767 -/
def PatentFamily.copy (x : PatentFamily) : PatentFamily :=
  ⟨x.bomRef, x.familyID, x.priorityApplication.map PriorityApplication.copy, x.members.copyWith _root_.id, x.externalReferences.copyWith ExternalReference.copy⟩

/-- cyclonedx.go:606-609 -/
def PatentChoice.copy (x : PatentChoice) : PatentChoice :=
  ⟨x.patent.map Patent.copy, x.patentFamily.map PatentFamily.copy⟩

/-- cyclonedx.go:1429-1439 -/
def StandardRequirement.copy (x : StandardRequirement) : StandardRequirement :=
  ⟨x.bomRef, x.identifier, x.title, x.text, x.descriptions.copyWith _root_.id, x.openCRE.copyWith _root_.id, x.parent, x.properties.copyWith Property.copy, x.externalReferences.copyWith ExternalReference.copy⟩

/-- cyclonedx.go:1441-1447 -/
def StandardLevel.copy (x : StandardLevel) : StandardLevel :=
  ⟨x.bomRef, x.identifier, x.title, x.description, x.requirements.copyWith _root_.id⟩

/-- cyclonedx.go:1416-1427 -/
def StandardDefinition.copy (x : StandardDefinition) : StandardDefinition :=
  ⟨x.bomRef, x.name, x.version, x.description, x.owner, x.requirements.copyWith StandardRequirement.copy, x.levels.copyWith StandardLevel.copy, x.externalReferences.copyWith ExternalReference.copy, x.signature.map JSFSignature.copy⟩

/-- cyclonedx.go:598-601 -/
def Definitions.copy (x : Definitions) : Definitions :=
  ⟨x.standards.copyWith StandardDefinition.copy, x.patents.copyWith PatentChoice.copy⟩

/-- cyclonedx.go:644-648 -/
def Dependency.copy (x : Dependency) : Dependency :=
  ⟨x.ref, x.dependencies.copyWith _root_.id, x.provides.copyWith _root_.id⟩

/-- cyclonedx.go:1337-1340 -/
def ResourceReferenceChoice.copy (x : ResourceReferenceChoice) : ResourceReferenceChoice :=
  ⟨x.ref, x.externalReference.map ExternalReference.copy⟩

/-- cyclonedx.go:657-660 -/
def EnvironmentVariableChoice.copy (x : EnvironmentVariableChoice) : EnvironmentVariableChoice :=
  ⟨x.property.map Property.copy, x.value⟩

/-- cyclonedx.go:1231-1235 -/
def Parameter.copy (x : Parameter) : Parameter :=
  ⟨x.name, x.value, x.dataType⟩

/-- cyclonedx.go:1482-1490 -/
def TaskInput.copy (x : TaskInput) : TaskInput :=
  ⟨x.resource.map ResourceReferenceChoice.copy, x.parameters.copyWith Parameter.copy, x.environmentVars.copyWith EnvironmentVariableChoice.copy, x.data.map AttachedText.copy, x.source.map ResourceReferenceChoice.copy, x.target.map ResourceReferenceChoice.copy, x.properties.copyWith Property.copy⟩

/-- cyclonedx.go:1492-1501 -/
def TaskOutput.copy (x : TaskOutput) : TaskOutput :=
  ⟨x.resource.map ResourceReferenceChoice.copy, x.parameters.copyWith Parameter.copy, x.environmentVars.copyWith EnvironmentVariableChoice.copy, x.data.map AttachedText.copy, x.type, x.source.map ResourceReferenceChoice.copy, x.target.map ResourceReferenceChoice.copy, x.properties.copyWith Property.copy⟩

/-- cyclonedx.go:1477-1480 -/
def TaskCommand.copy (x : TaskCommand) : TaskCommand :=
  ⟨x.executed, x.properties.copyWith Property.copy⟩

/-- cyclonedx.go:1514-1519 -/
def TaskStep.copy (x : TaskStep) : TaskStep :=
  ⟨x.name, x.description, x.commands.copyWith TaskCommand.copy, x.properties.copyWith Property.copy⟩

/-- cyclonedx.go:662-670 -/
def Event.copy (x : Event) : Event :=
  ⟨x.uid, x.description, x.timeReceived, x.data.map AttachedText.copy, x.source.map ResourceReferenceChoice.copy, x.target.map ResourceReferenceChoice.copy, x.properties.copyWith Property.copy⟩

/-- cyclonedx.go:1536-1540 -/
def TaskTriggerCondition.copy (x : TaskTriggerCondition) : TaskTriggerCondition :=
  ⟨x.description, x.expression, x.properties.copyWith Property.copy⟩

/-- cyclonedx.go:1521-1534 -/
def TaskTrigger.copy (x : TaskTrigger) : TaskTrigger :=
  ⟨x.bomRef, x.uid, x.name, x.description, x.resourceReferences.copyWith ResourceReferenceChoice.copy, x.type, x.event.map Event.copy, x.conditions.copyWith TaskTriggerCondition.copy, x.timeActivated, x.inputs.copyWith TaskInput.copy, x.outputs.copyWith TaskOutput.copy, x.properties.copyWith Property.copy⟩

/-- cyclonedx.go:1616-1625 -/
def Volume.copy (x : Volume) : Volume :=
  ⟨x.uid, x.name, x.mode, x.path, x.sizeAllocated, Gob.bool x.persistent, Gob.bool x.remote, x.properties.copyWith Property.copy⟩

/-- cyclonedx.go:1568-1581 -/
def TaskWorkspace.copy (x : TaskWorkspace) : TaskWorkspace :=
  ⟨x.bomRef, x.uid, x.name, x.aliases.copyWith _root_.id, x.description, x.resourceReferences.copyWith ResourceReferenceChoice.copy, x.accessMode, x.mountPath, x.managedDataType, x.volumeRequest, x.volume.map Volume.copy, x.properties.copyWith Property.copy⟩

/-- cyclonedx.go:1459-1475 -/
def Task.copy (x : Task) : Task :=
  ⟨x.bomRef, x.uid, x.name, x.description, x.properties.copyWith Property.copy, x.resourceReferences.copyWith ResourceReferenceChoice.copy, x.taskTypes.copyWith _root_.id, x.trigger.map TaskTrigger.copy, x.steps.copyWith TaskStep.copy, x.inputs.copyWith TaskInput.copy, x.outputs.copyWith TaskOutput.copy, x.timeStart, x.timeEnd, x.workspaces.copyWith TaskWorkspace.copy, x.runtimeTopology.copyWith Dependency.copy⟩

/-- cyclonedx.go:1689-1707 -/
def Workflow.copy (x : Workflow) : Workflow :=
  ⟨x.bomRef, x.uid, x.name, x.description, x.resourceReferences.copyWith ResourceReferenceChoice.copy, x.tasks.copyWith Task.copy, x.taskDependencies.copyWith Dependency.copy, x.taskTypes.copyWith _root_.id, x.trigger.map TaskTrigger.copy, x.steps.copyWith TaskStep.copy, x.inputs.copyWith TaskInput.copy, x.outputs.copyWith TaskOutput.copy, x.timeStart, x.timeEnd, x.workspaces.copyWith TaskWorkspace.copy, x.runtimeTopology.copyWith Dependency.copy, x.properties.copyWith Property.copy⟩

/-- cyclonedx.go:800-806 -/
def Formula.copy (x : Formula) : Formula :=
  ⟨x.bomRef, x.components.copyWith Component.copy, x.services.copyWith Service.copy, x.workflows.copyWith Workflow.copy, x.properties.copyWith Property.copy⟩

/-- cyclonedx.go:1006-1010 -/
def Lifecycle.copy (x : Lifecycle) : Lifecycle :=
  ⟨x.name, x.phase, x.description⟩

/-- cyclonedx.go:1594-1600 -/
def Tool.copy (x : Tool) : Tool :=
  ⟨x.vendor, x.name, x.version, x.hashes.copyWith Hash.copy, x.externalReferences.copyWith ExternalReference.copy⟩

/-- cyclonedx.go:1610-1614 -/
def ToolsChoice.copy (x : ToolsChoice) : ToolsChoice :=
  ⟨x.tools.copyWith Tool.copy, x.components.copyWith Component.copy, x.services.copyWith Service.copy⟩

/-- cyclonedx.go:1809-1811 -/
def DistributionConstraints.copy (x : DistributionConstraints) : DistributionConstraints :=
  ⟨x.tlp⟩

/-- cyclonedx.go:1042-1054 -/
def Metadata.copy (x : Metadata) : Metadata :=
  ⟨x.timestamp, x.lifecycles.copyWith Lifecycle.copy, x.tools.map ToolsChoice.copy, x.authors.copyWith OrganizationalContact.copy, x.component.map Component.copy, x.manufacture.map OrganizationalEntity.copy, x.manufacturer.map OrganizationalEntity.copy, x.supplier.map OrganizationalEntity.copy, x.licenses.copyWith LicenseChoice.copy, x.properties.copyWith Property.copy, x.distributionConstraints.map DistributionConstraints.copy⟩

/-- cyclonedx.go:349-352 -/
def Credits.copy (x : Credits) : Credits :=
  ⟨x.organizations.copyWith OrganizationalEntity.copy, x.individuals.copyWith OrganizationalContact.copy⟩

/-- cyclonedx.go:1271-1275 -/
def ProofOfConcept.copy (x : ProofOfConcept) : ProofOfConcept :=
  ⟨x.reproductionSteps, x.environment, x.supportingMaterial.copyWith AttachedText.copy⟩

/-- cyclonedx.go:1658-1665 -/
def VulnerabilityAnalysis.copy (x : VulnerabilityAnalysis) : VulnerabilityAnalysis :=
  ⟨x.state, x.justification, x.response.copyWith _root_.id, x.detail, x.firstIssued, x.lastUpdated⟩

/-- cyclonedx.go:1667-1674 -/
def VulnerabilityRating.copy (x : VulnerabilityRating) : VulnerabilityRating :=
  ⟨x.source.map Source.copy, Gob.float64 x.score, x.severity, x.method, x.vector, x.justification⟩

/-- cyclonedx.go:1676-1679 -/
def VulnerabilityReference.copy (x : VulnerabilityReference) : VulnerabilityReference :=
  ⟨x.id, x.source.map Source.copy⟩

/-- cyclonedx.go:1634-1656 -/
def Vulnerability.copy (x : Vulnerability) : Vulnerability :=
  ⟨x.bomRef, x.id, x.source.map Source.copy, x.references.copyWith VulnerabilityReference.copy, x.ratings.copyWith VulnerabilityRating.copy, x.cwes.copyWith _root_.id, x.description, x.detail, x.recommendation, x.workaround, x.proofOfConcept.map ProofOfConcept.copy, x.advisories.copyWith Advisory.copy, x.created, x.published, x.updated, x.rejected, x.credits.map Credits.copy, x.tools.map ToolsChoice.copy, x.analysis.map VulnerabilityAnalysis.copy, x.affects.copyWith Affects.copy, x.properties.copyWith Property.copy⟩

/-- cyclonedx.go:1712-1721 -/
def Citation.copy (x : Citation) : Citation :=
  ⟨x.bomRef, x.pointers.copyWith _root_.id, x.expressions.copyWith _root_.id, x.timestamp, Gob.ref x.attributedTo, x.process, x.note, x.signature.map JSFSignature.copy⟩

/-- cyclonedx.go:105-131 -/
def BOM.copy (x : BOM) : BOM :=
  ⟨x.xmlName, x.xmlns, x.jsonSchema, x.bomFormat, x.specVersion, x.serialNumber, x.version, x.metadata.map Metadata.copy, x.components.copyWith Component.copy, x.services.copyWith Service.copy, x.externalReferences.copyWith ExternalReference.copy, x.dependencies.copyWith Dependency.copy, x.compositions.copyWith Composition.copy, x.properties.copyWith Property.copy, x.vulnerabilities.copyWith Vulnerability.copy, x.annotations.copyWith Annotation.copy, x.formulation.copyWith Formula.copy, x.declarations.map Declarations.copy, x.definitions.map Definitions.copy, x.citations.copyWith Citation.copy, x.signature.map JSFSignature.copy⟩

end Verif
