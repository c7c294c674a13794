import Verif.Model.Heap

/-!
# The values of the model as trees of the memory model

GENERATED by `tools/gen_trees.py` from the struct declarations of `/repo/cyclonedx.go`; do not edit by hand.

`T.tree x` forgets the types and the names of the fields.
-/

namespace Verif
open Verif.Heap

/-- Go `string` and the named string types. -/
def Heap.Tree.str (s : String) : Tree := .scalar (.str s)
/-- `BOMReference` -/
def Heap.Tree.ref (s : BOMReference) : Tree := .scalar (.str s.val)
/-- Go `int` and `SpecVersion`. -/
def Heap.Tree.int (i : Int) : Tree := .scalar (.int i)
/-- Go `bool` -/
def Heap.Tree.bool (b : Bool) : Tree := .scalar (.bool b)
/-- Go `float32` -/
def Heap.Tree.f32 (x : F32) : Tree := .scalar (.f32 x)
/-- Go `float64` -/
def Heap.Tree.f64 (x : F64) : Tree := .scalar (.f64 x)
/-- `xml.Name` -/
def XMLName.tree (n : XMLName) : Tree := .agg [.str n.space, .str n.loc]
/-- A pointer. -/
def Heap.Tree.opt {α : Type} (f : α → Tree) : Option α → Tree
  | none => .nilPtr
  | some a => .ptr (f a)
/-- A pointer to a slice. -/
def Heap.Tree.pslice {α : Type} (f : α → Tree) : PSlice α → Tree
  | .nil => .nilPtr
  | .nilSlice => .ptr .nilSlice
  | .list xs => .ptr (.slice (xs.map f))

/-- cyclonedx.go:35-38 -/
def Advisory.tree (x : Advisory) : Tree :=
  .agg [Tree.str x.title, Tree.str x.url]

/-- cyclonedx.go:40-44 -/
def AffectedVersions.tree (x : AffectedVersions) : Tree :=
  .agg [Tree.str x.version, Tree.str x.range, Tree.str x.status]

/-- cyclonedx.go:46-49 -/
def Affects.tree (x : Affects) : Tree :=
  .agg [Tree.str x.ref, Tree.pslice AffectedVersions.tree x.range]

/-- cyclonedx.go:73-77 -/
def AttachedText.tree (x : AttachedText) : Tree :=
  .agg [Tree.str x.content, Tree.str x.contentType, Tree.str x.encoding]

/-- cyclonedx.go:1277-1280 -/
def Property.tree (x : Property) : Tree :=
  .agg [Tree.str x.name, Tree.str x.value]

/-- cyclonedx.go:290-294 -/
def ComponentDataContents.tree (x : ComponentDataContents) : Tree :=
  .agg [Tree.opt AttachedText.tree x.attachment, Tree.str x.url, Tree.pslice Property.tree x.properties]

/-- cyclonedx.go:301-304 -/
def ComponentDataGraphic.tree (x : ComponentDataGraphic) : Tree :=
  .agg [Tree.str x.name, Tree.opt AttachedText.tree x.image]

/-- cyclonedx.go:306-309 -/
def ComponentDataGraphics.tree (x : ComponentDataGraphics) : Tree :=
  .agg [Tree.str x.description, Tree.pslice ComponentDataGraphic.tree x.collection]

/-- cyclonedx.go:1211-1216 -/
def OrganizationalContact.tree (x : OrganizationalContact) : Tree :=
  .agg [Tree.str x.bomRef, Tree.str x.name, Tree.str x.email, Tree.str x.phone]

/-- cyclonedx.go:1261-1269 -/
def PostalAddress.tree (x : PostalAddress) : Tree :=
  .agg [Tree.str x.bomRef, Tree.str x.country, Tree.str x.region, Tree.str x.locality, Tree.str x.postOfficeBoxNumber, Tree.str x.postalCode, Tree.str x.streetAddress]

/-- cyclonedx.go:1218-1224 -/
def OrganizationalEntity.tree (x : OrganizationalEntity) : Tree :=
  .agg [Tree.str x.bomRef, Tree.str x.name, Tree.opt PostalAddress.tree x.address, Tree.pslice Tree.str x.url, Tree.pslice OrganizationalContact.tree x.contact]

/-- cyclonedx.go:296-299 -/
def ComponentDataGovernanceResponsibleParty.tree (x : ComponentDataGovernanceResponsibleParty) : Tree :=
  .agg [Tree.opt OrganizationalEntity.tree x.organization, Tree.opt OrganizationalContact.tree x.contact]

/-- cyclonedx.go:570-574 -/
def DataGovernance.tree (x : DataGovernance) : Tree :=
  .agg [Tree.pslice ComponentDataGovernanceResponsibleParty.tree x.custodians, Tree.pslice ComponentDataGovernanceResponsibleParty.tree x.stewards, Tree.pslice ComponentDataGovernanceResponsibleParty.tree x.owners]

/-- cyclonedx.go:278-288 -/
def ComponentData.tree (x : ComponentData) : Tree :=
  .agg [Tree.str x.bomRef, Tree.str x.type, Tree.str x.name, Tree.opt ComponentDataContents.tree x.contents, Tree.str x.classification, Tree.pslice Tree.str x.sensitiveData, Tree.opt ComponentDataGraphics.tree x.graphics, Tree.str x.description, Tree.opt DataGovernance.tree x.governance]

/-- cyclonedx.go:808-811 -/
def Hash.tree (x : Hash) : Tree :=
  .agg [Tree.str x.algorithm, Tree.str x.value]

/-- cyclonedx.go:1866-1869 -/
def RelatedCryptographicAsset.tree (x : RelatedCryptographicAsset) : Tree :=
  .agg [Tree.str x.type, Tree.str x.ref]

/-- cyclonedx.go:1880-1883 -/
def PredefinedCertificateState.tree (x : PredefinedCertificateState) : Tree :=
  .agg [Tree.str x.state, Tree.str x.reason]

/-- cyclonedx.go:1886-1890 -/
def CustomCertificateState.tree (x : CustomCertificateState) : Tree :=
  .agg [Tree.str x.name, Tree.str x.description, Tree.str x.reason]

/-- cyclonedx.go:1874-1877 -/
def CertificateState.tree (x : CertificateState) : Tree :=
  .agg [Tree.opt PredefinedCertificateState.tree x.predefined, Tree.opt CustomCertificateState.tree x.custom]

/-- cyclonedx.go:1913-1916 -/
def CommonCertificateExtension.tree (x : CommonCertificateExtension) : Tree :=
  .agg [Tree.str x.name, Tree.str x.value]

/-- cyclonedx.go:1919-1922 -/
def CustomCertificateExtension.tree (x : CustomCertificateExtension) : Tree :=
  .agg [Tree.str x.name, Tree.str x.value]

/-- cyclonedx.go:1907-1910 -/
def CertificateExtension.tree (x : CertificateExtension) : Tree :=
  .agg [Tree.opt CommonCertificateExtension.tree x.common, Tree.opt CustomCertificateExtension.tree x.custom]

/-- cyclonedx.go:171-191 -/
def CertificateProperties.tree (x : CertificateProperties) : Tree :=
  .agg [Tree.str x.serialNumber, Tree.str x.subjectName, Tree.str x.issuerName, Tree.str x.notValidBefore, Tree.str x.notValidAfter, Tree.ref x.signatureAlgorithmRef, Tree.ref x.subjectPublicKeyRef, Tree.str x.certificateFormat, Tree.str x.certificateExtension, Tree.str x.certificateFileExtension, Tree.opt Hash.tree x.fingerprint, Tree.pslice CertificateState.tree x.certificateState, Tree.pslice CertificateExtension.tree x.certificateExtensions, Tree.pslice RelatedCryptographicAsset.tree x.relatedCryptographicAssets, Tree.str x.creationDate, Tree.str x.activationDate, Tree.str x.deactivationDate, Tree.str x.revocationDate, Tree.str x.destructionDate]

/-- cyclonedx.go:368-382 -/
def CryptoAlgorithmProperties.tree (x : CryptoAlgorithmProperties) : Tree :=
  .agg [Tree.str x.primitive, Tree.str x.parameterSetIdentifier, Tree.str x.algorithmFamily, Tree.str x.curve, Tree.str x.ellipticCurve, Tree.str x.executionEnvironment, Tree.str x.implementationPlatform, Tree.pslice Tree.str x.certificationLevel, Tree.str x.mode, Tree.str x.padding, Tree.pslice Tree.str x.cryptoFunctions, Tree.opt Tree.int x.classicalSecurityLevel, Tree.opt Tree.int x.nistQuantumSecurityLevel]

/-- cyclonedx.go:205-211 -/
def CipherSuite.tree (x : CipherSuite) : Tree :=
  .agg [Tree.str x.name, Tree.pslice Tree.ref x.algorithms, Tree.pslice Tree.str x.identifiers, Tree.pslice Tree.str x.tlsGroups, Tree.pslice Tree.str x.tlsSignatureSchemes]

/-- cyclonedx.go:1826-1830 -/
def IKEv2Auth.tree (x : IKEv2Auth) : Tree :=
  .agg [Tree.ref x.bomRef, Tree.str x.name, Tree.str x.algorithm]

/-- cyclonedx.go:1834-1839 -/
def IKEv2Enc.tree (x : IKEv2Enc) : Tree :=
  .agg [Tree.ref x.bomRef, Tree.str x.name, Tree.opt Tree.int x.keyLength, Tree.str x.algorithm]

/-- cyclonedx.go:1843-1847 -/
def IKEv2Integ.tree (x : IKEv2Integ) : Tree :=
  .agg [Tree.ref x.bomRef, Tree.str x.name, Tree.str x.algorithm]

/-- cyclonedx.go:1851-1855 -/
def IKEv2Ke.tree (x : IKEv2Ke) : Tree :=
  .agg [Tree.ref x.bomRef, Tree.opt Tree.int x.group, Tree.str x.algorithm]

/-- cyclonedx.go:1859-1863 -/
def IKEv2Prf.tree (x : IKEv2Prf) : Tree :=
  .agg [Tree.ref x.bomRef, Tree.str x.name, Tree.str x.algorithm]

/-- cyclonedx.go:537-544 -/
def IKEv2TransformTypes.tree (x : IKEv2TransformTypes) : Tree :=
  .agg [Tree.pslice IKEv2Enc.tree x.encr, Tree.pslice IKEv2Prf.tree x.prf, Tree.pslice IKEv2Integ.tree x.integ, Tree.pslice IKEv2Ke.tree x.ke, Tree.bool x.esn, Tree.pslice IKEv2Auth.tree x.auth]

/-- cyclonedx.go:509-516 -/
def CryptoProtocolProperties.tree (x : CryptoProtocolProperties) : Tree :=
  .agg [Tree.str x.type, Tree.str x.version, Tree.pslice CipherSuite.tree x.cipherSuites, Tree.opt IKEv2TransformTypes.tree x.ikev2TransformTypes, Tree.pslice Tree.ref x.cryptoRefArray, Tree.pslice RelatedCryptographicAsset.tree x.relatedCryptographicAssets]

/-- cyclonedx.go:546-549 -/
def SecuredBy.tree (x : SecuredBy) : Tree :=
  .agg [Tree.str x.mechanism, Tree.ref x.algorithmRef]

/-- cyclonedx.go:1282-1297 -/
def RelatedCryptoMaterialProperties.tree (x : RelatedCryptoMaterialProperties) : Tree :=
  .agg [Tree.str x.type, Tree.str x.id, Tree.str x.state, Tree.ref x.algorithmRef, Tree.str x.creationDate, Tree.str x.activationDate, Tree.str x.updateDate, Tree.str x.expirationDate, Tree.str x.value, Tree.opt Tree.int x.size, Tree.str x.format, Tree.opt SecuredBy.tree x.securedBy, Tree.opt Hash.tree x.fingerprint, Tree.pslice RelatedCryptographicAsset.tree x.relatedCryptographicAssets]

/-- cyclonedx.go:500-507 -/
def CryptoProperties.tree (x : CryptoProperties) : Tree :=
  .agg [Tree.str x.assetType, Tree.opt CryptoAlgorithmProperties.tree x.algorithmProperties, Tree.opt CertificateProperties.tree x.certificateProperties, Tree.opt RelatedCryptoMaterialProperties.tree x.relatedCryptoMaterialProperties, Tree.opt CryptoProtocolProperties.tree x.protocolProperties, Tree.str x.oid]

/-- cyclonedx.go:161-169 -/
def CallstackFrame.tree (x : CallstackFrame) : Tree :=
  .agg [Tree.str x.package, Tree.str x.module, Tree.str x.function, Tree.pslice Tree.str x.parameters, Tree.opt Tree.int x.line, Tree.opt Tree.int x.column, Tree.str x.fullFilename]

/-- cyclonedx.go:157-159 -/
def Callstack.tree (x : Callstack) : Tree :=
  .agg [Tree.pslice CallstackFrame.tree x.frames]

/-- cyclonedx.go:345-347 -/
def Copyright.tree (x : Copyright) : Tree :=
  .agg [Tree.str x.text]

/-- cyclonedx.go:710-714 -/
def EvidenceIdentityMethod.tree (x : EvidenceIdentityMethod) : Tree :=
  .agg [Tree.str x.technique, Tree.opt Tree.f32 x.confidence, Tree.str x.value]

/-- cyclonedx.go:688-694 -/
def EvidenceIdentity.tree (x : EvidenceIdentity) : Tree :=
  .agg [Tree.str x.field, Tree.opt Tree.f32 x.confidence, Tree.str x.concludedValue, Tree.pslice EvidenceIdentityMethod.tree x.methods, Tree.pslice Tree.ref x.tools]

/-- cyclonedx.go:683-686 -/
def EvidenceIdentityChoice.tree (x : EvidenceIdentityChoice) : Tree :=
  .agg [Tree.opt EvidenceIdentity.tree x.identity, Tree.pslice EvidenceIdentity.tree x.identities]

/-- cyclonedx.go:731-738 -/
def EvidenceOccurrence.tree (x : EvidenceOccurrence) : Tree :=
  .agg [Tree.str x.bomRef, Tree.str x.location, Tree.opt Tree.int x.line, Tree.opt Tree.int x.offset, Tree.str x.symbol, Tree.str x.additionalContext]

/-- cyclonedx.go:1226-1229 -/
def OrganizationalEntityOrContact.tree (x : OrganizationalEntityOrContact) : Tree :=
  .agg [Tree.opt OrganizationalEntity.tree x.organization, Tree.opt OrganizationalContact.tree x.individual]

/-- cyclonedx.go:995-1004 -/
def Licensing.tree (x : Licensing) : Tree :=
  .agg [Tree.pslice Tree.str x.altIDs, Tree.opt OrganizationalEntityOrContact.tree x.licensor, Tree.opt OrganizationalEntityOrContact.tree x.licensee, Tree.opt OrganizationalEntityOrContact.tree x.purchaser, Tree.str x.purchaseOrder, Tree.pslice Tree.str x.licenseTypes, Tree.str x.lastRenewal, Tree.str x.expiration]

/-- cyclonedx.go:936-945 -/
def License.tree (x : License) : Tree :=
  .agg [Tree.str x.bomRef, Tree.str x.id, Tree.str x.name, Tree.str x.acknowledgement, Tree.opt AttachedText.tree x.text, Tree.str x.url, Tree.opt Licensing.tree x.licensing, Tree.pslice Property.tree x.properties]

/-- cyclonedx.go:967-972 -/
def LicenseExpressionDetail.tree (x : LicenseExpressionDetail) : Tree :=
  .agg [Tree.str x.licenseIdentifier, Tree.str x.bomRef, Tree.opt AttachedText.tree x.text, Tree.str x.url]

/-- cyclonedx.go:956-964 -/
def LicenseChoice.tree (x : LicenseChoice) : Tree :=
  .agg [Tree.opt License.tree x.license, Tree.str x.expression, Tree.pslice LicenseExpressionDetail.tree x.expressionDetails, Tree.opt Tree.str x.acknowledgement, Tree.str x.bomRef, Tree.opt Licensing.tree x.licensing, Tree.pslice Property.tree x.properties]

/-- cyclonedx.go:672-678 -/
def Evidence.tree (x : Evidence) : Tree :=
  .agg [Tree.opt EvidenceIdentityChoice.tree x.identity, Tree.pslice EvidenceOccurrence.tree x.occurrences, Tree.opt Callstack.tree x.callstack, Tree.pslice LicenseChoice.tree x.licenses, Tree.pslice Copyright.tree x.copyright]

/-- cyclonedx.go:740-746 -/
def ExternalReference.tree (x : ExternalReference) : Tree :=
  .agg [Tree.str x.url, Tree.str x.comment, Tree.pslice Hash.tree x.hashes, Tree.str x.type, Tree.pslice Property.tree x.properties]

/-- cyclonedx.go:925-934 -/
def JSFPublicKey.tree (x : JSFPublicKey) : Tree :=
  .agg [Tree.str x.kty, Tree.str x.crv, Tree.str x.x, Tree.str x.y, Tree.str x.n, Tree.str x.e]

/-- cyclonedx.go:916-923 -/
def JSFSigner.tree (x : JSFSigner) : Tree :=
  .agg [Tree.str x.algorithm, Tree.str x.keyID, x.publicKey.tree, Tree.pslice Tree.str x.certificatePath, Tree.pslice Tree.str x.excludes, Tree.str x.value]

/-- cyclonedx.go:909-914 -/
def JSFSignature.tree (x : JSFSignature) : Tree :=
  .agg [Tree.opt JSFSigner.tree x.jsfSigner, Tree.pslice JSFSigner.tree x.signers, Tree.pslice JSFSigner.tree x.chain]

/-- cyclonedx.go:1099-1102 -/
def MLModelCO2Measure.tree (x : MLModelCO2Measure) : Tree :=
  .agg [Tree.f32 x.value, Tree.str x.unit]

/-- cyclonedx.go:1131-1134 -/
def MLModelEnergyMeasure.tree (x : MLModelEnergyMeasure) : Tree :=
  .agg [Tree.f32 x.value, Tree.str x.unit]

/-- cyclonedx.go:1136-1143 -/
def MLModelEnergyProvider.tree (x : MLModelEnergyProvider) : Tree :=
  .agg [Tree.str x.bomRef, Tree.str x.description, Tree.opt OrganizationalEntity.tree x.organization, Tree.str x.energySource, Tree.opt MLModelEnergyMeasure.tree x.energyProvided, Tree.pslice ExternalReference.tree x.externalReferences]

/-- cyclonedx.go:1108-1115 -/
def MLModelEnergyConsumption.tree (x : MLModelEnergyConsumption) : Tree :=
  .agg [Tree.str x.activity, Tree.pslice MLModelEnergyProvider.tree x.energyProviders, x.activityEnergyCost.tree, Tree.opt MLModelCO2Measure.tree x.co2CostEquivalent, Tree.opt MLModelCO2Measure.tree x.co2CostOffset, Tree.pslice Property.tree x.properties]

/-- cyclonedx.go:1082-1085 -/
def MLModelCardEnvironmentalConsiderations.tree (x : MLModelCardEnvironmentalConsiderations) : Tree :=
  .agg [Tree.pslice MLModelEnergyConsumption.tree x.energyConsumptions, Tree.pslice Property.tree x.properties]

/-- cyclonedx.go:1087-1090 -/
def MLModelCardEthicalConsideration.tree (x : MLModelCardEthicalConsideration) : Tree :=
  .agg [Tree.str x.name, Tree.str x.mitigationStrategy]

/-- cyclonedx.go:1092-1097 -/
def MLModelCardFairnessAssessment.tree (x : MLModelCardFairnessAssessment) : Tree :=
  .agg [Tree.str x.groupAtRisk, Tree.str x.benefits, Tree.str x.harms, Tree.str x.mitigationStrategy]

/-- cyclonedx.go:1072-1080 -/
def MLModelCardConsiderations.tree (x : MLModelCardConsiderations) : Tree :=
  .agg [Tree.pslice Tree.str x.users, Tree.pslice Tree.str x.useCases, Tree.pslice Tree.str x.technicalLimitations, Tree.pslice Tree.str x.performanceTradeoffs, Tree.pslice MLModelCardEthicalConsideration.tree x.ethicalConsiderations, Tree.opt MLModelCardEnvironmentalConsiderations.tree x.environmentalConsiderations, Tree.pslice MLModelCardFairnessAssessment.tree x.fairnessAssessments]

/-- cyclonedx.go:1056-1059 -/
def MLDatasetChoice.tree (x : MLDatasetChoice) : Tree :=
  .agg [Tree.str x.ref, Tree.opt ComponentData.tree x.componentData]

/-- cyclonedx.go:1061-1063 -/
def MLInputOutputParameters.tree (x : MLInputOutputParameters) : Tree :=
  .agg [Tree.str x.format]

/-- cyclonedx.go:1175-1177 -/
def MLModelParametersApproach.tree (x : MLModelParametersApproach) : Tree :=
  .agg [Tree.str x.type]

/-- cyclonedx.go:1165-1173 -/
def MLModelParameters.tree (x : MLModelParameters) : Tree :=
  .agg [Tree.opt MLModelParametersApproach.tree x.approach, Tree.str x.task, Tree.str x.architectureFamily, Tree.str x.modelArchitecture, Tree.pslice MLDatasetChoice.tree x.datasets, Tree.pslice MLInputOutputParameters.tree x.inputs, Tree.pslice MLInputOutputParameters.tree x.outputs]

/-- cyclonedx.go:1201-1204 -/
def MLPerformanceMetricConfidenceInterval.tree (x : MLPerformanceMetricConfidenceInterval) : Tree :=
  .agg [Tree.str x.lowerBound, Tree.str x.upperBound]

/-- cyclonedx.go:1194-1199 -/
def MLPerformanceMetric.tree (x : MLPerformanceMetric) : Tree :=
  .agg [Tree.str x.type, Tree.str x.value, Tree.str x.slice, Tree.opt MLPerformanceMetricConfidenceInterval.tree x.confidenceInterval]

/-- cyclonedx.go:1189-1192 -/
def MLQuantitativeAnalysis.tree (x : MLQuantitativeAnalysis) : Tree :=
  .agg [Tree.pslice MLPerformanceMetric.tree x.performanceMetrics, Tree.opt ComponentDataGraphics.tree x.graphics]

/-- cyclonedx.go:1065-1070 -/
def MLModelCard.tree (x : MLModelCard) : Tree :=
  .agg [Tree.str x.bomRef, Tree.opt MLModelParameters.tree x.modelParameters, Tree.opt MLQuantitativeAnalysis.tree x.quantitativeAnalysis, Tree.opt MLModelCardConsiderations.tree x.considerations]

/-- cyclonedx.go:832-836 -/
def IdentifiableAction.tree (x : IdentifiableAction) : Tree :=
  .agg [Tree.str x.timestamp, Tree.str x.name, Tree.str x.email]

/-- cyclonedx.go:231-237 -/
def Commit.tree (x : Commit) : Tree :=
  .agg [Tree.str x.uid, Tree.str x.url, Tree.opt IdentifiableAction.tree x.author, Tree.opt IdentifiableAction.tree x.committer, Tree.str x.message]

/-- cyclonedx.go:650-653 -/
def Diff.tree (x : Diff) : Tree :=
  .agg [Tree.opt AttachedText.tree x.text, Tree.str x.url]

/-- cyclonedx.go:1398-1401 -/
def Source.tree (x : Source) : Tree :=
  .agg [Tree.str x.name, Tree.str x.url]

/-- cyclonedx.go:892-899 -/
def Issue.tree (x : Issue) : Tree :=
  .agg [Tree.str x.id, Tree.str x.name, Tree.str x.description, Tree.opt Source.tree x.source, Tree.pslice Tree.str x.references, Tree.str x.type]

/-- cyclonedx.go:1237-1241 -/
def Patch.tree (x : Patch) : Tree :=
  .agg [Tree.opt Diff.tree x.diff, Tree.pslice Issue.tree x.resolves, Tree.str x.type]

/-- cyclonedx.go:1206-1209 -/
def Note.tree (x : Note) : Tree :=
  .agg [Tree.str x.locale, x.text.tree]

/-- cyclonedx.go:1323-1335 -/
def ReleaseNotes.tree (x : ReleaseNotes) : Tree :=
  .agg [Tree.str x.type, Tree.str x.title, Tree.str x.featuredImage, Tree.str x.socialImage, Tree.str x.description, Tree.str x.timestamp, Tree.pslice Tree.str x.aliases, Tree.pslice Tree.str x.tags, Tree.pslice Issue.tree x.resolves, Tree.pslice Note.tree x.notes, Tree.pslice Property.tree x.properties]

/-- cyclonedx.go:1449-1457 -/
def SWID.tree (x : SWID) : Tree :=
  .agg [Tree.opt AttachedText.tree x.text, Tree.str x.url, Tree.str x.tagID, Tree.str x.name, Tree.str x.version, Tree.opt Tree.int x.tagVersion, Tree.opt Tree.bool x.patch]

/-- cyclonedx.go:1772-1776 -/
def AsserterChoice.tree (x : AsserterChoice) : Tree :=
  .agg [Tree.opt OrganizationalEntity.tree x.organization, Tree.opt OrganizationalContact.tree x.individual, Tree.opt Tree.ref x.bomRef]

/-- cyclonedx.go:1779-1785 -/
def PatentAssertion.tree (x : PatentAssertion) : Tree :=
  .agg [Tree.str x.bomRef, Tree.pslice Tree.ref x.patentRefs, Tree.str x.assertionType, Tree.opt AsserterChoice.tree x.asserter, Tree.str x.notes]

mutual
/-- cyclonedx.go:239-276 -/
def Component.tree : Component → Tree
  | .mk bomRef mimeType type supplier manufacturer author authors publisher group name version description scope hashes licenses copyright cpe packageURL omniborID swhid swid modified pedigree externalReferences properties components evidence releaseNotes modelCard data cryptoProperties tags isExternal patentAssertions versionRange signature =>
    .agg [Tree.str bomRef, Tree.str mimeType, Tree.str type, Tree.opt OrganizationalEntity.tree supplier, Tree.opt OrganizationalEntity.tree manufacturer, Tree.str author, Tree.pslice OrganizationalContact.tree authors, Tree.str publisher, Tree.str group, Tree.str name, Tree.str version, Tree.str description, Tree.str scope, Tree.pslice Hash.tree hashes, Tree.pslice LicenseChoice.tree licenses, Tree.str copyright, Tree.str cpe, Tree.str packageURL, Tree.pslice Tree.str omniborID, Tree.pslice Tree.str swhid, Tree.opt SWID.tree swid, Tree.opt Tree.bool modified, pedigreeOptTree pedigree, Tree.pslice ExternalReference.tree externalReferences, Tree.pslice Property.tree properties, componentsTree components, Tree.opt Evidence.tree evidence, Tree.opt ReleaseNotes.tree releaseNotes, Tree.opt MLModelCard.tree modelCard, Tree.pslice ComponentData.tree data, Tree.opt CryptoProperties.tree cryptoProperties, Tree.pslice Tree.str tags, Tree.opt Tree.bool isExternal, Tree.pslice PatentAssertion.tree patentAssertions, Tree.str versionRange, Tree.opt JSFSignature.tree signature]
/-- A pointer to a slice of them. -/
def componentsTree : PSlice Component → Tree
  | .nil => .nilPtr
  | .nilSlice => .ptr .nilSlice
  | .list xs => .ptr (.slice (componentListTree xs))
/-- The elements of a slice of them. -/
def componentListTree : List Component → List Tree
  | [] => []
  | c :: cs => c.tree :: componentListTree cs
/-- `*Pedigree` -/
def pedigreeOptTree : Option (Pedigree Component) → Tree
  | none => .nilPtr
  | some p => .ptr (pedigreeTree p)
/-- cyclonedx.go:1252-1259 -/
def pedigreeTree : Pedigree Component → Tree
  | .mk ancestors descendants variants commits patches notes =>
    .agg [componentsTree ancestors, componentsTree descendants, componentsTree variants, Tree.pslice Commit.tree commits, Tree.pslice Patch.tree patches, Tree.str notes]
end

/-- cyclonedx.go:551-559 -/
def DataClassification.tree (x : DataClassification) : Tree :=
  .agg [Tree.str x.flow, Tree.str x.classification, Tree.str x.name, Tree.str x.description, Tree.opt DataGovernance.tree x.governance, Tree.pslice Tree.str x.source, Tree.pslice Tree.str x.destination]

mutual
/-- cyclonedx.go:1362-1382 -/
def Service.tree : Service → Tree
  | .mk bomRef provider group name version description endpoints authenticated crossesTrustBoundary data licenses externalReferences properties services releaseNotes tags trustZone patentAssertions signature =>
    .agg [Tree.str bomRef, Tree.opt OrganizationalEntity.tree provider, Tree.str group, Tree.str name, Tree.str version, Tree.str description, Tree.pslice Tree.str endpoints, Tree.opt Tree.bool authenticated, Tree.opt Tree.bool crossesTrustBoundary, Tree.pslice DataClassification.tree data, Tree.pslice LicenseChoice.tree licenses, Tree.pslice ExternalReference.tree externalReferences, Tree.pslice Property.tree properties, servicesTree services, Tree.opt ReleaseNotes.tree releaseNotes, Tree.pslice Tree.str tags, Tree.str trustZone, Tree.pslice PatentAssertion.tree patentAssertions, Tree.opt JSFSignature.tree signature]
/-- A pointer to a slice of them. -/
def servicesTree : PSlice Service → Tree
  | .nil => .nilPtr
  | .nilSlice => .ptr .nilSlice
  | .list xs => .ptr (.slice (serviceListTree xs))
/-- The elements of a slice of them. -/
def serviceListTree : List Service → List Tree
  | [] => []
  | c :: cs => c.tree :: serviceListTree cs
end

/-- cyclonedx.go:60-65 -/
def Annotator.tree (x : Annotator) : Tree :=
  .agg [Tree.opt OrganizationalEntity.tree x.organization, Tree.opt OrganizationalContact.tree x.individual, Tree.opt Component.tree x.component, Tree.opt Service.tree x.service]

/-- cyclonedx.go:51-58 -/
def Annotation.tree (x : Annotation) : Tree :=
  .agg [Tree.str x.bomRef, Tree.pslice Tree.ref x.subjects, Tree.opt Annotator.tree x.annotator, Tree.str x.timestamp, Tree.str x.text, Tree.opt JSFSignature.tree x.signature]

/-- cyclonedx.go:67-71 -/
def Assessor.tree (x : Assessor) : Tree :=
  .agg [Tree.ref x.bomRef, Tree.bool x.thirdParty, Tree.opt OrganizationalEntity.tree x.organization]

/-- cyclonedx.go:94-98 -/
def AttestationConformance.tree (x : AttestationConformance) : Tree :=
  .agg [Tree.opt Tree.f64 x.score, Tree.str x.rationale, Tree.pslice Tree.ref x.mitigationStrategies]

/-- cyclonedx.go:100-103 -/
def AttestationConfidence.tree (x : AttestationConfidence) : Tree :=
  .agg [Tree.opt Tree.f64 x.score, Tree.str x.rationale]

/-- cyclonedx.go:86-92 -/
def AttestationMap.tree (x : AttestationMap) : Tree :=
  .agg [Tree.str x.requirement, Tree.pslice Tree.ref x.claims, Tree.pslice Tree.ref x.counterClaims, Tree.opt AttestationConformance.tree x.conformance, Tree.opt AttestationConfidence.tree x.confidence]

/-- cyclonedx.go:79-84 -/
def Attestation.tree (x : Attestation) : Tree :=
  .agg [Tree.str x.summary, Tree.ref x.assessor, Tree.pslice AttestationMap.tree x.map, Tree.opt JSFSignature.tree x.signature]

/-- cyclonedx.go:321-328 -/
def Composition.tree (x : Composition) : Tree :=
  .agg [Tree.str x.bomRef, Tree.str x.aggregate, Tree.pslice Tree.ref x.assemblies, Tree.pslice Tree.ref x.dependencies, Tree.pslice Tree.ref x.vulnerabilities, Tree.opt JSFSignature.tree x.signature]

/-- cyclonedx.go:193-203 -/
def Claim.tree (x : Claim) : Tree :=
  .agg [Tree.str x.bomRef, Tree.ref x.target, Tree.str x.predicate, Tree.pslice Tree.ref x.mitigationStrategies, Tree.str x.reasoning, Tree.pslice Tree.ref x.evidence, Tree.pslice Tree.ref x.counterEvidence, Tree.pslice ExternalReference.tree x.externalReferences, Tree.opt JSFSignature.tree x.signature]

/-- cyclonedx.go:619-622 -/
def EvidenceDataContents.tree (x : EvidenceDataContents) : Tree :=
  .agg [Tree.opt AttachedText.tree x.attachment, Tree.str x.url]

/-- cyclonedx.go:611-617 -/
def EvidenceData.tree (x : EvidenceData) : Tree :=
  .agg [Tree.str x.name, Tree.opt EvidenceDataContents.tree x.contents, Tree.opt DataClassification.tree x.classification, Tree.pslice Tree.str x.sensitiveData, Tree.opt DataGovernance.tree x.governance]

/-- cyclonedx.go:586-596 -/
def DeclarationEvidence.tree (x : DeclarationEvidence) : Tree :=
  .agg [Tree.str x.bomRef, Tree.str x.propertyName, Tree.str x.description, Tree.pslice EvidenceData.tree x.data, Tree.str x.created, Tree.str x.expires, Tree.opt OrganizationalContact.tree x.author, Tree.opt OrganizationalContact.tree x.reviewer, Tree.opt JSFSignature.tree x.signature]

/-- cyclonedx.go:624-628 -/
def Targets.tree (x : Targets) : Tree :=
  .agg [Tree.pslice OrganizationalEntity.tree x.organizations, Tree.pslice Component.tree x.components, Tree.pslice Service.tree x.services]

/-- cyclonedx.go:636-642 -/
def Signatory.tree (x : Signatory) : Tree :=
  .agg [Tree.str x.name, Tree.str x.role, Tree.opt JSFSignature.tree x.signature, Tree.opt OrganizationalEntity.tree x.organization, Tree.opt ExternalReference.tree x.externalReference]

/-- cyclonedx.go:630-634 -/
def Affirmation.tree (x : Affirmation) : Tree :=
  .agg [Tree.str x.statement, Tree.pslice Signatory.tree x.signatories, Tree.opt JSFSignature.tree x.signature]

/-- cyclonedx.go:576-584 -/
def Declarations.tree (x : Declarations) : Tree :=
  .agg [Tree.pslice Assessor.tree x.assessors, Tree.pslice Attestation.tree x.attestations, Tree.pslice Claim.tree x.claims, Tree.pslice DeclarationEvidence.tree x.evidence, Tree.opt Targets.tree x.targets, Tree.opt Affirmation.tree x.affirmation, Tree.opt JSFSignature.tree x.signature]

/-- cyclonedx.go:1802-1806 -/
def PriorityApplication.tree (x : PriorityApplication) : Tree :=
  .agg [Tree.str x.applicationNumber, Tree.str x.jurisdiction, Tree.str x.filingDate]

/-- cyclonedx.go:1743-1758 -/
def Patent.tree (x : Patent) : Tree :=
  .agg [Tree.str x.bomRef, Tree.str x.patentNumber, Tree.str x.applicationNumber, Tree.str x.jurisdiction, Tree.opt PriorityApplication.tree x.priorityApplication, Tree.str x.publicationNumber, Tree.str x.title, Tree.str x.abstract, Tree.str x.filingDate, Tree.str x.grantDate, Tree.str x.patentExpirationDate, Tree.str x.patentLegalStatus, Tree.pslice OrganizationalEntityOrContact.tree x.patentAssignee, Tree.pslice ExternalReference.tree x.externalReferences]

/-- cyclonedx.go:1761-1767 -/
def PatentFamily.tree (x : PatentFamily) : Tree :=
  .agg [Tree.str x.bomRef, Tree.str x.familyID, Tree.opt PriorityApplication.tree x.priorityApplication, Tree.pslice Tree.ref x.members, Tree.pslice ExternalReference.tree x.externalReferences]

/-- cyclonedx.go:606-609 -/
def PatentChoice.tree (x : PatentChoice) : Tree :=
  .agg [Tree.opt Patent.tree x.patent, Tree.opt PatentFamily.tree x.patentFamily]

/-- cyclonedx.go:1429-1439 -/
def StandardRequirement.tree (x : StandardRequirement) : Tree :=
  .agg [Tree.str x.bomRef, Tree.str x.identifier, Tree.str x.title, Tree.str x.text, Tree.pslice Tree.str x.descriptions, Tree.pslice Tree.str x.openCRE, Tree.str x.parent, Tree.pslice Property.tree x.properties, Tree.pslice ExternalReference.tree x.externalReferences]

/-- cyclonedx.go:1441-1447 -/
def StandardLevel.tree (x : StandardLevel) : Tree :=
  .agg [Tree.str x.bomRef, Tree.str x.identifier, Tree.str x.title, Tree.str x.description, Tree.pslice Tree.str x.requirements]

/-- cyclonedx.go:1416-1427 -/
def StandardDefinition.tree (x : StandardDefinition) : Tree :=
  .agg [Tree.str x.bomRef, Tree.str x.name, Tree.str x.version, Tree.str x.description, Tree.str x.owner, Tree.pslice StandardRequirement.tree x.requirements, Tree.pslice StandardLevel.tree x.levels, Tree.pslice ExternalReference.tree x.externalReferences, Tree.opt JSFSignature.tree x.signature]

/-- cyclonedx.go:598-601 -/
def Definitions.tree (x : Definitions) : Tree :=
  .agg [Tree.pslice StandardDefinition.tree x.standards, Tree.pslice PatentChoice.tree x.patents]

/-- cyclonedx.go:644-648 -/
def Dependency.tree (x : Dependency) : Tree :=
  .agg [Tree.str x.ref, Tree.pslice Tree.str x.dependencies, Tree.pslice Tree.str x.provides]

/-- cyclonedx.go:1337-1340 -/
def ResourceReferenceChoice.tree (x : ResourceReferenceChoice) : Tree :=
  .agg [Tree.str x.ref, Tree.opt ExternalReference.tree x.externalReference]

/-- cyclonedx.go:657-660 -/
def EnvironmentVariableChoice.tree (x : EnvironmentVariableChoice) : Tree :=
  .agg [Tree.opt Property.tree x.property, Tree.str x.value]

/-- cyclonedx.go:1231-1235 -/
def Parameter.tree (x : Parameter) : Tree :=
  .agg [Tree.str x.name, Tree.str x.value, Tree.str x.dataType]

/-- cyclonedx.go:1482-1490 -/
def TaskInput.tree (x : TaskInput) : Tree :=
  .agg [Tree.opt ResourceReferenceChoice.tree x.resource, Tree.pslice Parameter.tree x.parameters, Tree.pslice EnvironmentVariableChoice.tree x.environmentVars, Tree.opt AttachedText.tree x.data, Tree.opt ResourceReferenceChoice.tree x.source, Tree.opt ResourceReferenceChoice.tree x.target, Tree.pslice Property.tree x.properties]

/-- cyclonedx.go:1492-1501 -/
def TaskOutput.tree (x : TaskOutput) : Tree :=
  .agg [Tree.opt ResourceReferenceChoice.tree x.resource, Tree.pslice Parameter.tree x.parameters, Tree.pslice EnvironmentVariableChoice.tree x.environmentVars, Tree.opt AttachedText.tree x.data, Tree.str x.type, Tree.opt ResourceReferenceChoice.tree x.source, Tree.opt ResourceReferenceChoice.tree x.target, Tree.pslice Property.tree x.properties]

/-- cyclonedx.go:1477-1480 -/
def TaskCommand.tree (x : TaskCommand) : Tree :=
  .agg [Tree.str x.executed, Tree.pslice Property.tree x.properties]

/-- cyclonedx.go:1514-1519 -/
def TaskStep.tree (x : TaskStep) : Tree :=
  .agg [Tree.str x.name, Tree.str x.description, Tree.pslice TaskCommand.tree x.commands, Tree.pslice Property.tree x.properties]

/-- cyclonedx.go:662-670 -/
def Event.tree (x : Event) : Tree :=
  .agg [Tree.str x.uid, Tree.str x.description, Tree.str x.timeReceived, Tree.opt AttachedText.tree x.data, Tree.opt ResourceReferenceChoice.tree x.source, Tree.opt ResourceReferenceChoice.tree x.target, Tree.pslice Property.tree x.properties]

/-- cyclonedx.go:1536-1540 -/
def TaskTriggerCondition.tree (x : TaskTriggerCondition) : Tree :=
  .agg [Tree.str x.description, Tree.str x.expression, Tree.pslice Property.tree x.properties]

/-- cyclonedx.go:1521-1534 -/
def TaskTrigger.tree (x : TaskTrigger) : Tree :=
  .agg [Tree.str x.bomRef, Tree.str x.uid, Tree.str x.name, Tree.str x.description, Tree.pslice ResourceReferenceChoice.tree x.resourceReferences, Tree.str x.type, Tree.opt Event.tree x.event, Tree.pslice TaskTriggerCondition.tree x.conditions, Tree.str x.timeActivated, Tree.pslice TaskInput.tree x.inputs, Tree.pslice TaskOutput.tree x.outputs, Tree.pslice Property.tree x.properties]

/-- cyclonedx.go:1616-1625 -/
def Volume.tree (x : Volume) : Tree :=
  .agg [Tree.str x.uid, Tree.str x.name, Tree.str x.mode, Tree.str x.path, Tree.str x.sizeAllocated, Tree.opt Tree.bool x.persistent, Tree.opt Tree.bool x.remote, Tree.pslice Property.tree x.properties]

/-- cyclonedx.go:1568-1581 -/
def TaskWorkspace.tree (x : TaskWorkspace) : Tree :=
  .agg [Tree.str x.bomRef, Tree.str x.uid, Tree.str x.name, Tree.pslice Tree.str x.aliases, Tree.str x.description, Tree.pslice ResourceReferenceChoice.tree x.resourceReferences, Tree.str x.accessMode, Tree.str x.mountPath, Tree.str x.managedDataType, Tree.str x.volumeRequest, Tree.opt Volume.tree x.volume, Tree.pslice Property.tree x.properties]

/-- cyclonedx.go:1459-1475 -/
def Task.tree (x : Task) : Tree :=
  .agg [Tree.str x.bomRef, Tree.str x.uid, Tree.str x.name, Tree.str x.description, Tree.pslice Property.tree x.properties, Tree.pslice ResourceReferenceChoice.tree x.resourceReferences, Tree.pslice Tree.str x.taskTypes, Tree.opt TaskTrigger.tree x.trigger, Tree.pslice TaskStep.tree x.steps, Tree.pslice TaskInput.tree x.inputs, Tree.pslice TaskOutput.tree x.outputs, Tree.str x.timeStart, Tree.str x.timeEnd, Tree.pslice TaskWorkspace.tree x.workspaces, Tree.pslice Dependency.tree x.runtimeTopology]

/-- cyclonedx.go:1689-1707 -/
def Workflow.tree (x : Workflow) : Tree :=
  .agg [Tree.str x.bomRef, Tree.str x.uid, Tree.str x.name, Tree.str x.description, Tree.pslice ResourceReferenceChoice.tree x.resourceReferences, Tree.pslice Task.tree x.tasks, Tree.pslice Dependency.tree x.taskDependencies, Tree.pslice Tree.str x.taskTypes, Tree.opt TaskTrigger.tree x.trigger, Tree.pslice TaskStep.tree x.steps, Tree.pslice TaskInput.tree x.inputs, Tree.pslice TaskOutput.tree x.outputs, Tree.str x.timeStart, Tree.str x.timeEnd, Tree.pslice TaskWorkspace.tree x.workspaces, Tree.pslice Dependency.tree x.runtimeTopology, Tree.pslice Property.tree x.properties]

/-- cyclonedx.go:800-806 -/
def Formula.tree (x : Formula) : Tree :=
  .agg [Tree.str x.bomRef, Tree.pslice Component.tree x.components, Tree.pslice Service.tree x.services, Tree.pslice Workflow.tree x.workflows, Tree.pslice Property.tree x.properties]

/-- cyclonedx.go:1006-1010 -/
def Lifecycle.tree (x : Lifecycle) : Tree :=
  .agg [Tree.str x.name, Tree.str x.phase, Tree.str x.description]

/-- cyclonedx.go:1594-1600 -/
def Tool.tree (x : Tool) : Tree :=
  .agg [Tree.str x.vendor, Tree.str x.name, Tree.str x.version, Tree.pslice Hash.tree x.hashes, Tree.pslice ExternalReference.tree x.externalReferences]

/-- cyclonedx.go:1610-1614 -/
def ToolsChoice.tree (x : ToolsChoice) : Tree :=
  .agg [Tree.pslice Tool.tree x.tools, Tree.pslice Component.tree x.components, Tree.pslice Service.tree x.services]

/-- cyclonedx.go:1809-1811 -/
def DistributionConstraints.tree (x : DistributionConstraints) : Tree :=
  .agg [Tree.str x.tlp]

/-- cyclonedx.go:1042-1054 -/
def Metadata.tree (x : Metadata) : Tree :=
  .agg [Tree.str x.timestamp, Tree.pslice Lifecycle.tree x.lifecycles, Tree.opt ToolsChoice.tree x.tools, Tree.pslice OrganizationalContact.tree x.authors, Tree.opt Component.tree x.component, Tree.opt OrganizationalEntity.tree x.manufacture, Tree.opt OrganizationalEntity.tree x.manufacturer, Tree.opt OrganizationalEntity.tree x.supplier, Tree.pslice LicenseChoice.tree x.licenses, Tree.pslice Property.tree x.properties, Tree.opt DistributionConstraints.tree x.distributionConstraints]

/-- cyclonedx.go:349-352 -/
def Credits.tree (x : Credits) : Tree :=
  .agg [Tree.pslice OrganizationalEntity.tree x.organizations, Tree.pslice OrganizationalContact.tree x.individuals]

/-- cyclonedx.go:1271-1275 -/
def ProofOfConcept.tree (x : ProofOfConcept) : Tree :=
  .agg [Tree.str x.reproductionSteps, Tree.str x.environment, Tree.pslice AttachedText.tree x.supportingMaterial]

/-- cyclonedx.go:1658-1665 -/
def VulnerabilityAnalysis.tree (x : VulnerabilityAnalysis) : Tree :=
  .agg [Tree.str x.state, Tree.str x.justification, Tree.pslice Tree.str x.response, Tree.str x.detail, Tree.str x.firstIssued, Tree.str x.lastUpdated]

/-- cyclonedx.go:1667-1674 -/
def VulnerabilityRating.tree (x : VulnerabilityRating) : Tree :=
  .agg [Tree.opt Source.tree x.source, Tree.opt Tree.f64 x.score, Tree.str x.severity, Tree.str x.method, Tree.str x.vector, Tree.str x.justification]

/-- cyclonedx.go:1676-1679 -/
def VulnerabilityReference.tree (x : VulnerabilityReference) : Tree :=
  .agg [Tree.str x.id, Tree.opt Source.tree x.source]

/-- cyclonedx.go:1634-1656 -/
def Vulnerability.tree (x : Vulnerability) : Tree :=
  .agg [Tree.str x.bomRef, Tree.str x.id, Tree.opt Source.tree x.source, Tree.pslice VulnerabilityReference.tree x.references, Tree.pslice VulnerabilityRating.tree x.ratings, Tree.pslice Tree.int x.cwes, Tree.str x.description, Tree.str x.detail, Tree.str x.recommendation, Tree.str x.workaround, Tree.opt ProofOfConcept.tree x.proofOfConcept, Tree.pslice Advisory.tree x.advisories, Tree.str x.created, Tree.str x.published, Tree.str x.updated, Tree.str x.rejected, Tree.opt Credits.tree x.credits, Tree.opt ToolsChoice.tree x.tools, Tree.opt VulnerabilityAnalysis.tree x.analysis, Tree.pslice Affects.tree x.affects, Tree.pslice Property.tree x.properties]

/-- cyclonedx.go:1712-1721 -/
def Citation.tree (x : Citation) : Tree :=
  .agg [Tree.str x.bomRef, Tree.pslice Tree.str x.pointers, Tree.pslice Tree.str x.expressions, Tree.str x.timestamp, Tree.opt Tree.ref x.attributedTo, Tree.str x.process, Tree.str x.note, Tree.opt JSFSignature.tree x.signature]

/-- cyclonedx.go:105-131 -/
def BOM.tree (x : BOM) : Tree :=
  .agg [XMLName.tree x.xmlName, Tree.str x.xmlns, Tree.str x.jsonSchema, Tree.str x.bomFormat, Tree.int x.specVersion, Tree.str x.serialNumber, Tree.int x.version, Tree.opt Metadata.tree x.metadata, Tree.pslice Component.tree x.components, Tree.pslice Service.tree x.services, Tree.pslice ExternalReference.tree x.externalReferences, Tree.pslice Dependency.tree x.dependencies, Tree.pslice Composition.tree x.compositions, Tree.pslice Property.tree x.properties, Tree.pslice Vulnerability.tree x.vulnerabilities, Tree.pslice Annotation.tree x.annotations, Tree.pslice Formula.tree x.formulation, Tree.opt Declarations.tree x.declarations, Tree.opt Definitions.tree x.definitions, Tree.pslice Citation.tree x.citations, Tree.opt JSFSignature.tree x.signature]

end Verif
