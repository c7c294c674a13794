import Verif.Model.Types

/-!
# The values that XML can represent

GENERATED by `tools/gen_xplain.py` from the struct declarations of `/repo/cyclonedx.go`; do not edit by hand.

`T.XPlain x` says that `x` uses only what the XML format of the library can tell apart: strings consist of
characters that XML allows, lists are absent or not empty and have no elements that are left out, there is no
pointer to a nil slice, choice types hold one alternative, the fields that are not part of the XML format (tag
`xml:"-"`) are unset, integers are Go integers and a NaN is the usual one.  It is stated on the values alone,
without reference to how they are written or read.
-/

namespace Verif

/-- A character that may occur in an XML document (XML 1.0, production 2). -/
def XmlChar (c : Char) : Prop :=
  c.toNat = 0x9 ∨ c.toNat = 0xA ∨ c.toNat = 0xD ∨ (0x20 ≤ c.toNat ∧ c.toNat ≤ 0xD7FF) ∨
    (0xE000 ≤ c.toNat ∧ c.toNat ≤ 0xFFFD) ∨ (0x10000 ≤ c.toNat ∧ c.toNat ≤ 0x10FFFF)

/-- A string that may occur in an XML document. -/
def XString (s : String) : Prop := ∀ c ∈ s.toList, XmlChar c

/-- White space (the Unicode property White_Space). -/
def WhiteSpace (c : Char) : Prop :=
  c.toNat ∈ [0x9, 0xA, 0xB, 0xC, 0xD, 0x20, 0x85, 0xA0, 0x1680, 0x2028, 0x2029, 0x202F, 0x205F, 0x3000] ∨
    (0x2000 ≤ c.toNat ∧ c.toNat ≤ 0x200A)

/-- A string without white space at its beginning or end. -/
def Trimmed (s : String) : Prop :=
  (∀ c ∈ s.toList.head?, ¬ WhiteSpace c) ∧ (∀ c ∈ s.toList.getLast?, ¬ WhiteSpace c)

/-- If the number is a NaN, it is the one that parsing `NaN` yields: the exponent is all ones, and the fraction is
zero except for the first bit. -/
def F32.XPlain (x : F32) : Prop :=
  x.bits.toNat / 2 ^ 23 % 256 = 255 ∧ x.bits.toNat % 2 ^ 23 ≠ 0 → x.bits = 0x7FC00000
/-- If the number is a NaN, it is the one that parsing `NaN` yields. -/
def F64.XPlain (x : F64) : Prop :=
  x.bits.toNat / 2 ^ 52 % 2048 = 2047 ∧ x.bits.toNat % 2 ^ 52 ≠ 0 → x.bits = 0x7FF8000000000001

/-- The nil pointer, or a list that is not empty and whose elements satisfy `P`. -/
def PSlice.XEach {α : Type} (P : α → Prop) : PSlice α → Prop
  | .nil => True
  | .nilSlice => False
  | .list as => as ≠ [] ∧ ∀ a ∈ as, P a

/-- cyclonedx.go:35-38 -/
def Advisory.XPlain (x : Advisory) : Prop :=
  XString x.title ∧ XString x.url

/-- cyclonedx.go:40-44 -/
def AffectedVersions.XPlain (x : AffectedVersions) : Prop :=
  XString x.version ∧ XString x.range ∧ XString x.status

/-- cyclonedx.go:46-49 -/
def Affects.XPlain (x : Affects) : Prop :=
  XString x.ref ∧ x.range.XEach AffectedVersions.XPlain

/-- cyclonedx.go:73-77 -/
def AttachedText.XPlain (x : AttachedText) : Prop :=
  XString x.content ∧ XString x.contentType ∧ XString x.encoding

/-- cyclonedx.go:1277-1280 -/
def Property.XPlain (x : Property) : Prop :=
  XString x.name ∧ XString x.value

/-- cyclonedx.go:290-294 -/
def ComponentDataContents.XPlain (x : ComponentDataContents) : Prop :=
  (∀ y ∈ x.attachment, AttachedText.XPlain y) ∧ XString x.url ∧ x.properties.XEach Property.XPlain

/-- cyclonedx.go:301-304 -/
def ComponentDataGraphic.XPlain (x : ComponentDataGraphic) : Prop :=
  XString x.name ∧ (∀ y ∈ x.image, AttachedText.XPlain y)

/-- cyclonedx.go:306-309 -/
def ComponentDataGraphics.XPlain (x : ComponentDataGraphics) : Prop :=
  XString x.description ∧ x.collection.XEach ComponentDataGraphic.XPlain

/-- cyclonedx.go:1211-1216 -/
def OrganizationalContact.XPlain (x : OrganizationalContact) : Prop :=
  XString x.bomRef ∧ XString x.name ∧ XString x.email ∧ XString x.phone

/-- cyclonedx.go:1261-1269 -/
def PostalAddress.XPlain (x : PostalAddress) : Prop :=
  XString x.bomRef ∧ XString x.country ∧ XString x.region ∧ XString x.locality ∧ XString x.postOfficeBoxNumber ∧ XString x.postalCode ∧ XString x.streetAddress

/-- cyclonedx.go:1218-1224 -/
def OrganizationalEntity.XPlain (x : OrganizationalEntity) : Prop :=
  XString x.bomRef ∧ XString x.name ∧ (∀ y ∈ x.address, PostalAddress.XPlain y) ∧ x.url.XEach (fun y => y ≠ "" ∧ XString y) ∧ x.contact.XEach OrganizationalContact.XPlain

/-- cyclonedx.go:296-299 -/
def ComponentDataGovernanceResponsibleParty.XPlain (x : ComponentDataGovernanceResponsibleParty) : Prop :=
  (∀ y ∈ x.organization, OrganizationalEntity.XPlain y) ∧ (∀ y ∈ x.contact, OrganizationalContact.XPlain y)

/-- cyclonedx.go:570-574 -/
def DataGovernance.XPlain (x : DataGovernance) : Prop :=
  x.custodians.XEach ComponentDataGovernanceResponsibleParty.XPlain ∧ x.stewards.XEach ComponentDataGovernanceResponsibleParty.XPlain ∧ x.owners.XEach ComponentDataGovernanceResponsibleParty.XPlain

/-- cyclonedx.go:278-288 -/
def ComponentData.XPlain (x : ComponentData) : Prop :=
  XString x.bomRef ∧ XString x.type ∧ XString x.name ∧ (∀ y ∈ x.contents, ComponentDataContents.XPlain y) ∧ XString x.classification ∧ x.sensitiveData.XEach (fun y => y ≠ "" ∧ XString y) ∧ (∀ y ∈ x.graphics, ComponentDataGraphics.XPlain y) ∧ XString x.description ∧ (∀ y ∈ x.governance, DataGovernance.XPlain y)

/-- cyclonedx.go:808-811 -/
def Hash.XPlain (x : Hash) : Prop :=
  XString x.algorithm ∧ XString x.value

/-- cyclonedx.go:1866-1869 -/
def RelatedCryptographicAsset.XPlain (x : RelatedCryptographicAsset) : Prop :=
  XString x.type ∧ XString x.ref

/-- Either a predefined state that is not the empty string, or a custom one (cyclonedx.go:157-160). -/
def CertificateState.XPlain (x : CertificateState) : Prop :=
  (∃ p : PredefinedCertificateState, p.state ≠ "" ∧ XString p.state ∧ XString p.reason ∧ x = { predefined := some p }) ∨
  (∃ q : CustomCertificateState, XString q.name ∧ XString q.description ∧ XString q.reason ∧ x = { custom := some q })

/-- Either a common extension with a name, or a custom one. -/
def CertificateExtension.XPlain (x : CertificateExtension) : Prop :=
  (∃ p : CommonCertificateExtension, p.name ≠ "" ∧ XString p.name ∧ XString p.value ∧ x = { common := some p }) ∨
  (∃ q : CustomCertificateExtension, XString q.name ∧ XString q.value ∧ x = { custom := some q })

/-- cyclonedx.go:171-191 -/
def CertificateProperties.XPlain (x : CertificateProperties) : Prop :=
  XString x.serialNumber ∧ XString x.subjectName ∧ XString x.issuerName ∧ XString x.notValidBefore ∧ XString x.notValidAfter ∧ XString x.signatureAlgorithmRef.val ∧ XString x.subjectPublicKeyRef.val ∧ XString x.certificateFormat ∧ XString x.certificateExtension ∧ XString x.certificateFileExtension ∧ (∀ y ∈ x.fingerprint, Hash.XPlain y) ∧ x.certificateState.XEach CertificateState.XPlain ∧ x.certificateExtensions.XEach CertificateExtension.XPlain ∧ x.relatedCryptographicAssets.XEach RelatedCryptographicAsset.XPlain ∧ XString x.creationDate ∧ XString x.activationDate ∧ XString x.deactivationDate ∧ XString x.revocationDate ∧ XString x.destructionDate

/-- cyclonedx.go:368-382 -/
def CryptoAlgorithmProperties.XPlain (x : CryptoAlgorithmProperties) : Prop :=
  XString x.primitive ∧ XString x.parameterSetIdentifier ∧ XString x.algorithmFamily ∧ XString x.curve ∧ XString x.ellipticCurve ∧ XString x.executionEnvironment ∧ XString x.implementationPlatform ∧ x.certificationLevel.XEach (fun y => y ≠ "" ∧ XString y) ∧ XString x.mode ∧ XString x.padding ∧ x.cryptoFunctions.XEach (fun y => y ≠ "" ∧ XString y) ∧ (∀ y ∈ x.classicalSecurityLevel, InInt64 y) ∧ (∀ y ∈ x.nistQuantumSecurityLevel, InInt64 y)

/-- cyclonedx.go:205-211 -/
def CipherSuite.XPlain (x : CipherSuite) : Prop :=
  XString x.name ∧ x.algorithms.XEach (fun y => y.val ≠ "" ∧ XString y.val) ∧ x.identifiers.XEach (fun y => y ≠ "" ∧ XString y) ∧ x.tlsGroups.XEach (fun y => y ≠ "" ∧ XString y) ∧ x.tlsSignatureSchemes.XEach (fun y => y ≠ "" ∧ XString y)

/-- Either a reference alone, without white space around it, or everything but a reference
(cyclonedx.go:1826-1830). -/
def IKEv2Auth.XPlain (x : IKEv2Auth) : Prop :=
  (x.bomRef.val ≠ "" ∧ XString x.bomRef.val ∧ Trimmed x.bomRef.val ∧ x.name = "" ∧ x.algorithm = "") ∨
  (x.bomRef.val = "" ∧ XString x.name ∧ XString x.algorithm)

/-- Either a reference alone, without white space around it, or everything but a reference
(cyclonedx.go:1834-1839). -/
def IKEv2Enc.XPlain (x : IKEv2Enc) : Prop :=
  (x.bomRef.val ≠ "" ∧ XString x.bomRef.val ∧ Trimmed x.bomRef.val ∧ x.name = "" ∧ x.keyLength = none ∧ x.algorithm = "") ∨
  (x.bomRef.val = "" ∧ XString x.name ∧ (∀ y ∈ x.keyLength, InInt64 y) ∧ XString x.algorithm)

/-- Either a reference alone, without white space around it, or everything but a reference
(cyclonedx.go:1843-1847). -/
def IKEv2Integ.XPlain (x : IKEv2Integ) : Prop :=
  (x.bomRef.val ≠ "" ∧ XString x.bomRef.val ∧ Trimmed x.bomRef.val ∧ x.name = "" ∧ x.algorithm = "") ∨
  (x.bomRef.val = "" ∧ XString x.name ∧ XString x.algorithm)

/-- Either a reference alone, without white space around it, or everything but a reference
(cyclonedx.go:1851-1855). -/
def IKEv2Ke.XPlain (x : IKEv2Ke) : Prop :=
  (x.bomRef.val ≠ "" ∧ XString x.bomRef.val ∧ Trimmed x.bomRef.val ∧ x.group = none ∧ x.algorithm = "") ∨
  (x.bomRef.val = "" ∧ (∀ y ∈ x.group, InInt64 y) ∧ XString x.algorithm)

/-- Either a reference alone, without white space around it, or everything but a reference
(cyclonedx.go:1859-1863). -/
def IKEv2Prf.XPlain (x : IKEv2Prf) : Prop :=
  (x.bomRef.val ≠ "" ∧ XString x.bomRef.val ∧ Trimmed x.bomRef.val ∧ x.name = "" ∧ x.algorithm = "") ∨
  (x.bomRef.val = "" ∧ XString x.name ∧ XString x.algorithm)

/-- cyclonedx.go:537-544 -/
def IKEv2TransformTypes.XPlain (x : IKEv2TransformTypes) : Prop :=
  x.encr.XEach IKEv2Enc.XPlain ∧ x.prf.XEach IKEv2Prf.XPlain ∧ x.integ.XEach IKEv2Integ.XPlain ∧ x.ke.XEach IKEv2Ke.XPlain ∧ x.auth.XEach IKEv2Auth.XPlain

/-- cyclonedx.go:509-516 -/
def CryptoProtocolProperties.XPlain (x : CryptoProtocolProperties) : Prop :=
  XString x.type ∧ XString x.version ∧ x.cipherSuites.XEach CipherSuite.XPlain ∧ (∀ y ∈ x.ikev2TransformTypes, IKEv2TransformTypes.XPlain y) ∧ x.cryptoRefArray.XEach (fun y => y.val ≠ "" ∧ XString y.val) ∧ x.relatedCryptographicAssets.XEach RelatedCryptographicAsset.XPlain

/-- cyclonedx.go:546-549 -/
def SecuredBy.XPlain (x : SecuredBy) : Prop :=
  XString x.mechanism ∧ XString x.algorithmRef.val

/-- cyclonedx.go:1282-1297 -/
def RelatedCryptoMaterialProperties.XPlain (x : RelatedCryptoMaterialProperties) : Prop :=
  XString x.type ∧ XString x.id ∧ XString x.state ∧ XString x.algorithmRef.val ∧ XString x.creationDate ∧ XString x.activationDate ∧ XString x.updateDate ∧ XString x.expirationDate ∧ XString x.value ∧ (∀ y ∈ x.size, InInt64 y) ∧ XString x.format ∧ (∀ y ∈ x.securedBy, SecuredBy.XPlain y) ∧ (∀ y ∈ x.fingerprint, Hash.XPlain y) ∧ x.relatedCryptographicAssets.XEach RelatedCryptographicAsset.XPlain

/-- cyclonedx.go:500-507 -/
def CryptoProperties.XPlain (x : CryptoProperties) : Prop :=
  XString x.assetType ∧ (∀ y ∈ x.algorithmProperties, CryptoAlgorithmProperties.XPlain y) ∧ (∀ y ∈ x.certificateProperties, CertificateProperties.XPlain y) ∧ (∀ y ∈ x.relatedCryptoMaterialProperties, RelatedCryptoMaterialProperties.XPlain y) ∧ (∀ y ∈ x.protocolProperties, CryptoProtocolProperties.XPlain y) ∧ XString x.oid

/-- cyclonedx.go:161-169 -/
def CallstackFrame.XPlain (x : CallstackFrame) : Prop :=
  XString x.package ∧ XString x.module ∧ XString x.function ∧ x.parameters.XEach (fun y => y ≠ "" ∧ XString y) ∧ (∀ y ∈ x.line, InInt64 y) ∧ (∀ y ∈ x.column, InInt64 y) ∧ XString x.fullFilename

/-- cyclonedx.go:157-159 -/
def Callstack.XPlain (x : Callstack) : Prop :=
  x.frames.XEach CallstackFrame.XPlain

/-- A text. -/
def Copyright.XPlain (x : Copyright) : Prop := XString x.text

/-- cyclonedx.go:710-714 -/
def EvidenceIdentityMethod.XPlain (x : EvidenceIdentityMethod) : Prop :=
  XString x.technique ∧ (∀ y ∈ x.confidence, y.XPlain) ∧ XString x.value

/-- cyclonedx.go:688-694 -/
def EvidenceIdentity.XPlain (x : EvidenceIdentity) : Prop :=
  XString x.field ∧ (∀ y ∈ x.confidence, y.XPlain) ∧ XString x.concludedValue ∧ x.methods.XEach EvidenceIdentityMethod.XPlain ∧ x.tools.XEach (fun y => y.val ≠ "" ∧ XString y.val)

/-- cyclonedx.go:731-738 -/
def EvidenceOccurrence.XPlain (x : EvidenceOccurrence) : Prop :=
  XString x.bomRef ∧ XString x.location ∧ (∀ y ∈ x.line, InInt64 y) ∧ (∀ y ∈ x.offset, InInt64 y) ∧ XString x.symbol ∧ XString x.additionalContext

/-- cyclonedx.go:1226-1229 -/
def OrganizationalEntityOrContact.XPlain (x : OrganizationalEntityOrContact) : Prop :=
  (∀ y ∈ x.organization, OrganizationalEntity.XPlain y) ∧ (∀ y ∈ x.individual, OrganizationalContact.XPlain y)

/-- cyclonedx.go:995-1004 -/
def Licensing.XPlain (x : Licensing) : Prop :=
  x.altIDs.XEach (fun y => y ≠ "" ∧ XString y) ∧ (∀ y ∈ x.licensor, OrganizationalEntityOrContact.XPlain y) ∧ (∀ y ∈ x.licensee, OrganizationalEntityOrContact.XPlain y) ∧ (∀ y ∈ x.purchaser, OrganizationalEntityOrContact.XPlain y) ∧ XString x.purchaseOrder ∧ x.licenseTypes.XEach (fun y => y ≠ "" ∧ XString y) ∧ XString x.lastRenewal ∧ XString x.expiration

/-- cyclonedx.go:936-945 -/
def License.XPlain (x : License) : Prop :=
  XString x.bomRef ∧ XString x.id ∧ XString x.name ∧ XString x.acknowledgement ∧ (∀ y ∈ x.text, AttachedText.XPlain y) ∧ XString x.url ∧ (∀ y ∈ x.licensing, Licensing.XPlain y) ∧ x.properties.XEach Property.XPlain

/-- A detail without a reference of its own, which the XML format leaves out. -/
def LicenseExpressionDetail.XPlain (x : LicenseExpressionDetail) : Prop :=
  x.bomRef = "" ∧ XString x.licenseIdentifier ∧ (∀ y ∈ x.text, AttachedText.XPlain y) ∧ XString x.url

/-- Either a license alone, or an expression with its details (the licensing and the properties of an
expression are not part of the XML format). -/
def LicenseChoice.XPlain (x : LicenseChoice) : Prop :=
  (∃ l : License, l.XPlain ∧ x = { license := some l }) ∨
  (x.license = none ∧ x.expression ≠ "" ∧ XString x.expression ∧ XString x.bomRef ∧
    (∀ a ∈ x.acknowledgement, a ≠ "" ∧ XString a) ∧ x.expressionDetails.XEach LicenseExpressionDetail.XPlain ∧
    x.licensing = none ∧ x.properties = .nil)

/-- Not nothing at all; a list of identities, and a call stack with frames. -/
def Evidence.XPlain (x : Evidence) : Prop :=
  x ≠ {} ∧ (∀ i ∈ x.identity, i.identity = none ∧ i.identities ≠ .nil ∧ i.identities.XEach EvidenceIdentity.XPlain) ∧
  x.occurrences.XEach EvidenceOccurrence.XPlain ∧ (∀ c ∈ x.callstack, c.frames ≠ .nil ∧ c.XPlain) ∧
  x.licenses.XEach LicenseChoice.XPlain ∧ x.copyright.XEach Copyright.XPlain

/-- cyclonedx.go:740-746 -/
def ExternalReference.XPlain (x : ExternalReference) : Prop :=
  XString x.url ∧ XString x.comment ∧ x.hashes.XEach Hash.XPlain ∧ XString x.type ∧ x.properties.XEach Property.XPlain

/-- cyclonedx.go:1099-1102 -/
def MLModelCO2Measure.XPlain (x : MLModelCO2Measure) : Prop :=
  x.value.XPlain ∧ XString x.unit

/-- cyclonedx.go:1131-1134 -/
def MLModelEnergyMeasure.XPlain (x : MLModelEnergyMeasure) : Prop :=
  x.value.XPlain ∧ XString x.unit

/-- cyclonedx.go:1136-1143 -/
def MLModelEnergyProvider.XPlain (x : MLModelEnergyProvider) : Prop :=
  XString x.bomRef ∧ XString x.description ∧ (∀ y ∈ x.organization, OrganizationalEntity.XPlain y) ∧ XString x.energySource ∧ (∀ y ∈ x.energyProvided, MLModelEnergyMeasure.XPlain y) ∧ x.externalReferences.XEach ExternalReference.XPlain

/-- cyclonedx.go:1108-1115 -/
def MLModelEnergyConsumption.XPlain (x : MLModelEnergyConsumption) : Prop :=
  XString x.activity ∧ x.energyProviders.XEach MLModelEnergyProvider.XPlain ∧ MLModelEnergyMeasure.XPlain x.activityEnergyCost ∧ (∀ y ∈ x.co2CostEquivalent, MLModelCO2Measure.XPlain y) ∧ (∀ y ∈ x.co2CostOffset, MLModelCO2Measure.XPlain y) ∧ x.properties.XEach Property.XPlain

/-- cyclonedx.go:1082-1085 -/
def MLModelCardEnvironmentalConsiderations.XPlain (x : MLModelCardEnvironmentalConsiderations) : Prop :=
  x.energyConsumptions.XEach MLModelEnergyConsumption.XPlain ∧ x.properties.XEach Property.XPlain

/-- cyclonedx.go:1087-1090 -/
def MLModelCardEthicalConsideration.XPlain (x : MLModelCardEthicalConsideration) : Prop :=
  XString x.name ∧ XString x.mitigationStrategy

/-- cyclonedx.go:1092-1097 -/
def MLModelCardFairnessAssessment.XPlain (x : MLModelCardFairnessAssessment) : Prop :=
  XString x.groupAtRisk ∧ XString x.benefits ∧ XString x.harms ∧ XString x.mitigationStrategy

/-- cyclonedx.go:1072-1080 -/
def MLModelCardConsiderations.XPlain (x : MLModelCardConsiderations) : Prop :=
  x.users.XEach (fun y => y ≠ "" ∧ XString y) ∧ x.useCases.XEach (fun y => y ≠ "" ∧ XString y) ∧ x.technicalLimitations.XEach (fun y => y ≠ "" ∧ XString y) ∧ x.performanceTradeoffs.XEach (fun y => y ≠ "" ∧ XString y) ∧ x.ethicalConsiderations.XEach MLModelCardEthicalConsideration.XPlain ∧ (∀ y ∈ x.environmentalConsiderations, MLModelCardEnvironmentalConsiderations.XPlain y) ∧ x.fairnessAssessments.XEach MLModelCardFairnessAssessment.XPlain

/-- Either a reference, or a component data that is not empty. -/
def MLDatasetChoice.XPlain (x : MLDatasetChoice) : Prop :=
  (x.ref ≠ "" ∧ XString x.ref ∧ x.componentData = none) ∨
  (∃ d : ComponentData, d.XPlain ∧ d ≠ {} ∧ x = { componentData := some d })

/-- cyclonedx.go:1061-1063 -/
def MLInputOutputParameters.XPlain (x : MLInputOutputParameters) : Prop :=
  XString x.format

/-- cyclonedx.go:1175-1177 -/
def MLModelParametersApproach.XPlain (x : MLModelParametersApproach) : Prop :=
  XString x.type

/-- cyclonedx.go:1165-1173 -/
def MLModelParameters.XPlain (x : MLModelParameters) : Prop :=
  (∀ y ∈ x.approach, MLModelParametersApproach.XPlain y) ∧ XString x.task ∧ XString x.architectureFamily ∧ XString x.modelArchitecture ∧ x.datasets.XEach MLDatasetChoice.XPlain ∧ x.inputs.XEach MLInputOutputParameters.XPlain ∧ x.outputs.XEach MLInputOutputParameters.XPlain

/-- cyclonedx.go:1201-1204 -/
def MLPerformanceMetricConfidenceInterval.XPlain (x : MLPerformanceMetricConfidenceInterval) : Prop :=
  XString x.lowerBound ∧ XString x.upperBound

/-- cyclonedx.go:1194-1199 -/
def MLPerformanceMetric.XPlain (x : MLPerformanceMetric) : Prop :=
  XString x.type ∧ XString x.value ∧ XString x.slice ∧ (∀ y ∈ x.confidenceInterval, MLPerformanceMetricConfidenceInterval.XPlain y)

/-- cyclonedx.go:1189-1192 -/
def MLQuantitativeAnalysis.XPlain (x : MLQuantitativeAnalysis) : Prop :=
  x.performanceMetrics.XEach MLPerformanceMetric.XPlain ∧ (∀ y ∈ x.graphics, ComponentDataGraphics.XPlain y)

/-- cyclonedx.go:1065-1070 -/
def MLModelCard.XPlain (x : MLModelCard) : Prop :=
  XString x.bomRef ∧ (∀ y ∈ x.modelParameters, MLModelParameters.XPlain y) ∧ (∀ y ∈ x.quantitativeAnalysis, MLQuantitativeAnalysis.XPlain y) ∧ (∀ y ∈ x.considerations, MLModelCardConsiderations.XPlain y)

/-- cyclonedx.go:832-836 -/
def IdentifiableAction.XPlain (x : IdentifiableAction) : Prop :=
  XString x.timestamp ∧ XString x.name ∧ XString x.email

/-- cyclonedx.go:231-237 -/
def Commit.XPlain (x : Commit) : Prop :=
  XString x.uid ∧ XString x.url ∧ (∀ y ∈ x.author, IdentifiableAction.XPlain y) ∧ (∀ y ∈ x.committer, IdentifiableAction.XPlain y) ∧ XString x.message

/-- cyclonedx.go:650-653 -/
def Diff.XPlain (x : Diff) : Prop :=
  (∀ y ∈ x.text, AttachedText.XPlain y) ∧ XString x.url

/-- cyclonedx.go:1398-1401 -/
def Source.XPlain (x : Source) : Prop :=
  XString x.name ∧ XString x.url

/-- cyclonedx.go:892-899 -/
def Issue.XPlain (x : Issue) : Prop :=
  XString x.id ∧ XString x.name ∧ XString x.description ∧ (∀ y ∈ x.source, Source.XPlain y) ∧ x.references.XEach (fun y => y ≠ "" ∧ XString y) ∧ XString x.type

/-- cyclonedx.go:1237-1241 -/
def Patch.XPlain (x : Patch) : Prop :=
  (∀ y ∈ x.diff, Diff.XPlain y) ∧ x.resolves.XEach Issue.XPlain ∧ XString x.type

/-- cyclonedx.go:1206-1209 -/
def Note.XPlain (x : Note) : Prop :=
  XString x.locale ∧ AttachedText.XPlain x.text

/-- cyclonedx.go:1323-1335 -/
def ReleaseNotes.XPlain (x : ReleaseNotes) : Prop :=
  XString x.type ∧ XString x.title ∧ XString x.featuredImage ∧ XString x.socialImage ∧ XString x.description ∧ XString x.timestamp ∧ x.aliases.XEach (fun y => y ≠ "" ∧ XString y) ∧ x.tags.XEach (fun y => y ≠ "" ∧ XString y) ∧ x.resolves.XEach Issue.XPlain ∧ x.notes.XEach Note.XPlain ∧ x.properties.XEach Property.XPlain

/-- cyclonedx.go:1449-1457 -/
def SWID.XPlain (x : SWID) : Prop :=
  (∀ y ∈ x.text, AttachedText.XPlain y) ∧ XString x.url ∧ XString x.tagID ∧ XString x.name ∧ XString x.version ∧ (∀ y ∈ x.tagVersion, InInt64 y)

/-- An organization, an individual or a reference. -/
def AsserterChoice.XPlain (x : AsserterChoice) : Prop :=
  (∃ o : OrganizationalEntity, o.XPlain ∧ x = { organization := some o }) ∨
  (∃ i : OrganizationalContact, i.XPlain ∧ x = { individual := some i }) ∨
  (∃ r : BOMReference, XString r.val ∧ x = { bomRef := some r })

/-- cyclonedx.go:1779-1785 -/
def PatentAssertion.XPlain (x : PatentAssertion) : Prop :=
  XString x.bomRef ∧ x.patentRefs.XEach (fun y => y.val ≠ "" ∧ XString y.val) ∧ XString x.assertionType ∧ (∀ y ∈ x.asserter, AsserterChoice.XPlain y) ∧ XString x.notes

mutual
/-- cyclonedx.go:239-276 -/
def Component.XPlain : Component → Prop
  | .mk bomRef mimeType type supplier manufacturer author authors publisher group name version description scope hashes licenses copyright cpe packageURL omniborID swhid swid _ pedigree externalReferences properties components evidence releaseNotes modelCard data cryptoProperties tags _ patentAssertions versionRange signature =>
    XString bomRef ∧
    XString mimeType ∧
    XString type ∧
    (∀ y ∈ supplier, OrganizationalEntity.XPlain y) ∧
    (∀ y ∈ manufacturer, OrganizationalEntity.XPlain y) ∧
    XString author ∧
    authors.XEach OrganizationalContact.XPlain ∧
    XString publisher ∧
    XString group ∧
    XString name ∧
    XString version ∧
    XString description ∧
    XString scope ∧
    hashes.XEach Hash.XPlain ∧
    licenses.XEach LicenseChoice.XPlain ∧
    XString copyright ∧
    XString cpe ∧
    XString packageURL ∧
    omniborID.XEach (fun y => y ≠ "" ∧ XString y) ∧
    swhid.XEach (fun y => y ≠ "" ∧ XString y) ∧
    (∀ y ∈ swid, SWID.XPlain y) ∧
    XPlainPedigreeOpt pedigree ∧
    externalReferences.XEach ExternalReference.XPlain ∧
    properties.XEach Property.XPlain ∧
    XPlainComponents components ∧
    (∀ y ∈ evidence, Evidence.XPlain y) ∧
    (∀ y ∈ releaseNotes, ReleaseNotes.XPlain y) ∧
    (∀ y ∈ modelCard, MLModelCard.XPlain y) ∧
    data.XEach ComponentData.XPlain ∧
    (∀ y ∈ cryptoProperties, CryptoProperties.XPlain y) ∧
    tags.XEach (fun y => y ≠ "" ∧ XString y) ∧
    patentAssertions.XEach PatentAssertion.XPlain ∧
    XString versionRange ∧
    signature = none
/-- A list of components, at any depth. -/
def XPlainComponents : PSlice Component → Prop
  | .nil => True
  | .nilSlice => False
  | .list xs => xs ≠ [] ∧ XPlainComponentList xs
/-- A list of components, at any depth. -/
def XPlainComponentList : List Component → Prop
  | [] => True
  | c :: cs => c.XPlain ∧ XPlainComponentList cs
/-- An optional pedigree. -/
def XPlainPedigreeOpt : Option (Pedigree Component) → Prop
  | none => True
  | some p => XPlainPedigree p
/-- cyclonedx.go:1252-1259 -/
def XPlainPedigree : Pedigree Component → Prop
  | .mk ancestors descendants variants commits patches notes =>
    XPlainComponents ancestors ∧
    XPlainComponents descendants ∧
    XPlainComponents variants ∧
    commits.XEach Commit.XPlain ∧
    patches.XEach Patch.XPlain ∧
    XString notes
end

/-- Texts, a governance, and lists of URLs. -/
def DataClassification.XPlain (x : DataClassification) : Prop :=
  XString x.flow ∧ XString x.classification ∧ XString x.name ∧ XString x.description ∧
  (∀ g ∈ x.governance, g.XPlain) ∧ x.source.XEach XString ∧ x.destination.XEach XString

mutual
/-- cyclonedx.go:1362-1382 -/
def Service.XPlain : Service → Prop
  | .mk bomRef provider group name version description endpoints _ _ data licenses externalReferences properties services releaseNotes tags trustZone patentAssertions signature =>
    XString bomRef ∧
    (∀ y ∈ provider, OrganizationalEntity.XPlain y) ∧
    XString group ∧
    XString name ∧
    XString version ∧
    XString description ∧
    endpoints.XEach (fun y => y ≠ "" ∧ XString y) ∧
    data.XEach DataClassification.XPlain ∧
    licenses.XEach LicenseChoice.XPlain ∧
    externalReferences.XEach ExternalReference.XPlain ∧
    properties.XEach Property.XPlain ∧
    XPlainServices services ∧
    (∀ y ∈ releaseNotes, ReleaseNotes.XPlain y) ∧
    tags.XEach (fun y => y ≠ "" ∧ XString y) ∧
    XString trustZone ∧
    patentAssertions.XEach PatentAssertion.XPlain ∧
    signature = none
/-- A list of services, at any depth. -/
def XPlainServices : PSlice Service → Prop
  | .nil => True
  | .nilSlice => False
  | .list xs => xs ≠ [] ∧ XPlainServiceList xs
/-- A list of services, at any depth. -/
def XPlainServiceList : List Service → Prop
  | [] => True
  | c :: cs => c.XPlain ∧ XPlainServiceList cs
end

/-- cyclonedx.go:60-65 -/
def Annotator.XPlain (x : Annotator) : Prop :=
  (∀ y ∈ x.organization, OrganizationalEntity.XPlain y) ∧ (∀ y ∈ x.individual, OrganizationalContact.XPlain y) ∧ (∀ y ∈ x.component, Component.XPlain y) ∧ (∀ y ∈ x.service, Service.XPlain y)

/-- cyclonedx.go:51-58 -/
def Annotation.XPlain (x : Annotation) : Prop :=
  XString x.bomRef ∧ x.subjects.XEach (fun y => y.val ≠ "" ∧ XString y.val) ∧ (∀ y ∈ x.annotator, Annotator.XPlain y) ∧ XString x.timestamp ∧ XString x.text ∧ x.signature = none

/-- cyclonedx.go:67-71 -/
def Assessor.XPlain (x : Assessor) : Prop :=
  XString x.bomRef.val ∧ (∀ y ∈ x.organization, OrganizationalEntity.XPlain y)

/-- cyclonedx.go:94-98 -/
def AttestationConformance.XPlain (x : AttestationConformance) : Prop :=
  (∀ y ∈ x.score, y.XPlain) ∧ XString x.rationale ∧ x.mitigationStrategies.XEach (fun y => y.val ≠ "" ∧ XString y.val)

/-- cyclonedx.go:100-103 -/
def AttestationConfidence.XPlain (x : AttestationConfidence) : Prop :=
  (∀ y ∈ x.score, y.XPlain) ∧ XString x.rationale

/-- cyclonedx.go:86-92 -/
def AttestationMap.XPlain (x : AttestationMap) : Prop :=
  XString x.requirement ∧ x.claims.XEach (fun y => y.val ≠ "" ∧ XString y.val) ∧ x.counterClaims.XEach (fun y => y.val ≠ "" ∧ XString y.val) ∧ (∀ y ∈ x.conformance, AttestationConformance.XPlain y) ∧ (∀ y ∈ x.confidence, AttestationConfidence.XPlain y)

/-- cyclonedx.go:79-84 -/
def Attestation.XPlain (x : Attestation) : Prop :=
  XString x.summary ∧ XString x.assessor.val ∧ x.map.XEach AttestationMap.XPlain ∧ x.signature = none

/-- cyclonedx.go:321-328 -/
def Composition.XPlain (x : Composition) : Prop :=
  XString x.bomRef ∧ XString x.aggregate ∧ x.assemblies.XEach (fun y => y.val ≠ "" ∧ XString y.val) ∧ x.dependencies.XEach (fun y => y.val ≠ "" ∧ XString y.val) ∧ x.vulnerabilities.XEach (fun y => y.val ≠ "" ∧ XString y.val) ∧ x.signature = none

/-- cyclonedx.go:193-203 -/
def Claim.XPlain (x : Claim) : Prop :=
  XString x.bomRef ∧ XString x.target.val ∧ XString x.predicate ∧ x.mitigationStrategies.XEach (fun y => y.val ≠ "" ∧ XString y.val) ∧ XString x.reasoning ∧ x.evidence.XEach (fun y => y.val ≠ "" ∧ XString y.val) ∧ x.counterEvidence.XEach (fun y => y.val ≠ "" ∧ XString y.val) ∧ x.externalReferences.XEach ExternalReference.XPlain ∧ x.signature = none

/-- cyclonedx.go:619-622 -/
def EvidenceDataContents.XPlain (x : EvidenceDataContents) : Prop :=
  (∀ y ∈ x.attachment, AttachedText.XPlain y) ∧ XString x.url

/-- cyclonedx.go:611-617 -/
def EvidenceData.XPlain (x : EvidenceData) : Prop :=
  XString x.name ∧ (∀ y ∈ x.contents, EvidenceDataContents.XPlain y) ∧ x.classification = none ∧ x.sensitiveData.XEach (fun y => y ≠ "" ∧ XString y) ∧ (∀ y ∈ x.governance, DataGovernance.XPlain y)

/-- cyclonedx.go:586-596 -/
def DeclarationEvidence.XPlain (x : DeclarationEvidence) : Prop :=
  XString x.bomRef ∧ XString x.propertyName ∧ XString x.description ∧ x.data.XEach EvidenceData.XPlain ∧ XString x.created ∧ XString x.expires ∧ (∀ y ∈ x.author, OrganizationalContact.XPlain y) ∧ (∀ y ∈ x.reviewer, OrganizationalContact.XPlain y) ∧ x.signature = none

/-- cyclonedx.go:624-628 -/
def Targets.XPlain (x : Targets) : Prop :=
  x.organizations.XEach OrganizationalEntity.XPlain ∧ x.components.XEach Component.XPlain ∧ x.services.XEach Service.XPlain

/-- cyclonedx.go:636-642 -/
def Signatory.XPlain (x : Signatory) : Prop :=
  XString x.name ∧ XString x.role ∧ x.signature = none ∧ (∀ y ∈ x.organization, OrganizationalEntity.XPlain y) ∧ (∀ y ∈ x.externalReference, ExternalReference.XPlain y)

/-- cyclonedx.go:630-634 -/
def Affirmation.XPlain (x : Affirmation) : Prop :=
  XString x.statement ∧ x.signatories.XEach Signatory.XPlain ∧ x.signature = none

/-- cyclonedx.go:576-584 -/
def Declarations.XPlain (x : Declarations) : Prop :=
  x.assessors.XEach Assessor.XPlain ∧ x.attestations.XEach Attestation.XPlain ∧ x.claims.XEach Claim.XPlain ∧ x.evidence.XEach DeclarationEvidence.XPlain ∧ (∀ y ∈ x.targets, Targets.XPlain y) ∧ (∀ y ∈ x.affirmation, Affirmation.XPlain y) ∧ x.signature = none

/-- cyclonedx.go:1802-1806 -/
def PriorityApplication.XPlain (x : PriorityApplication) : Prop :=
  XString x.applicationNumber ∧ XString x.jurisdiction ∧ XString x.filingDate

/-- cyclonedx.go:1743-1758 -/
def Patent.XPlain (x : Patent) : Prop :=
  XString x.bomRef ∧ XString x.patentNumber ∧ XString x.applicationNumber ∧ XString x.jurisdiction ∧ (∀ y ∈ x.priorityApplication, PriorityApplication.XPlain y) ∧ XString x.publicationNumber ∧ XString x.title ∧ XString x.abstract ∧ XString x.filingDate ∧ XString x.grantDate ∧ XString x.patentExpirationDate ∧ XString x.patentLegalStatus ∧ x.patentAssignee.XEach OrganizationalEntityOrContact.XPlain ∧ x.externalReferences.XEach ExternalReference.XPlain

/-- cyclonedx.go:1761-1767 -/
def PatentFamily.XPlain (x : PatentFamily) : Prop :=
  XString x.bomRef ∧ XString x.familyID ∧ (∀ y ∈ x.priorityApplication, PriorityApplication.XPlain y) ∧ x.members.XEach (fun y => y.val ≠ "" ∧ XString y.val) ∧ x.externalReferences.XEach ExternalReference.XPlain

/-- Either a patent or a patent family. -/
def PatentChoice.XPlain (x : PatentChoice) : Prop :=
  (∃ p : Patent, p.XPlain ∧ x = { patent := some p }) ∨ (∃ f : PatentFamily, f.XPlain ∧ x = { patentFamily := some f })

/-- cyclonedx.go:1429-1439 -/
def StandardRequirement.XPlain (x : StandardRequirement) : Prop :=
  XString x.bomRef ∧ XString x.identifier ∧ XString x.title ∧ XString x.text ∧ x.descriptions.XEach (fun y => y ≠ "" ∧ XString y) ∧ x.openCRE.XEach (fun y => y ≠ "" ∧ XString y) ∧ XString x.parent ∧ x.properties.XEach Property.XPlain ∧ x.externalReferences.XEach ExternalReference.XPlain

/-- cyclonedx.go:1441-1447 -/
def StandardLevel.XPlain (x : StandardLevel) : Prop :=
  XString x.bomRef ∧ XString x.identifier ∧ XString x.title ∧ XString x.description ∧ x.requirements.XEach (fun y => y ≠ "" ∧ XString y)

/-- cyclonedx.go:1416-1427 -/
def StandardDefinition.XPlain (x : StandardDefinition) : Prop :=
  XString x.bomRef ∧ XString x.name ∧ XString x.version ∧ XString x.description ∧ XString x.owner ∧ x.requirements.XEach StandardRequirement.XPlain ∧ x.levels.XEach StandardLevel.XPlain ∧ x.externalReferences.XEach ExternalReference.XPlain ∧ x.signature = none

/-- Standards and patents. -/
def Definitions.XPlain (x : Definitions) : Prop :=
  x.standards.XEach StandardDefinition.XPlain ∧ x.patents.XEach PatentChoice.XPlain

/-- References. -/
def Dependency.XPlain (x : Dependency) : Prop :=
  XString x.ref ∧ x.dependencies.XEach XString ∧ x.provides.XEach XString

/-- cyclonedx.go:1337-1340 -/
def ResourceReferenceChoice.XPlain (x : ResourceReferenceChoice) : Prop :=
  XString x.ref ∧ (∀ y ∈ x.externalReference, ExternalReference.XPlain y)

/-- Either a property, or a string that is not empty. -/
def EnvironmentVariableChoice.XPlain (x : EnvironmentVariableChoice) : Prop :=
  (∃ p : Property, p.XPlain ∧ x = { property := some p }) ∨ (x.property = none ∧ x.value ≠ "" ∧ XString x.value)

/-- cyclonedx.go:1231-1235 -/
def Parameter.XPlain (x : Parameter) : Prop :=
  XString x.name ∧ XString x.value ∧ XString x.dataType

/-- cyclonedx.go:1482-1490 -/
def TaskInput.XPlain (x : TaskInput) : Prop :=
  (∀ y ∈ x.resource, ResourceReferenceChoice.XPlain y) ∧ x.parameters.XEach Parameter.XPlain ∧ x.environmentVars.XEach EnvironmentVariableChoice.XPlain ∧ (∀ y ∈ x.data, AttachedText.XPlain y) ∧ (∀ y ∈ x.source, ResourceReferenceChoice.XPlain y) ∧ (∀ y ∈ x.target, ResourceReferenceChoice.XPlain y) ∧ x.properties.XEach Property.XPlain

/-- cyclonedx.go:1492-1501 -/
def TaskOutput.XPlain (x : TaskOutput) : Prop :=
  (∀ y ∈ x.resource, ResourceReferenceChoice.XPlain y) ∧ x.parameters.XEach Parameter.XPlain ∧ x.environmentVars.XEach EnvironmentVariableChoice.XPlain ∧ (∀ y ∈ x.data, AttachedText.XPlain y) ∧ XString x.type ∧ (∀ y ∈ x.source, ResourceReferenceChoice.XPlain y) ∧ (∀ y ∈ x.target, ResourceReferenceChoice.XPlain y) ∧ x.properties.XEach Property.XPlain

/-- cyclonedx.go:1477-1480 -/
def TaskCommand.XPlain (x : TaskCommand) : Prop :=
  XString x.executed ∧ x.properties.XEach Property.XPlain

/-- cyclonedx.go:1514-1519 -/
def TaskStep.XPlain (x : TaskStep) : Prop :=
  XString x.name ∧ XString x.description ∧ x.commands.XEach TaskCommand.XPlain ∧ x.properties.XEach Property.XPlain

/-- cyclonedx.go:662-670 -/
def Event.XPlain (x : Event) : Prop :=
  XString x.uid ∧ XString x.description ∧ XString x.timeReceived ∧ (∀ y ∈ x.data, AttachedText.XPlain y) ∧ (∀ y ∈ x.source, ResourceReferenceChoice.XPlain y) ∧ (∀ y ∈ x.target, ResourceReferenceChoice.XPlain y) ∧ x.properties.XEach Property.XPlain

/-- cyclonedx.go:1536-1540 -/
def TaskTriggerCondition.XPlain (x : TaskTriggerCondition) : Prop :=
  XString x.description ∧ XString x.expression ∧ x.properties.XEach Property.XPlain

/-- cyclonedx.go:1521-1534 -/
def TaskTrigger.XPlain (x : TaskTrigger) : Prop :=
  XString x.bomRef ∧ XString x.uid ∧ XString x.name ∧ XString x.description ∧ x.resourceReferences.XEach ResourceReferenceChoice.XPlain ∧ XString x.type ∧ (∀ y ∈ x.event, Event.XPlain y) ∧ x.conditions.XEach TaskTriggerCondition.XPlain ∧ XString x.timeActivated ∧ x.inputs.XEach TaskInput.XPlain ∧ x.outputs.XEach TaskOutput.XPlain ∧ x.properties.XEach Property.XPlain

/-- cyclonedx.go:1616-1625 -/
def Volume.XPlain (x : Volume) : Prop :=
  XString x.uid ∧ XString x.name ∧ XString x.mode ∧ XString x.path ∧ XString x.sizeAllocated ∧ x.properties.XEach Property.XPlain

/-- cyclonedx.go:1568-1581 -/
def TaskWorkspace.XPlain (x : TaskWorkspace) : Prop :=
  XString x.bomRef ∧ XString x.uid ∧ XString x.name ∧ x.aliases.XEach (fun y => y ≠ "" ∧ XString y) ∧ XString x.description ∧ x.resourceReferences.XEach ResourceReferenceChoice.XPlain ∧ XString x.accessMode ∧ XString x.mountPath ∧ XString x.managedDataType ∧ XString x.volumeRequest ∧ (∀ y ∈ x.volume, Volume.XPlain y) ∧ x.properties.XEach Property.XPlain

/-- cyclonedx.go:1459-1475 -/
def Task.XPlain (x : Task) : Prop :=
  XString x.bomRef ∧ XString x.uid ∧ XString x.name ∧ XString x.description ∧ x.properties.XEach Property.XPlain ∧ x.resourceReferences.XEach ResourceReferenceChoice.XPlain ∧ x.taskTypes.XEach (fun y => y ≠ "" ∧ XString y) ∧ (∀ y ∈ x.trigger, TaskTrigger.XPlain y) ∧ x.steps.XEach TaskStep.XPlain ∧ x.inputs.XEach TaskInput.XPlain ∧ x.outputs.XEach TaskOutput.XPlain ∧ XString x.timeStart ∧ XString x.timeEnd ∧ x.workspaces.XEach TaskWorkspace.XPlain ∧ x.runtimeTopology.XEach Dependency.XPlain

/-- cyclonedx.go:1689-1707 -/
def Workflow.XPlain (x : Workflow) : Prop :=
  XString x.bomRef ∧ XString x.uid ∧ XString x.name ∧ XString x.description ∧ x.resourceReferences.XEach ResourceReferenceChoice.XPlain ∧ x.tasks.XEach Task.XPlain ∧ x.taskDependencies.XEach Dependency.XPlain ∧ x.taskTypes.XEach (fun y => y ≠ "" ∧ XString y) ∧ (∀ y ∈ x.trigger, TaskTrigger.XPlain y) ∧ x.steps.XEach TaskStep.XPlain ∧ x.inputs.XEach TaskInput.XPlain ∧ x.outputs.XEach TaskOutput.XPlain ∧ XString x.timeStart ∧ XString x.timeEnd ∧ x.workspaces.XEach TaskWorkspace.XPlain ∧ x.runtimeTopology.XEach Dependency.XPlain ∧ x.properties.XEach Property.XPlain

/-- cyclonedx.go:800-806 -/
def Formula.XPlain (x : Formula) : Prop :=
  XString x.bomRef ∧ x.components.XEach Component.XPlain ∧ x.services.XEach Service.XPlain ∧ x.workflows.XEach Workflow.XPlain ∧ x.properties.XEach Property.XPlain

/-- cyclonedx.go:1006-1010 -/
def Lifecycle.XPlain (x : Lifecycle) : Prop :=
  XString x.name ∧ XString x.phase ∧ XString x.description

/-- cyclonedx.go:1594-1600 -/
def Tool.XPlain (x : Tool) : Prop :=
  XString x.vendor ∧ XString x.name ∧ XString x.version ∧ x.hashes.XEach Hash.XPlain ∧ x.externalReferences.XEach ExternalReference.XPlain

/-- Not nothing at all; lists of tools, components and services. -/
def ToolsChoice.XPlain (x : ToolsChoice) : Prop :=
  x ≠ {} ∧ x.tools.XEach Tool.XPlain ∧ x.components.XEach Component.XPlain ∧ x.services.XEach Service.XPlain

/-- cyclonedx.go:1809-1811 -/
def DistributionConstraints.XPlain (x : DistributionConstraints) : Prop :=
  XString x.tlp

/-- cyclonedx.go:1042-1054 -/
def Metadata.XPlain (x : Metadata) : Prop :=
  XString x.timestamp ∧ x.lifecycles.XEach Lifecycle.XPlain ∧ (∀ y ∈ x.tools, ToolsChoice.XPlain y) ∧ x.authors.XEach OrganizationalContact.XPlain ∧ (∀ y ∈ x.component, Component.XPlain y) ∧ (∀ y ∈ x.manufacture, OrganizationalEntity.XPlain y) ∧ (∀ y ∈ x.manufacturer, OrganizationalEntity.XPlain y) ∧ (∀ y ∈ x.supplier, OrganizationalEntity.XPlain y) ∧ x.licenses.XEach LicenseChoice.XPlain ∧ x.properties.XEach Property.XPlain ∧ (∀ y ∈ x.distributionConstraints, DistributionConstraints.XPlain y)

/-- cyclonedx.go:349-352 -/
def Credits.XPlain (x : Credits) : Prop :=
  x.organizations.XEach OrganizationalEntity.XPlain ∧ x.individuals.XEach OrganizationalContact.XPlain

/-- cyclonedx.go:1271-1275 -/
def ProofOfConcept.XPlain (x : ProofOfConcept) : Prop :=
  XString x.reproductionSteps ∧ XString x.environment ∧ x.supportingMaterial.XEach AttachedText.XPlain

/-- cyclonedx.go:1658-1665 -/
def VulnerabilityAnalysis.XPlain (x : VulnerabilityAnalysis) : Prop :=
  XString x.state ∧ XString x.justification ∧ x.response.XEach (fun y => y ≠ "" ∧ XString y) ∧ XString x.detail ∧ XString x.firstIssued ∧ XString x.lastUpdated

/-- cyclonedx.go:1667-1674 -/
def VulnerabilityRating.XPlain (x : VulnerabilityRating) : Prop :=
  (∀ y ∈ x.source, Source.XPlain y) ∧ (∀ y ∈ x.score, y.XPlain) ∧ XString x.severity ∧ XString x.method ∧ XString x.vector ∧ XString x.justification

/-- cyclonedx.go:1676-1679 -/
def VulnerabilityReference.XPlain (x : VulnerabilityReference) : Prop :=
  XString x.id ∧ (∀ y ∈ x.source, Source.XPlain y)

/-- cyclonedx.go:1634-1656 -/
def Vulnerability.XPlain (x : Vulnerability) : Prop :=
  XString x.bomRef ∧ XString x.id ∧ (∀ y ∈ x.source, Source.XPlain y) ∧ x.references.XEach VulnerabilityReference.XPlain ∧ x.ratings.XEach VulnerabilityRating.XPlain ∧ x.cwes.XEach (fun y => y ≠ 0 ∧ InInt64 y) ∧ XString x.description ∧ XString x.detail ∧ XString x.recommendation ∧ XString x.workaround ∧ (∀ y ∈ x.proofOfConcept, ProofOfConcept.XPlain y) ∧ x.advisories.XEach Advisory.XPlain ∧ XString x.created ∧ XString x.published ∧ XString x.updated ∧ XString x.rejected ∧ (∀ y ∈ x.credits, Credits.XPlain y) ∧ (∀ y ∈ x.tools, ToolsChoice.XPlain y) ∧ (∀ y ∈ x.analysis, VulnerabilityAnalysis.XPlain y) ∧ x.affects.XEach Affects.XPlain ∧ x.properties.XEach Property.XPlain

/-- cyclonedx.go:1712-1721 -/
def Citation.XPlain (x : Citation) : Prop :=
  XString x.bomRef ∧ x.pointers.XEach (fun y => y ≠ "" ∧ XString y) ∧ x.expressions.XEach (fun y => y ≠ "" ∧ XString y) ∧ XString x.timestamp ∧ (∀ y ∈ x.attributedTo, XString y.val) ∧ XString x.process ∧ XString x.note ∧ x.signature = none

/-- cyclonedx.go:105-131, except for the fields that are not part of the XML format or are determined by the namespace -/
def BOM.XPlain (x : BOM) : Prop :=
  XString x.xmlns ∧ XString x.serialNumber ∧ InInt64 x.version ∧ (∀ y ∈ x.metadata, Metadata.XPlain y) ∧ x.components.XEach Component.XPlain ∧ x.services.XEach Service.XPlain ∧ x.externalReferences.XEach ExternalReference.XPlain ∧ x.dependencies.XEach Dependency.XPlain ∧ x.compositions.XEach Composition.XPlain ∧ x.properties.XEach Property.XPlain ∧ x.vulnerabilities.XEach Vulnerability.XPlain ∧ x.annotations.XEach Annotation.XPlain ∧ x.formulation.XEach Formula.XPlain ∧ (∀ y ∈ x.declarations, Declarations.XPlain y) ∧ (∀ y ∈ x.definitions, Definitions.XPlain y) ∧ x.citations.XEach Citation.XPlain

end Verif
