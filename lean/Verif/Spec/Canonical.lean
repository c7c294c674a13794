import Verif.Model.Types

/-!
# The canonical form of a value in JSON

GENERATED by `tools/gen_canon.py` from the struct declarations of `/repo/cyclonedx.go`; do not edit by hand.

`T.canonical x` is what is left of `x` in a JSON document: pointers to nil slices become nil pointers, of a
choice type only the alternative that the library prefers remains, and the fields that are not part of the
JSON format (tag `json:"-"`) are unset.  For types that are not mentioned here it is the value itself.

`T.Regular x` says that integers are Go integers (64 bits), and that predefined certificate states, common
certificate extensions and patent families have the member by which the library recognises them.

Both are stated on the values alone, without reference to how they are written or read.
-/

namespace Verif

/-- A list, with nil pointers and pointers to nil slices not told apart. -/
def PSlice.compact {α : Type} : PSlice α → PSlice α
  | .list xs => .list xs
  | _ => .nil

/-- The same, with `f` applied to the elements. -/
def PSlice.compactWith {α : Type} (f : α → α) : PSlice α → PSlice α
  | .list xs => .list (xs.map f)
  | _ => .nil

/-- cyclonedx.go:46-49 -/
def Affects.canonical (x : Affects) : Affects :=
  ⟨x.ref, x.range.compact⟩

/-- cyclonedx.go:290-294 -/
def ComponentDataContents.canonical (x : ComponentDataContents) : ComponentDataContents :=
  ⟨x.attachment, x.url, x.properties.compact⟩

/-- cyclonedx.go:306-309 -/
def ComponentDataGraphics.canonical (x : ComponentDataGraphics) : ComponentDataGraphics :=
  ⟨x.description, x.collection.compact⟩

/-- cyclonedx.go:1218-1224 -/
def OrganizationalEntity.canonical (x : OrganizationalEntity) : OrganizationalEntity :=
  ⟨x.bomRef, x.name, x.address, x.url.compact, x.contact.compact⟩

/-- cyclonedx.go:296-299 -/
def ComponentDataGovernanceResponsibleParty.canonical (x : ComponentDataGovernanceResponsibleParty) : ComponentDataGovernanceResponsibleParty :=
  ⟨x.organization.map OrganizationalEntity.canonical, x.contact⟩

/-- cyclonedx.go:570-574 -/
def DataGovernance.canonical (x : DataGovernance) : DataGovernance :=
  ⟨x.custodians.compactWith ComponentDataGovernanceResponsibleParty.canonical, x.stewards.compactWith ComponentDataGovernanceResponsibleParty.canonical, x.owners.compactWith ComponentDataGovernanceResponsibleParty.canonical⟩

/-- cyclonedx.go:278-288 -/
def ComponentData.canonical (x : ComponentData) : ComponentData :=
  ⟨x.bomRef, x.type, x.name, x.contents.map ComponentDataContents.canonical, x.classification, x.sensitiveData.compact, x.graphics.map ComponentDataGraphics.canonical, x.description, x.governance.map DataGovernance.canonical⟩

/-- The predefined state wins over the custom one; nothing becomes an empty custom state. -/
def CertificateState.canonical (x : CertificateState) : CertificateState :=
  match x.predefined, x.custom with
  | some p, _ => { predefined := some p }
  | none, some q => { custom := some q }
  | none, none => { custom := some {} }

/-- The common extension wins over the custom one; nothing becomes an empty custom extension. -/
def CertificateExtension.canonical (x : CertificateExtension) : CertificateExtension :=
  match x.common, x.custom with
  | some p, _ => { common := some p }
  | none, some q => { custom := some q }
  | none, none => { custom := some {} }

/-- cyclonedx.go:171-191 -/
def CertificateProperties.canonical (x : CertificateProperties) : CertificateProperties :=
  ⟨x.serialNumber, x.subjectName, x.issuerName, x.notValidBefore, x.notValidAfter, x.signatureAlgorithmRef, x.subjectPublicKeyRef, x.certificateFormat, x.certificateExtension, x.certificateFileExtension, x.fingerprint, x.certificateState.compactWith CertificateState.canonical, x.certificateExtensions.compactWith CertificateExtension.canonical, x.relatedCryptographicAssets.compact, x.creationDate, x.activationDate, x.deactivationDate, x.revocationDate, x.destructionDate⟩

/-- cyclonedx.go:368-382 -/
def CryptoAlgorithmProperties.canonical (x : CryptoAlgorithmProperties) : CryptoAlgorithmProperties :=
  ⟨x.primitive, x.parameterSetIdentifier, x.algorithmFamily, x.curve, x.ellipticCurve, x.executionEnvironment, x.implementationPlatform, x.certificationLevel.compact, x.mode, x.padding, x.cryptoFunctions.compact, x.classicalSecurityLevel, x.nistQuantumSecurityLevel⟩

/-- cyclonedx.go:205-211 -/
def CipherSuite.canonical (x : CipherSuite) : CipherSuite :=
  ⟨x.name, x.algorithms.compact, x.identifiers.compact, x.tlsGroups.compact, x.tlsSignatureSchemes.compact⟩

/-- A reference wins over everything else (cyclonedx.go:1826-1830). -/
def IKEv2Auth.canonical (x : IKEv2Auth) : IKEv2Auth :=
  if x.bomRef.val ≠ "" then { bomRef := x.bomRef } else { x with bomRef := ⟨""⟩ }

/-- A reference wins over everything else (cyclonedx.go:1834-1839). -/
def IKEv2Enc.canonical (x : IKEv2Enc) : IKEv2Enc :=
  if x.bomRef.val ≠ "" then { bomRef := x.bomRef } else { x with bomRef := ⟨""⟩ }

/-- A reference wins over everything else (cyclonedx.go:1843-1847). -/
def IKEv2Integ.canonical (x : IKEv2Integ) : IKEv2Integ :=
  if x.bomRef.val ≠ "" then { bomRef := x.bomRef } else { x with bomRef := ⟨""⟩ }

/-- A reference wins over everything else (cyclonedx.go:1851-1855). -/
def IKEv2Ke.canonical (x : IKEv2Ke) : IKEv2Ke :=
  if x.bomRef.val ≠ "" then { bomRef := x.bomRef } else { x with bomRef := ⟨""⟩ }

/-- A reference wins over everything else (cyclonedx.go:1859-1863). -/
def IKEv2Prf.canonical (x : IKEv2Prf) : IKEv2Prf :=
  if x.bomRef.val ≠ "" then { bomRef := x.bomRef } else { x with bomRef := ⟨""⟩ }

/-- cyclonedx.go:537-544 -/
def IKEv2TransformTypes.canonical (x : IKEv2TransformTypes) : IKEv2TransformTypes :=
  ⟨x.encr.compactWith IKEv2Enc.canonical, x.prf.compactWith IKEv2Prf.canonical, x.integ.compactWith IKEv2Integ.canonical, x.ke.compactWith IKEv2Ke.canonical, x.esn, x.auth.compactWith IKEv2Auth.canonical⟩

/-- cyclonedx.go:509-516 -/
def CryptoProtocolProperties.canonical (x : CryptoProtocolProperties) : CryptoProtocolProperties :=
  ⟨x.type, x.version, x.cipherSuites.compactWith CipherSuite.canonical, x.ikev2TransformTypes.map IKEv2TransformTypes.canonical, x.cryptoRefArray.compact, x.relatedCryptographicAssets.compact⟩

/-- cyclonedx.go:1282-1297 -/
def RelatedCryptoMaterialProperties.canonical (x : RelatedCryptoMaterialProperties) : RelatedCryptoMaterialProperties :=
  ⟨x.type, x.id, x.state, x.algorithmRef, x.creationDate, x.activationDate, x.updateDate, x.expirationDate, x.value, x.size, x.format, x.securedBy, x.fingerprint, x.relatedCryptographicAssets.compact⟩

/-- cyclonedx.go:500-507 -/
def CryptoProperties.canonical (x : CryptoProperties) : CryptoProperties :=
  ⟨x.assetType, x.algorithmProperties.map CryptoAlgorithmProperties.canonical, x.certificateProperties.map CertificateProperties.canonical, x.relatedCryptoMaterialProperties.map RelatedCryptoMaterialProperties.canonical, x.protocolProperties.map CryptoProtocolProperties.canonical, x.oid⟩

/-- cyclonedx.go:161-169 -/
def CallstackFrame.canonical (x : CallstackFrame) : CallstackFrame :=
  ⟨x.package, x.module, x.function, x.parameters.compact, x.line, x.column, x.fullFilename⟩

/-- cyclonedx.go:157-159 -/
def Callstack.canonical (x : Callstack) : Callstack :=
  ⟨x.frames.compactWith CallstackFrame.canonical⟩

/-- cyclonedx.go:688-694 -/
def EvidenceIdentity.canonical (x : EvidenceIdentity) : EvidenceIdentity :=
  ⟨x.field, x.confidence, x.concludedValue, x.methods.compact, x.tools.compact⟩

/-- The single identity wins over the list; a choice without either, where it cannot be left out, becomes
an empty identity. -/
def EvidenceIdentityChoice.canonical (x : EvidenceIdentityChoice) : EvidenceIdentityChoice :=
  match x.identity, x.identities with
  | some i, _ => { identity := some i.canonical }
  | none, .list is => { identities := .list (is.map EvidenceIdentity.canonical) }
  | none, _ => { identity := some {} }

/-- A choice without an identity is written as `null`. -/
def EvidenceIdentityChoice.canonicalOpt (x : EvidenceIdentityChoice) : Option EvidenceIdentityChoice :=
  match x.identity, x.identities with
  | none, .nil => none
  | none, .nilSlice => none
  | _, _ => some x.canonical

/-- cyclonedx.go:1226-1229 -/
def OrganizationalEntityOrContact.canonical (x : OrganizationalEntityOrContact) : OrganizationalEntityOrContact :=
  ⟨x.organization.map OrganizationalEntity.canonical, x.individual⟩

/-- cyclonedx.go:995-1004 -/
def Licensing.canonical (x : Licensing) : Licensing :=
  ⟨x.altIDs.compact, x.licensor.map OrganizationalEntityOrContact.canonical, x.licensee.map OrganizationalEntityOrContact.canonical, x.purchaser.map OrganizationalEntityOrContact.canonical, x.purchaseOrder, x.licenseTypes.compact, x.lastRenewal, x.expiration⟩

/-- cyclonedx.go:936-945 -/
def License.canonical (x : License) : License :=
  ⟨x.bomRef, x.id, x.name, x.acknowledgement, x.text, x.url, x.licensing.map Licensing.canonical, x.properties.compact⟩

/-- cyclonedx.go:956-964 -/
def LicenseChoice.canonical (x : LicenseChoice) : LicenseChoice :=
  ⟨x.license.map License.canonical, x.expression, x.expressionDetails.compact, x.acknowledgement, x.bomRef, x.licensing.map Licensing.canonical, x.properties.compact⟩

/-- cyclonedx.go:672-678 -/
def Evidence.canonical (x : Evidence) : Evidence :=
  ⟨x.identity.bind EvidenceIdentityChoice.canonicalOpt, x.occurrences.compact, x.callstack.map Callstack.canonical, x.licenses.compactWith LicenseChoice.canonical, x.copyright.compact⟩

/-- cyclonedx.go:740-746 -/
def ExternalReference.canonical (x : ExternalReference) : ExternalReference :=
  ⟨x.url, x.comment, x.hashes.compact, x.type, x.properties.compact⟩

/-- cyclonedx.go:916-923 -/
def JSFSigner.canonical (x : JSFSigner) : JSFSigner :=
  ⟨x.algorithm, x.keyID, x.publicKey, x.certificatePath.compact, x.excludes.compact, x.value⟩

/-- cyclonedx.go:909-914 -/
def JSFSignature.canonical (x : JSFSignature) : JSFSignature :=
  ⟨none, x.signers.compactWith JSFSigner.canonical, x.chain.compactWith JSFSigner.canonical⟩

/-- cyclonedx.go:1136-1143 -/
def MLModelEnergyProvider.canonical (x : MLModelEnergyProvider) : MLModelEnergyProvider :=
  ⟨x.bomRef, x.description, x.organization.map OrganizationalEntity.canonical, x.energySource, x.energyProvided, x.externalReferences.compactWith ExternalReference.canonical⟩

/-- cyclonedx.go:1108-1115 -/
def MLModelEnergyConsumption.canonical (x : MLModelEnergyConsumption) : MLModelEnergyConsumption :=
  ⟨x.activity, x.energyProviders.compactWith MLModelEnergyProvider.canonical, x.activityEnergyCost, x.co2CostEquivalent, x.co2CostOffset, x.properties.compact⟩

/-- cyclonedx.go:1082-1085 -/
def MLModelCardEnvironmentalConsiderations.canonical (x : MLModelCardEnvironmentalConsiderations) : MLModelCardEnvironmentalConsiderations :=
  ⟨x.energyConsumptions.compactWith MLModelEnergyConsumption.canonical, x.properties.compact⟩

/-- cyclonedx.go:1072-1080 -/
def MLModelCardConsiderations.canonical (x : MLModelCardConsiderations) : MLModelCardConsiderations :=
  ⟨x.users.compact, x.useCases.compact, x.technicalLimitations.compact, x.performanceTradeoffs.compact, x.ethicalConsiderations.compact, x.environmentalConsiderations.map MLModelCardEnvironmentalConsiderations.canonical, x.fairnessAssessments.compact⟩

/-- The reference wins over the component data; component data without content are as good as none. -/
def MLDatasetChoice.canonical (x : MLDatasetChoice) : MLDatasetChoice :=
  if x.ref ≠ "" then { ref := x.ref }
  else match x.componentData with
    | some d =>
      let d := d.canonical
      if d.bomRef = "" ∧ d.type = "" ∧ d.name = "" ∧ d.contents.isNone ∧ d.classification = "" ∧
        d.sensitiveData.isNil ∧ d.graphics.isNone ∧ d.description = "" ∧ d.governance.isNone then {}
      else { componentData := some d }
    | none => {}

/-- cyclonedx.go:1165-1173 -/
def MLModelParameters.canonical (x : MLModelParameters) : MLModelParameters :=
  ⟨x.approach, x.task, x.architectureFamily, x.modelArchitecture, x.datasets.compactWith MLDatasetChoice.canonical, x.inputs.compact, x.outputs.compact⟩

/-- cyclonedx.go:1189-1192 -/
def MLQuantitativeAnalysis.canonical (x : MLQuantitativeAnalysis) : MLQuantitativeAnalysis :=
  ⟨x.performanceMetrics.compact, x.graphics.map ComponentDataGraphics.canonical⟩

/-- cyclonedx.go:1065-1070 -/
def MLModelCard.canonical (x : MLModelCard) : MLModelCard :=
  ⟨x.bomRef, x.modelParameters.map MLModelParameters.canonical, x.quantitativeAnalysis.map MLQuantitativeAnalysis.canonical, x.considerations.map MLModelCardConsiderations.canonical⟩

/-- cyclonedx.go:892-899 -/
def Issue.canonical (x : Issue) : Issue :=
  ⟨x.id, x.name, x.description, x.source, x.references.compact, x.type⟩

/-- cyclonedx.go:1237-1241 -/
def Patch.canonical (x : Patch) : Patch :=
  ⟨x.diff, x.resolves.compactWith Issue.canonical, x.type⟩

/-- cyclonedx.go:1323-1335 -/
def ReleaseNotes.canonical (x : ReleaseNotes) : ReleaseNotes :=
  ⟨x.type, x.title, x.featuredImage, x.socialImage, x.description, x.timestamp, x.aliases.compact, x.tags.compact, x.resolves.compactWith Issue.canonical, x.notes.compact, x.properties.compact⟩

/-- The organization wins over the individual, the individual over the reference. -/
def AsserterChoice.canonical (x : AsserterChoice) : AsserterChoice :=
  match x.organization, x.individual, x.bomRef with
  | some o, _, _ => { organization := some o.canonical }
  | none, some i, _ => { individual := some i }
  | none, none, some r => { bomRef := some r }
  | none, none, none => {}

/-- cyclonedx.go:1779-1785 -/
def PatentAssertion.canonical (x : PatentAssertion) : PatentAssertion :=
  ⟨x.bomRef, x.patentRefs.compact, x.assertionType, x.asserter.map AsserterChoice.canonical, x.notes⟩

mutual
/-- cyclonedx.go:239-276 -/
def Component.canonical : Component → Component
  | .mk bomRef mimeType type supplier manufacturer author authors publisher group name version description scope hashes licenses copyright cpe packageURL omniborID swhid swid modified pedigree externalReferences properties components evidence releaseNotes modelCard data cryptoProperties tags isExternal patentAssertions versionRange signature =>
    .mk (bomRef) (mimeType) (type) (supplier.map OrganizationalEntity.canonical) (manufacturer.map OrganizationalEntity.canonical) (author) (authors.compact) (publisher) (group) (name) (version) (description) (scope) (hashes.compact) (licenses.compactWith LicenseChoice.canonical) (copyright) (cpe) (packageURL) (omniborID.compact) (swhid.compact) (swid) (modified) (canonicalPedigreeOpt pedigree) (externalReferences.compactWith ExternalReference.canonical) (properties.compact) (canonicalComponents components) (evidence.map Evidence.canonical) (releaseNotes.map ReleaseNotes.canonical) (modelCard.map MLModelCard.canonical) (data.compactWith ComponentData.canonical) (cryptoProperties.map CryptoProperties.canonical) (tags.compact) (isExternal) (patentAssertions.compactWith PatentAssertion.canonical) (versionRange) (signature.map JSFSignature.canonical)
/-- A list of components. -/
def canonicalComponents : PSlice Component → PSlice Component
  | .list xs => .list (canonicalComponentList xs)
  | _ => .nil
/-- The elements of a list of components. -/
def canonicalComponentList : List Component → List Component
  | [] => []
  | c :: cs => c.canonical :: canonicalComponentList cs
/-- `*Pedigree` -/
def canonicalPedigreeOpt : Option (Pedigree Component) → Option (Pedigree Component)
  | none => none
  | some p => some (canonicalPedigree p)
/-- cyclonedx.go:1252-1259 -/
def canonicalPedigree : Pedigree Component → Pedigree Component
  | .mk ancestors descendants variants commits patches notes =>
    .mk (canonicalComponents ancestors) (canonicalComponents descendants) (canonicalComponents variants) (commits.compact) (patches.compactWith Patch.canonical) (notes)
end

/-- cyclonedx.go:551-559 -/
def DataClassification.canonical (x : DataClassification) : DataClassification :=
  ⟨x.flow, x.classification, x.name, x.description, x.governance.map DataGovernance.canonical, x.source.compact, x.destination.compact⟩

mutual
/-- cyclonedx.go:1362-1382 -/
def Service.canonical : Service → Service
  | .mk bomRef provider group name version description endpoints authenticated crossesTrustBoundary data licenses externalReferences properties services releaseNotes tags trustZone patentAssertions signature =>
    .mk (bomRef) (provider.map OrganizationalEntity.canonical) (group) (name) (version) (description) (endpoints.compact) (authenticated) (crossesTrustBoundary) (data.compactWith DataClassification.canonical) (licenses.compactWith LicenseChoice.canonical) (externalReferences.compactWith ExternalReference.canonical) (properties.compact) (canonicalServices services) (releaseNotes.map ReleaseNotes.canonical) (tags.compact) (trustZone) (patentAssertions.compactWith PatentAssertion.canonical) (signature.map JSFSignature.canonical)
/-- A list of services. -/
def canonicalServices : PSlice Service → PSlice Service
  | .list xs => .list (canonicalServiceList xs)
  | _ => .nil
/-- The elements of a list of services. -/
def canonicalServiceList : List Service → List Service
  | [] => []
  | c :: cs => c.canonical :: canonicalServiceList cs
end

/-- cyclonedx.go:60-65 -/
def Annotator.canonical (x : Annotator) : Annotator :=
  ⟨x.organization.map OrganizationalEntity.canonical, x.individual, x.component.map Component.canonical, x.service.map Service.canonical⟩

/-- cyclonedx.go:51-58 -/
def Annotation.canonical (x : Annotation) : Annotation :=
  ⟨x.bomRef, x.subjects.compact, x.annotator.map Annotator.canonical, x.timestamp, x.text, x.signature.map JSFSignature.canonical⟩

/-- cyclonedx.go:67-71 -/
def Assessor.canonical (x : Assessor) : Assessor :=
  ⟨x.bomRef, x.thirdParty, x.organization.map OrganizationalEntity.canonical⟩

/-- cyclonedx.go:94-98 -/
def AttestationConformance.canonical (x : AttestationConformance) : AttestationConformance :=
  ⟨x.score, x.rationale, x.mitigationStrategies.compact⟩

/-- cyclonedx.go:86-92 -/
def AttestationMap.canonical (x : AttestationMap) : AttestationMap :=
  ⟨x.requirement, x.claims.compact, x.counterClaims.compact, x.conformance.map AttestationConformance.canonical, x.confidence⟩

/-- cyclonedx.go:79-84 -/
def Attestation.canonical (x : Attestation) : Attestation :=
  ⟨x.summary, x.assessor, x.map.compactWith AttestationMap.canonical, x.signature.map JSFSignature.canonical⟩

/-- cyclonedx.go:321-328 -/
def Composition.canonical (x : Composition) : Composition :=
  ⟨x.bomRef, x.aggregate, x.assemblies.compact, x.dependencies.compact, x.vulnerabilities.compact, x.signature.map JSFSignature.canonical⟩

/-- cyclonedx.go:193-203 -/
def Claim.canonical (x : Claim) : Claim :=
  ⟨x.bomRef, x.target, x.predicate, x.mitigationStrategies.compact, x.reasoning, x.evidence.compact, x.counterEvidence.compact, x.externalReferences.compactWith ExternalReference.canonical, x.signature.map JSFSignature.canonical⟩

/-- cyclonedx.go:611-617 -/
def EvidenceData.canonical (x : EvidenceData) : EvidenceData :=
  ⟨x.name, x.contents, x.classification.map DataClassification.canonical, x.sensitiveData.compact, x.governance.map DataGovernance.canonical⟩

/-- cyclonedx.go:586-596 -/
def DeclarationEvidence.canonical (x : DeclarationEvidence) : DeclarationEvidence :=
  ⟨x.bomRef, x.propertyName, x.description, x.data.compactWith EvidenceData.canonical, x.created, x.expires, x.author, x.reviewer, x.signature.map JSFSignature.canonical⟩

/-- cyclonedx.go:624-628 -/
def Targets.canonical (x : Targets) : Targets :=
  ⟨x.organizations.compactWith OrganizationalEntity.canonical, x.components.compactWith Component.canonical, x.services.compactWith Service.canonical⟩

/-- cyclonedx.go:636-642 -/
def Signatory.canonical (x : Signatory) : Signatory :=
  ⟨x.name, x.role, x.signature.map JSFSignature.canonical, x.organization.map OrganizationalEntity.canonical, x.externalReference.map ExternalReference.canonical⟩

/-- cyclonedx.go:630-634 -/
def Affirmation.canonical (x : Affirmation) : Affirmation :=
  ⟨x.statement, x.signatories.compactWith Signatory.canonical, x.signature.map JSFSignature.canonical⟩

/-- cyclonedx.go:576-584 -/
def Declarations.canonical (x : Declarations) : Declarations :=
  ⟨x.assessors.compactWith Assessor.canonical, x.attestations.compactWith Attestation.canonical, x.claims.compactWith Claim.canonical, x.evidence.compactWith DeclarationEvidence.canonical, x.targets.map Targets.canonical, x.affirmation.map Affirmation.canonical, x.signature.map JSFSignature.canonical⟩

/-- cyclonedx.go:1743-1758 -/
def Patent.canonical (x : Patent) : Patent :=
  ⟨x.bomRef, x.patentNumber, x.applicationNumber, x.jurisdiction, x.priorityApplication, x.publicationNumber, x.title, x.abstract, x.filingDate, x.grantDate, x.patentExpirationDate, x.patentLegalStatus, x.patentAssignee.compactWith OrganizationalEntityOrContact.canonical, x.externalReferences.compactWith ExternalReference.canonical⟩

/-- cyclonedx.go:1761-1767 -/
def PatentFamily.canonical (x : PatentFamily) : PatentFamily :=
  ⟨x.bomRef, x.familyID, x.priorityApplication, x.members.compact, x.externalReferences.compactWith ExternalReference.canonical⟩

/-- The patent wins over the family; nothing becomes an empty patent. -/
def PatentChoice.canonical (x : PatentChoice) : PatentChoice :=
  match x.patent, x.patentFamily with
  | some p, _ => { patent := some p.canonical }
  | none, some q => { patentFamily := some q.canonical }
  | none, none => { patent := some {} }

/-- cyclonedx.go:1429-1439 -/
def StandardRequirement.canonical (x : StandardRequirement) : StandardRequirement :=
  ⟨x.bomRef, x.identifier, x.title, x.text, x.descriptions.compact, x.openCRE.compact, x.parent, x.properties.compact, x.externalReferences.compactWith ExternalReference.canonical⟩

/-- cyclonedx.go:1441-1447 -/
def StandardLevel.canonical (x : StandardLevel) : StandardLevel :=
  ⟨x.bomRef, x.identifier, x.title, x.description, x.requirements.compact⟩

/-- cyclonedx.go:1416-1427 -/
def StandardDefinition.canonical (x : StandardDefinition) : StandardDefinition :=
  ⟨x.bomRef, x.name, x.version, x.description, x.owner, x.requirements.compactWith StandardRequirement.canonical, x.levels.compactWith StandardLevel.canonical, x.externalReferences.compactWith ExternalReference.canonical, x.signature.map JSFSignature.canonical⟩

/-- cyclonedx.go:598-601 -/
def Definitions.canonical (x : Definitions) : Definitions :=
  ⟨x.standards.compactWith StandardDefinition.canonical, x.patents.compactWith PatentChoice.canonical⟩

/-- cyclonedx.go:644-648 -/
def Dependency.canonical (x : Dependency) : Dependency :=
  ⟨x.ref, x.dependencies.compact, x.provides.compact⟩

/-- cyclonedx.go:1337-1340 -/
def ResourceReferenceChoice.canonical (x : ResourceReferenceChoice) : ResourceReferenceChoice :=
  ⟨x.ref, x.externalReference.map ExternalReference.canonical⟩

/-- The property wins over the string, unless it is empty. -/
def EnvironmentVariableChoice.canonical (x : EnvironmentVariableChoice) : EnvironmentVariableChoice :=
  match x.property with
  | some p => if p.name = "" ∧ p.value = "" then { value := x.value } else { property := some p }
  | none => { value := x.value }

/-- cyclonedx.go:1482-1490 -/
def TaskInput.canonical (x : TaskInput) : TaskInput :=
  ⟨x.resource.map ResourceReferenceChoice.canonical, x.parameters.compact, x.environmentVars.compactWith EnvironmentVariableChoice.canonical, x.data, x.source.map ResourceReferenceChoice.canonical, x.target.map ResourceReferenceChoice.canonical, x.properties.compact⟩

/-- cyclonedx.go:1492-1501 -/
def TaskOutput.canonical (x : TaskOutput) : TaskOutput :=
  ⟨x.resource.map ResourceReferenceChoice.canonical, x.parameters.compact, x.environmentVars.compactWith EnvironmentVariableChoice.canonical, x.data, x.type, x.source.map ResourceReferenceChoice.canonical, x.target.map ResourceReferenceChoice.canonical, x.properties.compact⟩

/-- cyclonedx.go:1477-1480 -/
def TaskCommand.canonical (x : TaskCommand) : TaskCommand :=
  ⟨x.executed, x.properties.compact⟩

/-- cyclonedx.go:1514-1519 -/
def TaskStep.canonical (x : TaskStep) : TaskStep :=
  ⟨x.name, x.description, x.commands.compactWith TaskCommand.canonical, x.properties.compact⟩

/-- cyclonedx.go:662-670 -/
def Event.canonical (x : Event) : Event :=
  ⟨x.uid, x.description, x.timeReceived, x.data, x.source.map ResourceReferenceChoice.canonical, x.target.map ResourceReferenceChoice.canonical, x.properties.compact⟩

/-- cyclonedx.go:1536-1540 -/
def TaskTriggerCondition.canonical (x : TaskTriggerCondition) : TaskTriggerCondition :=
  ⟨x.description, x.expression, x.properties.compact⟩

/-- cyclonedx.go:1521-1534 -/
def TaskTrigger.canonical (x : TaskTrigger) : TaskTrigger :=
  ⟨x.bomRef, x.uid, x.name, x.description, x.resourceReferences.compactWith ResourceReferenceChoice.canonical, x.type, x.event.map Event.canonical, x.conditions.compactWith TaskTriggerCondition.canonical, x.timeActivated, x.inputs.compactWith TaskInput.canonical, x.outputs.compactWith TaskOutput.canonical, x.properties.compact⟩

/-- cyclonedx.go:1616-1625 -/
def Volume.canonical (x : Volume) : Volume :=
  ⟨x.uid, x.name, x.mode, x.path, x.sizeAllocated, x.persistent, x.remote, x.properties.compact⟩

/-- cyclonedx.go:1568-1581 -/
def TaskWorkspace.canonical (x : TaskWorkspace) : TaskWorkspace :=
  ⟨x.bomRef, x.uid, x.name, x.aliases.compact, x.description, x.resourceReferences.compactWith ResourceReferenceChoice.canonical, x.accessMode, x.mountPath, x.managedDataType, x.volumeRequest, x.volume.map Volume.canonical, x.properties.compact⟩

/-- cyclonedx.go:1459-1475 -/
def Task.canonical (x : Task) : Task :=
  ⟨x.bomRef, x.uid, x.name, x.description, x.properties.compact, x.resourceReferences.compactWith ResourceReferenceChoice.canonical, x.taskTypes.compact, x.trigger.map TaskTrigger.canonical, x.steps.compactWith TaskStep.canonical, x.inputs.compactWith TaskInput.canonical, x.outputs.compactWith TaskOutput.canonical, x.timeStart, x.timeEnd, x.workspaces.compactWith TaskWorkspace.canonical, x.runtimeTopology.compactWith Dependency.canonical⟩

/-- cyclonedx.go:1689-1707 -/
def Workflow.canonical (x : Workflow) : Workflow :=
  ⟨x.bomRef, x.uid, x.name, x.description, x.resourceReferences.compactWith ResourceReferenceChoice.canonical, x.tasks.compactWith Task.canonical, x.taskDependencies.compactWith Dependency.canonical, x.taskTypes.compact, x.trigger.map TaskTrigger.canonical, x.steps.compactWith TaskStep.canonical, x.inputs.compactWith TaskInput.canonical, x.outputs.compactWith TaskOutput.canonical, x.timeStart, x.timeEnd, x.workspaces.compactWith TaskWorkspace.canonical, x.runtimeTopology.compactWith Dependency.canonical, x.properties.compact⟩

/-- cyclonedx.go:800-806 -/
def Formula.canonical (x : Formula) : Formula :=
  ⟨x.bomRef, x.components.compactWith Component.canonical, x.services.compactWith Service.canonical, x.workflows.compactWith Workflow.canonical, x.properties.compact⟩

/-- cyclonedx.go:1594-1600 -/
def Tool.canonical (x : Tool) : Tool :=
  ⟨x.vendor, x.name, x.version, x.hashes.compact, x.externalReferences.compactWith ExternalReference.canonical⟩

/-- The legacy list wins over the lists of components and services. -/
def ToolsChoice.canonical (x : ToolsChoice) : ToolsChoice :=
  match x.tools with
  | .nil => { components := x.components.compactWith Component.canonical,
              services := x.services.compactWith Service.canonical }
  | t => { tools := t.compactWith Tool.canonical }

/-- A choice that consists of a legacy list which is a nil slice is written as `null`. -/
def ToolsChoice.canonicalOpt (x : ToolsChoice) : Option ToolsChoice :=
  match x.tools with
  | .nilSlice => none
  | _ => some x.canonical

/-- cyclonedx.go:1042-1054 -/
def Metadata.canonical (x : Metadata) : Metadata :=
  ⟨x.timestamp, x.lifecycles.compact, x.tools.bind ToolsChoice.canonicalOpt, x.authors.compact, x.component.map Component.canonical, x.manufacture.map OrganizationalEntity.canonical, x.manufacturer.map OrganizationalEntity.canonical, x.supplier.map OrganizationalEntity.canonical, x.licenses.compactWith LicenseChoice.canonical, x.properties.compact, x.distributionConstraints⟩

/-- cyclonedx.go:349-352 -/
def Credits.canonical (x : Credits) : Credits :=
  ⟨x.organizations.compactWith OrganizationalEntity.canonical, x.individuals.compact⟩

/-- cyclonedx.go:1271-1275 -/
def ProofOfConcept.canonical (x : ProofOfConcept) : ProofOfConcept :=
  ⟨x.reproductionSteps, x.environment, x.supportingMaterial.compact⟩

/-- cyclonedx.go:1658-1665 -/
def VulnerabilityAnalysis.canonical (x : VulnerabilityAnalysis) : VulnerabilityAnalysis :=
  ⟨x.state, x.justification, x.response.compact, x.detail, x.firstIssued, x.lastUpdated⟩

/-- cyclonedx.go:1634-1656 -/
def Vulnerability.canonical (x : Vulnerability) : Vulnerability :=
  ⟨x.bomRef, x.id, x.source, x.references.compact, x.ratings.compact, x.cwes.compact, x.description, x.detail, x.recommendation, x.workaround, x.proofOfConcept.map ProofOfConcept.canonical, x.advisories.compact, x.created, x.published, x.updated, x.rejected, x.credits.map Credits.canonical, x.tools.bind ToolsChoice.canonicalOpt, x.analysis.map VulnerabilityAnalysis.canonical, x.affects.compactWith Affects.canonical, x.properties.compact⟩

/-- cyclonedx.go:1712-1721 -/
def Citation.canonical (x : Citation) : Citation :=
  ⟨x.bomRef, x.pointers.compact, x.expressions.compact, x.timestamp, x.attributedTo, x.process, x.note, x.signature.map JSFSignature.canonical⟩

/-- cyclonedx.go:105-131 -/
def BOM.canonical (x : BOM) : BOM :=
  ⟨{}, "", x.jsonSchema, x.bomFormat, x.specVersion, x.serialNumber, x.version, x.metadata.map Metadata.canonical, x.components.compactWith Component.canonical, x.services.compactWith Service.canonical, x.externalReferences.compactWith ExternalReference.canonical, x.dependencies.compactWith Dependency.canonical, x.compositions.compactWith Composition.canonical, x.properties.compact, x.vulnerabilities.compactWith Vulnerability.canonical, x.annotations.compactWith Annotation.canonical, x.formulation.compactWith Formula.canonical, x.declarations.map Declarations.canonical, x.definitions.map Definitions.canonical, x.citations.compactWith Citation.canonical, x.signature.map JSFSignature.canonical⟩

/-- A predefined state is not the empty string (cyclonedx.go:1874-1877). -/
def CertificateState.Regular (x : CertificateState) : Prop := ∀ p ∈ x.predefined, p.state ≠ ""

/-- A common extension has a name (cyclonedx.go:1907-1910). -/
def CertificateExtension.Regular (x : CertificateExtension) : Prop := ∀ p ∈ x.common, p.name ≠ ""

/-- cyclonedx.go:171-191 -/
def CertificateProperties.Regular (x : CertificateProperties) : Prop :=
  (∀ y ∈ x.certificateState.elems, CertificateState.Regular y) ∧
  (∀ y ∈ x.certificateExtensions.elems, CertificateExtension.Regular y)

/-- cyclonedx.go:368-382 -/
def CryptoAlgorithmProperties.Regular (x : CryptoAlgorithmProperties) : Prop :=
  (∀ y ∈ x.classicalSecurityLevel, InInt64 y) ∧
  (∀ y ∈ x.nistQuantumSecurityLevel, InInt64 y)

/-- cyclonedx.go:1834-1839 -/
def IKEv2Enc.Regular (x : IKEv2Enc) : Prop :=
  (∀ y ∈ x.keyLength, InInt64 y)

/-- cyclonedx.go:1851-1855 -/
def IKEv2Ke.Regular (x : IKEv2Ke) : Prop :=
  (∀ y ∈ x.group, InInt64 y)

/-- cyclonedx.go:537-544 -/
def IKEv2TransformTypes.Regular (x : IKEv2TransformTypes) : Prop :=
  (∀ y ∈ x.encr.elems, IKEv2Enc.Regular y) ∧
  (∀ y ∈ x.ke.elems, IKEv2Ke.Regular y)

/-- cyclonedx.go:509-516 -/
def CryptoProtocolProperties.Regular (x : CryptoProtocolProperties) : Prop :=
  (∀ y ∈ x.ikev2TransformTypes, IKEv2TransformTypes.Regular y)

/-- cyclonedx.go:1282-1297 -/
def RelatedCryptoMaterialProperties.Regular (x : RelatedCryptoMaterialProperties) : Prop :=
  (∀ y ∈ x.size, InInt64 y)

/-- cyclonedx.go:500-507 -/
def CryptoProperties.Regular (x : CryptoProperties) : Prop :=
  (∀ y ∈ x.algorithmProperties, CryptoAlgorithmProperties.Regular y) ∧
  (∀ y ∈ x.certificateProperties, CertificateProperties.Regular y) ∧
  (∀ y ∈ x.relatedCryptoMaterialProperties, RelatedCryptoMaterialProperties.Regular y) ∧
  (∀ y ∈ x.protocolProperties, CryptoProtocolProperties.Regular y)

/-- cyclonedx.go:161-169 -/
def CallstackFrame.Regular (x : CallstackFrame) : Prop :=
  (∀ y ∈ x.line, InInt64 y) ∧
  (∀ y ∈ x.column, InInt64 y)

/-- cyclonedx.go:157-159 -/
def Callstack.Regular (x : Callstack) : Prop :=
  (∀ y ∈ x.frames.elems, CallstackFrame.Regular y)

/-- cyclonedx.go:731-738 -/
def EvidenceOccurrence.Regular (x : EvidenceOccurrence) : Prop :=
  (∀ y ∈ x.line, InInt64 y) ∧
  (∀ y ∈ x.offset, InInt64 y)

/-- cyclonedx.go:672-678 -/
def Evidence.Regular (x : Evidence) : Prop :=
  (∀ y ∈ x.occurrences.elems, EvidenceOccurrence.Regular y) ∧
  (∀ y ∈ x.callstack, Callstack.Regular y)

/-- cyclonedx.go:1449-1457 -/
def SWID.Regular (x : SWID) : Prop :=
  (∀ y ∈ x.tagVersion, InInt64 y)

mutual
/-- cyclonedx.go:239-276 -/
def Component.Regular : Component → Prop
  | .mk _ _ _ _ _ _ _ _ _ _ _ _ _ _ _ _ _ _ _ _ swid _ pedigree _ _ components evidence _ _ _ cryptoProperties _ _ _ _ _ =>
    (∀ y ∈ swid, SWID.Regular y) ∧
    RegularPedigreeOpt pedigree ∧
    RegularComponents components ∧
    (∀ y ∈ evidence, Evidence.Regular y) ∧
    (∀ y ∈ cryptoProperties, CryptoProperties.Regular y)
/-- A list of components. -/
def RegularComponents : PSlice Component → Prop
  | .list xs => RegularComponentList xs
  | _ => True
/-- The elements of a list of components. -/
def RegularComponentList : List Component → Prop
  | [] => True
  | c :: cs => c.Regular ∧ RegularComponentList cs
/-- `*Pedigree` -/
def RegularPedigreeOpt : Option (Pedigree Component) → Prop
  | none => True
  | some p => RegularPedigree p
/-- cyclonedx.go:1252-1259 -/
def RegularPedigree : Pedigree Component → Prop
  | .mk ancestors descendants variants _ _ _ =>
    RegularComponents ancestors ∧
    RegularComponents descendants ∧
    RegularComponents variants
end

mutual
/-- cyclonedx.go:1362-1382 -/
def Service.Regular : Service → Prop
  | .mk _ _ _ _ _ _ _ _ _ _ _ _ _ services _ _ _ _ _ =>
    RegularServices services
/-- A list of services. -/
def RegularServices : PSlice Service → Prop
  | .list xs => RegularServiceList xs
  | _ => True
/-- The elements of a list of services. -/
def RegularServiceList : List Service → Prop
  | [] => True
  | c :: cs => c.Regular ∧ RegularServiceList cs
end

/-- cyclonedx.go:60-65 -/
def Annotator.Regular (x : Annotator) : Prop :=
  (∀ y ∈ x.component, Component.Regular y) ∧
  (∀ y ∈ x.service, Service.Regular y)

/-- cyclonedx.go:51-58 -/
def Annotation.Regular (x : Annotation) : Prop :=
  (∀ y ∈ x.annotator, Annotator.Regular y)

/-- cyclonedx.go:624-628 -/
def Targets.Regular (x : Targets) : Prop :=
  (∀ y ∈ x.components.elems, Component.Regular y) ∧
  (∀ y ∈ x.services.elems, Service.Regular y)

/-- cyclonedx.go:576-584 -/
def Declarations.Regular (x : Declarations) : Prop :=
  (∀ y ∈ x.targets, Targets.Regular y)

/-- A patent family has an identifier (cyclonedx.go:606-609). -/
def PatentChoice.Regular (x : PatentChoice) : Prop := ∀ q ∈ x.patentFamily, q.familyID ≠ ""

/-- cyclonedx.go:598-601 -/
def Definitions.Regular (x : Definitions) : Prop :=
  (∀ y ∈ x.patents.elems, PatentChoice.Regular y)

/-- cyclonedx.go:800-806 -/
def Formula.Regular (x : Formula) : Prop :=
  (∀ y ∈ x.components.elems, Component.Regular y) ∧
  (∀ y ∈ x.services.elems, Service.Regular y)

/-- cyclonedx.go:1610-1614 -/
def ToolsChoice.Regular (x : ToolsChoice) : Prop :=
  (∀ y ∈ x.components.elems, Component.Regular y) ∧
  (∀ y ∈ x.services.elems, Service.Regular y)

/-- cyclonedx.go:1042-1054 -/
def Metadata.Regular (x : Metadata) : Prop :=
  (∀ y ∈ x.tools, ToolsChoice.Regular y) ∧
  (∀ y ∈ x.component, Component.Regular y)

/-- cyclonedx.go:1634-1656 -/
def Vulnerability.Regular (x : Vulnerability) : Prop :=
  (∀ y ∈ x.cwes.elems, InInt64 y) ∧
  (∀ y ∈ x.tools, ToolsChoice.Regular y)

/-- cyclonedx.go:105-131 -/
def BOM.Regular (x : BOM) : Prop :=
  InInt64 x.version ∧
  (∀ y ∈ x.metadata, Metadata.Regular y) ∧
  (∀ y ∈ x.components.elems, Component.Regular y) ∧
  (∀ y ∈ x.services.elems, Service.Regular y) ∧
  (∀ y ∈ x.vulnerabilities.elems, Vulnerability.Regular y) ∧
  (∀ y ∈ x.annotations.elems, Annotation.Regular y) ∧
  (∀ y ∈ x.formulation.elems, Formula.Regular y) ∧
  (∀ y ∈ x.declarations, Declarations.Regular y) ∧
  (∀ y ∈ x.definitions, Definitions.Regular y)

end Verif
