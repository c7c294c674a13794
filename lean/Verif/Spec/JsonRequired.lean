import Verif.Model.Types
import Verif.Spec.JsonSchema

/-!
# The members that the JSON schemas require

GENERATED by `tools/gen_jrequired.py` from the `required` lists of the JSON schemas in `/repo/schema` and the struct
declarations of `/repo/cyclonedx.go`; do not edit by hand.

`Place.Needs v has p`: an object at the place `p` that has the members for which `has` holds has those that the schema of
version `v` requires (`required`, and the alternatives of `oneOf` and `anyOf` that differ in what they require).
`HasRequired v s j`: every object in `j`, at any depth, has what is required at its place.  It says nothing about the
kinds of values (`Verif.Spec.JsonSchema` does), and leaves out negative requirements (`not`, that only one of several
alternatives is there) and conditional ones (`if`/`then`).  For the versions that do not declare a place at all the
requirements are those of the first version that does.

`T.Complete v x` says that `x` has what is required, at any depth.  It is stated on the values: a member that is always
written needs no condition, one that is left out when it is empty must not be empty.  Types without conditions have no
`Complete`.  `Verif.Json.RequiredLaws` proves that it is exact.
-/

namespace Verif

/-- What is required of an object at a place, if `has` says which members it has. -/
def Place.Needs (v : Int) (has : String → Prop) : Place → Prop
  | .bom => has "bomFormat" ∧ has "specVersion" ∧ (v ≤ SpecVersion1_5 → has "version")
  | .component => has "type" ∧ has "name" ∧ (v ≤ SpecVersion1_3 → has "version")
  | .service => has "name"
  | .externalReference => has "url" ∧ has "type"
  | .dependency => has "ref"
  | .compositions => has "aggregate"
  | .annotations => has "subjects" ∧ has "annotator" ∧ has "timestamp" ∧ has "text"
  | .citation => has "timestamp" ∧ (has "expressions" ∨ has "pointers") ∧ (has "attributedTo" ∨ has "process")
  | .property => (SpecVersion1_6 ≤ v → has "name")
  | .metadataLifecycles => (has "name" ∨ has "phase")
  | .licenseChoice => (has "expression" ∨ has "license")
  | .hash => has "alg" ∧ has "content"
  | .patentAssertion => has "assertionType" ∧ has "asserter"
  | .swid => has "tagId" ∧ has "name"
  | .releaseNotes => has "type"
  | .componentData => has "type"
  | .cryptoProperties => has "assetType"
  | .serviceData => has "flow" ∧ has "classification"
  | .vulnerabilityReferences => has "id" ∧ has "source"
  | .advisory => has "url"
  | .vulnerabilityAffects => has "ref"
  | .annotationsAnnotator => (has "component" ∨ has "individual" ∨ has "organization" ∨ has "service")
  | .workflow => has "bom-ref" ∧ has "uid" ∧ has "taskTypes"
  | .patentOrFamily => ((has "patentNumber" ∧ has "jurisdiction" ∧ has "patentLegalStatus") ∨ has "familyId")
  | .signer => has "algorithm" ∧ has "value"
  | .publicKey => has "kty"
  | .license => (has "id" ∨ has "name")
  | .expressionDetail => has "licenseIdentifier"
  | .attachment => has "content"
  | .patch => has "type"
  | .componentIdentityEvidence => has "field"
  | .componentEvidenceOccurrences => has "location"
  | .copyright => has "text"
  | .issue => has "type"
  | .note => has "text"
  | .affectedVersions => (has "range" ∨ has "version")
  | .resourceReferenceChoice => (has "externalReference" ∨ has "ref")
  | .task => has "bom-ref" ∧ has "uid" ∧ has "taskTypes"
  | .trigger => has "type" ∧ has "bom-ref" ∧ has "uid"
  | .inputType => (has "data" ∨ has "environmentVars" ∨ has "parameters" ∨ has "resource")
  | .outputType => (has "data" ∨ has "environmentVars" ∨ has "resource")
  | .workspace => has "bom-ref" ∧ has "uid"
  | .affirmationSignatories => ((has "externalReference" ∧ has "organization") ∨ has "signature")
  | .priorityApplication => has "applicationNumber" ∧ has "jurisdiction" ∧ has "filingDate"
  | .organizationOrIndividual => (has "individual" ∨ has "organization")
  | .componentIdentityEvidenceMethods => has "technique" ∧ has "confidence"
  | .componentEvidenceCallstackFrames => has "module"
  | .dataGovernanceResponsibleParty => (has "contact" ∨ has "organization")
  | .certificateState => (has "name" ∨ has "state")
  | .certificateExtension => ((has "commonExtensionName" ∧ has "commonExtensionValue") ∨ has "customExtensionName")
  | .energyConsumption => has "activity" ∧ has "energyProviders" ∧ has "activityEnergyCost"
  | .energyProvider => has "organization" ∧ has "energySource" ∧ has "energyProvided"
  | .energyMeasure => has "value" ∧ has "unit"
  | .co2Measure => has "value" ∧ has "unit"
  | _ => True

/-- Every object in the value has the required members, where `s` is declared for the value itself. -/
inductive HasRequired (v : Int) : Sch → Json → Prop
  | str (j : Json) : HasRequired v .str j
  | num (j : Json) : HasRequired v .num j
  | int (j : Json) : HasRequired v .int j
  | bool (j : Json) : HasRequired v .bool j
  | list {s : Sch} {js : List Json} (h : ∀ j ∈ js, HasRequired v s j) : HasRequired v (.list s) (.arr js)
  | noList {s : Sch} {j : Json} (h : ∀ js, j ≠ .arr js) : HasRequired v (.list s) j
  | place {p : Place} {ms : List (String × Json)} (needs : p.Needs v fun k => ∃ m ∈ ms, m.1 = k)
      (h : ∀ m ∈ ms, ∀ s, p.members.lookup m.1 = some s → HasRequired v s m.2) : HasRequired v (.place p) (.obj ms)
  | noPlace {p : Place} {j : Json} (h : ∀ ms, j ≠ .obj ms) : HasRequired v (.place p) j
  | alt {s t : Sch} {j : Json} (hs : HasRequired v s j) (ht : HasRequired v t j) : HasRequired v (.alt s t) j
  | since {n : Int} {s : Sch} {j : Json} (h : HasRequired v s j) : HasRequired v (.since n s) j

/-- A document has all members that the schema of version `v` requires. -/
def Json.Complete (v : Int) (j : Json) : Prop := HasRequired v (.place .bom) j

/-- cyclonedx.go:40-44 -/
def AffectedVersions.Complete (_v : Int) (x : AffectedVersions) : Prop :=
  (x.range ≠ "" ∨ x.version ≠ "")

/-- cyclonedx.go:46-49 -/
def Affects.Complete (v : Int) (x : Affects) : Prop :=
  (∀ y ∈ x.range.elems, AffectedVersions.Complete v y)

/-- cyclonedx.go:296-299 -/
def ComponentDataGovernanceResponsibleParty.Complete (_v : Int) (x : ComponentDataGovernanceResponsibleParty) : Prop :=
  (x.contact ≠ none ∨ x.organization ≠ none)

/-- cyclonedx.go:570-574 -/
def DataGovernance.Complete (v : Int) (x : DataGovernance) : Prop :=
  (∀ y ∈ x.custodians.elems, ComponentDataGovernanceResponsibleParty.Complete v y) ∧
  (∀ y ∈ x.stewards.elems, ComponentDataGovernanceResponsibleParty.Complete v y) ∧
  (∀ y ∈ x.owners.elems, ComponentDataGovernanceResponsibleParty.Complete v y)

/-- cyclonedx.go:278-288 -/
def ComponentData.Complete (v : Int) (x : ComponentData) : Prop :=
  x.type ≠ "" ∧
  (∀ y ∈ x.governance, DataGovernance.Complete v y)

/-- cyclonedx.go:278-288, at the place modelDataset of the schema -/
def ComponentData.CompleteModelDataset (v : Int) (x : ComponentData) : Prop :=
  (∀ y ∈ x.governance, DataGovernance.Complete v y)

/-- cyclonedx.go:1874-1877; one of the two forms. -/
def CertificateState.Complete (_v : Int) (x : CertificateState) : Prop :=
  x.predefined ≠ none ∨ x.custom ≠ none

/-- cyclonedx.go:1913-1916 -/
def CommonCertificateExtension.Complete (_v : Int) (x : CommonCertificateExtension) : Prop :=
  x.value ≠ ""

/-- cyclonedx.go:1907-1910; one of the two forms, and a common extension has a value. -/
def CertificateExtension.Complete (v : Int) (x : CertificateExtension) : Prop :=
  (x.common ≠ none ∨ x.custom ≠ none) ∧ ∀ y ∈ x.common, CommonCertificateExtension.Complete v y

/-- cyclonedx.go:171-191 -/
def CertificateProperties.Complete (v : Int) (x : CertificateProperties) : Prop :=
  (∀ y ∈ x.certificateState.elems, CertificateState.Complete v y) ∧
  (∀ y ∈ x.certificateExtensions.elems, CertificateExtension.Complete v y)

/-- cyclonedx.go:500-507 -/
def CryptoProperties.Complete (v : Int) (x : CryptoProperties) : Prop :=
  (∀ y ∈ x.certificateProperties, CertificateProperties.Complete v y)

/-- cyclonedx.go:161-169 -/
def CallstackFrame.Complete (_v : Int) (x : CallstackFrame) : Prop :=
  x.module ≠ ""

/-- cyclonedx.go:157-159 -/
def Callstack.Complete (v : Int) (x : Callstack) : Prop :=
  (∀ y ∈ x.frames.elems, CallstackFrame.Complete v y)

/-- cyclonedx.go:710-714 -/
def EvidenceIdentityMethod.Complete (_v : Int) (x : EvidenceIdentityMethod) : Prop :=
  x.technique ≠ "" ∧
  x.confidence ≠ none

/-- cyclonedx.go:688-694 -/
def EvidenceIdentity.Complete (v : Int) (x : EvidenceIdentity) : Prop :=
  x.field ≠ "" ∧
  (∀ y ∈ x.methods.elems, EvidenceIdentityMethod.Complete v y)

/-- cyclonedx.go:683-686; the identities, in either form. -/
def EvidenceIdentityChoice.Complete (v : Int) (x : EvidenceIdentityChoice) : Prop :=
  (∀ y ∈ x.identity, EvidenceIdentity.Complete v y) ∧ ∀ y ∈ x.identities.elems, EvidenceIdentity.Complete v y

/-- cyclonedx.go:731-738 -/
def EvidenceOccurrence.Complete (_v : Int) (x : EvidenceOccurrence) : Prop :=
  x.location ≠ ""

/-- cyclonedx.go:1226-1229 -/
def OrganizationalEntityOrContact.Complete (_v : Int) (x : OrganizationalEntityOrContact) : Prop :=
  (x.individual ≠ none ∨ x.organization ≠ none)

/-- cyclonedx.go:995-1004 -/
def Licensing.Complete (v : Int) (x : Licensing) : Prop :=
  (∀ y ∈ x.licensor, OrganizationalEntityOrContact.Complete v y) ∧
  (∀ y ∈ x.licensee, OrganizationalEntityOrContact.Complete v y) ∧
  (∀ y ∈ x.purchaser, OrganizationalEntityOrContact.Complete v y)

/-- cyclonedx.go:936-945 -/
def License.Complete (v : Int) (x : License) : Prop :=
  (x.id ≠ "" ∨ x.name ≠ "") ∧
  (∀ y ∈ x.licensing, Licensing.Complete v y)

/-- cyclonedx.go:956-964 -/
def LicenseChoice.Complete (v : Int) (x : LicenseChoice) : Prop :=
  (x.expression ≠ "" ∨ x.license ≠ none) ∧
  (∀ y ∈ x.license, License.Complete v y) ∧
  (∀ y ∈ x.licensing, Licensing.Complete v y)

/-- cyclonedx.go:672-678 -/
def Evidence.Complete (v : Int) (x : Evidence) : Prop :=
  (∀ y ∈ x.identity, EvidenceIdentityChoice.Complete v y) ∧
  (∀ y ∈ x.occurrences.elems, EvidenceOccurrence.Complete v y) ∧
  (∀ y ∈ x.callstack, Callstack.Complete v y) ∧
  (∀ y ∈ x.licenses.elems, LicenseChoice.Complete v y)

/-- cyclonedx.go:925-934 -/
def JSFPublicKey.Complete (_v : Int) (x : JSFPublicKey) : Prop :=
  x.kty ≠ ""

/-- cyclonedx.go:916-923 -/
def JSFSigner.Complete (v : Int) (x : JSFSigner) : Prop :=
  JSFPublicKey.Complete v x.publicKey

/-- cyclonedx.go:909-914 -/
def JSFSignature.Complete (v : Int) (x : JSFSignature) : Prop :=
  (∀ y ∈ x.signers.elems, JSFSigner.Complete v y) ∧
  (∀ y ∈ x.chain.elems, JSFSigner.Complete v y)

/-- cyclonedx.go:1056-1059; the reference hides the data. -/
def MLDatasetChoice.Complete (v : Int) (x : MLDatasetChoice) : Prop :=
  x.ref = "" → ∀ y ∈ x.componentData, ComponentData.CompleteModelDataset v y

/-- cyclonedx.go:1165-1173 -/
def MLModelParameters.Complete (v : Int) (x : MLModelParameters) : Prop :=
  (∀ y ∈ x.datasets.elems, MLDatasetChoice.Complete v y)

/-- cyclonedx.go:1065-1070 -/
def MLModelCard.Complete (v : Int) (x : MLModelCard) : Prop :=
  (∀ y ∈ x.modelParameters, MLModelParameters.Complete v y)

mutual
/-- cyclonedx.go:239-276 -/
def Component.Complete (v : Int) : Component → Prop
  | .mk _ _ _ _ _ _ _ _ _ _ version _ _ _ licenses _ _ _ _ _ _ _ pedigree _ _ components evidence _ modelCard data cryptoProperties _ _ _ _ signature =>
    (v ≤ SpecVersion1_3 → version ≠ "") ∧
    (∀ y ∈ licenses.elems, LicenseChoice.Complete v y) ∧
    CompletePedigreeOpt v pedigree ∧
    CompleteComponents v components ∧
    (∀ y ∈ evidence, Evidence.Complete v y) ∧
    (∀ y ∈ modelCard, MLModelCard.Complete v y) ∧
    (∀ y ∈ data.elems, ComponentData.Complete v y) ∧
    (∀ y ∈ cryptoProperties, CryptoProperties.Complete v y) ∧
    (∀ y ∈ signature, JSFSignature.Complete v y)
/-- A list of components, at any depth. -/
def CompleteComponents (v : Int) : PSlice Component → Prop
  | .nil => True
  | .nilSlice => True
  | .list xs => CompleteComponentList v xs
/-- A list of components, at any depth. -/
def CompleteComponentList (v : Int) : List Component → Prop
  | [] => True
  | c :: cs => c.Complete v ∧ CompleteComponentList v cs
/-- An optional pedigree. -/
def CompletePedigreeOpt (v : Int) : Option (Pedigree Component) → Prop
  | none => True
  | some p => CompletePedigree v p
/-- cyclonedx.go:1252-1259 -/
def CompletePedigree (v : Int) : Pedigree Component → Prop
  | .mk ancestors descendants variants _ _ _ =>
    CompleteComponents v ancestors ∧
    CompleteComponents v descendants ∧
    CompleteComponents v variants
end

/-- cyclonedx.go:551-559 -/
def DataClassification.Complete (v : Int) (x : DataClassification) : Prop :=
  (∀ y ∈ x.governance, DataGovernance.Complete v y)

mutual
/-- cyclonedx.go:1362-1382 -/
def Service.Complete (v : Int) : Service → Prop
  | .mk _ _ _ _ _ _ _ _ _ data licenses _ _ services _ _ _ _ signature =>
    (∀ y ∈ data.elems, DataClassification.Complete v y) ∧
    (∀ y ∈ licenses.elems, LicenseChoice.Complete v y) ∧
    CompleteServices v services ∧
    (∀ y ∈ signature, JSFSignature.Complete v y)
/-- A list of services, at any depth. -/
def CompleteServices (v : Int) : PSlice Service → Prop
  | .nil => True
  | .nilSlice => True
  | .list xs => CompleteServiceList v xs
/-- A list of services, at any depth. -/
def CompleteServiceList (v : Int) : List Service → Prop
  | [] => True
  | c :: cs => c.Complete v ∧ CompleteServiceList v cs
end

/-- cyclonedx.go:60-65 -/
def Annotator.Complete (v : Int) (x : Annotator) : Prop :=
  (x.component ≠ none ∨ x.individual ≠ none ∨ x.organization ≠ none ∨ x.service ≠ none) ∧
  (∀ y ∈ x.component, Component.Complete v y) ∧
  (∀ y ∈ x.service, Service.Complete v y)

/-- cyclonedx.go:51-58 -/
def Annotation.Complete (v : Int) (x : Annotation) : Prop :=
  x.subjects ≠ .nil ∧
  x.annotator ≠ none ∧
  x.timestamp ≠ "" ∧
  x.text ≠ "" ∧
  (∀ y ∈ x.annotator, Annotator.Complete v y) ∧
  (∀ y ∈ x.signature, JSFSignature.Complete v y)

/-- cyclonedx.go:79-84 -/
def Attestation.Complete (v : Int) (x : Attestation) : Prop :=
  (∀ y ∈ x.signature, JSFSignature.Complete v y)

/-- cyclonedx.go:321-328 -/
def Composition.Complete (v : Int) (x : Composition) : Prop :=
  (∀ y ∈ x.signature, JSFSignature.Complete v y)

/-- cyclonedx.go:193-203 -/
def Claim.Complete (v : Int) (x : Claim) : Prop :=
  (∀ y ∈ x.signature, JSFSignature.Complete v y)

/-- cyclonedx.go:611-617 -/
def EvidenceData.Complete (v : Int) (x : EvidenceData) : Prop :=
  (∀ y ∈ x.governance, DataGovernance.Complete v y)

/-- cyclonedx.go:586-596 -/
def DeclarationEvidence.Complete (v : Int) (x : DeclarationEvidence) : Prop :=
  (∀ y ∈ x.data.elems, EvidenceData.Complete v y) ∧
  (∀ y ∈ x.signature, JSFSignature.Complete v y)

/-- cyclonedx.go:624-628 -/
def Targets.Complete (v : Int) (x : Targets) : Prop :=
  (∀ y ∈ x.components.elems, Component.Complete v y) ∧
  (∀ y ∈ x.services.elems, Service.Complete v y)

/-- cyclonedx.go:636-642 -/
def Signatory.Complete (v : Int) (x : Signatory) : Prop :=
  ((x.externalReference ≠ none ∧ x.organization ≠ none) ∨ x.signature ≠ none) ∧
  (∀ y ∈ x.signature, JSFSignature.Complete v y)

/-- cyclonedx.go:630-634 -/
def Affirmation.Complete (v : Int) (x : Affirmation) : Prop :=
  (∀ y ∈ x.signatories.elems, Signatory.Complete v y) ∧
  (∀ y ∈ x.signature, JSFSignature.Complete v y)

/-- cyclonedx.go:576-584 -/
def Declarations.Complete (v : Int) (x : Declarations) : Prop :=
  (∀ y ∈ x.attestations.elems, Attestation.Complete v y) ∧
  (∀ y ∈ x.claims.elems, Claim.Complete v y) ∧
  (∀ y ∈ x.evidence.elems, DeclarationEvidence.Complete v y) ∧
  (∀ y ∈ x.targets, Targets.Complete v y) ∧
  (∀ y ∈ x.affirmation, Affirmation.Complete v y) ∧
  (∀ y ∈ x.signature, JSFSignature.Complete v y)

/-- cyclonedx.go:606-609; one of the two forms. -/
def PatentChoice.Complete (_v : Int) (x : PatentChoice) : Prop :=
  x.patent ≠ none ∨ x.patentFamily ≠ none

/-- cyclonedx.go:1416-1427 -/
def StandardDefinition.Complete (v : Int) (x : StandardDefinition) : Prop :=
  (∀ y ∈ x.signature, JSFSignature.Complete v y)

/-- cyclonedx.go:598-601 -/
def Definitions.Complete (v : Int) (x : Definitions) : Prop :=
  (∀ y ∈ x.standards.elems, StandardDefinition.Complete v y) ∧
  (∀ y ∈ x.patents.elems, PatentChoice.Complete v y)

/-- cyclonedx.go:1337-1340 -/
def ResourceReferenceChoice.Complete (_v : Int) (x : ResourceReferenceChoice) : Prop :=
  (x.externalReference ≠ none ∨ x.ref ≠ "")

/-- cyclonedx.go:657-660; without value and property it is written as an object without members. -/
def EnvironmentVariableChoice.Complete (v : Int) (x : EnvironmentVariableChoice) : Prop :=
  SpecVersion1_6 ≤ v → x.value ≠ "" ∨ ∃ p ∈ x.property, p.name ≠ "" ∨ p.value ≠ ""

/-- cyclonedx.go:1482-1490 -/
def TaskInput.Complete (v : Int) (x : TaskInput) : Prop :=
  (x.data ≠ none ∨ x.environmentVars ≠ .nil ∨ x.parameters ≠ .nil ∨ x.resource ≠ none) ∧
  (∀ y ∈ x.resource, ResourceReferenceChoice.Complete v y) ∧
  (∀ y ∈ x.environmentVars.elems, EnvironmentVariableChoice.Complete v y) ∧
  (∀ y ∈ x.source, ResourceReferenceChoice.Complete v y) ∧
  (∀ y ∈ x.target, ResourceReferenceChoice.Complete v y)

/-- cyclonedx.go:1492-1501 -/
def TaskOutput.Complete (v : Int) (x : TaskOutput) : Prop :=
  (x.data ≠ none ∨ x.environmentVars ≠ .nil ∨ x.resource ≠ none) ∧
  (∀ y ∈ x.resource, ResourceReferenceChoice.Complete v y) ∧
  (∀ y ∈ x.environmentVars.elems, EnvironmentVariableChoice.Complete v y) ∧
  (∀ y ∈ x.source, ResourceReferenceChoice.Complete v y) ∧
  (∀ y ∈ x.target, ResourceReferenceChoice.Complete v y)

/-- cyclonedx.go:662-670 -/
def Event.Complete (v : Int) (x : Event) : Prop :=
  (∀ y ∈ x.source, ResourceReferenceChoice.Complete v y) ∧
  (∀ y ∈ x.target, ResourceReferenceChoice.Complete v y)

/-- cyclonedx.go:1521-1534 -/
def TaskTrigger.Complete (v : Int) (x : TaskTrigger) : Prop :=
  x.type ≠ "" ∧
  x.bomRef ≠ "" ∧
  x.uid ≠ "" ∧
  (∀ y ∈ x.resourceReferences.elems, ResourceReferenceChoice.Complete v y) ∧
  (∀ y ∈ x.event, Event.Complete v y) ∧
  (∀ y ∈ x.inputs.elems, TaskInput.Complete v y) ∧
  (∀ y ∈ x.outputs.elems, TaskOutput.Complete v y)

/-- cyclonedx.go:1568-1581 -/
def TaskWorkspace.Complete (v : Int) (x : TaskWorkspace) : Prop :=
  x.bomRef ≠ "" ∧
  x.uid ≠ "" ∧
  (∀ y ∈ x.resourceReferences.elems, ResourceReferenceChoice.Complete v y)

/-- cyclonedx.go:1459-1475 -/
def Task.Complete (v : Int) (x : Task) : Prop :=
  x.bomRef ≠ "" ∧
  x.uid ≠ "" ∧
  x.taskTypes ≠ .nil ∧
  (∀ y ∈ x.resourceReferences.elems, ResourceReferenceChoice.Complete v y) ∧
  (∀ y ∈ x.trigger, TaskTrigger.Complete v y) ∧
  (∀ y ∈ x.inputs.elems, TaskInput.Complete v y) ∧
  (∀ y ∈ x.outputs.elems, TaskOutput.Complete v y) ∧
  (∀ y ∈ x.workspaces.elems, TaskWorkspace.Complete v y)

/-- cyclonedx.go:1689-1707 -/
def Workflow.Complete (v : Int) (x : Workflow) : Prop :=
  x.bomRef ≠ "" ∧
  x.uid ≠ "" ∧
  x.taskTypes ≠ .nil ∧
  (∀ y ∈ x.resourceReferences.elems, ResourceReferenceChoice.Complete v y) ∧
  (∀ y ∈ x.tasks.elems, Task.Complete v y) ∧
  (∀ y ∈ x.trigger, TaskTrigger.Complete v y) ∧
  (∀ y ∈ x.inputs.elems, TaskInput.Complete v y) ∧
  (∀ y ∈ x.outputs.elems, TaskOutput.Complete v y) ∧
  (∀ y ∈ x.workspaces.elems, TaskWorkspace.Complete v y)

/-- cyclonedx.go:800-806 -/
def Formula.Complete (v : Int) (x : Formula) : Prop :=
  (∀ y ∈ x.components.elems, Component.Complete v y) ∧
  (∀ y ∈ x.services.elems, Service.Complete v y) ∧
  (∀ y ∈ x.workflows.elems, Workflow.Complete v y)

/-- cyclonedx.go:1006-1010 -/
def Lifecycle.Complete (_v : Int) (x : Lifecycle) : Prop :=
  (x.name ≠ "" ∨ x.phase ≠ "")

/-- cyclonedx.go:1610-1614; the tools, or the components and services. -/
def ToolsChoice.Complete (v : Int) (x : ToolsChoice) : Prop :=
  (∀ y ∈ x.components.elems, Component.Complete v y) ∧ ∀ y ∈ x.services.elems, Service.Complete v y

/-- cyclonedx.go:1042-1054 -/
def Metadata.Complete (v : Int) (x : Metadata) : Prop :=
  (∀ y ∈ x.lifecycles.elems, Lifecycle.Complete v y) ∧
  (∀ y ∈ x.tools, ToolsChoice.Complete v y) ∧
  (∀ y ∈ x.component, Component.Complete v y) ∧
  (∀ y ∈ x.licenses.elems, LicenseChoice.Complete v y)

/-- cyclonedx.go:1676-1679 -/
def VulnerabilityReference.Complete (_v : Int) (x : VulnerabilityReference) : Prop :=
  x.id ≠ "" ∧
  x.source ≠ none

/-- cyclonedx.go:1634-1656 -/
def Vulnerability.Complete (v : Int) (x : Vulnerability) : Prop :=
  (∀ y ∈ x.references.elems, VulnerabilityReference.Complete v y) ∧
  (∀ y ∈ x.tools, ToolsChoice.Complete v y) ∧
  (∀ y ∈ x.affects.elems, Affects.Complete v y)

/-- cyclonedx.go:1712-1721 -/
def Citation.Complete (v : Int) (x : Citation) : Prop :=
  x.timestamp ≠ "" ∧
  (x.expressions ≠ .nil ∨ x.pointers ≠ .nil) ∧
  (x.attributedTo ≠ none ∨ x.process ≠ "") ∧
  (∀ y ∈ x.signature, JSFSignature.Complete v y)

/-- cyclonedx.go:105-131 -/
def BOM.Complete (v : Int) (x : BOM) : Prop :=
  (∀ y ∈ x.metadata, Metadata.Complete v y) ∧
  (∀ y ∈ x.components.elems, Component.Complete v y) ∧
  (∀ y ∈ x.services.elems, Service.Complete v y) ∧
  (∀ y ∈ x.compositions.elems, Composition.Complete v y) ∧
  (∀ y ∈ x.vulnerabilities.elems, Vulnerability.Complete v y) ∧
  (∀ y ∈ x.annotations.elems, Annotation.Complete v y) ∧
  (∀ y ∈ x.formulation.elems, Formula.Complete v y) ∧
  (∀ y ∈ x.declarations, Declarations.Complete v y) ∧
  (∀ y ∈ x.definitions, Definitions.Complete v y) ∧
  (∀ y ∈ x.citations.elems, Citation.Complete v y) ∧
  (∀ y ∈ x.signature, JSFSignature.Complete v y)

end Verif
