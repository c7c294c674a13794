import Verif.Model.Types
import Verif.Spec.JsonSchema

/-!
# The members that exclude each other in the JSON schemas

GENERATED by `tools/gen_jexclusive.py` from the JSON schemas in `/repo/schema` and the struct declarations of
`/repo/cyclonedx.go`; do not edit by hand.

`Place.Permits v has p`: an object at the place `p` that has the members for which `has` holds has no two that the schema
of version `v` does not allow together: those of different alternatives of a `oneOf`, and those named by a `not`.
`Sch.Uniform`: the arrays of licenses of 1.5 and 1.6, which have licenses only or consist of one expression (1.2 to 1.4
and 1.7 allow both in one array).  `HasExclusive v s j`: so it is for all objects and arrays in `j`, at any depth.  It
says nothing about the kinds of values and what is required (`Verif.Spec.JsonSchema` and `Verif.Spec.JsonRequired` do),
and leaves out the condition (`if`/`then`) that a component with a range of versions is external.  For the versions that
do not declare a place at all the rules are those of the first version that does.

`T.Exclusive v x` says it of the values: of members that exclude each other, which are left out when they are empty, one
is empty.  Types without conditions have no `Exclusive`.  `Verif.Json.ExclusiveLaws` proves that it is exact.
-/

namespace Verif

/-- Whether an object at a place may have the members it has, of which `has` tells. -/
def Place.Permits (v : Int) (has : String → Prop) : Place → Prop
  | .component => (SpecVersion1_7 ≤ v → ¬ (has "version" ∧ has "versionRange"))
  | .citation => ¬ (has "expressions" ∧ has "pointers")
  | .signature => ¬ (has "algorithm" ∧ has "chain") ∧ ¬ (has "algorithm" ∧ has "signers") ∧ ¬ (has "certificatePath" ∧ has "chain") ∧ ¬ (has "certificatePath" ∧ has "signers") ∧ ¬ (has "chain" ∧ has "excludes") ∧ ¬ (has "chain" ∧ has "keyId") ∧ ¬ (has "chain" ∧ has "publicKey") ∧ ¬ (has "chain" ∧ has "signers") ∧ ¬ (has "chain" ∧ has "value") ∧ ¬ (has "excludes" ∧ has "signers") ∧ ¬ (has "keyId" ∧ has "signers") ∧ ¬ (has "publicKey" ∧ has "signers") ∧ ¬ (has "signers" ∧ has "value")
  | .metadataLifecycles => ¬ (has "description" ∧ has "phase") ∧ ¬ (has "name" ∧ has "phase")
  | .licenseChoice => (SpecVersion1_6 ≤ v → ¬ (has "acknowledgement" ∧ has "license")) ∧ (SpecVersion1_6 ≤ v → ¬ (has "bom-ref" ∧ has "license")) ∧ ¬ (has "expression" ∧ has "license") ∧ (SpecVersion1_7 ≤ v → ¬ (has "expressionDetails" ∧ has "license")) ∧ (SpecVersion1_7 ≤ v → ¬ (has "license" ∧ has "licensing")) ∧ (SpecVersion1_7 ≤ v → ¬ (has "license" ∧ has "properties"))
  | .annotationsAnnotator => ¬ (has "component" ∧ has "individual") ∧ ¬ (has "component" ∧ has "organization") ∧ ¬ (has "component" ∧ has "service") ∧ ¬ (has "individual" ∧ has "organization") ∧ ¬ (has "individual" ∧ has "service") ∧ ¬ (has "organization" ∧ has "service")
  | .license => ¬ (has "id" ∧ has "name")
  | .asserter => ¬ (has "address" ∧ has "email") ∧ ¬ (has "address" ∧ has "phone") ∧ ¬ (has "contact" ∧ has "email") ∧ ¬ (has "contact" ∧ has "phone") ∧ ¬ (has "email" ∧ has "url") ∧ ¬ (has "phone" ∧ has "url")
  | .affectedVersions => ¬ (has "range" ∧ has "version")
  | .resourceReferenceChoice => ¬ (has "externalReference" ∧ has "ref")
  | .inputType => ¬ (has "data" ∧ has "environmentVars") ∧ ¬ (has "data" ∧ has "parameters") ∧ ¬ (has "data" ∧ has "resource") ∧ ¬ (has "environmentVars" ∧ has "parameters") ∧ ¬ (has "environmentVars" ∧ has "resource") ∧ ¬ (has "parameters" ∧ has "resource")
  | .outputType => ¬ (has "data" ∧ has "environmentVars") ∧ ¬ (has "data" ∧ has "resource") ∧ ¬ (has "environmentVars" ∧ has "resource")
  | .affirmationSignatories => ¬ (has "externalReference" ∧ has "organization" ∧ has "signature")
  | .patentAssignee => ¬ (has "address" ∧ has "email") ∧ ¬ (has "address" ∧ has "phone") ∧ ¬ (has "contact" ∧ has "email") ∧ ¬ (has "contact" ∧ has "phone") ∧ ¬ (has "email" ∧ has "url") ∧ ¬ (has "phone" ∧ has "url")
  | .organizationOrIndividual => ¬ (has "individual" ∧ has "organization")
  | .modelDataset => ¬ (has "bom-ref" ∧ has "ref") ∧ ¬ (has "classification" ∧ has "ref") ∧ ¬ (has "contents" ∧ has "ref") ∧ ¬ (has "description" ∧ has "ref") ∧ ¬ (has "governance" ∧ has "ref") ∧ ¬ (has "graphics" ∧ has "ref") ∧ ¬ (has "name" ∧ has "ref") ∧ ¬ (has "ref" ∧ has "sensitiveData") ∧ ¬ (has "ref" ∧ has "type")
  | .dataGovernanceResponsibleParty => ¬ (has "contact" ∧ has "organization")
  | .certificateState => ¬ (has "description" ∧ has "state") ∧ ¬ (has "name" ∧ has "state")
  | .certificateExtension => ¬ (has "commonExtensionName" ∧ has "customExtensionName") ∧ ¬ (has "commonExtensionName" ∧ has "customExtensionValue") ∧ ¬ (has "commonExtensionValue" ∧ has "customExtensionName") ∧ ¬ (has "commonExtensionValue" ∧ has "customExtensionValue")
  | _ => True

/-- The value is an object with the member. -/
def Json.HasMember (k : String) : Json → Prop
  | .obj ms => ∃ m ∈ ms, m.1 = k
  | _ => False

/-- An array of licenses has no expressions or is one expression (schema/bom-1.5.schema.json and
schema/bom-1.6.schema.json, licenseChoice). -/
def Sch.Uniform (v : Int) : Sch → List Json → Prop
  | .place .licenseChoice, js => SpecVersion1_5 ≤ v → v ≤ SpecVersion1_6 →
      (∀ j ∈ js, ¬ j.HasMember "expression") ∨ js.length ≤ 1
  | _, _ => True

/-- No object in the value has members that exclude each other, where `s` is declared for the value itself. -/
inductive HasExclusive (v : Int) : Sch → Json → Prop
  | str (j : Json) : HasExclusive v .str j
  | num (j : Json) : HasExclusive v .num j
  | int (j : Json) : HasExclusive v .int j
  | bool (j : Json) : HasExclusive v .bool j
  | list {s : Sch} {js : List Json} (uniform : s.Uniform v js) (h : ∀ j ∈ js, HasExclusive v s j) : HasExclusive v (.list s) (.arr js)
  | noList {s : Sch} {j : Json} (h : ∀ js, j ≠ .arr js) : HasExclusive v (.list s) j
  | place {p : Place} {ms : List (String × Json)} (permits : p.Permits v fun k => ∃ m ∈ ms, m.1 = k)
      (h : ∀ m ∈ ms, ∀ s, p.members.lookup m.1 = some s → HasExclusive v s m.2) : HasExclusive v (.place p) (.obj ms)
  | noPlace {p : Place} {j : Json} (h : ∀ ms, j ≠ .obj ms) : HasExclusive v (.place p) j
  | alt {s t : Sch} {j : Json} (hs : HasExclusive v s j) (ht : HasExclusive v t j) : HasExclusive v (.alt s t) j
  | since {n : Int} {s : Sch} {j : Json} (h : HasExclusive v s j) : HasExclusive v (.since n s) j

/-- A document has, everywhere, only one of the alternatives of the schema of version `v`. -/
def Json.Exclusive (v : Int) (j : Json) : Prop := HasExclusive v (.place .bom) j

/-- cyclonedx.go:40-44 -/
def AffectedVersions.Exclusive (_v : Int) (x : AffectedVersions) : Prop :=
  ¬ (x.range ≠ "" ∧ x.version ≠ "")

/-- cyclonedx.go:46-49 -/
def Affects.Exclusive (v : Int) (x : Affects) : Prop :=
  (∀ y ∈ x.range.elems, AffectedVersions.Exclusive v y)

/-- cyclonedx.go:296-299 -/
def ComponentDataGovernanceResponsibleParty.Exclusive (_v : Int) (x : ComponentDataGovernanceResponsibleParty) : Prop :=
  ¬ (x.contact ≠ none ∧ x.organization ≠ none)

/-- cyclonedx.go:570-574 -/
def DataGovernance.Exclusive (v : Int) (x : DataGovernance) : Prop :=
  (∀ y ∈ x.custodians.elems, ComponentDataGovernanceResponsibleParty.Exclusive v y) ∧
  (∀ y ∈ x.stewards.elems, ComponentDataGovernanceResponsibleParty.Exclusive v y) ∧
  (∀ y ∈ x.owners.elems, ComponentDataGovernanceResponsibleParty.Exclusive v y)

/-- cyclonedx.go:278-288 -/
def ComponentData.Exclusive (v : Int) (x : ComponentData) : Prop :=
  (∀ y ∈ x.governance, DataGovernance.Exclusive v y)

/-- cyclonedx.go:1226-1229 -/
def OrganizationalEntityOrContact.Exclusive (_v : Int) (x : OrganizationalEntityOrContact) : Prop :=
  ¬ (x.individual ≠ none ∧ x.organization ≠ none)

/-- cyclonedx.go:995-1004 -/
def Licensing.Exclusive (v : Int) (x : Licensing) : Prop :=
  (∀ y ∈ x.licensor, OrganizationalEntityOrContact.Exclusive v y) ∧
  (∀ y ∈ x.licensee, OrganizationalEntityOrContact.Exclusive v y) ∧
  (∀ y ∈ x.purchaser, OrganizationalEntityOrContact.Exclusive v y)

/-- cyclonedx.go:936-945 -/
def License.Exclusive (v : Int) (x : License) : Prop :=
  ¬ (x.id ≠ "" ∧ x.name ≠ "") ∧
  (∀ y ∈ x.licensing, Licensing.Exclusive v y)

/-- cyclonedx.go:956-964 -/
def LicenseChoice.Exclusive (v : Int) (x : LicenseChoice) : Prop :=
  (SpecVersion1_6 ≤ v → ¬ (x.acknowledgement ≠ none ∧ x.license ≠ none)) ∧
  (SpecVersion1_6 ≤ v → ¬ (x.bomRef ≠ "" ∧ x.license ≠ none)) ∧
  ¬ (x.expression ≠ "" ∧ x.license ≠ none) ∧
  (SpecVersion1_7 ≤ v → ¬ (x.expressionDetails ≠ .nil ∧ x.license ≠ none)) ∧
  (SpecVersion1_7 ≤ v → ¬ (x.license ≠ none ∧ x.licensing ≠ none)) ∧
  (SpecVersion1_7 ≤ v → ¬ (x.license ≠ none ∧ x.properties ≠ .nil)) ∧
  (∀ y ∈ x.license, License.Exclusive v y) ∧
  (∀ y ∈ x.licensing, Licensing.Exclusive v y)

/-- A list of licenses (cyclonedx.go: Licenses). -/
def LicensesExclusive (v : Int) (xs : PSlice LicenseChoice) : Prop :=
  (SpecVersion1_5 ≤ v → v ≤ SpecVersion1_6 → (∀ y ∈ xs.elems, y.expression = "") ∨ xs.elems.length ≤ 1) ∧
  ∀ y ∈ xs.elems, LicenseChoice.Exclusive v y

/-- cyclonedx.go:672-678 -/
def Evidence.Exclusive (v : Int) (x : Evidence) : Prop :=
  LicensesExclusive v x.licenses

/-- cyclonedx.go:909-914 -/
def JSFSignature.Exclusive (_v : Int) (x : JSFSignature) : Prop :=
  ¬ (x.chain ≠ .nil ∧ x.signers ≠ .nil)

/-- cyclonedx.go:1056-1059; the reference hides the data. -/
def MLDatasetChoice.Exclusive (v : Int) (x : MLDatasetChoice) : Prop :=
  x.ref = "" → ∀ y ∈ x.componentData, ComponentData.Exclusive v y

/-- cyclonedx.go:1165-1173 -/
def MLModelParameters.Exclusive (v : Int) (x : MLModelParameters) : Prop :=
  (∀ y ∈ x.datasets.elems, MLDatasetChoice.Exclusive v y)

/-- cyclonedx.go:1065-1070 -/
def MLModelCard.Exclusive (v : Int) (x : MLModelCard) : Prop :=
  (∀ y ∈ x.modelParameters, MLModelParameters.Exclusive v y)

mutual
/-- cyclonedx.go:239-276 -/
def Component.Exclusive (v : Int) : Component → Prop
  | .mk _ _ _ _ _ _ _ _ _ _ version _ _ _ licenses _ _ _ _ _ _ _ pedigree _ _ components evidence _ modelCard data _ _ _ _ versionRange signature =>
    (SpecVersion1_7 ≤ v → ¬ (version ≠ "" ∧ versionRange ≠ "")) ∧
    LicensesExclusive v licenses ∧
    ExclusivePedigreeOpt v pedigree ∧
    ExclusiveComponents v components ∧
    (∀ y ∈ evidence, Evidence.Exclusive v y) ∧
    (∀ y ∈ modelCard, MLModelCard.Exclusive v y) ∧
    (∀ y ∈ data.elems, ComponentData.Exclusive v y) ∧
    (∀ y ∈ signature, JSFSignature.Exclusive v y)
/-- A list of components, at any depth. -/
def ExclusiveComponents (v : Int) : PSlice Component → Prop
  | .nil => True
  | .nilSlice => True
  | .list xs => ExclusiveComponentList v xs
/-- A list of components, at any depth. -/
def ExclusiveComponentList (v : Int) : List Component → Prop
  | [] => True
  | c :: cs => c.Exclusive v ∧ ExclusiveComponentList v cs
/-- An optional pedigree. -/
def ExclusivePedigreeOpt (v : Int) : Option (Pedigree Component) → Prop
  | none => True
  | some p => ExclusivePedigree v p
/-- cyclonedx.go:1252-1259 -/
def ExclusivePedigree (v : Int) : Pedigree Component → Prop
  | .mk ancestors descendants variants _ _ _ =>
    ExclusiveComponents v ancestors ∧
    ExclusiveComponents v descendants ∧
    ExclusiveComponents v variants
end

/-- cyclonedx.go:551-559 -/
def DataClassification.Exclusive (v : Int) (x : DataClassification) : Prop :=
  (∀ y ∈ x.governance, DataGovernance.Exclusive v y)

mutual
/-- cyclonedx.go:1362-1382 -/
def Service.Exclusive (v : Int) : Service → Prop
  | .mk _ _ _ _ _ _ _ _ _ data licenses _ _ services _ _ _ _ signature =>
    (∀ y ∈ data.elems, DataClassification.Exclusive v y) ∧
    LicensesExclusive v licenses ∧
    ExclusiveServices v services ∧
    (∀ y ∈ signature, JSFSignature.Exclusive v y)
/-- A list of services, at any depth. -/
def ExclusiveServices (v : Int) : PSlice Service → Prop
  | .nil => True
  | .nilSlice => True
  | .list xs => ExclusiveServiceList v xs
/-- A list of services, at any depth. -/
def ExclusiveServiceList (v : Int) : List Service → Prop
  | [] => True
  | c :: cs => c.Exclusive v ∧ ExclusiveServiceList v cs
end

/-- cyclonedx.go:60-65 -/
def Annotator.Exclusive (v : Int) (x : Annotator) : Prop :=
  ¬ (x.component ≠ none ∧ x.individual ≠ none) ∧
  ¬ (x.component ≠ none ∧ x.organization ≠ none) ∧
  ¬ (x.component ≠ none ∧ x.service ≠ none) ∧
  ¬ (x.individual ≠ none ∧ x.organization ≠ none) ∧
  ¬ (x.individual ≠ none ∧ x.service ≠ none) ∧
  ¬ (x.organization ≠ none ∧ x.service ≠ none) ∧
  (∀ y ∈ x.component, Component.Exclusive v y) ∧
  (∀ y ∈ x.service, Service.Exclusive v y)

/-- cyclonedx.go:51-58 -/
def Annotation.Exclusive (v : Int) (x : Annotation) : Prop :=
  (∀ y ∈ x.annotator, Annotator.Exclusive v y) ∧
  (∀ y ∈ x.signature, JSFSignature.Exclusive v y)

/-- cyclonedx.go:79-84 -/
def Attestation.Exclusive (v : Int) (x : Attestation) : Prop :=
  (∀ y ∈ x.signature, JSFSignature.Exclusive v y)

/-- cyclonedx.go:321-328 -/
def Composition.Exclusive (v : Int) (x : Composition) : Prop :=
  (∀ y ∈ x.signature, JSFSignature.Exclusive v y)

/-- cyclonedx.go:193-203 -/
def Claim.Exclusive (v : Int) (x : Claim) : Prop :=
  (∀ y ∈ x.signature, JSFSignature.Exclusive v y)

/-- cyclonedx.go:611-617 -/
def EvidenceData.Exclusive (v : Int) (x : EvidenceData) : Prop :=
  (∀ y ∈ x.governance, DataGovernance.Exclusive v y)

/-- cyclonedx.go:586-596 -/
def DeclarationEvidence.Exclusive (v : Int) (x : DeclarationEvidence) : Prop :=
  (∀ y ∈ x.data.elems, EvidenceData.Exclusive v y) ∧
  (∀ y ∈ x.signature, JSFSignature.Exclusive v y)

/-- cyclonedx.go:624-628 -/
def Targets.Exclusive (v : Int) (x : Targets) : Prop :=
  (∀ y ∈ x.components.elems, Component.Exclusive v y) ∧
  (∀ y ∈ x.services.elems, Service.Exclusive v y)

/-- cyclonedx.go:636-642 -/
def Signatory.Exclusive (v : Int) (x : Signatory) : Prop :=
  ¬ (x.externalReference ≠ none ∧ x.organization ≠ none ∧ x.signature ≠ none) ∧
  (∀ y ∈ x.signature, JSFSignature.Exclusive v y)

/-- cyclonedx.go:630-634 -/
def Affirmation.Exclusive (v : Int) (x : Affirmation) : Prop :=
  (∀ y ∈ x.signatories.elems, Signatory.Exclusive v y) ∧
  (∀ y ∈ x.signature, JSFSignature.Exclusive v y)

/-- cyclonedx.go:576-584 -/
def Declarations.Exclusive (v : Int) (x : Declarations) : Prop :=
  (∀ y ∈ x.attestations.elems, Attestation.Exclusive v y) ∧
  (∀ y ∈ x.claims.elems, Claim.Exclusive v y) ∧
  (∀ y ∈ x.evidence.elems, DeclarationEvidence.Exclusive v y) ∧
  (∀ y ∈ x.targets, Targets.Exclusive v y) ∧
  (∀ y ∈ x.affirmation, Affirmation.Exclusive v y) ∧
  (∀ y ∈ x.signature, JSFSignature.Exclusive v y)

/-- cyclonedx.go:1416-1427 -/
def StandardDefinition.Exclusive (v : Int) (x : StandardDefinition) : Prop :=
  (∀ y ∈ x.signature, JSFSignature.Exclusive v y)

/-- cyclonedx.go:598-601 -/
def Definitions.Exclusive (v : Int) (x : Definitions) : Prop :=
  (∀ y ∈ x.standards.elems, StandardDefinition.Exclusive v y)

/-- cyclonedx.go:1337-1340 -/
def ResourceReferenceChoice.Exclusive (_v : Int) (x : ResourceReferenceChoice) : Prop :=
  ¬ (x.externalReference ≠ none ∧ x.ref ≠ "")

/-- cyclonedx.go:1482-1490 -/
def TaskInput.Exclusive (v : Int) (x : TaskInput) : Prop :=
  ¬ (x.data ≠ none ∧ x.environmentVars ≠ .nil) ∧
  ¬ (x.data ≠ none ∧ x.parameters ≠ .nil) ∧
  ¬ (x.data ≠ none ∧ x.resource ≠ none) ∧
  ¬ (x.environmentVars ≠ .nil ∧ x.parameters ≠ .nil) ∧
  ¬ (x.environmentVars ≠ .nil ∧ x.resource ≠ none) ∧
  ¬ (x.parameters ≠ .nil ∧ x.resource ≠ none) ∧
  (∀ y ∈ x.resource, ResourceReferenceChoice.Exclusive v y) ∧
  (∀ y ∈ x.source, ResourceReferenceChoice.Exclusive v y) ∧
  (∀ y ∈ x.target, ResourceReferenceChoice.Exclusive v y)

/-- cyclonedx.go:1492-1501 -/
def TaskOutput.Exclusive (v : Int) (x : TaskOutput) : Prop :=
  ¬ (x.data ≠ none ∧ x.environmentVars ≠ .nil) ∧
  ¬ (x.data ≠ none ∧ x.resource ≠ none) ∧
  ¬ (x.environmentVars ≠ .nil ∧ x.resource ≠ none) ∧
  (∀ y ∈ x.resource, ResourceReferenceChoice.Exclusive v y) ∧
  (∀ y ∈ x.source, ResourceReferenceChoice.Exclusive v y) ∧
  (∀ y ∈ x.target, ResourceReferenceChoice.Exclusive v y)

/-- cyclonedx.go:662-670 -/
def Event.Exclusive (v : Int) (x : Event) : Prop :=
  (∀ y ∈ x.source, ResourceReferenceChoice.Exclusive v y) ∧
  (∀ y ∈ x.target, ResourceReferenceChoice.Exclusive v y)

/-- cyclonedx.go:1521-1534 -/
def TaskTrigger.Exclusive (v : Int) (x : TaskTrigger) : Prop :=
  (∀ y ∈ x.resourceReferences.elems, ResourceReferenceChoice.Exclusive v y) ∧
  (∀ y ∈ x.event, Event.Exclusive v y) ∧
  (∀ y ∈ x.inputs.elems, TaskInput.Exclusive v y) ∧
  (∀ y ∈ x.outputs.elems, TaskOutput.Exclusive v y)

/-- cyclonedx.go:1568-1581 -/
def TaskWorkspace.Exclusive (v : Int) (x : TaskWorkspace) : Prop :=
  (∀ y ∈ x.resourceReferences.elems, ResourceReferenceChoice.Exclusive v y)

/-- cyclonedx.go:1459-1475 -/
def Task.Exclusive (v : Int) (x : Task) : Prop :=
  (∀ y ∈ x.resourceReferences.elems, ResourceReferenceChoice.Exclusive v y) ∧
  (∀ y ∈ x.trigger, TaskTrigger.Exclusive v y) ∧
  (∀ y ∈ x.inputs.elems, TaskInput.Exclusive v y) ∧
  (∀ y ∈ x.outputs.elems, TaskOutput.Exclusive v y) ∧
  (∀ y ∈ x.workspaces.elems, TaskWorkspace.Exclusive v y)

/-- cyclonedx.go:1689-1707 -/
def Workflow.Exclusive (v : Int) (x : Workflow) : Prop :=
  (∀ y ∈ x.resourceReferences.elems, ResourceReferenceChoice.Exclusive v y) ∧
  (∀ y ∈ x.tasks.elems, Task.Exclusive v y) ∧
  (∀ y ∈ x.trigger, TaskTrigger.Exclusive v y) ∧
  (∀ y ∈ x.inputs.elems, TaskInput.Exclusive v y) ∧
  (∀ y ∈ x.outputs.elems, TaskOutput.Exclusive v y) ∧
  (∀ y ∈ x.workspaces.elems, TaskWorkspace.Exclusive v y)

/-- cyclonedx.go:800-806 -/
def Formula.Exclusive (v : Int) (x : Formula) : Prop :=
  (∀ y ∈ x.components.elems, Component.Exclusive v y) ∧
  (∀ y ∈ x.services.elems, Service.Exclusive v y) ∧
  (∀ y ∈ x.workflows.elems, Workflow.Exclusive v y)

/-- cyclonedx.go:1006-1010 -/
def Lifecycle.Exclusive (_v : Int) (x : Lifecycle) : Prop :=
  ¬ (x.description ≠ "" ∧ x.phase ≠ "") ∧
  ¬ (x.name ≠ "" ∧ x.phase ≠ "")

/-- cyclonedx.go:1610-1614; the tools, or the components and services. -/
def ToolsChoice.Exclusive (v : Int) (x : ToolsChoice) : Prop :=
  (∀ y ∈ x.components.elems, Component.Exclusive v y) ∧ ∀ y ∈ x.services.elems, Service.Exclusive v y

/-- cyclonedx.go:1042-1054 -/
def Metadata.Exclusive (v : Int) (x : Metadata) : Prop :=
  (∀ y ∈ x.lifecycles.elems, Lifecycle.Exclusive v y) ∧
  (∀ y ∈ x.tools, ToolsChoice.Exclusive v y) ∧
  (∀ y ∈ x.component, Component.Exclusive v y) ∧
  LicensesExclusive v x.licenses

/-- cyclonedx.go:1634-1656 -/
def Vulnerability.Exclusive (v : Int) (x : Vulnerability) : Prop :=
  (∀ y ∈ x.tools, ToolsChoice.Exclusive v y) ∧
  (∀ y ∈ x.affects.elems, Affects.Exclusive v y)

/-- cyclonedx.go:1712-1721 -/
def Citation.Exclusive (v : Int) (x : Citation) : Prop :=
  ¬ (x.expressions ≠ .nil ∧ x.pointers ≠ .nil) ∧
  (∀ y ∈ x.signature, JSFSignature.Exclusive v y)

/-- cyclonedx.go:105-131 -/
def BOM.Exclusive (v : Int) (x : BOM) : Prop :=
  (∀ y ∈ x.metadata, Metadata.Exclusive v y) ∧
  (∀ y ∈ x.components.elems, Component.Exclusive v y) ∧
  (∀ y ∈ x.services.elems, Service.Exclusive v y) ∧
  (∀ y ∈ x.compositions.elems, Composition.Exclusive v y) ∧
  (∀ y ∈ x.vulnerabilities.elems, Vulnerability.Exclusive v y) ∧
  (∀ y ∈ x.annotations.elems, Annotation.Exclusive v y) ∧
  (∀ y ∈ x.formulation.elems, Formula.Exclusive v y) ∧
  (∀ y ∈ x.declarations, Declarations.Exclusive v y) ∧
  (∀ y ∈ x.definitions, Definitions.Exclusive v y) ∧
  (∀ y ∈ x.citations.elems, Citation.Exclusive v y) ∧
  (∀ y ∈ x.signature, JSFSignature.Exclusive v y)

end Verif
