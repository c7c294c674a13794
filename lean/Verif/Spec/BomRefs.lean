import Verif.Model.Types
import Verif.Json.Value
import Verif.Xml.Value

/-!
# The identifiers of a document

GENERATED by `tools/gen_refs.py` from the struct declarations of `/repo/cyclonedx.go`; do not edit by hand.

`Json.bomRefs` and `Xml.bomRefs` are the identifiers that a document gives to its parts: the strings of the members, or
attributes, called `bom-ref`, at any depth, in the order of the document.  The XML schemas since version 1.1 require
that none of them occurs twice (`xs:unique name="bom-ref"`).

`T.bomRefs x` are the identifiers in a value: those of the fields with the tag `json:"bom-ref"`, at any depth, in the
order of the fields, unless they are empty.  Where a value holds one of several alternatives, only that one counts.
The two formats differ in one place: XML writes neither the identifiers of the details of a license expression nor the
licensing beside it, and the identifier of the expression only with an expression.  `Wire` says which format is meant.
-/

namespace Verif

mutual
/-- The identifiers in a JSON value. -/
def Json.bomRefs : Json → List String
  | .arr js => Json.listRefs js
  | .obj ms => Json.memberRefs ms
  | _ => []
/-- The identifiers in the elements of an array. -/
def Json.listRefs : List Json → List String
  | [] => []
  | j :: js => j.bomRefs ++ Json.listRefs js
/-- The identifiers in the members of an object. -/
def Json.memberRefs : List (String × Json) → List String
  | [] => []
  | (k, j) :: ms =>
    (if k = "bom-ref" then (match j with | .str s => [s] | _ => []) else []) ++ j.bomRefs ++ Json.memberRefs ms
end

/-- The identifiers among attributes. -/
def Xml.attrRefs (as : List (String × String)) : List String := (as.filter fun a => a.1 = "bom-ref").map Prod.snd

mutual
/-- The identifiers in an element. -/
def Xml.bomRefs : Xml → List String
  | .elem _ as ks => Xml.attrRefs as ++ Xml.kidRefs ks
  | .text _ => []
/-- The identifiers in the content of an element. -/
def Xml.kidRefs : List Xml → List String
  | [] => []
  | k :: ks => k.bomRefs ++ Xml.kidRefs ks
end

/-- An identifier, if it is not empty. -/
def ident (s : String) : List String := if s = "" then [] else [s]

/-- The format of a document. -/
class inductive Wire where
  /-- JSON -/
  | json
  /-- XML -/
  | xml

variable [w : Wire]

/-- Only in JSON. -/
def onlyJSON (ids : List String) : List String := match w with | .json => ids | .xml => []

/-- In JSON, and in XML if the text it belongs to is not empty. -/
def withText (text : String) (ids : List String) : List String :=
  match w with | .json => ids | .xml => if text = "" then [] else ids


/-- cyclonedx.go:1211-1216 -/
def OrganizationalContact.bomRefs (x : OrganizationalContact) : List String :=
  ident x.bomRef

/-- cyclonedx.go:1261-1269 -/
def PostalAddress.bomRefs (x : PostalAddress) : List String :=
  ident x.bomRef

/-- cyclonedx.go:1218-1224 -/
def OrganizationalEntity.bomRefs (x : OrganizationalEntity) : List String :=
  ident x.bomRef ++
    x.address.toList.flatMap PostalAddress.bomRefs ++
    x.contact.elems.flatMap OrganizationalContact.bomRefs

/-- cyclonedx.go:296-299 -/
def ComponentDataGovernanceResponsibleParty.bomRefs (x : ComponentDataGovernanceResponsibleParty) : List String :=
  x.organization.toList.flatMap OrganizationalEntity.bomRefs ++
    x.contact.toList.flatMap OrganizationalContact.bomRefs

/-- cyclonedx.go:570-574 -/
def DataGovernance.bomRefs (x : DataGovernance) : List String :=
  x.custodians.elems.flatMap ComponentDataGovernanceResponsibleParty.bomRefs ++
    x.stewards.elems.flatMap ComponentDataGovernanceResponsibleParty.bomRefs ++
    x.owners.elems.flatMap ComponentDataGovernanceResponsibleParty.bomRefs

/-- cyclonedx.go:278-288 -/
def ComponentData.bomRefs (x : ComponentData) : List String :=
  ident x.bomRef ++
    x.governance.toList.flatMap DataGovernance.bomRefs

/-- cyclonedx.go:731-738 -/
def EvidenceOccurrence.bomRefs (x : EvidenceOccurrence) : List String :=
  ident x.bomRef

/-- cyclonedx.go:1226-1229 -/
def OrganizationalEntityOrContact.bomRefs (x : OrganizationalEntityOrContact) : List String :=
  x.organization.toList.flatMap OrganizationalEntity.bomRefs ++
    x.individual.toList.flatMap OrganizationalContact.bomRefs

/-- cyclonedx.go:995-1004 -/
def Licensing.bomRefs (x : Licensing) : List String :=
  x.licensor.toList.flatMap OrganizationalEntityOrContact.bomRefs ++
    x.licensee.toList.flatMap OrganizationalEntityOrContact.bomRefs ++
    x.purchaser.toList.flatMap OrganizationalEntityOrContact.bomRefs

/-- cyclonedx.go:936-945 -/
def License.bomRefs (x : License) : List String :=
  ident x.bomRef ++
    x.licensing.toList.flatMap Licensing.bomRefs

/-- cyclonedx.go:967-972 -/
def LicenseExpressionDetail.bomRefs (x : LicenseExpressionDetail) : List String :=
  ident x.bomRef

/-- cyclonedx.go:956-964 -/
def LicenseChoice.bomRefs (x : LicenseChoice) : List String :=
  x.license.toList.flatMap License.bomRefs ++
    onlyJSON (x.expressionDetails.elems.flatMap LicenseExpressionDetail.bomRefs) ++
    withText x.expression (ident x.bomRef) ++
    onlyJSON (x.licensing.toList.flatMap Licensing.bomRefs)

/-- cyclonedx.go:672-678 -/
def Evidence.bomRefs (x : Evidence) : List String :=
  x.occurrences.elems.flatMap EvidenceOccurrence.bomRefs ++
    x.licenses.elems.flatMap LicenseChoice.bomRefs

/-- cyclonedx.go:1136-1143 -/
def MLModelEnergyProvider.bomRefs (x : MLModelEnergyProvider) : List String :=
  ident x.bomRef ++
    x.organization.toList.flatMap OrganizationalEntity.bomRefs

/-- cyclonedx.go:1108-1115 -/
def MLModelEnergyConsumption.bomRefs (x : MLModelEnergyConsumption) : List String :=
  x.energyProviders.elems.flatMap MLModelEnergyProvider.bomRefs

/-- cyclonedx.go:1082-1085 -/
def MLModelCardEnvironmentalConsiderations.bomRefs (x : MLModelCardEnvironmentalConsiderations) : List String :=
  x.energyConsumptions.elems.flatMap MLModelEnergyConsumption.bomRefs

/-- cyclonedx.go:1072-1080 -/
def MLModelCardConsiderations.bomRefs (x : MLModelCardConsiderations) : List String :=
  x.environmentalConsiderations.toList.flatMap MLModelCardEnvironmentalConsiderations.bomRefs

/-- cyclonedx.go:1056-1059; one alternative hides the others. -/
def MLDatasetChoice.bomRefs (x : MLDatasetChoice) : List String :=
  if x.ref = "" then x.componentData.toList.flatMap ComponentData.bomRefs else []

/-- cyclonedx.go:1165-1173 -/
def MLModelParameters.bomRefs (x : MLModelParameters) : List String :=
  x.datasets.elems.flatMap MLDatasetChoice.bomRefs

/-- cyclonedx.go:1065-1070 -/
def MLModelCard.bomRefs (x : MLModelCard) : List String :=
  ident x.bomRef ++
    x.modelParameters.toList.flatMap MLModelParameters.bomRefs ++
    x.considerations.toList.flatMap MLModelCardConsiderations.bomRefs

/-- cyclonedx.go:1772-1776; one alternative hides the others. -/
def AsserterChoice.bomRefs (x : AsserterChoice) : List String :=
  match x.organization with
  | some o => o.bomRefs
  | none => x.individual.toList.flatMap OrganizationalContact.bomRefs

/-- cyclonedx.go:1779-1785 -/
def PatentAssertion.bomRefs (x : PatentAssertion) : List String :=
  ident x.bomRef ++
    x.asserter.toList.flatMap AsserterChoice.bomRefs

mutual
/-- cyclonedx.go:239-276 -/
def Component.bomRefs : Component → List String
  | .mk bomRef _ _ supplier manufacturer _ authors _ _ _ _ _ _ _ licenses _ _ _ _ _ _ _ pedigree _ _ components evidence _ modelCard data _ _ _ patentAssertions _ _ =>
    ident bomRef ++
    supplier.toList.flatMap OrganizationalEntity.bomRefs ++
    manufacturer.toList.flatMap OrganizationalEntity.bomRefs ++
    authors.elems.flatMap OrganizationalContact.bomRefs ++
    licenses.elems.flatMap LicenseChoice.bomRefs ++
    refsPedigreeOpt pedigree ++
    refsComponents components ++
    evidence.toList.flatMap Evidence.bomRefs ++
    modelCard.toList.flatMap MLModelCard.bomRefs ++
    data.elems.flatMap ComponentData.bomRefs ++
    patentAssertions.elems.flatMap PatentAssertion.bomRefs
/-- A list of components. -/
def refsComponents : PSlice Component → List String
  | .nil => []
  | .nilSlice => []
  | .list xs => refsComponentList xs
/-- A list of components. -/
def refsComponentList : List Component → List String
  | [] => []
  | c :: cs => c.bomRefs ++ refsComponentList cs
/-- An optional pedigree. -/
def refsPedigreeOpt : Option (Pedigree Component) → List String
  | none => []
  | some p => refsPedigree p
/-- cyclonedx.go:1252-1259 -/
def refsPedigree : Pedigree Component → List String
  | .mk ancestors descendants variants _ _ _ =>
    refsComponents ancestors ++
    refsComponents descendants ++
    refsComponents variants
end

/-- cyclonedx.go:551-559 -/
def DataClassification.bomRefs (x : DataClassification) : List String :=
  x.governance.toList.flatMap DataGovernance.bomRefs

mutual
/-- cyclonedx.go:1362-1382 -/
def Service.bomRefs : Service → List String
  | .mk bomRef provider _ _ _ _ _ _ _ data licenses _ _ services _ _ _ patentAssertions _ =>
    ident bomRef ++
    provider.toList.flatMap OrganizationalEntity.bomRefs ++
    data.elems.flatMap DataClassification.bomRefs ++
    licenses.elems.flatMap LicenseChoice.bomRefs ++
    refsServices services ++
    patentAssertions.elems.flatMap PatentAssertion.bomRefs
/-- A list of services. -/
def refsServices : PSlice Service → List String
  | .nil => []
  | .nilSlice => []
  | .list xs => refsServiceList xs
/-- A list of services. -/
def refsServiceList : List Service → List String
  | [] => []
  | c :: cs => c.bomRefs ++ refsServiceList cs
end

/-- cyclonedx.go:60-65 -/
def Annotator.bomRefs (x : Annotator) : List String :=
  x.organization.toList.flatMap OrganizationalEntity.bomRefs ++
    x.individual.toList.flatMap OrganizationalContact.bomRefs ++
    x.component.toList.flatMap Component.bomRefs ++
    x.service.toList.flatMap Service.bomRefs

/-- cyclonedx.go:51-58 -/
def Annotation.bomRefs (x : Annotation) : List String :=
  ident x.bomRef ++
    x.annotator.toList.flatMap Annotator.bomRefs

/-- cyclonedx.go:67-71 -/
def Assessor.bomRefs (x : Assessor) : List String :=
  ident x.bomRef.val ++
    x.organization.toList.flatMap OrganizationalEntity.bomRefs

/-- cyclonedx.go:321-328 -/
def Composition.bomRefs (x : Composition) : List String :=
  ident x.bomRef

/-- cyclonedx.go:193-203 -/
def Claim.bomRefs (x : Claim) : List String :=
  ident x.bomRef

/-- cyclonedx.go:611-617 -/
def EvidenceData.bomRefs (x : EvidenceData) : List String :=
  x.classification.toList.flatMap DataClassification.bomRefs ++
    x.governance.toList.flatMap DataGovernance.bomRefs

/-- cyclonedx.go:586-596 -/
def DeclarationEvidence.bomRefs (x : DeclarationEvidence) : List String :=
  ident x.bomRef ++
    x.data.elems.flatMap EvidenceData.bomRefs ++
    x.author.toList.flatMap OrganizationalContact.bomRefs ++
    x.reviewer.toList.flatMap OrganizationalContact.bomRefs

/-- cyclonedx.go:624-628 -/
def Targets.bomRefs (x : Targets) : List String :=
  x.organizations.elems.flatMap OrganizationalEntity.bomRefs ++
    x.components.elems.flatMap Component.bomRefs ++
    x.services.elems.flatMap Service.bomRefs

/-- cyclonedx.go:636-642 -/
def Signatory.bomRefs (x : Signatory) : List String :=
  x.organization.toList.flatMap OrganizationalEntity.bomRefs

/-- cyclonedx.go:630-634 -/
def Affirmation.bomRefs (x : Affirmation) : List String :=
  x.signatories.elems.flatMap Signatory.bomRefs

/-- cyclonedx.go:576-584 -/
def Declarations.bomRefs (x : Declarations) : List String :=
  x.assessors.elems.flatMap Assessor.bomRefs ++
    x.claims.elems.flatMap Claim.bomRefs ++
    x.evidence.elems.flatMap DeclarationEvidence.bomRefs ++
    x.targets.toList.flatMap Targets.bomRefs ++
    x.affirmation.toList.flatMap Affirmation.bomRefs

/-- cyclonedx.go:1743-1758 -/
def Patent.bomRefs (x : Patent) : List String :=
  ident x.bomRef ++
    x.patentAssignee.elems.flatMap OrganizationalEntityOrContact.bomRefs

/-- cyclonedx.go:1761-1767 -/
def PatentFamily.bomRefs (x : PatentFamily) : List String :=
  ident x.bomRef

/-- cyclonedx.go:606-609; one alternative hides the others. -/
def PatentChoice.bomRefs (x : PatentChoice) : List String :=
  match x.patent with
  | some p => p.bomRefs
  | none => x.patentFamily.toList.flatMap PatentFamily.bomRefs

/-- cyclonedx.go:1429-1439 -/
def StandardRequirement.bomRefs (x : StandardRequirement) : List String :=
  ident x.bomRef

/-- cyclonedx.go:1441-1447 -/
def StandardLevel.bomRefs (x : StandardLevel) : List String :=
  ident x.bomRef

/-- cyclonedx.go:1416-1427 -/
def StandardDefinition.bomRefs (x : StandardDefinition) : List String :=
  ident x.bomRef ++
    x.requirements.elems.flatMap StandardRequirement.bomRefs ++
    x.levels.elems.flatMap StandardLevel.bomRefs

/-- cyclonedx.go:598-601 -/
def Definitions.bomRefs (x : Definitions) : List String :=
  x.standards.elems.flatMap StandardDefinition.bomRefs ++
    x.patents.elems.flatMap PatentChoice.bomRefs

/-- cyclonedx.go:1521-1534 -/
def TaskTrigger.bomRefs (x : TaskTrigger) : List String :=
  ident x.bomRef

/-- cyclonedx.go:1568-1581 -/
def TaskWorkspace.bomRefs (x : TaskWorkspace) : List String :=
  ident x.bomRef

/-- cyclonedx.go:1459-1475 -/
def Task.bomRefs (x : Task) : List String :=
  ident x.bomRef ++
    x.trigger.toList.flatMap TaskTrigger.bomRefs ++
    x.workspaces.elems.flatMap TaskWorkspace.bomRefs

/-- cyclonedx.go:1689-1707 -/
def Workflow.bomRefs (x : Workflow) : List String :=
  ident x.bomRef ++
    x.tasks.elems.flatMap Task.bomRefs ++
    x.trigger.toList.flatMap TaskTrigger.bomRefs ++
    x.workspaces.elems.flatMap TaskWorkspace.bomRefs

/-- cyclonedx.go:800-806 -/
def Formula.bomRefs (x : Formula) : List String :=
  ident x.bomRef ++
    x.components.elems.flatMap Component.bomRefs ++
    x.services.elems.flatMap Service.bomRefs ++
    x.workflows.elems.flatMap Workflow.bomRefs

/-- cyclonedx.go:1610-1614 -/
def ToolsChoice.bomRefs (x : ToolsChoice) : List String :=
  x.components.elems.flatMap Component.bomRefs ++
    x.services.elems.flatMap Service.bomRefs

/-- cyclonedx.go:1042-1054 -/
def Metadata.bomRefs (x : Metadata) : List String :=
  x.tools.toList.flatMap ToolsChoice.bomRefs ++
    x.authors.elems.flatMap OrganizationalContact.bomRefs ++
    x.component.toList.flatMap Component.bomRefs ++
    x.manufacture.toList.flatMap OrganizationalEntity.bomRefs ++
    x.manufacturer.toList.flatMap OrganizationalEntity.bomRefs ++
    x.supplier.toList.flatMap OrganizationalEntity.bomRefs ++
    x.licenses.elems.flatMap LicenseChoice.bomRefs

/-- cyclonedx.go:349-352 -/
def Credits.bomRefs (x : Credits) : List String :=
  x.organizations.elems.flatMap OrganizationalEntity.bomRefs ++
    x.individuals.elems.flatMap OrganizationalContact.bomRefs

/-- cyclonedx.go:1634-1656 -/
def Vulnerability.bomRefs (x : Vulnerability) : List String :=
  ident x.bomRef ++
    x.credits.toList.flatMap Credits.bomRefs ++
    x.tools.toList.flatMap ToolsChoice.bomRefs

/-- cyclonedx.go:1712-1721 -/
def Citation.bomRefs (x : Citation) : List String :=
  ident x.bomRef

/-- cyclonedx.go:105-131 -/
def BOM.bomRefs (x : BOM) : List String :=
  x.metadata.toList.flatMap Metadata.bomRefs ++
    x.components.elems.flatMap Component.bomRefs ++
    x.services.elems.flatMap Service.bomRefs ++
    x.compositions.elems.flatMap Composition.bomRefs ++
    x.vulnerabilities.elems.flatMap Vulnerability.bomRefs ++
    x.annotations.elems.flatMap Annotation.bomRefs ++
    x.formulation.elems.flatMap Formula.bomRefs ++
    x.declarations.toList.flatMap Declarations.bomRefs ++
    x.definitions.toList.flatMap Definitions.bomRefs ++
    x.citations.elems.flatMap Citation.bomRefs

/-- The identifiers in a BOM, as far as JSON has a place for them. -/
def BOM.jsonRefs (b : BOM) : List String := BOM.bomRefs (w := .json) b

/-- The identifiers in a BOM, as far as XML has a place for them. -/
def BOM.xmlRefs (b : BOM) : List String := BOM.bomRefs (w := .xml) b

end Verif
