import Verif.Json.RefLaws
import Verif.Model.Gob

/-!
# The deep copy keeps the identifiers

GENERATED by `tools/gen_refs.py`; do not edit by hand.
-/

namespace Verif

theorem refs_copyWith {α : Type} (f : α → List String) (g : α → α) (p : PSlice α) :
    (p.copyWith g).elems.flatMap f = p.elems.flatMap fun a => f (g a) := by
  cases p with
  | list xs => cases xs <;> simp [PSlice.copyWith, PSlice.elems, List.flatMap_map]
  | _ => simp [PSlice.copyWith, PSlice.elems]

theorem refs_copyOpt {α : Type} (f : α → List String) (g : α → α) (o : Option α) :
    (o.map g).toList.flatMap f = o.toList.flatMap fun a => f (g a) := by
  cases o <;> simp

variable [Wire]


theorem OrganizationalContact.refs_copy (x : OrganizationalContact) : x.copy.bomRefs = x.bomRefs := by
  simp only [OrganizationalContact.bomRefs, OrganizationalContact.copy, refs_copyWith, refs_copyOpt]

theorem PostalAddress.refs_copy (x : PostalAddress) : x.copy.bomRefs = x.bomRefs := by
  simp only [PostalAddress.bomRefs, PostalAddress.copy, refs_copyWith, refs_copyOpt]

theorem OrganizationalEntity.refs_copy (x : OrganizationalEntity) : x.copy.bomRefs = x.bomRefs := by
  simp only [OrganizationalEntity.bomRefs, OrganizationalEntity.copy, refs_copyWith, refs_copyOpt, OrganizationalContact.refs_copy, PostalAddress.refs_copy]

theorem ComponentDataGovernanceResponsibleParty.refs_copy (x : ComponentDataGovernanceResponsibleParty) : x.copy.bomRefs = x.bomRefs := by
  simp only [ComponentDataGovernanceResponsibleParty.bomRefs, ComponentDataGovernanceResponsibleParty.copy, refs_copyWith, refs_copyOpt, OrganizationalContact.refs_copy, OrganizationalEntity.refs_copy]

theorem DataGovernance.refs_copy (x : DataGovernance) : x.copy.bomRefs = x.bomRefs := by
  simp only [DataGovernance.bomRefs, DataGovernance.copy, refs_copyWith, refs_copyOpt, ComponentDataGovernanceResponsibleParty.refs_copy]

theorem ComponentData.refs_copy (x : ComponentData) : x.copy.bomRefs = x.bomRefs := by
  simp only [ComponentData.bomRefs, ComponentData.copy, refs_copyWith, refs_copyOpt, DataGovernance.refs_copy]

theorem EvidenceOccurrence.refs_copy (x : EvidenceOccurrence) : x.copy.bomRefs = x.bomRefs := by
  simp only [EvidenceOccurrence.bomRefs, EvidenceOccurrence.copy, refs_copyWith, refs_copyOpt]

theorem OrganizationalEntityOrContact.refs_copy (x : OrganizationalEntityOrContact) : x.copy.bomRefs = x.bomRefs := by
  simp only [OrganizationalEntityOrContact.bomRefs, OrganizationalEntityOrContact.copy, refs_copyWith, refs_copyOpt, OrganizationalContact.refs_copy, OrganizationalEntity.refs_copy]

theorem Licensing.refs_copy (x : Licensing) : x.copy.bomRefs = x.bomRefs := by
  simp only [Licensing.bomRefs, Licensing.copy, refs_copyWith, refs_copyOpt, OrganizationalEntityOrContact.refs_copy]

theorem License.refs_copy (x : License) : x.copy.bomRefs = x.bomRefs := by
  simp only [License.bomRefs, License.copy, refs_copyWith, refs_copyOpt, Licensing.refs_copy]

theorem LicenseExpressionDetail.refs_copy (x : LicenseExpressionDetail) : x.copy.bomRefs = x.bomRefs := by
  simp only [LicenseExpressionDetail.bomRefs, LicenseExpressionDetail.copy, refs_copyWith, refs_copyOpt]

theorem LicenseChoice.refs_copy (x : LicenseChoice) : x.copy.bomRefs = x.bomRefs := by
  simp only [LicenseChoice.bomRefs, LicenseChoice.copy, refs_copyWith, refs_copyOpt, License.refs_copy, LicenseExpressionDetail.refs_copy, Licensing.refs_copy]

theorem Evidence.refs_copy (x : Evidence) : x.copy.bomRefs = x.bomRefs := by
  simp only [Evidence.bomRefs, Evidence.copy, refs_copyWith, refs_copyOpt, EvidenceOccurrence.refs_copy, LicenseChoice.refs_copy]

theorem MLModelEnergyProvider.refs_copy (x : MLModelEnergyProvider) : x.copy.bomRefs = x.bomRefs := by
  simp only [MLModelEnergyProvider.bomRefs, MLModelEnergyProvider.copy, refs_copyWith, refs_copyOpt, OrganizationalEntity.refs_copy]

theorem MLModelEnergyConsumption.refs_copy (x : MLModelEnergyConsumption) : x.copy.bomRefs = x.bomRefs := by
  simp only [MLModelEnergyConsumption.bomRefs, MLModelEnergyConsumption.copy, refs_copyWith, refs_copyOpt, MLModelEnergyProvider.refs_copy]

theorem MLModelCardEnvironmentalConsiderations.refs_copy (x : MLModelCardEnvironmentalConsiderations) : x.copy.bomRefs = x.bomRefs := by
  simp only [MLModelCardEnvironmentalConsiderations.bomRefs, MLModelCardEnvironmentalConsiderations.copy, refs_copyWith, refs_copyOpt, MLModelEnergyConsumption.refs_copy]

theorem MLModelCardConsiderations.refs_copy (x : MLModelCardConsiderations) : x.copy.bomRefs = x.bomRefs := by
  simp only [MLModelCardConsiderations.bomRefs, MLModelCardConsiderations.copy, refs_copyWith, refs_copyOpt, MLModelCardEnvironmentalConsiderations.refs_copy]

theorem MLDatasetChoice.refs_copy (x : MLDatasetChoice) : x.copy.bomRefs = x.bomRefs := by
  simp only [MLDatasetChoice.bomRefs, MLDatasetChoice.copy, refs_copyOpt, ComponentData.refs_copy]


theorem MLModelParameters.refs_copy (x : MLModelParameters) : x.copy.bomRefs = x.bomRefs := by
  simp only [MLModelParameters.bomRefs, MLModelParameters.copy, refs_copyWith, refs_copyOpt, MLDatasetChoice.refs_copy]

theorem MLModelCard.refs_copy (x : MLModelCard) : x.copy.bomRefs = x.bomRefs := by
  simp only [MLModelCard.bomRefs, MLModelCard.copy, refs_copyWith, refs_copyOpt, MLModelCardConsiderations.refs_copy, MLModelParameters.refs_copy]

theorem AsserterChoice.refs_copy (x : AsserterChoice) : x.copy.bomRefs = x.bomRefs := by
  rcases x with ⟨_ | _, _ | _, _⟩ <;>
    simp [AsserterChoice.bomRefs, AsserterChoice.copy, OrganizationalEntity.refs_copy, OrganizationalContact.refs_copy]


theorem PatentAssertion.refs_copy (x : PatentAssertion) : x.copy.bomRefs = x.bomRefs := by
  simp only [PatentAssertion.bomRefs, PatentAssertion.copy, refs_copyWith, refs_copyOpt, AsserterChoice.refs_copy]

mutual
theorem Component.refs_copy : ∀ x : Component, x.copy.bomRefs = x.bomRefs
  | .mk .. => by
    simp only [Component.bomRefs, Component.copy, refs_copyWith, refs_copyOpt, OrganizationalEntity.refs_copy,
      OrganizationalContact.refs_copy, LicenseChoice.refs_copy, Evidence.refs_copy, MLModelCard.refs_copy,
      ComponentData.refs_copy, PatentAssertion.refs_copy, refs_copyComponents, refs_copyPedigreeOpt]
theorem refs_copyComponents : ∀ p : PSlice Component, refsComponents (copyComponents p) = refsComponents p
  | .nil => rfl
  | .nilSlice => rfl
  | .list [] => by simp [copyComponents, refsComponents, refsComponentList]
  | .list (c :: cs) => by
    simp only [copyComponents, refsComponents, refsComponentList, Component.refs_copy c, refs_copyComponentList cs]
theorem refs_copyComponentList : ∀ cs : List Component, refsComponentList (copyComponentList cs) = refsComponentList cs
  | [] => rfl
  | c :: cs => by
    simp only [copyComponentList, refsComponentList, Component.refs_copy c, refs_copyComponentList cs]
theorem refs_copyPedigreeOpt : ∀ o : Option (Pedigree Component), refsPedigreeOpt (copyPedigreeOpt o) = refsPedigreeOpt o
  | none => rfl
  | some p => by simp only [copyPedigreeOpt, refsPedigreeOpt, refs_copyPedigree p]
theorem refs_copyPedigree : ∀ p : Pedigree Component, refsPedigree (copyPedigree p) = refsPedigree p
  | .mk .. => by simp only [copyPedigree, refsPedigree, refs_copyComponents]
end


theorem DataClassification.refs_copy (x : DataClassification) : x.copy.bomRefs = x.bomRefs := by
  simp only [DataClassification.bomRefs, DataClassification.copy, refs_copyWith, refs_copyOpt, DataGovernance.refs_copy]

mutual
theorem Service.refs_copy : ∀ x : Service, x.copy.bomRefs = x.bomRefs
  | .mk .. => by
    simp only [Service.bomRefs, Service.copy, refs_copyWith, refs_copyOpt, OrganizationalEntity.refs_copy,
      LicenseChoice.refs_copy, DataClassification.refs_copy, PatentAssertion.refs_copy, refs_copyServices]
theorem refs_copyServices : ∀ p : PSlice Service, refsServices (copyServices p) = refsServices p
  | .nil => rfl
  | .nilSlice => rfl
  | .list [] => by simp [copyServices, refsServices, refsServiceList]
  | .list (c :: cs) => by
    simp only [copyServices, refsServices, refsServiceList, Service.refs_copy c, refs_copyServiceList cs]
theorem refs_copyServiceList : ∀ cs : List Service, refsServiceList (copyServiceList cs) = refsServiceList cs
  | [] => rfl
  | c :: cs => by
    simp only [copyServiceList, refsServiceList, Service.refs_copy c, refs_copyServiceList cs]
end


theorem Annotator.refs_copy (x : Annotator) : x.copy.bomRefs = x.bomRefs := by
  simp only [Annotator.bomRefs, Annotator.copy, refs_copyWith, refs_copyOpt, Component.refs_copy, OrganizationalContact.refs_copy, OrganizationalEntity.refs_copy, Service.refs_copy]

theorem Annotation.refs_copy (x : Annotation) : x.copy.bomRefs = x.bomRefs := by
  simp only [Annotation.bomRefs, Annotation.copy, refs_copyWith, refs_copyOpt, Annotator.refs_copy]

theorem Assessor.refs_copy (x : Assessor) : x.copy.bomRefs = x.bomRefs := by
  simp only [Assessor.bomRefs, Assessor.copy, refs_copyWith, refs_copyOpt, OrganizationalEntity.refs_copy]

theorem Composition.refs_copy (x : Composition) : x.copy.bomRefs = x.bomRefs := by
  simp only [Composition.bomRefs, Composition.copy, refs_copyWith, refs_copyOpt]

theorem Claim.refs_copy (x : Claim) : x.copy.bomRefs = x.bomRefs := by
  simp only [Claim.bomRefs, Claim.copy, refs_copyWith, refs_copyOpt]

theorem EvidenceData.refs_copy (x : EvidenceData) : x.copy.bomRefs = x.bomRefs := by
  simp only [EvidenceData.bomRefs, EvidenceData.copy, refs_copyWith, refs_copyOpt, DataClassification.refs_copy, DataGovernance.refs_copy]

theorem DeclarationEvidence.refs_copy (x : DeclarationEvidence) : x.copy.bomRefs = x.bomRefs := by
  simp only [DeclarationEvidence.bomRefs, DeclarationEvidence.copy, refs_copyWith, refs_copyOpt, EvidenceData.refs_copy, OrganizationalContact.refs_copy]

theorem Targets.refs_copy (x : Targets) : x.copy.bomRefs = x.bomRefs := by
  simp only [Targets.bomRefs, Targets.copy, refs_copyWith, refs_copyOpt, Component.refs_copy, OrganizationalEntity.refs_copy, Service.refs_copy]

theorem Signatory.refs_copy (x : Signatory) : x.copy.bomRefs = x.bomRefs := by
  simp only [Signatory.bomRefs, Signatory.copy, refs_copyWith, refs_copyOpt, OrganizationalEntity.refs_copy]

theorem Affirmation.refs_copy (x : Affirmation) : x.copy.bomRefs = x.bomRefs := by
  simp only [Affirmation.bomRefs, Affirmation.copy, refs_copyWith, refs_copyOpt, Signatory.refs_copy]

theorem Declarations.refs_copy (x : Declarations) : x.copy.bomRefs = x.bomRefs := by
  simp only [Declarations.bomRefs, Declarations.copy, refs_copyWith, refs_copyOpt, Affirmation.refs_copy, Assessor.refs_copy, Claim.refs_copy, DeclarationEvidence.refs_copy, Targets.refs_copy]

theorem Patent.refs_copy (x : Patent) : x.copy.bomRefs = x.bomRefs := by
  simp only [Patent.bomRefs, Patent.copy, refs_copyWith, refs_copyOpt, OrganizationalEntityOrContact.refs_copy]

theorem PatentFamily.refs_copy (x : PatentFamily) : x.copy.bomRefs = x.bomRefs := by
  simp only [PatentFamily.bomRefs, PatentFamily.copy, refs_copyWith, refs_copyOpt]

theorem PatentChoice.refs_copy (x : PatentChoice) : x.copy.bomRefs = x.bomRefs := by
  rcases x with ⟨_ | _, _ | _⟩ <;>
    simp [PatentChoice.bomRefs, PatentChoice.copy, Patent.refs_copy, PatentFamily.refs_copy]


theorem StandardRequirement.refs_copy (x : StandardRequirement) : x.copy.bomRefs = x.bomRefs := by
  simp only [StandardRequirement.bomRefs, StandardRequirement.copy, refs_copyWith, refs_copyOpt]

theorem StandardLevel.refs_copy (x : StandardLevel) : x.copy.bomRefs = x.bomRefs := by
  simp only [StandardLevel.bomRefs, StandardLevel.copy, refs_copyWith, refs_copyOpt]

theorem StandardDefinition.refs_copy (x : StandardDefinition) : x.copy.bomRefs = x.bomRefs := by
  simp only [StandardDefinition.bomRefs, StandardDefinition.copy, refs_copyWith, refs_copyOpt, StandardLevel.refs_copy, StandardRequirement.refs_copy]

theorem Definitions.refs_copy (x : Definitions) : x.copy.bomRefs = x.bomRefs := by
  simp only [Definitions.bomRefs, Definitions.copy, refs_copyWith, refs_copyOpt, PatentChoice.refs_copy, StandardDefinition.refs_copy]

theorem TaskTrigger.refs_copy (x : TaskTrigger) : x.copy.bomRefs = x.bomRefs := by
  simp only [TaskTrigger.bomRefs, TaskTrigger.copy, refs_copyWith, refs_copyOpt]

theorem TaskWorkspace.refs_copy (x : TaskWorkspace) : x.copy.bomRefs = x.bomRefs := by
  simp only [TaskWorkspace.bomRefs, TaskWorkspace.copy, refs_copyWith, refs_copyOpt]

theorem Task.refs_copy (x : Task) : x.copy.bomRefs = x.bomRefs := by
  simp only [Task.bomRefs, Task.copy, refs_copyWith, refs_copyOpt, TaskTrigger.refs_copy, TaskWorkspace.refs_copy]

theorem Workflow.refs_copy (x : Workflow) : x.copy.bomRefs = x.bomRefs := by
  simp only [Workflow.bomRefs, Workflow.copy, refs_copyWith, refs_copyOpt, Task.refs_copy, TaskTrigger.refs_copy, TaskWorkspace.refs_copy]

theorem Formula.refs_copy (x : Formula) : x.copy.bomRefs = x.bomRefs := by
  simp only [Formula.bomRefs, Formula.copy, refs_copyWith, refs_copyOpt, Component.refs_copy, Service.refs_copy, Workflow.refs_copy]

theorem ToolsChoice.refs_copy (x : ToolsChoice) : x.copy.bomRefs = x.bomRefs := by
  simp only [ToolsChoice.bomRefs, ToolsChoice.copy, refs_copyWith, refs_copyOpt, Component.refs_copy, Service.refs_copy]

theorem Metadata.refs_copy (x : Metadata) : x.copy.bomRefs = x.bomRefs := by
  simp only [Metadata.bomRefs, Metadata.copy, refs_copyWith, refs_copyOpt, Component.refs_copy, LicenseChoice.refs_copy, OrganizationalContact.refs_copy, OrganizationalEntity.refs_copy, ToolsChoice.refs_copy]

theorem Credits.refs_copy (x : Credits) : x.copy.bomRefs = x.bomRefs := by
  simp only [Credits.bomRefs, Credits.copy, refs_copyWith, refs_copyOpt, OrganizationalContact.refs_copy, OrganizationalEntity.refs_copy]

theorem Vulnerability.refs_copy (x : Vulnerability) : x.copy.bomRefs = x.bomRefs := by
  simp only [Vulnerability.bomRefs, Vulnerability.copy, refs_copyWith, refs_copyOpt, Credits.refs_copy, ToolsChoice.refs_copy]

theorem Citation.refs_copy (x : Citation) : x.copy.bomRefs = x.bomRefs := by
  simp only [Citation.bomRefs, Citation.copy, refs_copyWith, refs_copyOpt]

theorem BOM.refs_copy (x : BOM) : x.copy.bomRefs = x.bomRefs := by
  simp only [BOM.bomRefs, BOM.copy, refs_copyWith, refs_copyOpt, Annotation.refs_copy, Citation.refs_copy, Component.refs_copy, Composition.refs_copy, Declarations.refs_copy, Definitions.refs_copy, Formula.refs_copy, Metadata.refs_copy, Service.refs_copy, Vulnerability.refs_copy]

end Verif
