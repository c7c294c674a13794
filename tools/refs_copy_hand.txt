-- @@ HEAD
import Verif.Json.RefLaws
import Verif.Model.Gob

/-!
# The deep copy keeps the identifiers

GENERATED by `tools/gen_refs.py`; do not edit by hand.
-/

namespace Verif

theorem refs_copyWith {α : Type} (f : α → List String) (g : α → α) (p : PSlice α) :
    (p.copyWith g).elems.flatMap f = p.elems.flatMap fun a => f (g a) := by
  cases p with
  | list xs => cases xs <;> simp [PSlice.copyWith, PSlice.elems, List.flatMap_map]
  | _ => simp [PSlice.copyWith, PSlice.elems]

theorem refs_copyOpt {α : Type} (f : α → List String) (g : α → α) (o : Option α) :
    (o.map g).toList.flatMap f = o.toList.flatMap fun a => f (g a) := by
  cases o <;> simp

variable [Wire]

-- @@ MLDatasetChoice
theorem MLDatasetChoice.refs_copy (x : MLDatasetChoice) : x.copy.bomRefs = x.bomRefs := by
  simp only [MLDatasetChoice.bomRefs, MLDatasetChoice.copy, refs_copyOpt, ComponentData.refs_copy]

-- @@ AsserterChoice
theorem AsserterChoice.refs_copy (x : AsserterChoice) : x.copy.bomRefs = x.bomRefs := by
  rcases x with ⟨_ | _, _ | _, _⟩ <;>
    simp [AsserterChoice.bomRefs, AsserterChoice.copy, OrganizationalEntity.refs_copy, OrganizationalContact.refs_copy]

-- @@ PatentChoice
theorem PatentChoice.refs_copy (x : PatentChoice) : x.copy.bomRefs = x.bomRefs := by
  rcases x with ⟨_ | _, _ | _⟩ <;>
    simp [PatentChoice.bomRefs, PatentChoice.copy, Patent.refs_copy, PatentFamily.refs_copy]

-- @@ Component
mutual
theorem Component.refs_copy : ∀ x : Component, x.copy.bomRefs = x.bomRefs
  | .mk .. => by
    simp only [Component.bomRefs, Component.copy, refs_copyWith, refs_copyOpt, OrganizationalEntity.refs_copy,
      OrganizationalContact.refs_copy, LicenseChoice.refs_copy, Evidence.refs_copy, MLModelCard.refs_copy,
      ComponentData.refs_copy, PatentAssertion.refs_copy, refs_copyComponents, refs_copyPedigreeOpt]
theorem refs_copyComponents : ∀ p : PSlice Component, refsComponents (copyComponents p) = refsComponents p
  | .nil => rfl
  | .nilSlice => rfl
  | .list [] => by simp [copyComponents, refsComponents, refsComponentList]
  | .list (c :: cs) => by
    simp only [copyComponents, refsComponents, refsComponentList, Component.refs_copy c, refs_copyComponentList cs]
theorem refs_copyComponentList : ∀ cs : List Component, refsComponentList (copyComponentList cs) = refsComponentList cs
  | [] => rfl
  | c :: cs => by
    simp only [copyComponentList, refsComponentList, Component.refs_copy c, refs_copyComponentList cs]
theorem refs_copyPedigreeOpt : ∀ o : Option (Pedigree Component), refsPedigreeOpt (copyPedigreeOpt o) = refsPedigreeOpt o
  | none => rfl
  | some p => by simp only [copyPedigreeOpt, refsPedigreeOpt, refs_copyPedigree p]
theorem refs_copyPedigree : ∀ p : Pedigree Component, refsPedigree (copyPedigree p) = refsPedigree p
  | .mk .. => by simp only [copyPedigree, refsPedigree, refs_copyComponents]
end

-- @@ Service
mutual
theorem Service.refs_copy : ∀ x : Service, x.copy.bomRefs = x.bomRefs
  | .mk .. => by
    simp only [Service.bomRefs, Service.copy, refs_copyWith, refs_copyOpt, OrganizationalEntity.refs_copy,
      LicenseChoice.refs_copy, DataClassification.refs_copy, PatentAssertion.refs_copy, refs_copyServices]
theorem refs_copyServices : ∀ p : PSlice Service, refsServices (copyServices p) = refsServices p
  | .nil => rfl
  | .nilSlice => rfl
  | .list [] => by simp [copyServices, refsServices, refsServiceList]
  | .list (c :: cs) => by
    simp only [copyServices, refsServices, refsServiceList, Service.refs_copy c, refs_copyServiceList cs]
theorem refs_copyServiceList : ∀ cs : List Service, refsServiceList (copyServiceList cs) = refsServiceList cs
  | [] => rfl
  | c :: cs => by
    simp only [copyServiceList, refsServiceList, Service.refs_copy c, refs_copyServiceList cs]
end

