import Verif.Model.Types

/-!
# The values that can be written as JSON

GENERATED by `tools/gen_writable.py` from the struct declarations of `/repo/cyclonedx.go`; do not edit by
hand.

`T.Writable x` says that nothing in `x`, at any depth, is ambiguous in a way the library refuses: every
license has exactly one of identifier and name; a choice of tools has exactly one of its two forms; an
evidence identity, a certificate state and a certificate extension have at most one; and every
floating-point number is finite.  Types in which none of these occur have no condition.  It is stated on the
values alone, without reference to how they are written.
-/

namespace Verif

/-- Not both alternatives (cyclonedx.go:1874-1877). -/
def CertificateState.Writable (x : CertificateState) : Prop := x.predefined = none ∨ x.custom = none

/-- Not both alternatives (cyclonedx.go:1907-1910). -/
def CertificateExtension.Writable (x : CertificateExtension) : Prop := x.common = none ∨ x.custom = none

/-- cyclonedx.go:171-191 -/
def CertificateProperties.Writable (x : CertificateProperties) : Prop :=
  (∀ y ∈ x.certificateState.elems, CertificateState.Writable y) ∧
  (∀ y ∈ x.certificateExtensions.elems, CertificateExtension.Writable y)

/-- cyclonedx.go:500-507 -/
def CryptoProperties.Writable (x : CryptoProperties) : Prop :=
  (∀ y ∈ x.certificateProperties, CertificateProperties.Writable y)

/-- cyclonedx.go:710-714 -/
def EvidenceIdentityMethod.Writable (x : EvidenceIdentityMethod) : Prop :=
  (∀ y ∈ x.confidence, F32.Finite y)

/-- cyclonedx.go:688-694 -/
def EvidenceIdentity.Writable (x : EvidenceIdentity) : Prop :=
  (∀ y ∈ x.confidence, F32.Finite y) ∧
  (∀ y ∈ x.methods.elems, EvidenceIdentityMethod.Writable y)

/-- Not both one identity and a list of identities (cyclonedx.go:683-686). -/
def EvidenceIdentityChoice.Writable (x : EvidenceIdentityChoice) : Prop :=
  (x.identity = none ∨ x.identities = .nil) ∧ (∀ y ∈ x.identity, y.Writable) ∧
  (∀ y ∈ x.identities.elems, y.Writable)

/-- Exactly one of identifier and name (cyclonedx.go:936-945). -/
def License.Writable (x : License) : Prop := ¬ (x.id = "" ↔ x.name = "")

/-- cyclonedx.go:956-964 -/
def LicenseChoice.Writable (x : LicenseChoice) : Prop :=
  (∀ y ∈ x.license, License.Writable y)

/-- cyclonedx.go:672-678 -/
def Evidence.Writable (x : Evidence) : Prop :=
  (∀ y ∈ x.identity, EvidenceIdentityChoice.Writable y) ∧
  (∀ y ∈ x.licenses.elems, LicenseChoice.Writable y)

/-- cyclonedx.go:1099-1102 -/
def MLModelCO2Measure.Writable (x : MLModelCO2Measure) : Prop :=
  F32.Finite x.value

/-- cyclonedx.go:1131-1134 -/
def MLModelEnergyMeasure.Writable (x : MLModelEnergyMeasure) : Prop :=
  F32.Finite x.value

/-- cyclonedx.go:1136-1143 -/
def MLModelEnergyProvider.Writable (x : MLModelEnergyProvider) : Prop :=
  (∀ y ∈ x.energyProvided, MLModelEnergyMeasure.Writable y)

/-- cyclonedx.go:1108-1115 -/
def MLModelEnergyConsumption.Writable (x : MLModelEnergyConsumption) : Prop :=
  (∀ y ∈ x.energyProviders.elems, MLModelEnergyProvider.Writable y) ∧
  MLModelEnergyMeasure.Writable x.activityEnergyCost ∧
  (∀ y ∈ x.co2CostEquivalent, MLModelCO2Measure.Writable y) ∧
  (∀ y ∈ x.co2CostOffset, MLModelCO2Measure.Writable y)

/-- cyclonedx.go:1082-1085 -/
def MLModelCardEnvironmentalConsiderations.Writable (x : MLModelCardEnvironmentalConsiderations) : Prop :=
  (∀ y ∈ x.energyConsumptions.elems, MLModelEnergyConsumption.Writable y)

/-- cyclonedx.go:1072-1080 -/
def MLModelCardConsiderations.Writable (x : MLModelCardConsiderations) : Prop :=
  (∀ y ∈ x.environmentalConsiderations, MLModelCardEnvironmentalConsiderations.Writable y)

/-- cyclonedx.go:1065-1070 -/
def MLModelCard.Writable (x : MLModelCard) : Prop :=
  (∀ y ∈ x.considerations, MLModelCardConsiderations.Writable y)

mutual
/-- cyclonedx.go:239-276 -/
def Component.Writable : Component → Prop
  | .mk _ _ _ _ _ _ _ _ _ _ _ _ _ _ licenses _ _ _ _ _ _ _ pedigree _ _ components evidence _ modelCard _ cryptoProperties _ _ _ _ _ =>
    (∀ y ∈ licenses.elems, LicenseChoice.Writable y) ∧
    WritablePedigreeOpt pedigree ∧
    WritableComponents components ∧
    (∀ y ∈ evidence, Evidence.Writable y) ∧
    (∀ y ∈ modelCard, MLModelCard.Writable y) ∧
    (∀ y ∈ cryptoProperties, CryptoProperties.Writable y)
/-- A list of components, at any depth. -/
def WritableComponents : PSlice Component → Prop
  | .list xs => WritableComponentList xs
  | _ => True
/-- A list of components, at any depth. -/
def WritableComponentList : List Component → Prop
  | [] => True
  | c :: cs => c.Writable ∧ WritableComponentList cs
/-- An optional pedigree. -/
def WritablePedigreeOpt : Option (Pedigree Component) → Prop
  | none => True
  | some p => WritablePedigree p
/-- cyclonedx.go:1252-1259 -/
def WritablePedigree : Pedigree Component → Prop
  | .mk ancestors descendants variants _ _ _ =>
    WritableComponents ancestors ∧
    WritableComponents descendants ∧
    WritableComponents variants
end

mutual
/-- cyclonedx.go:1362-1382 -/
def Service.Writable : Service → Prop
  | .mk _ _ _ _ _ _ _ _ _ _ licenses _ _ services _ _ _ _ _ =>
    (∀ y ∈ licenses.elems, LicenseChoice.Writable y) ∧
    WritableServices services
/-- A list of services, at any depth. -/
def WritableServices : PSlice Service → Prop
  | .list xs => WritableServiceList xs
  | _ => True
/-- A list of services, at any depth. -/
def WritableServiceList : List Service → Prop
  | [] => True
  | c :: cs => c.Writable ∧ WritableServiceList cs
end

/-- cyclonedx.go:60-65 -/
def Annotator.Writable (x : Annotator) : Prop :=
  (∀ y ∈ x.component, Component.Writable y) ∧ (∀ y ∈ x.service, Service.Writable y)

/-- cyclonedx.go:51-58 -/
def Annotation.Writable (x : Annotation) : Prop :=
  (∀ y ∈ x.annotator, Annotator.Writable y)

/-- cyclonedx.go:94-98 -/
def AttestationConformance.Writable (x : AttestationConformance) : Prop :=
  (∀ y ∈ x.score, F64.Finite y)

/-- cyclonedx.go:100-103 -/
def AttestationConfidence.Writable (x : AttestationConfidence) : Prop :=
  (∀ y ∈ x.score, F64.Finite y)

/-- cyclonedx.go:86-92 -/
def AttestationMap.Writable (x : AttestationMap) : Prop :=
  (∀ y ∈ x.conformance, AttestationConformance.Writable y) ∧
  (∀ y ∈ x.confidence, AttestationConfidence.Writable y)

/-- cyclonedx.go:79-84 -/
def Attestation.Writable (x : Attestation) : Prop :=
  (∀ y ∈ x.map.elems, AttestationMap.Writable y)

/-- cyclonedx.go:624-628 -/
def Targets.Writable (x : Targets) : Prop :=
  (∀ y ∈ x.components.elems, Component.Writable y) ∧
  (∀ y ∈ x.services.elems, Service.Writable y)

/-- cyclonedx.go:576-584 -/
def Declarations.Writable (x : Declarations) : Prop :=
  (∀ y ∈ x.attestations.elems, Attestation.Writable y) ∧
  (∀ y ∈ x.targets, Targets.Writable y)

/-- cyclonedx.go:800-806 -/
def Formula.Writable (x : Formula) : Prop :=
  (∀ y ∈ x.components.elems, Component.Writable y) ∧
  (∀ y ∈ x.services.elems, Service.Writable y)

/-- Either the legacy list of tools, or components or services or both, but not nothing
(cyclonedx.go:1610-1614). -/
def ToolsChoice.Writable (x : ToolsChoice) : Prop :=
  ((x.tools ≠ .nil ∧ x.components = .nil ∧ x.services = .nil) ∨
    (x.tools = .nil ∧ (x.components ≠ .nil ∨ x.services ≠ .nil))) ∧
  (∀ y ∈ x.components.elems, y.Writable) ∧ (∀ y ∈ x.services.elems, y.Writable)

/-- cyclonedx.go:1042-1054 -/
def Metadata.Writable (x : Metadata) : Prop :=
  (∀ y ∈ x.tools, ToolsChoice.Writable y) ∧
  (∀ y ∈ x.component, Component.Writable y) ∧
  (∀ y ∈ x.licenses.elems, LicenseChoice.Writable y)

/-- cyclonedx.go:1667-1674 -/
def VulnerabilityRating.Writable (x : VulnerabilityRating) : Prop :=
  (∀ y ∈ x.score, F64.Finite y)

/-- cyclonedx.go:1634-1656 -/
def Vulnerability.Writable (x : Vulnerability) : Prop :=
  (∀ y ∈ x.ratings.elems, VulnerabilityRating.Writable y) ∧
  (∀ y ∈ x.tools, ToolsChoice.Writable y)

/-- cyclonedx.go:105-131 -/
def BOM.Writable (x : BOM) : Prop :=
  (∀ y ∈ x.metadata, Metadata.Writable y) ∧
  (∀ y ∈ x.components.elems, Component.Writable y) ∧
  (∀ y ∈ x.services.elems, Service.Writable y) ∧
  (∀ y ∈ x.vulnerabilities.elems, Vulnerability.Writable y) ∧
  (∀ y ∈ x.annotations.elems, Annotation.Writable y) ∧
  (∀ y ∈ x.formulation.elems, Formula.Writable y) ∧
  (∀ y ∈ x.declarations, Declarations.Writable y)

end Verif
