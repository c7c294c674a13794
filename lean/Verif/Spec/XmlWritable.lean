import Verif.Model.Types

/-!
# The values that can be written as XML

GENERATED by `tools/gen_xwritable.py` from the struct declarations of `/repo/cyclonedx.go`; do not edit by hand.

`T.XWritable x` says that nothing in `x`, at any depth, is ambiguous in a way the library refuses: every license has
exactly one of identifier and name, a license choice not both a license and an expression, an environment variable
not both a property and a value, an asserter not both an organisation and an individual, certificate states and
extensions have at most one of their forms, and tools are not both in the legacy and in the new form.  Types in which
none of these occur have no condition.  It is stated on the values alone, without reference to how they are written.
-/

namespace Verif

/-- Not both forms (cyclonedx.go:1874-1877). -/
def CertificateState.XWritable (x : CertificateState) : Prop := x.predefined = none ∨ x.custom = none

/-- Not both forms (cyclonedx.go:1907-1910). -/
def CertificateExtension.XWritable (x : CertificateExtension) : Prop := x.common = none ∨ x.custom = none

/-- cyclonedx.go:171-191 -/
def CertificateProperties.XWritable (x : CertificateProperties) : Prop :=
  (∀ y ∈ x.certificateState.elems, CertificateState.XWritable y) ∧ (∀ y ∈ x.certificateExtensions.elems, CertificateExtension.XWritable y)

/-- cyclonedx.go:500-507 -/
def CryptoProperties.XWritable (x : CryptoProperties) : Prop :=
  (∀ y ∈ x.certificateProperties, CertificateProperties.XWritable y)

/-- Exactly one of identifier and name (cyclonedx.go:936-945). -/
def License.XWritable (x : License) : Prop := ¬ (x.id = "" ↔ x.name = "")

/-- Not both a license and an expression (cyclonedx.go:956-964). -/
def LicenseChoice.XWritable (x : LicenseChoice) : Prop := ∀ y ∈ x.license, x.expression = "" ∧ License.XWritable y

/-- cyclonedx.go:672-678 -/
def Evidence.XWritable (x : Evidence) : Prop := ∀ y ∈ x.licenses.elems, LicenseChoice.XWritable y

/-- Not both an organisation and an individual (cyclonedx.go:1772-1776). -/
def AsserterChoice.XWritable (x : AsserterChoice) : Prop := x.organization = none ∨ x.individual = none

/-- cyclonedx.go:1779-1785 -/
def PatentAssertion.XWritable (x : PatentAssertion) : Prop :=
  (∀ y ∈ x.asserter, AsserterChoice.XWritable y)

mutual
/-- cyclonedx.go:239-276 -/
def Component.XWritable : Component → Prop
  | .mk _ _ _ _ _ _ _ _ _ _ _ _ _ _ licenses _ _ _ _ _ _ _ pedigree _ _ components evidence _ _ _ cryptoProperties _ _ patentAssertions _ _ =>
    (∀ y ∈ licenses.elems, LicenseChoice.XWritable y) ∧
    XWritablePedigreeOpt pedigree ∧
    XWritableComponents components ∧
    (∀ y ∈ evidence, Evidence.XWritable y) ∧
    (∀ y ∈ cryptoProperties, CryptoProperties.XWritable y) ∧
    (∀ y ∈ patentAssertions.elems, PatentAssertion.XWritable y)
/-- A list of components, at any depth. -/
def XWritableComponents : PSlice Component → Prop
  | .list xs => XWritableComponentList xs
  | _ => True
/-- A list of components, at any depth. -/
def XWritableComponentList : List Component → Prop
  | [] => True
  | c :: cs => c.XWritable ∧ XWritableComponentList cs
/-- An optional pedigree. -/
def XWritablePedigreeOpt : Option (Pedigree Component) → Prop
  | none => True
  | some p => XWritablePedigree p
/-- cyclonedx.go:1252-1259 -/
def XWritablePedigree : Pedigree Component → Prop
  | .mk ancestors descendants variants _ _ _ =>
    XWritableComponents ancestors ∧
    XWritableComponents descendants ∧
    XWritableComponents variants
end

mutual
/-- cyclonedx.go:1362-1382 -/
def Service.XWritable : Service → Prop
  | .mk _ _ _ _ _ _ _ _ _ _ licenses _ _ services _ _ _ patentAssertions _ =>
    (∀ y ∈ licenses.elems, LicenseChoice.XWritable y) ∧
    XWritableServices services ∧
    (∀ y ∈ patentAssertions.elems, PatentAssertion.XWritable y)
/-- A list of services, at any depth. -/
def XWritableServices : PSlice Service → Prop
  | .list xs => XWritableServiceList xs
  | _ => True
/-- A list of services, at any depth. -/
def XWritableServiceList : List Service → Prop
  | [] => True
  | c :: cs => c.XWritable ∧ XWritableServiceList cs
end

/-- cyclonedx.go:60-65 -/
def Annotator.XWritable (x : Annotator) : Prop :=
  (∀ y ∈ x.component, Component.XWritable y) ∧ (∀ y ∈ x.service, Service.XWritable y)

/-- cyclonedx.go:51-58 -/
def Annotation.XWritable (x : Annotation) : Prop :=
  (∀ y ∈ x.annotator, Annotator.XWritable y)

/-- cyclonedx.go:624-628 -/
def Targets.XWritable (x : Targets) : Prop :=
  (∀ y ∈ x.components.elems, Component.XWritable y) ∧ (∀ y ∈ x.services.elems, Service.XWritable y)

/-- cyclonedx.go:576-584 -/
def Declarations.XWritable (x : Declarations) : Prop :=
  (∀ y ∈ x.targets, Targets.XWritable y)

/-- Not both a property and a value (cyclonedx.go:657-660). -/
def EnvironmentVariableChoice.XWritable (x : EnvironmentVariableChoice) : Prop := x.property = none ∨ x.value = ""

/-- cyclonedx.go:1482-1490 -/
def TaskInput.XWritable (x : TaskInput) : Prop :=
  (∀ y ∈ x.environmentVars.elems, EnvironmentVariableChoice.XWritable y)

/-- cyclonedx.go:1492-1501 -/
def TaskOutput.XWritable (x : TaskOutput) : Prop :=
  (∀ y ∈ x.environmentVars.elems, EnvironmentVariableChoice.XWritable y)

/-- cyclonedx.go:1521-1534 -/
def TaskTrigger.XWritable (x : TaskTrigger) : Prop :=
  (∀ y ∈ x.inputs.elems, TaskInput.XWritable y) ∧ (∀ y ∈ x.outputs.elems, TaskOutput.XWritable y)

/-- cyclonedx.go:1459-1475 -/
def Task.XWritable (x : Task) : Prop :=
  (∀ y ∈ x.trigger, TaskTrigger.XWritable y) ∧ (∀ y ∈ x.inputs.elems, TaskInput.XWritable y) ∧ (∀ y ∈ x.outputs.elems, TaskOutput.XWritable y)

/-- cyclonedx.go:1689-1707 -/
def Workflow.XWritable (x : Workflow) : Prop :=
  (∀ y ∈ x.tasks.elems, Task.XWritable y) ∧ (∀ y ∈ x.trigger, TaskTrigger.XWritable y) ∧ (∀ y ∈ x.inputs.elems, TaskInput.XWritable y) ∧ (∀ y ∈ x.outputs.elems, TaskOutput.XWritable y)

/-- cyclonedx.go:800-806 -/
def Formula.XWritable (x : Formula) : Prop :=
  (∀ y ∈ x.components.elems, Component.XWritable y) ∧ (∀ y ∈ x.services.elems, Service.XWritable y) ∧ (∀ y ∈ x.workflows.elems, Workflow.XWritable y)

/-- Not both the legacy and the new form (cyclonedx.go:1610-1614). -/
def ToolsChoice.XWritable (x : ToolsChoice) : Prop :=
  (x.tools = .nil ∨ (x.components = .nil ∧ x.services = .nil)) ∧
  (∀ y ∈ x.components.elems, Component.XWritable y) ∧ (∀ y ∈ x.services.elems, Service.XWritable y)

/-- cyclonedx.go:1042-1054 -/
def Metadata.XWritable (x : Metadata) : Prop :=
  (∀ y ∈ x.tools, ToolsChoice.XWritable y) ∧ (∀ y ∈ x.component, Component.XWritable y) ∧ (∀ y ∈ x.licenses.elems, LicenseChoice.XWritable y)

/-- cyclonedx.go:1634-1656 -/
def Vulnerability.XWritable (x : Vulnerability) : Prop :=
  (∀ y ∈ x.tools, ToolsChoice.XWritable y)

/-- cyclonedx.go:105-131 -/
def BOM.XWritable (x : BOM) : Prop :=
  (∀ y ∈ x.metadata, Metadata.XWritable y) ∧ (∀ y ∈ x.components.elems, Component.XWritable y) ∧ (∀ y ∈ x.services.elems, Service.XWritable y) ∧ (∀ y ∈ x.vulnerabilities.elems, Vulnerability.XWritable y) ∧ (∀ y ∈ x.annotations.elems, Annotation.XWritable y) ∧ (∀ y ∈ x.formulation.elems, Formula.XWritable y) ∧ (∀ y ∈ x.declarations, Declarations.XWritable y)

end Verif
