import Verif.Model.Types

/-!
# Integers are Go integers

GENERATED by `tools/gen_xwritable.py` from the struct declarations of `/repo/cyclonedx.go`; do not edit by hand.

`T.GoInts x` says that every integer in `x`, at any depth, has 64 bits.  Every value of a Go program is like that; the
model has integers of any size.
-/

namespace Verif

/-- cyclonedx.go:368-382 -/
def CryptoAlgorithmProperties.GoInts (x : CryptoAlgorithmProperties) : Prop :=
  (∀ y ∈ x.classicalSecurityLevel, InInt64 y) ∧ (∀ y ∈ x.nistQuantumSecurityLevel, InInt64 y)

/-- cyclonedx.go:1834-1839 -/
def IKEv2Enc.GoInts (x : IKEv2Enc) : Prop :=
  (∀ y ∈ x.keyLength, InInt64 y)

/-- cyclonedx.go:1851-1855 -/
def IKEv2Ke.GoInts (x : IKEv2Ke) : Prop :=
  (∀ y ∈ x.group, InInt64 y)

/-- cyclonedx.go:537-544 -/
def IKEv2TransformTypes.GoInts (x : IKEv2TransformTypes) : Prop :=
  (∀ y ∈ x.encr.elems, IKEv2Enc.GoInts y) ∧ (∀ y ∈ x.ke.elems, IKEv2Ke.GoInts y)

/-- cyclonedx.go:509-516 -/
def CryptoProtocolProperties.GoInts (x : CryptoProtocolProperties) : Prop :=
  (∀ y ∈ x.ikev2TransformTypes, IKEv2TransformTypes.GoInts y)

/-- cyclonedx.go:1282-1297 -/
def RelatedCryptoMaterialProperties.GoInts (x : RelatedCryptoMaterialProperties) : Prop :=
  (∀ y ∈ x.size, InInt64 y)

/-- cyclonedx.go:500-507 -/
def CryptoProperties.GoInts (x : CryptoProperties) : Prop :=
  (∀ y ∈ x.algorithmProperties, CryptoAlgorithmProperties.GoInts y) ∧ (∀ y ∈ x.relatedCryptoMaterialProperties, RelatedCryptoMaterialProperties.GoInts y) ∧ (∀ y ∈ x.protocolProperties, CryptoProtocolProperties.GoInts y)

/-- cyclonedx.go:161-169 -/
def CallstackFrame.GoInts (x : CallstackFrame) : Prop :=
  (∀ y ∈ x.line, InInt64 y) ∧ (∀ y ∈ x.column, InInt64 y)

/-- cyclonedx.go:157-159 -/
def Callstack.GoInts (x : Callstack) : Prop :=
  (∀ y ∈ x.frames.elems, CallstackFrame.GoInts y)

/-- cyclonedx.go:731-738 -/
def EvidenceOccurrence.GoInts (x : EvidenceOccurrence) : Prop :=
  (∀ y ∈ x.line, InInt64 y) ∧ (∀ y ∈ x.offset, InInt64 y)

/-- cyclonedx.go:672-678 -/
def Evidence.GoInts (x : Evidence) : Prop :=
  (∀ y ∈ x.occurrences.elems, EvidenceOccurrence.GoInts y) ∧ (∀ y ∈ x.callstack, Callstack.GoInts y)

/-- cyclonedx.go:1449-1457 -/
def SWID.GoInts (x : SWID) : Prop :=
  (∀ y ∈ x.tagVersion, InInt64 y)

mutual
/-- cyclonedx.go:239-276 -/
def Component.GoInts : Component → Prop
  | .mk _ _ _ _ _ _ _ _ _ _ _ _ _ _ _ _ _ _ _ _ swid _ pedigree _ _ components evidence _ _ _ cryptoProperties _ _ _ _ _ =>
    (∀ y ∈ swid, SWID.GoInts y) ∧
    GoIntsPedigreeOpt pedigree ∧
    GoIntsComponents components ∧
    (∀ y ∈ evidence, Evidence.GoInts y) ∧
    (∀ y ∈ cryptoProperties, CryptoProperties.GoInts y)
/-- A list of components, at any depth. -/
def GoIntsComponents : PSlice Component → Prop
  | .list xs => GoIntsComponentList xs
  | _ => True
/-- A list of components, at any depth. -/
def GoIntsComponentList : List Component → Prop
  | [] => True
  | c :: cs => c.GoInts ∧ GoIntsComponentList cs
/-- An optional pedigree. -/
def GoIntsPedigreeOpt : Option (Pedigree Component) → Prop
  | none => True
  | some p => GoIntsPedigree p
/-- cyclonedx.go:1252-1259 -/
def GoIntsPedigree : Pedigree Component → Prop
  | .mk ancestors descendants variants _ _ _ =>
    GoIntsComponents ancestors ∧
    GoIntsComponents descendants ∧
    GoIntsComponents variants
end

/-- cyclonedx.go:60-65 -/
def Annotator.GoInts (x : Annotator) : Prop :=
  (∀ y ∈ x.component, Component.GoInts y)

/-- cyclonedx.go:51-58 -/
def Annotation.GoInts (x : Annotation) : Prop :=
  (∀ y ∈ x.annotator, Annotator.GoInts y)

/-- cyclonedx.go:624-628 -/
def Targets.GoInts (x : Targets) : Prop :=
  (∀ y ∈ x.components.elems, Component.GoInts y)

/-- cyclonedx.go:576-584 -/
def Declarations.GoInts (x : Declarations) : Prop :=
  (∀ y ∈ x.targets, Targets.GoInts y)

/-- cyclonedx.go:800-806 -/
def Formula.GoInts (x : Formula) : Prop :=
  (∀ y ∈ x.components.elems, Component.GoInts y)

/-- cyclonedx.go:1610-1614 -/
def ToolsChoice.GoInts (x : ToolsChoice) : Prop :=
  (∀ y ∈ x.components.elems, Component.GoInts y)

/-- cyclonedx.go:1042-1054 -/
def Metadata.GoInts (x : Metadata) : Prop :=
  (∀ y ∈ x.tools, ToolsChoice.GoInts y) ∧ (∀ y ∈ x.component, Component.GoInts y)

/-- cyclonedx.go:1634-1656 -/
def Vulnerability.GoInts (x : Vulnerability) : Prop :=
  (∀ y ∈ x.cwes.elems, InInt64 y) ∧ (∀ y ∈ x.tools, ToolsChoice.GoInts y)

/-- cyclonedx.go:105-131 -/
def BOM.GoInts (x : BOM) : Prop :=
  InInt64 x.version ∧ (∀ y ∈ x.metadata, Metadata.GoInts y) ∧ (∀ y ∈ x.components.elems, Component.GoInts y) ∧ (∀ y ∈ x.vulnerabilities.elems, Vulnerability.GoInts y) ∧ (∀ y ∈ x.annotations.elems, Annotation.GoInts y) ∧ (∀ y ∈ x.formulation.elems, Formula.GoInts y) ∧ (∀ y ∈ x.declarations, Declarations.GoInts y)

end Verif
