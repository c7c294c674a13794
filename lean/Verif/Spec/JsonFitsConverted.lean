import Verif.Spec.JsonFitsCopied
import Verif.Spec.Locate
import Verif.Spec.Schema
import Verif.Spec.Gating

/-!
# The BOMs that `EncodeVersion` writes within the JSON schema

`b.FitsConverted v` says, of the BOM a caller hands to `EncodeVersion`, that what is written for version `v`
uses only what the JSON schema of `v` declares.  It lists the places where the conversion of
`/repo/convert.go` leaves behind something the schema of the version does not declare, and nothing else:
everything not mentioned here is either declared or removed.  `T.FitsCopied` is used for the parts that the
conversion does not touch at all.  That the list is complete and that no entry is superfluous is
`Verif.Props.encodeVersion_declared_iff`.
-/

namespace Verif

open Spec (walk walkService Known hashAlgorithmSince)

/-- Either there is no hash, or one of them is of an algorithm the version knows.  Otherwise the list is
emptied by the conversion and written as `null`. -/
def HashesFit (v : Int) (hs : PSlice Hash) : Prop :=
  hs.elems = [] ∨ ∃ h ∈ hs.elems, Known hashAlgorithmSince v h.algorithm

/-- The acknowledgement and the reference of a license choice are never removed; the schema declares them
from version 1.6 on. -/
def LicenseChoice.FitsConverted (v : Int) (x : LicenseChoice) : Prop :=
  (∀ y ∈ x.acknowledgement, y = "") ∧ x.bomRef = "" ∨ SpecVersion1_6 ≤ v

/-- The licenses of evidence are converted from version 1.5 on only; an identity that is neither one identity
nor a list of identities is written as `null`. -/
def Evidence.FitsConverted (v : Int) (x : Evidence) : Prop :=
  (SpecVersion1_3 ≤ v → v < SpecVersion1_5 → ∀ l ∈ x.licenses.elems, LicenseChoice.FitsCopied v l) ∧
  (SpecVersion1_5 ≤ v → (∀ l ∈ x.licenses.elems, LicenseChoice.FitsConverted v l) ∧
    ∀ ch ∈ x.identity, ch.identity = none → ch.identities.elems ≠ [])

/-- Of a model card only the environmental considerations are removed, below version 1.6. -/
def MLModelCard.FitsConverted (v : Int) (x : MLModelCard) : Prop :=
  SpecVersion1_5 ≤ v →
    (∀ y ∈ x.modelParameters, MLModelParameters.FitsCopied v y) ∧
    (SpecVersion1_6 ≤ v → ∀ y ∈ x.considerations, MLModelCardConsiderations.FitsCopied v y)

/-- The transform types of IKEv2 are not converted to the form of version 1.6. -/
def CryptoProperties.FitsConverted (v : Int) (x : CryptoProperties) : Prop :=
  SpecVersion1_6 ≤ v →
    ∀ p ∈ x.protocolProperties, ∀ t ∈ p.ikev2TransformTypes, IKEv2TransformTypes.FitsCopied v t

/-- One component, without the components below it. -/
def Component.OwnFits (v : Int) (c : Component) : Prop :=
  (∀ y ∈ c.supplier, OrganizationalEntity.FitsCopied v y) ∧
  HashesFit v c.hashes ∧
  (∀ l ∈ c.licenses.elems, LicenseChoice.FitsConverted v l) ∧
  (∀ y ∈ c.evidence, Evidence.FitsConverted v y) ∧
  (∀ y ∈ c.modelCard, MLModelCard.FitsConverted v y) ∧
  (SpecVersion1_5 ≤ v → ∀ y ∈ c.data.elems, ComponentData.FitsCopied v y) ∧
  (∀ y ∈ c.cryptoProperties, CryptoProperties.FitsConverted v y) ∧
  (SpecVersion1_7 ≤ v → ∀ y ∈ c.patentAssertions.elems, PatentAssertion.FitsCopied v y) ∧
  (c.signature = none ∨ SpecVersion1_4 ≤ v)

/-- A component and every component reached from it, through nested components and pedigrees. -/
def Component.FitsConverted (v : Int) (c : Component) : Prop :=
  ∀ ss d, walk c ss = some d → d.OwnFits v

/-- One service, without the services below it.  Licenses, tags and the signature are not converted. -/
def Service.OwnFits (v : Int) (s : Service) : Prop :=
  (∀ l ∈ s.licenses.elems, LicenseChoice.FitsCopied v l) ∧
  (s.tags.elems = [] ∨ SpecVersion1_6 ≤ v) ∧
  (SpecVersion1_7 ≤ v → ∀ y ∈ s.patentAssertions.elems, PatentAssertion.FitsCopied v y) ∧
  (s.signature = none ∨ SpecVersion1_4 ≤ v)

/-- A service and every service reached from it. -/
def Service.FitsConverted (v : Int) (s : Service) : Prop :=
  ∀ is t, walkService s is = some t → t.OwnFits v

/-- Below version 1.5 components and services that are tools become tools of the old form; from 1.5 on they
are left as they are, except for the provider of a service. -/
def ToolsChoice.FitsConverted (v : Int) (x : ToolsChoice) : Prop :=
  (∀ t ∈ x.tools.elems, HashesFit v t.hashes) ∧
  (v < SpecVersion1_5 → ∀ c ∈ x.components.elems, HashesFit v c.hashes) ∧
  (SpecVersion1_5 ≤ v →
    (∀ c ∈ x.components.elems, Component.FitsCopied v c) ∧
    ∀ s ∈ x.services.elems, Service.FitsCopied v { s with provider := none })

/-- The parts of the metadata. -/
def Metadata.FitsConverted (v : Int) (x : Metadata) : Prop :=
  (∀ y ∈ x.tools, ToolsChoice.FitsConverted v y) ∧
  (∀ y ∈ x.component, Component.FitsConverted v y) ∧
  (SpecVersion1_3 ≤ v → ∀ l ∈ x.licenses.elems, LicenseChoice.FitsConverted v l)

/-- The component of an annotator is not converted, its service only below version 1.6. -/
def Annotator.FitsConverted (v : Int) (x : Annotator) : Prop :=
  (∀ y ∈ x.component, Component.FitsCopied v y) ∧
  (v < SpecVersion1_6 → ∀ y ∈ x.service, Service.FitsConverted v y) ∧
  (SpecVersion1_6 ≤ v → ∀ y ∈ x.service, Service.FitsCopied v y)

/-- A whole BOM.  Its properties and its signature, and the signatures of compositions, are never removed;
formulation, declarations and definitions are not converted, apart from the patents of the definitions. -/
def BOM.FitsConverted (v : Int) (x : BOM) : Prop :=
  (∀ y ∈ x.metadata, Metadata.FitsConverted v y) ∧
  (∀ y ∈ x.components.elems, Component.FitsConverted v y) ∧
  (∀ y ∈ x.services.elems, Service.FitsConverted v y) ∧
  (SpecVersion1_3 ≤ v → ∀ y ∈ x.compositions.elems, y.signature = none ∨ SpecVersion1_4 ≤ v) ∧
  (x.properties.elems = [] ∨ SpecVersion1_5 ≤ v) ∧
  (SpecVersion1_4 ≤ v → ∀ y ∈ x.vulnerabilities.elems, ∀ t ∈ y.tools, ToolsChoice.FitsConverted v t) ∧
  (SpecVersion1_5 ≤ v → ∀ y ∈ x.annotations.elems, ∀ a ∈ y.annotator, Annotator.FitsConverted v a) ∧
  (SpecVersion1_5 ≤ v → ∀ y ∈ x.formulation.elems, Formula.FitsCopied v y) ∧
  (SpecVersion1_6 ≤ v → ∀ y ∈ x.declarations, Declarations.FitsCopied v y) ∧
  (SpecVersion1_6 ≤ v → ∀ y ∈ x.definitions,
    (∀ d ∈ y.standards.elems, StandardDefinition.FitsCopied v d) ∧
    (SpecVersion1_7 ≤ v → ∀ p ∈ y.patents.elems, PatentChoice.FitsCopied v p)) ∧
  (x.signature = none ∨ SpecVersion1_4 ≤ v)

end Verif
