import Verif.Spec.JsonEnums
import Verif.Spec.Locate

/-!
# The BOMs that `EncodeVersion` writes with the enumerated strings of a version

`b.ListedConverted v` says, of the BOM given to the conversion of `/repo/convert.go`, that every string that is left at
a place with an enumeration is one that the JSON schema of version `v` enumerates.  Strings that the conversion
replaces or removes are not mentioned: the type and the scope of a component, the algorithm of its hashes, the
method of a rating.  `T.Listed` is used for the parts that the conversion does not touch at all.
That nothing is missing and nothing is superfluous is `Verif.Props.encodeVersion_listed_iff`.
-/

namespace Verif

open Spec (walk walkService)

/-- The types of external references that are not replaced below the version that introduces them. -/
def lateReferenceTypes : List String :=
  ["release-notes", "security-contact", "poam", "source-distribution", "electronic-signature",
   "digital-signature", "rfc-9116"]

/-- A type that no version enumerates is not replaced.  The hashes of external references are not converted. -/
def ExternalReference.ListedConverted (v : Int) (x : ExternalReference) : Prop :=
  Place.Lists SpecVersion1_7 .externalReference "type" x.type ∧
  (x.type ∈ lateReferenceTypes → Place.Lists v .externalReference "type" x.type) ∧
  (SpecVersion1_3 ≤ v → ∀ y ∈ x.hashes.elems, Hash.Listed v y)

/-- Below version 1.5 the licensing of a license is removed, below 1.6 its acknowledgement. -/
def License.ListedConverted (v : Int) (x : License) : Prop :=
  (SpecVersion1_6 ≤ v → x.acknowledgement ≠ "" → Place.Lists v .license "acknowledgement" x.acknowledgement) ∧
  (∀ y ∈ x.text, AttachedText.Listed v y) ∧
  (SpecVersion1_5 ≤ v → ∀ y ∈ x.licensing, Licensing.Listed v y)

def LicenseChoice.ListedConverted (v : Int) (x : LicenseChoice) : Prop :=
  (∀ y ∈ x.license, License.ListedConverted v y) ∧
  (SpecVersion1_7 ≤ v → ∀ y ∈ x.expressionDetails.elems, LicenseExpressionDetail.Listed v y) ∧
  (∀ y ∈ x.acknowledgement, Place.Lists v .licenseChoice "acknowledgement" y) ∧
  (SpecVersion1_7 ≤ v → ∀ y ∈ x.licensing, Licensing.Listed v y)

/-- In version 1.5 the first of several identities is left. -/
def EvidenceIdentityChoice.ListedConverted (v : Int) (x : EvidenceIdentityChoice) : Prop :=
  (SpecVersion1_6 ≤ v → EvidenceIdentityChoice.Listed v x) ∧
  (v < SpecVersion1_6 →
    (x.identities = .nil → ∀ i ∈ x.identity, EvidenceIdentity.Listed v i) ∧
    ∀ i ∈ x.identities.elems.head?, EvidenceIdentity.Listed v i)

/-- The licenses of evidence are converted from version 1.5 on only. -/
def Evidence.ListedConverted (v : Int) (x : Evidence) : Prop :=
  (SpecVersion1_5 ≤ v → ∀ y ∈ x.identity, EvidenceIdentityChoice.ListedConverted v y) ∧
  (SpecVersion1_3 ≤ v → v < SpecVersion1_5 → ∀ y ∈ x.licenses.elems, LicenseChoice.Listed v y) ∧
  (SpecVersion1_5 ≤ v → ∀ y ∈ x.licenses.elems, LicenseChoice.ListedConverted v y)

def MLModelCard.ListedConverted (v : Int) (x : MLModelCard) : Prop :=
  (∀ y ∈ x.modelParameters, MLModelParameters.Listed v y) ∧
  (∀ y ∈ x.quantitativeAnalysis, MLQuantitativeAnalysis.Listed v y) ∧
  (SpecVersion1_6 ≤ v → ∀ y ∈ x.considerations, MLModelCardConsiderations.Listed v y)

/-- Of a primitive it suffices that the latest version enumerates it. -/
def CryptoAlgorithmProperties.ListedConverted (v : Int) (x : CryptoAlgorithmProperties) : Prop :=
  (x.primitive ≠ "" → Place.Lists SpecVersion1_7 .algorithmProperties "primitive" x.primitive) ∧
  CryptoAlgorithmProperties.Listed v { x with primitive := "" }

def RelatedCryptoMaterialProperties.ListedConverted (v : Int) (x : RelatedCryptoMaterialProperties) : Prop :=
  (x.type ≠ "" → Place.Lists v .relatedCryptoMaterialProperties "type" x.type) ∧
  (x.state ≠ "" → Place.Lists v .relatedCryptoMaterialProperties "state" x.state) ∧
  (SpecVersion1_7 ≤ v → ∀ y ∈ x.fingerprint, Hash.Listed v y)

/-- Of the type of a protocol it suffices that the latest version enumerates it. -/
def CryptoProperties.ListedConverted (v : Int) (x : CryptoProperties) : Prop :=
  Place.Lists v .cryptoProperties "assetType" x.assetType ∧
  (∀ y ∈ x.algorithmProperties, CryptoAlgorithmProperties.ListedConverted v y) ∧
  (SpecVersion1_7 ≤ v → ∀ y ∈ x.certificateProperties, CertificateProperties.Listed v y) ∧
  (∀ y ∈ x.relatedCryptoMaterialProperties, RelatedCryptoMaterialProperties.ListedConverted v y) ∧
  (∀ y ∈ x.protocolProperties, y.type ≠ "" → Place.Lists SpecVersion1_7 .protocolProperties "type" y.type)

/-- One component, without the components below it.  Nothing is said of its type, its scope and its hashes. -/
def Component.OwnListed (v : Int) (c : Component) : Prop :=
  (∀ y ∈ c.licenses.elems, LicenseChoice.ListedConverted v y) ∧
  (∀ y ∈ c.swid, SWID.Listed v y) ∧
  (∀ p ∈ c.pedigree, ∀ y ∈ p.patches.elems, Patch.Listed v y) ∧
  (∀ y ∈ c.externalReferences.elems, ExternalReference.ListedConverted v y) ∧
  (∀ y ∈ c.evidence, Evidence.ListedConverted v y) ∧
  (SpecVersion1_4 ≤ v → ∀ y ∈ c.releaseNotes, ReleaseNotes.Listed v y) ∧
  (SpecVersion1_5 ≤ v → ∀ y ∈ c.modelCard, MLModelCard.ListedConverted v y) ∧
  (SpecVersion1_5 ≤ v → ∀ y ∈ c.data.elems, ComponentData.Listed v y) ∧
  (SpecVersion1_6 ≤ v → ∀ y ∈ c.cryptoProperties, CryptoProperties.ListedConverted v y) ∧
  (SpecVersion1_7 ≤ v → ∀ y ∈ c.patentAssertions.elems, PatentAssertion.Listed v y) ∧
  (∀ y ∈ c.signature, JSFSignature.Listed v y)

/-- A component and every component reached from it, through nested components and pedigrees. -/
def Component.ListedConverted (v : Int) (c : Component) : Prop :=
  ∀ ss d, walk c ss = some d → d.OwnListed v

/-- One service, without the services below it. -/
def Service.OwnListed (v : Int) (s : Service) : Prop :=
  (∀ y ∈ s.data.elems, DataClassification.Listed v y) ∧
  (∀ y ∈ s.licenses.elems, LicenseChoice.Listed v y) ∧
  (∀ y ∈ s.externalReferences.elems, ExternalReference.ListedConverted v y) ∧
  (SpecVersion1_4 ≤ v → ∀ y ∈ s.releaseNotes, ReleaseNotes.Listed v y) ∧
  (SpecVersion1_7 ≤ v → ∀ y ∈ s.patentAssertions.elems, PatentAssertion.Listed v y) ∧
  (∀ y ∈ s.signature, JSFSignature.Listed v y)

/-- A service and every service reached from it. -/
def Service.ListedConverted (v : Int) (s : Service) : Prop :=
  ∀ is t, walkService s is = some t → t.OwnListed v

/-- Below version 1.5 of components and services that are tools only the external references are left, and these only
from 1.4 on; from 1.5 on nothing about them is converted. -/
def ToolsChoice.ListedConverted (v : Int) (x : ToolsChoice) : Prop :=
  (SpecVersion1_4 ≤ v → ∀ t ∈ x.tools.elems, ∀ r ∈ t.externalReferences.elems, ExternalReference.ListedConverted v r) ∧
  (SpecVersion1_4 ≤ v → v < SpecVersion1_5 →
    (∀ c ∈ x.components.elems, ∀ r ∈ c.externalReferences.elems, ExternalReference.ListedConverted v r) ∧
    ∀ s ∈ x.services.elems, ∀ r ∈ s.externalReferences.elems, ExternalReference.ListedConverted v r) ∧
  (SpecVersion1_5 ≤ v →
    (∀ c ∈ x.components.elems, Component.Listed v c) ∧ ∀ s ∈ x.services.elems, Service.Listed v s)

def Metadata.ListedConverted (v : Int) (x : Metadata) : Prop :=
  (SpecVersion1_5 ≤ v → ∀ y ∈ x.lifecycles.elems, Lifecycle.Listed v y) ∧
  (∀ y ∈ x.tools, ToolsChoice.ListedConverted v y) ∧
  (∀ y ∈ x.component, Component.ListedConverted v y) ∧
  (SpecVersion1_3 ≤ v → ∀ y ∈ x.licenses.elems, LicenseChoice.ListedConverted v y) ∧
  (SpecVersion1_7 ≤ v → ∀ y ∈ x.distributionConstraints, DistributionConstraints.Listed v y)

/-- Nothing is said of the method of a rating. -/
def Vulnerability.ListedConverted (v : Int) (x : Vulnerability) : Prop :=
  (∀ y ∈ x.ratings.elems, y.severity ≠ "" → Place.Lists v .rating "severity" y.severity) ∧
  (SpecVersion1_5 ≤ v → ∀ y ∈ x.proofOfConcept, ProofOfConcept.Listed v y) ∧
  (∀ y ∈ x.tools, ToolsChoice.ListedConverted v y) ∧
  (∀ y ∈ x.analysis, VulnerabilityAnalysis.Listed v y) ∧
  (∀ y ∈ x.affects.elems, Affects.Listed v y)

/-- The component of an annotator is not converted, its service only below version 1.6. -/
def Annotator.ListedConverted (v : Int) (x : Annotator) : Prop :=
  (∀ y ∈ x.component, Component.Listed v y) ∧
  (v < SpecVersion1_6 → ∀ y ∈ x.service, Service.ListedConverted v y) ∧
  (SpecVersion1_6 ≤ v → ∀ y ∈ x.service, Service.Listed v y)

def Annotation.ListedConverted (v : Int) (x : Annotation) : Prop :=
  (∀ y ∈ x.annotator, Annotator.ListedConverted v y) ∧
  (∀ y ∈ x.signature, JSFSignature.Listed v y)

/-- Of the aggregate it suffices that the latest version enumerates it. -/
def Composition.ListedConverted (v : Int) (x : Composition) : Prop :=
  Place.Lists SpecVersion1_7 .compositions "aggregate" x.aggregate ∧
  (∀ y ∈ x.signature, JSFSignature.Listed v y)

/-- Formulation, declarations and definitions are not converted, apart from the patents of the definitions. -/
def BOM.ListedConverted (v : Int) (x : BOM) : Prop :=
  Place.Lists v .bom "bomFormat" x.bomFormat ∧
  (∀ y ∈ x.metadata, Metadata.ListedConverted v y) ∧
  (∀ y ∈ x.components.elems, Component.ListedConverted v y) ∧
  (∀ y ∈ x.services.elems, Service.ListedConverted v y) ∧
  (∀ y ∈ x.externalReferences.elems, ExternalReference.ListedConverted v y) ∧
  (SpecVersion1_3 ≤ v → ∀ y ∈ x.compositions.elems, Composition.ListedConverted v y) ∧
  (SpecVersion1_4 ≤ v → ∀ y ∈ x.vulnerabilities.elems, Vulnerability.ListedConverted v y) ∧
  (SpecVersion1_5 ≤ v → ∀ y ∈ x.annotations.elems, Annotation.ListedConverted v y) ∧
  (SpecVersion1_5 ≤ v → ∀ y ∈ x.formulation.elems, Formula.Listed v y) ∧
  (SpecVersion1_6 ≤ v → ∀ y ∈ x.declarations, Declarations.Listed v y) ∧
  (SpecVersion1_6 ≤ v → ∀ y ∈ x.definitions, (∀ d ∈ y.standards.elems, StandardDefinition.Listed v d) ∧
    (SpecVersion1_7 ≤ v → ∀ d ∈ y.patents.elems, PatentChoice.Listed v d)) ∧
  (SpecVersion1_7 ≤ v → ∀ y ∈ x.citations.elems, Citation.Listed v y) ∧
  (∀ y ∈ x.signature, JSFSignature.Listed v y)

end Verif
