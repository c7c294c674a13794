import Verif.Spec.XmlEnums
import Verif.Spec.JsonListedConverted

/-!
# The BOMs that `EncodeVersion` writes in XML with the enumerated strings of a version

`b.XListedConverted v` says, of the BOM given to the conversion of `/repo/convert.go`, that every string that is left at
a place with an enumeration is one that the XML schema of version `v` enumerates.  Strings that the conversion
replaces or removes are not mentioned: the type and the scope of a component, the algorithm of its hashes, the
method of a rating.  `T.XListed` is used for the parts that the conversion does not touch at all.
That nothing is missing and nothing is superfluous is `Verif.Props.encodeVersionXML_listed_iff`.
-/

namespace Verif

open Spec (walk walkService)

/-- A type that no version enumerates is not replaced.  The hashes of external references are not converted. -/
def ExternalReference.XListedConverted (v : Int) (x : ExternalReference) : Prop :=
  XPlace.ListsAttr SpecVersion1_7 .externalReference "type" x.type ∧
  (x.type ∈ lateReferenceTypes → XPlace.ListsAttr v .externalReference "type" x.type) ∧
  (SpecVersion1_3 ≤ v → ∀ y ∈ x.hashes.elems, Hash.XListed v y)

/-- Below version 1.5 the licensing of a license is removed, below 1.6 its acknowledgement. -/
def License.XListedConverted (v : Int) (x : License) : Prop :=
  (SpecVersion1_6 ≤ v → x.acknowledgement ≠ "" → XPlace.ListsAttr v .license "acknowledgement" x.acknowledgement) ∧
  (∀ y ∈ x.text, AttachedText.XListed v y) ∧
  (SpecVersion1_5 ≤ v → ∀ y ∈ x.licensing, Licensing.XListed v y)

/-- In version 1.0 of licenses only the identifier or the name is left, and of expressions nothing. -/
def LicenseChoice.XListedConverted (v : Int) (x : LicenseChoice) : Prop :=
  SpecVersion1_1 ≤ v →
    (∀ y ∈ x.license, License.XListedConverted v y) ∧
    (x.license = none → x.expression ≠ "" →
      (∀ y ∈ x.acknowledgement, y ≠ "" → XPlace.ListsAttr v .licenseExpression "acknowledgement" y) ∧
      (SpecVersion1_7 ≤ v → ∀ y ∈ x.expressionDetails.elems, LicenseExpressionDetail.XListed v y))

/-- In version 1.5 the first of several identities is left. -/
def EvidenceIdentityChoice.XListedConverted (v : Int) (x : EvidenceIdentityChoice) : Prop :=
  (SpecVersion1_6 ≤ v → EvidenceIdentityChoice.XListed v x) ∧
  (v < SpecVersion1_6 →
    (x.identities = .nil → ∀ i ∈ x.identity, EvidenceIdentity.XListed v i) ∧
    ∀ i ∈ x.identities.elems.head?, EvidenceIdentity.XListed v i)

/-- The licenses of evidence are converted from version 1.5 on only. -/
def Evidence.XListedConverted (v : Int) (x : Evidence) : Prop :=
  (SpecVersion1_5 ≤ v → ∀ y ∈ x.identity, EvidenceIdentityChoice.XListedConverted v y) ∧
  (v < SpecVersion1_5 → ∀ y ∈ x.licenses.elems, LicenseChoice.XListed v y) ∧
  (SpecVersion1_5 ≤ v → ∀ y ∈ x.licenses.elems, LicenseChoice.XListedConverted v y)

def MLModelCard.XListedConverted (v : Int) (x : MLModelCard) : Prop :=
  (∀ y ∈ x.modelParameters, MLModelParameters.XListed v y) ∧
  (∀ y ∈ x.quantitativeAnalysis, MLQuantitativeAnalysis.XListed v y) ∧
  (SpecVersion1_6 ≤ v → ∀ y ∈ x.considerations, MLModelCardConsiderations.XListed v y)

/-- Of a primitive it suffices that the latest version enumerates it. -/
def CryptoAlgorithmProperties.XListedConverted (v : Int) (x : CryptoAlgorithmProperties) : Prop :=
  (x.primitive ≠ "" → XPlace.ListsElem SpecVersion1_7 .algorithmProperties "primitive" x.primitive) ∧
  CryptoAlgorithmProperties.XListed v { x with primitive := "" }

def RelatedCryptoMaterialProperties.XListedConverted (v : Int) (x : RelatedCryptoMaterialProperties) : Prop :=
  (x.type ≠ "" → XPlace.ListsElem v .relatedCryptoMaterialProperties "type" x.type) ∧
  (x.state ≠ "" → XPlace.ListsElem v .relatedCryptoMaterialProperties "state" x.state) ∧
  (SpecVersion1_7 ≤ v → ∀ y ∈ x.fingerprint, Hash.XListed v y)

/-- Of the type of a protocol it suffices that the latest version enumerates it. -/
def CryptoProperties.XListedConverted (v : Int) (x : CryptoProperties) : Prop :=
  XPlace.ListsElem v .cryptoProperties "assetType" x.assetType ∧
  (∀ y ∈ x.algorithmProperties, CryptoAlgorithmProperties.XListedConverted v y) ∧
  (SpecVersion1_7 ≤ v → ∀ y ∈ x.certificateProperties, CertificateProperties.XListed v y) ∧
  (∀ y ∈ x.relatedCryptoMaterialProperties, RelatedCryptoMaterialProperties.XListedConverted v y) ∧
  (∀ y ∈ x.protocolProperties, y.type ≠ "" → XPlace.ListsElem SpecVersion1_7 .protocolProperties "type" y.type)

/-- One component, without the components below it.  Nothing is said of its type, its scope and its hashes. -/
def Component.XOwnListed (v : Int) (c : Component) : Prop :=
  (∀ y ∈ c.licenses.elems, LicenseChoice.XListedConverted v y) ∧
  (SpecVersion1_2 ≤ v → ∀ y ∈ c.swid, SWID.XListed v y) ∧
  (SpecVersion1_2 ≤ v → ∀ p ∈ c.pedigree, ∀ y ∈ p.patches.elems, Patch.XListed v y) ∧
  (SpecVersion1_1 ≤ v → ∀ y ∈ c.externalReferences.elems, ExternalReference.XListedConverted v y) ∧
  (SpecVersion1_3 ≤ v → ∀ y ∈ c.evidence, Evidence.XListedConverted v y) ∧
  (SpecVersion1_4 ≤ v → ∀ y ∈ c.releaseNotes, ReleaseNotes.XListed v y) ∧
  (SpecVersion1_5 ≤ v → ∀ y ∈ c.modelCard, MLModelCard.XListedConverted v y) ∧
  (SpecVersion1_5 ≤ v → ∀ y ∈ c.data.elems, ComponentData.XListed v y) ∧
  (SpecVersion1_6 ≤ v → ∀ y ∈ c.cryptoProperties, CryptoProperties.XListedConverted v y) ∧
  (SpecVersion1_7 ≤ v → ∀ y ∈ c.patentAssertions.elems, PatentAssertion.XListed v y)

/-- A component and every component reached from it, through nested components and pedigrees. -/
def Component.XListedConverted (v : Int) (c : Component) : Prop :=
  ∀ ss d, walk c ss = some d → d.XOwnListed v

/-- One service, without the services below it. -/
def Service.XOwnListed (v : Int) (s : Service) : Prop :=
  (∀ y ∈ s.data.elems, DataClassification.XListed v y) ∧
  (∀ y ∈ s.licenses.elems, LicenseChoice.XListed v y) ∧
  (∀ y ∈ s.externalReferences.elems, ExternalReference.XListedConverted v y) ∧
  (SpecVersion1_4 ≤ v → ∀ y ∈ s.releaseNotes, ReleaseNotes.XListed v y) ∧
  (SpecVersion1_7 ≤ v → ∀ y ∈ s.patentAssertions.elems, PatentAssertion.XListed v y)

/-- A service and every service reached from it. -/
def Service.XListedConverted (v : Int) (s : Service) : Prop :=
  ∀ is t, walkService s is = some t → t.XOwnListed v

/-- Below version 1.5 of components and services that are tools only the external references are left, and these only
from 1.4 on; from 1.5 on nothing about them is converted. -/
def ToolsChoice.XListedConverted (v : Int) (x : ToolsChoice) : Prop :=
  (SpecVersion1_4 ≤ v → ∀ t ∈ x.tools.elems, ∀ r ∈ t.externalReferences.elems, ExternalReference.XListedConverted v r) ∧
  (SpecVersion1_4 ≤ v → v < SpecVersion1_5 →
    (∀ c ∈ x.components.elems, ∀ r ∈ c.externalReferences.elems, ExternalReference.XListedConverted v r) ∧
    ∀ s ∈ x.services.elems, ∀ r ∈ s.externalReferences.elems, ExternalReference.XListedConverted v r) ∧
  (SpecVersion1_5 ≤ v →
    (∀ c ∈ x.components.elems, Component.XListed v c) ∧ ∀ s ∈ x.services.elems, Service.XListed v s)

def Metadata.XListedConverted (v : Int) (x : Metadata) : Prop :=
  (SpecVersion1_5 ≤ v → ∀ y ∈ x.lifecycles.elems, Lifecycle.XListed v y) ∧
  (∀ y ∈ x.tools, ToolsChoice.XListedConverted v y) ∧
  (∀ y ∈ x.component, Component.XListedConverted v y) ∧
  (SpecVersion1_3 ≤ v → ∀ y ∈ x.licenses.elems, LicenseChoice.XListedConverted v y) ∧
  (SpecVersion1_7 ≤ v → ∀ y ∈ x.distributionConstraints, DistributionConstraints.XListed v y)

/-- Nothing is said of the method of a rating. -/
def Vulnerability.XListedConverted (v : Int) (x : Vulnerability) : Prop :=
  (∀ y ∈ x.ratings.elems, y.severity ≠ "" → XPlace.ListsElem v .rating "severity" y.severity) ∧
  (SpecVersion1_5 ≤ v → ∀ y ∈ x.proofOfConcept, ProofOfConcept.XListed v y) ∧
  (∀ y ∈ x.tools, ToolsChoice.XListedConverted v y) ∧
  (∀ y ∈ x.analysis, VulnerabilityAnalysis.XListed v y) ∧
  (∀ y ∈ x.affects.elems, Affects.XListed v y)

/-- The component of an annotator is not converted, its service only below version 1.6. -/
def Annotator.XListedConverted (v : Int) (x : Annotator) : Prop :=
  (∀ y ∈ x.component, Component.XListed v y) ∧
  (v < SpecVersion1_6 → ∀ y ∈ x.service, Service.XListedConverted v y) ∧
  (SpecVersion1_6 ≤ v → ∀ y ∈ x.service, Service.XListed v y)

def Annotation.XListedConverted (v : Int) (x : Annotation) : Prop :=
  (∀ y ∈ x.annotator, Annotator.XListedConverted v y)

/-- Of the aggregate it suffices that the latest version enumerates it. -/
def Composition.XListedConverted (x : Composition) : Prop :=
  XPlace.ListsElem SpecVersion1_7 .composition "aggregate" x.aggregate

/-- Formulation, declarations and definitions are not converted, apart from the patents of the definitions. -/
def BOM.XListedConverted (v : Int) (x : BOM) : Prop :=
  (SpecVersion1_2 ≤ v → ∀ y ∈ x.metadata, Metadata.XListedConverted v y) ∧
  (∀ y ∈ x.components.elems, Component.XListedConverted v y) ∧
  (SpecVersion1_2 ≤ v → ∀ y ∈ x.services.elems, Service.XListedConverted v y) ∧
  (SpecVersion1_1 ≤ v → ∀ y ∈ x.externalReferences.elems, ExternalReference.XListedConverted v y) ∧
  (SpecVersion1_3 ≤ v → ∀ y ∈ x.compositions.elems, Composition.XListedConverted y) ∧
  (SpecVersion1_4 ≤ v → ∀ y ∈ x.vulnerabilities.elems, Vulnerability.XListedConverted v y) ∧
  (SpecVersion1_5 ≤ v → ∀ y ∈ x.annotations.elems, Annotation.XListedConverted v y) ∧
  (SpecVersion1_5 ≤ v → ∀ y ∈ x.formulation.elems, Formula.XListed v y) ∧
  (SpecVersion1_6 ≤ v → ∀ y ∈ x.declarations, Declarations.XListed v y) ∧
  (SpecVersion1_6 ≤ v → ∀ y ∈ x.definitions, (∀ d ∈ y.standards.elems, StandardDefinition.XListed v d) ∧
    (SpecVersion1_7 ≤ v → ∀ d ∈ y.patents.elems, PatentChoice.XListed v d))

end Verif
