import Verif.Spec.XmlEnums
import Verif.Spec.XmlListedConverted
import Verif.Xml.ListedLaws
import Verif.Proofs.XListedConverted
import Verif.Props.XmlSchema

/-! # C73, C74: the strings that the XML schemas enumerate -/

namespace Verif.Props

set_option linter.unusedSectionVars false
set_option linter.unusedSimpArgs false

instance (v : Int) (p : XPlace) (a s : String) : Decidable (XPlace.ListsAttr v p a s) :=
  decidable_of_iff ((p.enumAttrs.lookup a).all (fun gs => gs.any fun g => g.1 ≤ v && g.2.contains s) = true) (by
    unfold XPlace.ListsAttr
    cases p.enumAttrs.lookup a <;> simp)

instance (v : Int) (p : XPlace) (m s : String) : Decidable (XPlace.ListsElem v p m s) :=
  decidable_of_iff ((p.enumElems.lookup m).all (fun gs => gs.any fun g => g.1 ≤ v && g.2.contains s) = true) (by
    unfold XPlace.ListsElem
    cases p.enumElems.lookup m <;> simp)

section
variable [XFloatIO]

/-! ## C73 -/

/-- C73 for `Encode`: every text that is written at a place with an enumeration, at any depth, is one of those that
the schema of a version enumerates there exactly if this holds of the strings in the BOM (`BOM.XListed`). -/
theorem encodeXML_listed_iff (b : BOM) (v : Int) (doc : XmlDoc) (h : encodeXML b = some doc) :
    doc.Listed v ↔ b.XListed v := by
  unfold encodeXML at h
  split at h
  · rename_i root hr
    cases h
    have := xlist_bom v b _ _ hr
    simpa [XmlDoc.Listed] using this
  · cases h

/-- C73 for `EncodeVersion`, exactly: the strings written are those that the schema of the version enumerates if and
only if `BOM.XListedConverted`, which speaks only of what the conversion neither replaces nor removes, holds of the deep
copy of the BOM. -/
theorem encodeVersionXML_listed_iff (b : BOM) (v : Int) (hv : SpecVersion1_0 ≤ v) (doc : XmlDoc)
    (h : encodeVersionXML b v = some doc) : doc.Listed v ↔ b.copy.XListedConverted v := by
  rw [encodeXML_listed_iff _ v doc h, copyAndConvert, XListedConverted.bom hv]

/-- The same of the BOMs that the deep copy keeps as they are. -/
theorem encodeVersionXML_listed_copyable (b : BOM) (v : Int) (hv : SpecVersion1_0 ≤ v) (doc : XmlDoc) (hc : b.Copyable)
    (h : encodeVersionXML b v = some doc) : doc.Listed v ↔ b.XListedConverted v := by
  rw [encodeVersionXML_listed_iff b v hv doc h, (copy_eq_iff b).2 hc]

/-- C73, for the BOMs with strings of the version only: conversion puts no other string in their place. -/
theorem encodeVersionXML_listed_partial (b : BOM) (v : Int) (hv : SpecVersion1_0 ≤ v) (doc : XmlDoc) (hc : b.Copyable)
    (hb : b.XListed v) (h : encodeVersionXML b v = some doc) : doc.Listed v :=
  (encodeVersionXML_listed_copyable b v hv doc hc h).2 (XListedConverted.bom_of b hb)

/-- Of a component neither the type nor the scope nor the algorithms of its hashes matter, of a rating the method does
not: whatever they are, what is written is enumerated. -/
theorem converted_xlisted (v : Int) (hv : SpecVersion1_0 ≤ v) (c : Component) (r : VulnerabilityRating) :
    XPlace.ListsAttr v .component "type" (componentConverter v c).type ∧
    ((componentConverter v c).scope ≠ "" → XPlace.ListsElem v .component "scope" (componentConverter v c).scope) ∧
    (∀ h ∈ (componentConverter v c).hashes.elems, XPlace.ListsAttr v .hash "alg" h.algorithm) ∧
    XPlace.ListsElem v .rating "method" (convertRating v r).method := by
  refine ⟨?_, ?_, ?_, ?_⟩
  · rw [componentConverter_type]; exact XListedConverted.componentType hv _
  · rw [componentConverter_scope]; exact XListedConverted.scope hv _
  · rw [componentConverter_hashes]; exact XListedConverted.hashes hv _
  · have := XListedConverted.method hv r.method
    unfold convertRating
    split_ifs at this ⊢ <;> simp_all

/-! ### A BOM that is written with enumerated strings for every version -/

/-- Strings that only later versions enumerate, or none: the type of a component, a hash, a scope, the type of a
reference, an aggregate, the method of a rating, the acknowledgement of a license. -/
def newStringsXBOM : BOM :=
  { specVersion := 8, version := 1,
    components := .list [{ type := "machine-learning-model", name := "a", scope := "sometimes",
                           hashes := .list [⟨"Streebog-256", "00"⟩, ⟨"MD5", "11"⟩],
                           licenses := .list [{ license := some { id := "MIT", acknowledgement := "concluded" } }],
                           externalReferences := .list [{ url := "u", type := "citation" }],
                           components := .list [{ type := "cryptographic-asset", name := "k" }] }],
    compositions := .list [{ aggregate := "incomplete_first_party_proprietary_only" }],
    vulnerabilities := .list [{ ratings := .list [{ method := "SSVC", severity := "high" }] }] }

theorem listsElem_always {v : Int} (hv : SpecVersion1_0 ≤ v) {p : XPlace} {k s : String}
    (h : XPlace.ListsElem SpecVersion1_0 p k s) : XPlace.ListsElem v p k s := by
  intro gs hg
  obtain ⟨g, hm, hl, hs⟩ := h gs hg
  exact ⟨g, hm, by omega, hs⟩

theorem listsAttr_always {v : Int} (hv : SpecVersion1_0 ≤ v) {p : XPlace} {k s : String}
    (h : XPlace.ListsAttr SpecVersion1_0 p k s) : XPlace.ListsAttr v p k s := by
  intro gs hg
  obtain ⟨g, hm, hl, hs⟩ := h gs hg
  exact ⟨g, hm, by omega, hs⟩

/-- What is left of it is enumerated in every version. -/
theorem newStringsXBOM_listed (v : Int) (hv : SpecVersion1_0 ≤ v) : newStringsXBOM.XListedConverted v := by
  refine ⟨by simp [newStringsXBOM], ?_, by simp [newStringsXBOM, PSlice.elems],
    by simp [newStringsXBOM, PSlice.elems], fun _ => ?_, fun _ => ?_, by simp [newStringsXBOM, PSlice.elems],
    by simp [newStringsXBOM, PSlice.elems], by simp [newStringsXBOM], by simp [newStringsXBOM]⟩
  · intro c hc
    simp only [newStringsXBOM, PSlice.elems, List.mem_singleton] at hc
    subst hc
    have h1 : XPlace.ListsAttr SpecVersion1_7 .externalReference "type" "citation" := by decide +kernel
    have h2 : "citation" ∉ lateReferenceTypes := by decide
    have h3 := listsAttr_always hv (show XPlace.ListsAttr SpecVersion1_0 .license "acknowledgement" "concluded" by decide +kernel)
    refine (FitsConverted.walk_all _).2 ⟨?_, fun e he => (FitsConverted.walk_all _).2 ⟨?_, fun e' he' => ?_⟩⟩
    · simp [PSlice.elems, Component.XOwnListed, ExternalReference.XListedConverted, LicenseChoice.XListedConverted,
        License.XListedConverted, h1, h2, h3]
    all_goals
      simp only [Component.children, PSlice.elems, Option.elim_none, List.append_nil, List.mem_singleton] at he
      subst he
    · simp [PSlice.elems, Component.XOwnListed]
    · simp [Component.children, PSlice.elems] at he'
  · intro c hc
    simp only [newStringsXBOM, PSlice.elems, List.mem_singleton] at hc
    subst hc
    exact (by decide +kernel : XPlace.ListsElem SpecVersion1_7 .composition "aggregate" "incomplete_first_party_proprietary_only")
  · intro c hc
    simp only [newStringsXBOM, PSlice.elems, List.mem_singleton] at hc
    subst hc
    have := listsElem_always hv (show XPlace.ListsElem SpecVersion1_0 .rating "severity" "high" by decide +kernel)
    simp [Vulnerability.XListedConverted, PSlice.elems, this]

set_option maxRecDepth 10000 in
example (v : Int) (hv : SpecVersion1_0 ≤ v) : ∃ doc, encodeVersionXML newStringsXBOM v = some doc ∧ doc.Listed v := by
  obtain ⟨j, hj⟩ := encodeVersionXML_total newStringsXBOM v _ rfl
  exact ⟨j, hj, (encodeVersionXML_listed_copyable _ _ hv _ ((copy_eq_iff _).1 rfl) hj).2 (newStringsXBOM_listed v hv)⟩

/-! ### What is left behind -/

/-- BOMs with strings of later versions, and a version. -/
def lateXStrings : List (BOM × Int) :=
  [-- the field of an identity
   ({ specVersion := 8, version := 1,
      components := .list [{ type := "file", name := "f", evidence := some { identity := some { identity := some { field := "swhid" } } } }] }, SpecVersion1_5),
   -- the type of an external reference
   ({ specVersion := 8, version := 1,
      externalReferences := .list [{ url := "u", type := "release-notes" }] }, SpecVersion1_1),
   -- a hash of an external reference
   ({ specVersion := 8, version := 1,
      externalReferences := .list [{ url := "u", type := "other", hashes := .list [⟨"Streebog-256", "00"⟩] }] }, SpecVersion1_6),
   -- the type of a component in a formula
   ({ specVersion := 8, version := 1,
      formulation := .list [{ components := .list [{ type := "cryptographic-asset", name := "k" }] }] }, SpecVersion1_5),
   -- a hash of a component that is a tool
   ({ specVersion := 8, version := 1,
      metadata := some { tools := some { components := .list [{ type := "application", name := "t", hashes := .list [⟨"Streebog-256", "00"⟩] }] } } }, SpecVersion1_6)]

set_option maxRecDepth 10000 in
/-- C73 is false for BOMs with strings of later versions: each of these is written by `Encode` with strings that the
latest schema enumerates, and by `EncodeVersion` with one that the schema of the requested version does not. -/
theorem encodeVersionXML_late_strings : ∀ e ∈ lateXStrings,
    (∃ doc, encodeXML e.1 = some doc ∧ doc.Listed SpecVersion1_7) ∧
    ∃ doc, encodeVersionXML e.1 e.2 = some doc ∧ ¬ doc.Listed e.2 := by
  have key : ∀ e ∈ lateXStrings, (∃ doc, encodeXML e.1 = some doc) ∧ SpecVersion1_0 ≤ e.2 ∧
      e.1.copy = e.1 ∧ e.1.XListed SpecVersion1_7 ∧ ¬ e.1.XListedConverted e.2 := by
    have f2 : XPlace.ListsAttr SpecVersion1_7 .component "type" "file" := by decide +kernel
    have f3 : XPlace.ListsElem SpecVersion1_7 .identity "field" "swhid" := by decide +kernel
    have f4 : XPlace.ListsAttr SpecVersion1_7 .externalReference "type" "release-notes" := by decide +kernel
    have f5 : XPlace.ListsAttr SpecVersion1_7 .externalReference "type" "other" := by decide +kernel
    have f6 : XPlace.ListsAttr SpecVersion1_7 .hash "alg" "Streebog-256" := by decide +kernel
    have f7 : XPlace.ListsAttr SpecVersion1_7 .component "type" "cryptographic-asset" := by decide +kernel
    have f8 : XPlace.ListsAttr SpecVersion1_7 .component "type" "application" := by decide +kernel
    intro e he
    simp only [lateXStrings, List.mem_cons, List.not_mem_nil, or_false] at he
    rcases he with rfl | rfl | rfl | rfl | rfl
    all_goals
      refine ⟨⟨_, rfl⟩, by decide, rfl, ?_, ?_⟩
      · simp [BOM.XListed, PSlice.elems, Component.XListed, XListedComponents, XListedPedigreeOpt, Evidence.XListed,
          EvidenceIdentityChoice.XListed, EvidenceIdentity.XListed, ExternalReference.XListed, Hash.XListed, Formula.XListed,
          Metadata.XListed, ToolsChoice.XListed, *]
    · rintro ⟨-, h, -⟩
      have := (h _ List.mem_cons_self [] _ rfl).2.2.2.2.1 (by decide) _ rfl
      exact absurd ((((this.1 (by decide)) _ rfl).2 (by decide)).1 rfl _ rfl |>.1 (by decide)) (by decide +kernel)
    · rintro ⟨-, -, -, h, -⟩
      exact absurd ((h (by decide) _ List.mem_cons_self).2.1 (by decide)) (by decide +kernel)
    · rintro ⟨-, -, -, h, -⟩
      exact absurd ((h (by decide) _ List.mem_cons_self).2.2 (by decide) _ List.mem_cons_self) (by unfold Hash.XListed; decide +kernel)
    · rintro ⟨-, -, -, -, -, -, -, h, -⟩
      have := (h (by decide) _ List.mem_cons_self).1 _ List.mem_cons_self
      exact absurd ((XListedConverted.component_listed _).1 this).1 (by decide +kernel)
    · rintro ⟨h, -⟩
      have := ((h (by decide) _ rfl).2.1 _ rfl).2.2 (by decide) |>.1 _ List.mem_cons_self
      exact absurd (((XListedConverted.component_listed _).1 this).2.2.1 _ List.mem_cons_self) (by unfold Hash.XListed; decide +kernel)
  intro e he
  obtain ⟨⟨j, hj⟩, hv, hc, hl, hn⟩ := key e he
  obtain ⟨j', hj'⟩ := encodeVersionXML_total e.1 e.2 j hj
  refine ⟨⟨j, hj, (encodeXML_listed_iff _ _ j hj).2 hl⟩, ⟨j', hj', fun h => hn ?_⟩⟩
  have := (encodeVersionXML_listed_iff _ _ hv j' hj').1 h
  rwa [hc] at this

/-! ### Structure and strings together -/

/-- What the document has of the schema of version `v`: the structure and the enumerated strings. -/
def _root_.Verif.XmlDoc.Conforms (doc : XmlDoc) (v : Int) : Prop := doc.Valid v ∧ doc.Listed v

/-- Structure and strings of what `EncodeVersion` writes, in terms of what the caller hands over. -/
theorem encodeVersionXML_conforms_iff (b : BOM) (hc : b.Copyable) (k : Nat) (hk : k ≤ 7) (doc : XmlDoc)
    (h : encodeVersionXML b (k + 1) = some doc) :
    doc.Conforms (k + 1) ↔ b.XFitsConverted (k + 1) ∧ b.XListedConverted (k + 1) :=
  and_congr (encodeVersionXML_valid_iff_copyable b hc k hk doc h)
    (encodeVersionXML_listed_copyable b _ (by simp only [SpecVersion1_0]; omega) doc hc h)

end

/-! ## C74 -/

/-- The fields of the exported types that are attributes whose values the schemas enumerate, and the constants exported
for their type. -/
def enumeratedAttrs : List (XPlace × String × List String) :=
  [(.component, "type", ComponentType.all),
   (.externalReference, "type", ExternalReferenceType.all),
   (.license, "acknowledgement", LicenseAcknowledgement.all),
   (.licenseExpression, "acknowledgement", LicenseAcknowledgement.all),
   (.licenseExpressionDetailed, "acknowledgement", LicenseAcknowledgement.all),
   (.hash, "alg", HashAlgorithm.all),
   (.dataClassification, "flow", DataFlow.all),
   (.patch, "type", PatchType.all),
   (.issue, "type", IssueType.all)]

/-- The fields of the exported types that are elements whose texts the schemas enumerate, and the constants exported
for their type.  Measures of energy and of CO2 are one place. -/
def enumeratedElems : List (XPlace × String × List String) :=
  [(.component, "scope", Scope.all),
   (.distributionConstraints, "tlp", TLPClassification.all),
   (.composition, "aggregate", CompositionAggregate.all),
   (.lifecyclesLifecycle, "phase", LifecyclePhase.all),
   (.componentData, "type", ComponentDataType.all),
   (.cryptoProperties, "assetType", CryptoAssetType.all),
   (.analysis, "state", ImpactAnalysisState.all),
   (.analysis, "justification", ImpactAnalysisJustification.all),
   (.analysisResponses, "response", ImpactAnalysisResponse.all),
   (.patent, "patentLegalStatus", PatentLegalStatus.all),
   (.patentAssertion, "assertionType", PatentAssertionType.all),
   (.identity, "field", EvidenceIdentityFieldType.all),
   (.methodsMethod, "technique", EvidenceIdentityTechnique.all),
   (.algorithmProperties, "primitive", CryptoPrimitive.all),
   (.algorithmProperties, "executionEnvironment", CryptoExecutionEnvironment.all),
   (.algorithmProperties, "implementationPlatform", ImplementationPlatform.all),
   (.algorithmProperties, "certificationLevel", CryptoCertificationLevel.all),
   (.algorithmProperties, "mode", CryptoAlgorithmMode.all),
   (.algorithmProperties, "padding", CryptoPadding.all),
   (.algorithmPropertiesCryptoFunctions, "cryptoFunction", CryptoFunction.all),
   (.certificateState, "state", CertificateStateType.all),
   (.certificateExtension, "commonExtensionName", CertificateExtensionName.all),
   (.relatedCryptoMaterialProperties, "type", RelatedCryptoMaterialType.all),
   (.relatedCryptoMaterialProperties, "state", CryptoKeyState.all),
   (.protocolProperties, "type", CryptoProtocolType.all),
   (.rating, "severity", Severity.all),
   (.rating, "method", ScoringMethod.all),
   (.approach, "type", MLModelParametersApproachType.all),
   (.licenseTypes, "licenseType", LicenseType.all),
   (.trigger, "type", TaskTriggerType.all),
   (.targetVersionsVersion, "status", VulnerabilityStatus.all),
   (.output, "type", TaskOutputType.all),
   (.workspace, "accessMode", TaskWorkspaceAccessMode.all),
   (.energyConsumption, "activity", MLModelEnergyConsumptionActivity.all),
   (.energyProvider, "energySource", MLModelEnergySource.all),
   (.co2Measure, "unit", MLModelEnergyUnit.all ++ MLModelCO2Unit.all),
   (.taskTypeTaskTypes, "taskType", TaskType.all),
   (.volume, "mode", VolumeMode.all)]

/-- These are all enumerations of attributes, but for the encoding of texts, for which there is no type. -/
theorem enumeratedAttrs_complete (p : XPlace) (a : String) (gs : List (Int × List String)) (h : (a, gs) ∈ p.enumAttrs) :
    (p, a) = (.attachedText, "encoding") ∨ ∃ cs, (p, a, cs) ∈ enumeratedAttrs := by
  cases p <;> simp_all [XPlace.enumAttrs, enumeratedAttrs]

/-- These are all enumerations of elements. -/
theorem enumeratedElems_complete (p : XPlace) (m : String) (gs : List (Int × List String)) (h : (m, gs) ∈ p.enumElems) :
    ∃ cs, (p, m, cs) ∈ enumeratedElems := by
  cases p <;> simp only [XPlace.enumElems, List.mem_cons, List.not_mem_nil, or_false, Prod.mk.injEq] at h <;>
    (try casesm* _ ∨ _) <;> simp_all [enumeratedElems]

/-- C74 for attributes: the constants exported for a field are exactly the strings that the latest schema enumerates. -/
theorem constants_enumerated_attrs (e : XPlace × String × List String) (he : e ∈ enumeratedAttrs) (s : String) :
    s ∈ e.2.2 ↔ XPlace.ListsAttr SpecVersion1_7 e.1 e.2.1 s := by
  have : ∀ e ∈ enumeratedAttrs,
      (e.1.enumAttrs.lookup e.2.1).any (fun gs => decide (∀ g ∈ gs, g.1 ≤ SpecVersion1_7) &&
        decide (∀ t ∈ e.2.2, ∃ g ∈ gs, t ∈ g.2) && decide (∀ g ∈ gs, ∀ t ∈ g.2, t ∈ e.2.2)) = true := by
    decide +kernel
  have := this e he
  simp only [Option.any_eq_true, Bool.and_eq_true, decide_eq_true_eq] at this
  obtain ⟨gs, h1, ⟨h2, h3⟩, h4⟩ := this
  refine Iff.trans ?_ (XListedConverted.lists_iff h1 s).symm
  constructor
  · intro h
    obtain ⟨g, hg, hs⟩ := h3 s h
    exact ⟨g, hg, h2 g hg, hs⟩
  · rintro ⟨g, hg, -, hs⟩
    exact h4 g hg s hs

/-- C74 for elements, except for the mode of a volume: the constants exported for a field are exactly the strings that
the latest schema enumerates. -/
theorem constants_enumerated_elems_partial (e : XPlace × String × List String) (he : e ∈ enumeratedElems)
    (hm : e.2.2 ≠ VolumeMode.all) (s : String) : s ∈ e.2.2 ↔ XPlace.ListsElem SpecVersion1_7 e.1 e.2.1 s := by
  have : ∀ e ∈ enumeratedElems, e.2.2 ≠ VolumeMode.all →
      (e.1.enumElems.lookup e.2.1).any (fun gs => decide (∀ g ∈ gs, g.1 ≤ SpecVersion1_7) &&
        decide (∀ t ∈ e.2.2, ∃ g ∈ gs, t ∈ g.2) && decide (∀ g ∈ gs, ∀ t ∈ g.2, t ∈ e.2.2)) = true := by
    decide +kernel
  have := this e he hm
  simp only [Option.any_eq_true, Bool.and_eq_true, decide_eq_true_eq] at this
  obtain ⟨gs, h1, ⟨h2, h3⟩, h4⟩ := this
  refine Iff.trans ?_ (XListedConverted.lists_iff h1 s).symm
  constructor
  · intro h
    obtain ⟨g, hg, hs⟩ := h3 s h
    exact ⟨g, hg, h2 g hg, hs⟩
  · rintro ⟨g, hg, -, hs⟩
    exact h4 g hg s hs

example : (.certificateState, "state", CertificateStateType.all) ∈ enumeratedElems ∧ CertificateStateType.all ≠ VolumeMode.all :=
  ⟨by simp [enumeratedElems], by decide⟩
example : (.hash, "alg", HashAlgorithm.all) ∈ enumeratedAttrs := by simp [enumeratedAttrs]

/-- C74 is false for the mode of a volume: no version of the schema enumerates the exported `VolumeModeFilesystem`, and
the string that is enumerated instead is not exported. -/
theorem volume_mode_not_enumerated_xml :
    (.volume, "mode", VolumeMode.all) ∈ enumeratedElems ∧ VolumeModeFilesystem ∈ VolumeMode.all ∧
    (∀ v, ¬ XPlace.ListsElem v .volume "mode" VolumeModeFilesystem) ∧
    XPlace.ListsElem SpecVersion1_7 .volume "mode" "filesystem" ∧ "filesystem" ∉ VolumeMode.all := by
  refine ⟨by simp [enumeratedElems], by decide, fun v h => ?_, by decide, by decide⟩
  obtain ⟨g, hg, -, hs⟩ := (XListedConverted.lists_iff rfl _).1 h
  simp only [List.mem_singleton] at hg
  subst hg
  exact absurd hs (by decide)

end Verif.Props
