import Verif.Spec.JsonEnums
import Verif.Spec.JsonListedConverted
import Verif.Json.EnumLaws
import Verif.Proofs.ListedConverted
import Verif.Props.EncodeVersion
import Verif.Props.JsonSchema

/-! # C65, C66: the strings that the JSON schemas enumerate -/

namespace Verif.Props

set_option linter.unusedSectionVars false
set_option linter.unusedSimpArgs false

instance (v : Int) (p : Place) (k s : String) : Decidable (Place.Lists v p k s) :=
  decidable_of_iff ((p.enums.lookup k).all (fun gs => gs.any fun g => g.1 ≤ v && g.2.contains s) = true) (by
    unfold Place.Lists
    cases p.enums.lookup k <;> simp)

section
variable [FloatIO]

/-! ## C65 -/

/-- C65 for `Encode`: every string that is written at a place with an enumeration, at any depth, is one of those that
the schema of a version enumerates there exactly if this holds of the strings in the BOM (`BOM.Listed`). -/
theorem encode_listed_iff (b : BOM) (v : Int) (j : Json) (h : encodeJSON b = .ok j) : j.Listed v ↔ b.Listed v := by
  unfold encodeJSON at h
  split at h
  · cases h
  · split at h
    · cases h
    · rename_i j' hj
      cases h
      exact enum_bom v b j hj

/-- C65 for `EncodeVersion`, exactly: the strings written are those that the schema of the version enumerates if and
only if `BOM.ListedConverted`, which speaks only of what the conversion neither replaces nor removes, holds of the deep
copy of the BOM. -/
theorem encodeVersion_listed_iff (b : BOM) (v : Int) (j : Json) (h : encodeVersionJSON b v = .ok j) :
    j.Listed v ↔ b.copy.ListedConverted v := by
  have hv : SpecVersion1_2 ≤ v := by
    have := ((json_encodes_iff (copyAndConvert v b)).1 ⟨j, h⟩).1
    rwa [copyAndConvert, convert_specVersion] at this
  rw [encode_listed_iff _ v j h, copyAndConvert, ListedConverted.bom hv]

/-- The same of the BOMs that the deep copy keeps as they are. -/
theorem encodeVersion_listed_copyable (b : BOM) (v : Int) (j : Json) (hc : b.Copyable)
    (h : encodeVersionJSON b v = .ok j) : j.Listed v ↔ b.ListedConverted v := by
  rw [encodeVersion_listed_iff b v j h, (copy_eq_iff b).2 hc]

/-- C65, for the BOMs with strings of the version only: conversion puts no other string in their place. -/
theorem encodeVersion_listed_partial (b : BOM) (v : Int) (j : Json) (hc : b.Copyable) (hb : b.Listed v)
    (h : encodeVersionJSON b v = .ok j) : j.Listed v :=
  (encodeVersion_listed_copyable b v j hc h).2 (ListedConverted.bom_of b hb)

/-- Of a component neither the type nor the scope nor the algorithms of its hashes matter, of a rating the method does
not: whatever they are, what is written is enumerated. -/
theorem converted_listed (v : Int) (hv : SpecVersion1_2 ≤ v) (c : Component) (r : VulnerabilityRating) :
    Place.Lists v .component "type" (componentConverter v c).type ∧
    ((componentConverter v c).scope ≠ "" → Place.Lists v .component "scope" (componentConverter v c).scope) ∧
    (∀ h ∈ (componentConverter v c).hashes.elems, Place.Lists v .hash "alg" h.algorithm) ∧
    Place.Lists v .rating "method" (convertRating v r).method := by
  refine ⟨?_, ?_, ?_, ?_⟩
  · rw [componentConverter_type]; exact ListedConverted.componentType hv _
  · rw [componentConverter_scope]; exact ListedConverted.scope hv _
  · rw [componentConverter_hashes]; exact ListedConverted.hashes hv _
  · have := ListedConverted.method hv r.method
    unfold convertRating
    split_ifs at this ⊢ <;> simp_all

/-! ### A BOM that is written with enumerated strings for every version -/

/-- Strings that only later versions enumerate, or none: the type of a component, a hash, a scope, the type of a
reference, an aggregate, the method of a rating. -/
def newStringsBOM : BOM :=
  { bomFormat := "CycloneDX", specVersion := 8, version := 1,
    components := .list [{ type := "machine-learning-model", name := "a", scope := "sometimes",
                           hashes := .list [⟨"Streebog-256", "00"⟩, ⟨"MD5", "11"⟩],
                           externalReferences := .list [{ url := "u", type := "citation" }],
                           components := .list [{ type := "cryptographic-asset", name := "k" }] }],
    compositions := .list [{ aggregate := "incomplete_first_party_proprietary_only" }],
    vulnerabilities := .list [{ ratings := .list [{ method := "SSVC", severity := "high" }] }] }

theorem lists_always {v : Int} (hv : SpecVersion1_2 ≤ v) {p : Place} {k s : String}
    (h : Place.Lists SpecVersion1_2 p k s) : Place.Lists v p k s := by
  intro gs hg
  obtain ⟨g, hm, hl, hs⟩ := h gs hg
  exact ⟨g, hm, by omega, hs⟩

/-- What is left of it is enumerated in every version. -/
theorem newStringsBOM_listed (v : Int) (hv : SpecVersion1_2 ≤ v) : newStringsBOM.ListedConverted v := by
  refine ⟨lists_always hv (by decide), by simp [newStringsBOM], ?_, by simp [newStringsBOM, PSlice.elems],
    by simp [newStringsBOM, PSlice.elems], fun _ => ?_, fun _ => ?_, by simp [newStringsBOM, PSlice.elems],
    by simp [newStringsBOM, PSlice.elems], by simp [newStringsBOM], by simp [newStringsBOM],
    by simp [newStringsBOM, PSlice.elems], by simp [newStringsBOM]⟩
  · intro c hc
    simp only [newStringsBOM, PSlice.elems, List.mem_singleton] at hc
    subst hc
    have h1 : Place.Lists SpecVersion1_7 .externalReference "type" "citation" := by decide +kernel
    have h2 : "citation" ∉ lateReferenceTypes := by decide
    refine (FitsConverted.walk_all _).2 ⟨?_, fun e he => (FitsConverted.walk_all _).2 ⟨?_, fun e' he' => ?_⟩⟩
    · simp [PSlice.elems, Component.OwnListed, ExternalReference.ListedConverted, h1, h2]
    all_goals
      simp only [Component.children, PSlice.elems, Option.elim_none, List.append_nil, List.mem_singleton] at he
      subst he
    · simp [PSlice.elems, Component.OwnListed]
    · simp [Component.children, PSlice.elems] at he'
  · intro c hc
    simp only [newStringsBOM, PSlice.elems, List.mem_singleton] at hc
    subst hc
    exact ⟨by decide +kernel, by simp⟩
  · intro c hc
    simp only [newStringsBOM, PSlice.elems, List.mem_singleton] at hc
    subst hc
    have := lists_always hv (show Place.Lists SpecVersion1_2 .rating "severity" "high" by decide +kernel)
    simp [Vulnerability.ListedConverted, PSlice.elems, this]

set_option maxRecDepth 10000 in
example (v : Int) (hv : SpecVersion1_2 ≤ v) : ∃ j, encodeVersionJSON newStringsBOM v = .ok j ∧ j.Listed v := by
  obtain ⟨j, hj⟩ := encodeVersion_total_partial newStringsBOM v _ rfl
    (by simp [BOM.ToolsNonEmpty, newStringsBOM, PSlice.elems]) hv
  exact ⟨j, hj, (encodeVersion_listed_copyable _ _ _ ((copy_eq_iff _).1 rfl) hj).2 (newStringsBOM_listed v hv)⟩

/-! ### What is left behind -/

/-- BOMs with strings of later versions, and a version. -/
def lateStrings : List (BOM × Int) :=
  [-- the field of an identity
   ({ bomFormat := "CycloneDX", specVersion := 8, version := 1,
      components := .list [{ type := "file", name := "f", evidence := some { identity := some { identity := some { field := "swhid" } } } }] }, SpecVersion1_5),
   -- the type of an external reference
   ({ bomFormat := "CycloneDX", specVersion := 8, version := 1,
      externalReferences := .list [{ url := "u", type := "rfc-9116" }] }, SpecVersion1_5),
   -- a hash of an external reference
   ({ bomFormat := "CycloneDX", specVersion := 8, version := 1,
      externalReferences := .list [{ url := "u", type := "other", hashes := .list [⟨"Streebog-256", "00"⟩] }] }, SpecVersion1_6),
   -- the type of a component in a formula
   ({ bomFormat := "CycloneDX", specVersion := 8, version := 1,
      formulation := .list [{ components := .list [{ type := "cryptographic-asset", name := "k" }] }] }, SpecVersion1_5),
   -- a hash of a component that is a tool
   ({ bomFormat := "CycloneDX", specVersion := 8, version := 1,
      metadata := some { tools := some { components := .list [{ type := "application", name := "t", hashes := .list [⟨"Streebog-256", "00"⟩] }] } } }, SpecVersion1_6)]

set_option maxRecDepth 10000 in
/-- C65 is false for BOMs with strings of later versions: each of these is written by `Encode` with strings that the
latest schema enumerates, and by `EncodeVersion` with one that the schema of the requested version does not. -/
theorem encodeVersion_late_strings : ∀ e ∈ lateStrings,
    (∃ j, encodeJSON e.1 = .ok j ∧ j.Listed SpecVersion1_7) ∧
    ∃ j, encodeVersionJSON e.1 e.2 = .ok j ∧ ¬ j.Listed e.2 := by
  have key : ∀ e ∈ lateStrings, (∃ j, encodeJSON e.1 = .ok j) ∧ e.1.ToolsNonEmpty ∧ SpecVersion1_2 ≤ e.2 ∧
      e.1.copy = e.1 ∧ e.1.Listed SpecVersion1_7 ∧ ¬ e.1.ListedConverted e.2 := by
    have f1 : Place.Lists SpecVersion1_7 .bom "bomFormat" "CycloneDX" := by decide
    have f2 : Place.Lists SpecVersion1_7 .component "type" "file" := by decide +kernel
    have f3 : Place.Lists SpecVersion1_7 .componentIdentityEvidence "field" "swhid" := by decide +kernel
    have f4 : Place.Lists SpecVersion1_7 .externalReference "type" "rfc-9116" := by decide +kernel
    have f5 : Place.Lists SpecVersion1_7 .externalReference "type" "other" := by decide +kernel
    have f6 : Place.Lists SpecVersion1_7 .hash "alg" "Streebog-256" := by decide +kernel
    have f7 : Place.Lists SpecVersion1_7 .component "type" "cryptographic-asset" := by decide +kernel
    have f8 : Place.Lists SpecVersion1_7 .component "type" "application" := by decide +kernel
    intro e he
    simp only [lateStrings, List.mem_cons, List.not_mem_nil, or_false] at he
    rcases he with rfl | rfl | rfl | rfl | rfl
    all_goals
      refine ⟨⟨_, rfl⟩, by simp [BOM.ToolsNonEmpty, PSlice.elems, ToolsChoice.NonEmpty], by decide, rfl, ?_, ?_⟩
      · simp [BOM.Listed, PSlice.elems, Component.Listed, ListedComponents, ListedPedigreeOpt, Evidence.Listed,
          EvidenceIdentityChoice.Listed, EvidenceIdentity.Listed, ExternalReference.Listed, Hash.Listed, Formula.Listed,
          Metadata.Listed, ToolsChoice.Listed, *]
    · rintro ⟨-, -, h, -⟩
      have := (h _ List.mem_cons_self [] _ rfl).2.2.2.2.1 _ rfl
      exact absurd ((((this.1 (by decide)) _ rfl).2 (by decide)).1 rfl _ rfl |>.1 (by decide)) (by decide +kernel)
    · rintro ⟨-, -, -, -, h, -⟩
      exact absurd ((h _ List.mem_cons_self).2.1 (by decide)) (by decide +kernel)
    · rintro ⟨-, -, -, -, h, -⟩
      exact absurd ((h _ List.mem_cons_self).2.2 (by decide) _ List.mem_cons_self) (by unfold Hash.Listed; decide +kernel)
    · rintro ⟨-, -, -, -, -, -, -, -, h, -⟩
      have := (h (by decide) _ List.mem_cons_self).1 _ List.mem_cons_self
      exact absurd ((ListedConverted.component_listed _).1 this).1 (by decide +kernel)
    · rintro ⟨-, h, -⟩
      have := ((h _ rfl).2.1 _ rfl).2.2 (by decide) |>.1 _ List.mem_cons_self
      exact absurd (((ListedConverted.component_listed _).1 this).2.2.1 _ List.mem_cons_self) (by unfold Hash.Listed; decide +kernel)
  intro e he
  obtain ⟨⟨j, hj⟩, ht, hv, hc, hl, hn⟩ := key e he
  obtain ⟨j', hj'⟩ := encodeVersion_total_partial e.1 e.2 j hj ht hv
  refine ⟨⟨j, hj, (encode_listed_iff _ _ j hj).2 hl⟩, ⟨j', hj', fun h => hn ?_⟩⟩
  have := (encodeVersion_listed_iff _ _ j' hj').1 h
  rwa [hc] at this

end

/-! ## C66 -/

/-- The fields of the exported types whose members the schemas enumerate, and the constants exported for their type. -/
def enumeratedFields : List (Place × String × List String) :=
  [(.affectedVersions, "status", VulnerabilityStatus.all),
   (.component, "type", ComponentType.all),
   (.component, "scope", Scope.all),
   (.componentData, "type", ComponentDataType.all),
   (.modelDataset, "type", ComponentDataType.all),
   (.compositions, "aggregate", CompositionAggregate.all),
   (.algorithmProperties, "primitive", CryptoPrimitive.all),
   (.algorithmProperties, "executionEnvironment", CryptoExecutionEnvironment.all),
   (.algorithmProperties, "implementationPlatform", ImplementationPlatform.all),
   (.algorithmProperties, "certificationLevel", CryptoCertificationLevel.all),
   (.algorithmProperties, "mode", CryptoAlgorithmMode.all),
   (.algorithmProperties, "padding", CryptoPadding.all),
   (.algorithmProperties, "cryptoFunctions", CryptoFunction.all),
   (.cryptoProperties, "assetType", CryptoAssetType.all),
   (.protocolProperties, "type", CryptoProtocolType.all),
   (.serviceData, "flow", DataFlow.all),
   (.componentIdentityEvidence, "field", EvidenceIdentityFieldType.all),
   (.componentIdentityEvidenceMethods, "technique", EvidenceIdentityTechnique.all),
   (.externalReference, "type", ExternalReferenceType.all),
   (.hash, "alg", HashAlgorithm.all),
   (.issue, "type", IssueType.all),
   (.license, "acknowledgement", LicenseAcknowledgement.all),
   (.licenseChoice, "acknowledgement", LicenseAcknowledgement.all),
   (.licensing, "licenseTypes", LicenseType.all),
   (.metadataLifecycles, "phase", LifecyclePhase.all),
   (.co2Measure, "unit", MLModelCO2Unit.all),
   (.energyConsumption, "activity", MLModelEnergyConsumptionActivity.all),
   (.energyMeasure, "unit", MLModelEnergyUnit.all),
   (.energyProvider, "energySource", MLModelEnergySource.all),
   (.modelCardModelParametersApproach, "type", MLModelParametersApproachType.all),
   (.patch, "type", PatchType.all),
   (.relatedCryptoMaterialProperties, "type", RelatedCryptoMaterialType.all),
   (.relatedCryptoMaterialProperties, "state", CryptoKeyState.all),
   (.task, "taskTypes", TaskType.all),
   (.outputType, "type", TaskOutputType.all),
   (.trigger, "type", TaskTriggerType.all),
   (.workspace, "accessMode", TaskWorkspaceAccessMode.all),
   (.volume, "mode", VolumeMode.all),
   (.vulnerabilityAnalysis, "state", ImpactAnalysisState.all),
   (.vulnerabilityAnalysis, "justification", ImpactAnalysisJustification.all),
   (.vulnerabilityAnalysis, "response", ImpactAnalysisResponse.all),
   (.rating, "severity", Severity.all),
   (.rating, "method", ScoringMethod.all),
   (.workflow, "taskTypes", TaskType.all),
   (.patentOrFamily, "patentLegalStatus", PatentLegalStatus.all),
   (.patentAssertion, "assertionType", PatentAssertionType.all),
   (.metadataDistributionConstraints, "tlp", TLPClassification.all),
   (.certificateState, "state", CertificateStateType.all),
   (.certificateExtension, "commonExtensionName", CertificateExtensionName.all)]

/-- C66, for all enumerated fields except the mode of a volume: the constants exported for a field are exactly the
strings that the latest schema enumerates for its member. -/
theorem constants_enumerated_partial (e : Place × String × List String) (he : e ∈ enumeratedFields)
    (hm : e.2.2 ≠ VolumeMode.all) (s : String) :
    s ∈ e.2.2 ↔ Place.Lists SpecVersion1_7 e.1 e.2.1 s := by
  have key : ∀ e ∈ enumeratedFields, e.2.2 ≠ VolumeMode.all →
      ∃ gs, e.1.enums.lookup e.2.1 = some gs ∧ (∀ g ∈ gs, g.1 ≤ SpecVersion1_7) ∧
        (∀ t ∈ e.2.2, ∃ g ∈ gs, t ∈ g.2) ∧ ∀ g ∈ gs, ∀ t ∈ g.2, t ∈ e.2.2 := by
    have : ∀ e ∈ enumeratedFields, e.2.2 ≠ VolumeMode.all →
        (e.1.enums.lookup e.2.1).any (fun gs => decide (∀ g ∈ gs, g.1 ≤ SpecVersion1_7) &&
          decide (∀ t ∈ e.2.2, ∃ g ∈ gs, t ∈ g.2) && decide (∀ g ∈ gs, ∀ t ∈ g.2, t ∈ e.2.2)) = true := by
      decide +kernel
    intro e he hm
    have := this e he hm
    simp only [Option.any_eq_true, Bool.and_eq_true, decide_eq_true_eq] at this
    obtain ⟨gs, h1, ⟨h2, h3⟩, h4⟩ := this
    exact ⟨gs, h1, h2, h3, h4⟩
  obtain ⟨gs, h1, h2, h3, h4⟩ := key e he hm
  rw [ListedConverted.lists_iff h1]
  constructor
  · intro h
    obtain ⟨g, hg, hs⟩ := h3 s h
    exact ⟨g, hg, h2 g hg, hs⟩
  · rintro ⟨g, hg, -, hs⟩
    exact h4 g hg s hs

example : (.certificateState, "state", CertificateStateType.all) ∈ enumeratedFields ∧ CertificateStateType.all ≠ VolumeMode.all :=
  ⟨by simp [enumeratedFields], by decide⟩

/-- C66 is false for the mode of a volume: no version of the schema enumerates the exported `VolumeModeFilesystem`, and
the string that is enumerated instead is not exported. -/
theorem volume_mode_not_enumerated :
    (.volume, "mode", VolumeMode.all) ∈ enumeratedFields ∧ VolumeModeFilesystem ∈ VolumeMode.all ∧
    (∀ v, ¬ Place.Lists v .volume "mode" VolumeModeFilesystem) ∧
    Place.Lists SpecVersion1_7 .volume "mode" "filesystem" ∧ "filesystem" ∉ VolumeMode.all := by
  refine ⟨by simp [enumeratedFields], by decide, fun v h => ?_, by decide, by decide⟩
  obtain ⟨g, hg, -, hs⟩ := (ListedConverted.lists_iff rfl _).1 h
  simp only [List.mem_singleton] at hg
  subst hg
  exact absurd hs (by decide)

/-! ### The identifier of the schema -/

/-- The identifiers that the schemas enumerate for the member `$schema`
(`schema/bom-1.2-strict.schema.json:14-19`, `bom-1.3-strict.schema.json:14-19`, `bom-1.4.schema.json:14-19`,
`bom-1.5.schema.json:14-19`); the later ones allow every string. -/
def schemaIdentifiers : List (Int × String) :=
  [(SpecVersion1_2, "http://cyclonedx.org/schema/bom-1.2a.schema.json"),
   (SpecVersion1_3, "http://cyclonedx.org/schema/bom-1.3.schema.json"),
   (SpecVersion1_4, "http://cyclonedx.org/schema/bom-1.4.schema.json"),
   (SpecVersion1_5, "http://cyclonedx.org/schema/bom-1.5.schema.json")]

/-- A BOM converted to a version carries the identifier that the schema of the version enumerates, if it enumerates one,
except for version 1.2. -/
theorem schema_identifier_partial (b : BOM) (e : Int × String) (he : e ∈ schemaIdentifiers) (h : e.1 ≠ SpecVersion1_2) :
    (convert e.1 b).jsonSchema = e.2 := by
  rw [convert_jsonSchema]
  exact (by decide +kernel : ∀ e ∈ schemaIdentifiers, e.1 ≠ SpecVersion1_2 → mapGet jsonSchemas e.1 = e.2) e he h

/-- For version 1.2 every converted BOM carries another one. -/
theorem schema_identifier_1_2 (b : BOM) : (SpecVersion1_2, (convert SpecVersion1_2 b).jsonSchema) ∉ schemaIdentifiers := by
  rw [convert_jsonSchema]
  decide +kernel

example : (SpecVersion1_4, "http://cyclonedx.org/schema/bom-1.4.schema.json") ∈ schemaIdentifiers := by decide

end Verif.Props
