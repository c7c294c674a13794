import Verif.Spec.JsonRequired
import Verif.Json.RequiredLaws
import Verif.Proofs.Preserve

/-! Helper lemmas: conversion keeps the members that the JSON schemas require (`Spec.JsonRequired`), and supplies the
version of components below 1.4; no property statements here. -/

namespace Verif

set_option linter.unusedSectionVars false

theorem Component.complete_iff (v : Int) (c : Component) : c.Complete v ↔
    (v ≤ SpecVersion1_3 → c.version ≠ "") ∧ (∀ y ∈ c.licenses.elems, LicenseChoice.Complete v y) ∧
    (∀ d ∈ c.children, d.Complete v) ∧ (∀ y ∈ c.evidence, Evidence.Complete v y) ∧
    (∀ y ∈ c.modelCard, MLModelCard.Complete v y) ∧ (∀ y ∈ c.data.elems, ComponentData.Complete v y) ∧
    (∀ y ∈ c.cryptoProperties, CryptoProperties.Complete v y) ∧ (∀ y ∈ c.signature, JSFSignature.Complete v y) := by
  have hp : CompletePedigreeOpt v c.pedigree ↔ ∀ p ∈ c.pedigree, ∀ d ∈ p.relatives, d.Complete v := by
    rcases c.pedigree with _ | ⟨a, d, v⟩
    · simp [CompletePedigreeOpt]
    · simp [CompletePedigreeOpt, CompletePedigree, completeComponents_iff, pedigree_relatives_iff]
  rw [component_children_iff, ← hp, ← completeComponents_iff]
  cases c
  simp only [Component.Complete]
  exact ⟨fun ⟨a, b, c, d, e⟩ => ⟨a, b, ⟨d, c⟩, e⟩, fun ⟨a, b, ⟨d, c⟩, e⟩ => ⟨a, b, c, d, e⟩⟩

theorem Service.complete_iff (v : Int) (s : Service) : s.Complete v ↔
    (∀ y ∈ s.data.elems, DataClassification.Complete v y) ∧ (∀ y ∈ s.licenses.elems, LicenseChoice.Complete v y) ∧
    (∀ d ∈ s.children, d.Complete v) ∧ (∀ y ∈ s.signature, JSFSignature.Complete v y) := by
  rw [Service.children, ← completeServices_iff]
  cases s
  simp only [Service.Complete]

section
variable (v : Int)

/-! ### What is not converted -/

/-- From version 1.4 on a component may be without a version. -/
theorem Component.complete_later (h4 : SpecVersion1_4 ≤ v) {c : Component} :
    c.Complete SpecVersion1_7 → c.Complete v := by
  induction c using Component.induct with
  | h c ih =>
    rw [Component.complete_iff _ c, Component.complete_iff]
    rintro ⟨-, h1, h2, h3, h4, h5, h6, h7⟩
    refine ⟨fun h => ?_, h1, fun d hd => ih d hd (h2 d hd), h3, h4, h5, h6, h7⟩
    simp only [SpecVersion1_3, SpecVersion1_4] at *
    omega

theorem Service.complete_later {s : Service} : s.Complete SpecVersion1_7 → s.Complete v := by
  induction s using Service.induct with
  | h s ih =>
    rw [Service.complete_iff _ s, Service.complete_iff]
    rintro ⟨h1, h2, h3, h4⟩
    exact ⟨h1, h2, fun d hd => ih d hd (h3 d hd), h4⟩

theorem env_later {x : EnvironmentVariableChoice} (h : x.Complete SpecVersion1_7) : x.Complete v :=
  fun _ => h (by decide)
theorem input_later {x : TaskInput} (h : x.Complete SpecVersion1_7) : x.Complete v :=
  ⟨h.1, h.2.1, fun y hy => env_later v (h.2.2.1 y hy), h.2.2.2⟩
theorem output_later {x : TaskOutput} (h : x.Complete SpecVersion1_7) : x.Complete v :=
  ⟨h.1, h.2.1, fun y hy => env_later v (h.2.2.1 y hy), h.2.2.2⟩
theorem trigger_later {x : TaskTrigger} (h : x.Complete SpecVersion1_7) : x.Complete v := by
  obtain ⟨h1, h2, h3, h4, h5, h6, h7⟩ := h
  exact ⟨h1, h2, h3, h4, h5, fun y hy => input_later v (h6 y hy), fun y hy => output_later v (h7 y hy)⟩
theorem task_later {x : Task} (h : x.Complete SpecVersion1_7) : x.Complete v := by
  obtain ⟨h1, h2, h3, h4, h5, h6, h7, h8⟩ := h
  exact ⟨h1, h2, h3, h4, fun y hy => trigger_later v (h5 y hy), fun y hy => input_later v (h6 y hy),
    fun y hy => output_later v (h7 y hy), h8⟩
theorem workflow_later {x : Workflow} (h : x.Complete SpecVersion1_7) : x.Complete v := by
  obtain ⟨h1, h2, h3, h4, h0, h5, h6, h7, h8⟩ := h
  exact ⟨h1, h2, h3, h4, fun y hy => task_later v (h0 y hy), fun y hy => trigger_later v (h5 y hy),
    fun y hy => input_later v (h6 y hy), fun y hy => output_later v (h7 y hy), h8⟩
theorem formula_later (h4 : SpecVersion1_4 ≤ v) {x : Formula} (h : x.Complete SpecVersion1_7) : x.Complete v :=
  ⟨fun y hy => Component.complete_later v h4 (h.1 y hy), fun y hy => Service.complete_later v (h.2.1 y hy),
    fun y hy => workflow_later v (h.2.2 y hy)⟩
theorem declarations_later (h4 : SpecVersion1_4 ≤ v) {x : Declarations} (h : x.Complete SpecVersion1_7) :
    x.Complete v := by
  obtain ⟨h1, h2, h3, h5, h6, h7⟩ := h
  exact ⟨h1, h2, h3, fun y hy => ⟨fun z hz => Component.complete_later v h4 ((h5 y hy).1 z hz),
    fun z hz => Service.complete_later v ((h5 y hy).2 z hz)⟩, h6, h7⟩

/-! ### What is converted -/

theorem convertParty_complete {x : OrganizationalEntityOrContact} (h : x.Complete SpecVersion1_7) :
    (convertParty v x).Complete SpecVersion1_7 := by
  simpa [OrganizationalEntityOrContact.Complete, convertParty] using h

theorem convertLicensing_complete {x : Licensing} (h : x.Complete SpecVersion1_7) :
    (convertLicensing v x).Complete SpecVersion1_7 :=
  ⟨Option.map_all (fun _ => convertParty_complete v) h.1, Option.map_all (fun _ => convertParty_complete v) h.2.1,
    Option.map_all (fun _ => convertParty_complete v) h.2.2⟩

theorem licenseOf_complete {l : License} (h : l.Complete SpecVersion1_7) : (licenseOf v l).Complete SpecVersion1_7 := by
  refine ⟨h.1, ?_⟩
  unfold licenseOf
  simp only
  split_ifs
  · simp
  · exact Option.map_all (fun _ => convertLicensing_complete v) h.2
  · exact h.2

theorem licenseChoice_complete {c : LicenseChoice} (h : c.Complete SpecVersion1_7) :
    (licenseChoice v c).Complete SpecVersion1_7 := by
  rw [licenseChoice_eq]
  refine ⟨?_, Option.map_all (fun _ => licenseOf_complete v) h.2.1, ?_⟩
  · simpa using h.1
  · simp only
    split_ifs
    · simp
    · exact h.2.2

theorem convertLicenses_complete (hv : SpecVersion1_2 ≤ v) {ls : PSlice LicenseChoice}
    (h : ∀ c ∈ ls.elems, LicenseChoice.Complete SpecVersion1_7 c) :
    ∀ c ∈ (convertLicenses v ls).elems, LicenseChoice.Complete SpecVersion1_7 c := by
  rw [convertLicenses_eq, if_neg (by simp only [SpecVersion1_1, SpecVersion1_2] at *; omega)]
  exact PSlice.map_all (fun _ => licenseChoice_complete v) h

theorem clearFirst_complete {i : Option EvidenceIdentityChoice}
    (h : ∀ y ∈ i, EvidenceIdentityChoice.Complete SpecVersion1_7 y) :
    ∀ y ∈ clearConcludedValue (firstIdentity i), EvidenceIdentityChoice.Complete SpecVersion1_7 y := by
  rcases i with _ | ⟨id, _ | _ | (_ | ⟨x, xs⟩)⟩
  · simp [firstIdentity, clearConcludedValue]
  · simp only [firstIdentity, clearConcludedValue, Option.map_some, Option.mem_some_iff, forall_eq',
      EvidenceIdentityChoice.Complete] at h ⊢
    refine ⟨?_, h.2⟩
    intro y hy
    obtain ⟨z, hz, rfl⟩ := Option.map_eq_some_iff.1 hy
    exact h.1 z hz
  · simp [firstIdentity, clearConcludedValue, PSlice.elems]
  · simp [firstIdentity, clearConcludedValue, PSlice.elems]
  · simp only [firstIdentity, clearConcludedValue, PSlice.elems, Option.map_some, Option.mem_some_iff,
      forall_eq', EvidenceIdentityChoice.Complete] at h ⊢
    refine ⟨h.2 x List.mem_cons_self, by simp⟩

theorem convertEvidence_complete (hv : SpecVersion1_2 ≤ v) {e : Option Evidence}
    (h : ∀ y ∈ e, Evidence.Complete SpecVersion1_7 y) :
    ∀ y ∈ convertEvidence v e, Evidence.Complete SpecVersion1_7 y := by
  rcases e with _ | e
  · simp [convertEvidence]
  · obtain ⟨h1, h2, h3, h4⟩ := h e rfl
    unfold convertEvidence
    split_ifs with v3 v5 v6
    · simp
    · intro y hy
      cases hy
      exact ⟨by simp, by simp [PSlice.elems], by simp, h4⟩
    · intro y hy
      cases hy
      refine ⟨clearFirst_complete h1, ?_, h3, convertLicenses_complete v hv h4⟩
      exact PSlice.map_all (P := EvidenceOccurrence.Complete SpecVersion1_7) (fun o ho => ho) h2
    · intro y hy
      cases hy
      exact ⟨h1, h2, h3, convertLicenses_complete v hv h4⟩

theorem convertModelCard_complete {m : Option MLModelCard} (h : ∀ y ∈ m, MLModelCard.Complete SpecVersion1_7 y) :
    ∀ y ∈ convertModelCard v m, MLModelCard.Complete SpecVersion1_7 y := by
  refine Option.map_all (P := MLModelCard.Complete SpecVersion1_7) (fun m h => ?_) h
  split_ifs
  · exact h
  · exact h

theorem convertCryptoProperties_complete {m : Option CryptoProperties}
    (h : ∀ y ∈ m, CryptoProperties.Complete SpecVersion1_7 y) :
    ∀ y ∈ convertCryptoProperties v m, CryptoProperties.Complete SpecVersion1_7 y := by
  refine Option.map_all (P := CryptoProperties.Complete SpecVersion1_7) (fun m h => ?_) h
  refine Option.map_all (P := CertificateProperties.Complete SpecVersion1_7) (fun c h => ?_) h
  unfold convertCertificateProperties
  split_ifs
  · simp [CertificateProperties.Complete, PSlice.elems]
  · exact h

theorem recurseComponent_complete (hv : SpecVersion1_2 ≤ v) {c : Component} :
    c.Complete SpecVersion1_7 → (recurseComponent (componentConverter v) c).Complete v := by
  induction c using Component.induct with
  | h c ih =>
    rw [recurseComponent_go', Component.complete_iff _ c, Component.complete_iff]
    rintro ⟨-, h1, h2, h3, h4, h5, h6, h7⟩
    refine ⟨?_, ?_, ?_, ?_, ?_, ?_, ?_, ?_⟩
    · intro h
      have : v < SpecVersion1_4 := by simp only [SpecVersion1_3, SpecVersion1_4] at *; omega
      simp only [Component.mapChildren, componentConverter_version, this, if_true]
      split_ifs with he
      · decide
      · exact he
    · simp only [Component.mapChildren, componentConverter_licenses]
      exact convertLicenses_complete v hv h1
    · rw [Component.mapChildren_children]
      intro d hd
      obtain ⟨e, he, rfl⟩ := List.mem_map.1 hd
      have he := componentConverter_children v c e he
      exact ih e he (h2 e he)
    · simp only [Component.mapChildren, componentConverter_evidence]
      exact convertEvidence_complete v hv h3
    · simp only [Component.mapChildren, componentConverter_modelCard]
      split_ifs
      · simp
      · exact convertModelCard_complete v h4
    · simp only [Component.mapChildren, componentConverter_data]
      split_ifs
      · simp [PSlice.elems]
      · exact h5
    · simp only [Component.mapChildren, componentConverter_cryptoProperties]
      split_ifs
      · simp
      · exact convertCryptoProperties_complete v h6
    · simp only [Component.mapChildren, componentConverter_signature]
      exact h7

theorem recurseService_complete {s : Service} :
    s.Complete SpecVersion1_7 → (recurseService (serviceConverter v) s).Complete v := by
  induction s using Service.induct with
  | h s ih =>
    rw [recurseService_go', Service.complete_iff _ s, Service.complete_iff]
    rintro ⟨h1, h2, h3, h4⟩
    refine ⟨?_, ?_, ?_, ?_⟩
    · simp only [Service.mapChildren, serviceConverter_data, convertDataClassifications]
      split_ifs
      · refine PSlice.map_all (P := DataClassification.Complete SpecVersion1_7) (fun d _ => ?_) h1
        simp [DataClassification.Complete]
      · exact h1
    · simp only [Service.mapChildren, serviceConverter_licenses]
      exact h2
    · rw [Service.mapChildren_children, serviceConverter_children]
      intro d hd
      obtain ⟨e, he, rfl⟩ := List.mem_map.1 hd
      exact ih e he (h3 e he)
    · simp only [Service.mapChildren, serviceConverter_signature]
      exact h4

theorem toolService_complete {s : Service} (h : s.Complete SpecVersion1_7) : (toolService v s).Complete v := by
  rw [Service.complete_iff] at h ⊢
  exact ⟨h.1, h.2.1, fun d hd => Service.complete_later v (h.2.2.1 d hd), h.2.2.2⟩

theorem convertTools_complete {t : ToolsChoice} (h : t.Complete SpecVersion1_7) : (convertTools v t).Complete v := by
  by_cases h5 : v < SpecVersion1_5
  · rw [convertTools_old h5]
    exact ⟨by simp [PSlice.elems], by simp [PSlice.elems]⟩
  · rw [convertTools_new h5]
    have h4 : SpecVersion1_4 ≤ v := by simp only [SpecVersion1_4, SpecVersion1_5] at *; omega
    exact ⟨fun y hy => Component.complete_later v h4 (h.1 y hy), PSlice.map_all (fun _ => toolService_complete v) h.2⟩

theorem convertMetadata_complete (hv : SpecVersion1_2 ≤ v) {m : Metadata} (h : m.Complete SpecVersion1_7) :
    (convertMetadata v m).Complete v := by
  obtain ⟨h0, h1, h2, h3⟩ := h
  refine ⟨?_, ?_, ?_, ?_⟩
  · rw [convertMetadata_lifecycles]
    split_ifs
    · simp [PSlice.elems]
    · exact h0
  · rw [convertMetadata_tools]
    intro t ht
    obtain ⟨u, hu, rfl⟩ := Option.map_eq_some_iff.1 ht
    exact convertTools_complete v (h1 u hu)
  · rw [convertMetadata_component]
    intro t ht
    obtain ⟨u, hu, rfl⟩ := Option.map_eq_some_iff.1 ht
    exact recurseComponent_complete v hv (h2 u hu)
  · rw [convertMetadata_licenses]
    split_ifs
    · simp [PSlice.elems]
    · exact convertLicenses_complete v hv h3

theorem convertVulnerability_complete {x : Vulnerability} (h : x.Complete SpecVersion1_7) :
    (convertVulnerability v x).Complete v := by
  obtain ⟨h1, h2, h3⟩ := h
  refine ⟨?_, ?_, ?_⟩
  · rw [convertVulnerability_references]; exact h1
  · rw [convertVulnerability_tools]
    intro t ht
    obtain ⟨u, hu, rfl⟩ := Option.map_eq_some_iff.1 ht
    exact convertTools_complete v (h2 u hu)
  · rw [convertVulnerability_affects]; exact h3

theorem annotation_later (h4 : SpecVersion1_4 ≤ v) {x : Annotation} (h : x.Complete SpecVersion1_7) : x.Complete v := by
  obtain ⟨h1, h2, h3, h5, h6, h7⟩ := h
  exact ⟨h1, h2, h3, h5, fun y hy => ⟨(h6 y hy).1, fun z hz => Component.complete_later v h4 ((h6 y hy).2.1 z hz),
    fun z hz => Service.complete_later v ((h6 y hy).2.2 z hz)⟩, h7⟩

theorem convertAnnotator_complete (h4 : SpecVersion1_4 ≤ v) {a : Annotator} (h : a.Complete SpecVersion1_7) :
    (convertAnnotator v a).Complete v := by
  refine ⟨by simpa [convertAnnotator] using h.1, fun z hz => Component.complete_later v h4 (h.2.1 z hz), ?_⟩
  intro t ht
  obtain ⟨u, hu, rfl⟩ := Option.map_eq_some_iff.1 ht
  exact recurseService_complete v (h.2.2 u hu)

theorem convertAnnotations_complete (h4 : SpecVersion1_4 ≤ v) {as : PSlice Annotation}
    (h : ∀ a ∈ as.elems, Annotation.Complete SpecVersion1_7 a) :
    ∀ a ∈ (convertAnnotations v as).elems, Annotation.Complete v a := by
  unfold convertAnnotations
  split_ifs
  · refine PSlice.map_all (P := Annotation.Complete SpecVersion1_7) (fun a ha => ?_) h
    obtain ⟨h1, h2, h3, h5, h6, h7⟩ := ha
    refine ⟨h1, by simpa using h2, h3, h5, ?_, h7⟩
    intro t ht
    obtain ⟨u, hu, rfl⟩ := Option.map_eq_some_iff.1 ht
    exact convertAnnotator_complete v h4 (h6 u hu)
  · exact fun a ha => annotation_later v h4 (h a ha)

theorem convert_complete (hv : SpecVersion1_2 ≤ v) {b : BOM} (h : b.Complete SpecVersion1_7) :
    (convert v b).Complete v := by
  obtain ⟨h1, h2, h3, h4, h5, h6, h7, h8, h9, h10, h11⟩ := h
  have h45 : ¬ v < SpecVersion1_5 → SpecVersion1_4 ≤ v := by
    intro h; simp only [SpecVersion1_4, SpecVersion1_5] at *; omega
  have h46 : ¬ v < SpecVersion1_6 → SpecVersion1_4 ≤ v := by
    intro h; simp only [SpecVersion1_4, SpecVersion1_6] at *; omega
  refine ⟨?_, ?_, ?_, ?_, ?_, ?_, ?_, ?_, ?_, ?_, ?_⟩
  · rw [convert_metadata]
    split_ifs
    · simp
    · intro t ht
      obtain ⟨u, hu, rfl⟩ := Option.map_eq_some_iff.1 ht
      exact convertMetadata_complete v hv (h1 u hu)
  · rw [convert_components]
    exact PSlice.map_all (fun _ => recurseComponent_complete v hv) h2
  · rw [convert_services]
    split_ifs
    · simp [PSlice.elems]
    · exact PSlice.map_all (fun _ => recurseService_complete v) h3
  · rw [convert_compositions]
    split_ifs
    · simp [PSlice.elems]
    · refine PSlice.map_all (P := Composition.Complete SpecVersion1_7) (fun c hc => ?_) h4
      intro y hy
      rw [convertComposition_signature] at hy
      exact hc y hy
  · rw [convert_vulnerabilities]
    split_ifs
    · simp [PSlice.elems]
    · exact PSlice.map_all (fun _ => convertVulnerability_complete v) h5
  · rw [convert_annotations]
    split_ifs with h
    · simp [PSlice.elems]
    · exact convertAnnotations_complete v (h45 h) h6
  · rw [convert_formulation]
    split_ifs with h
    · simp [PSlice.elems]
    · exact fun y hy => formula_later v (h45 h) (h7 y hy)
  · rw [convert_declarations]
    split_ifs with h
    · simp
    · exact fun y hy => declarations_later v (h46 h) (h8 y hy)
  · rw [convert_definitions]
    split_ifs
    · simp
    · refine Option.map_all (P := Definitions.Complete SpecVersion1_7) (fun d hd => ?_) h9
      exact ⟨hd.1, by simp [PSlice.elems]⟩
    · exact h9
  · rw [convert_citations]
    split_ifs
    · simp [PSlice.elems]
    · exact h10
  · rw [convert_signature]; exact h11

end

end Verif
