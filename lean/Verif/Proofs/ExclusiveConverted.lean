import Verif.Spec.JsonExclusive
import Verif.Json.ExclusiveLaws
import Verif.Proofs.CompleteConverted

/-! Helper lemmas: conversion writes no second alternative beside one that the JSON schemas exclude
(`Spec.JsonExclusive`), and which versions exclude what another one excludes; no property statements here. -/

namespace Verif

set_option linter.unusedSectionVars false

theorem Component.exclusive_iff (v : Int) (c : Component) : c.Exclusive v ↔
    (SpecVersion1_7 ≤ v → ¬ (c.version ≠ "" ∧ c.versionRange ≠ "")) ∧ LicensesExclusive v c.licenses ∧
    (∀ d ∈ c.children, d.Exclusive v) ∧ (∀ y ∈ c.evidence, Evidence.Exclusive v y) ∧
    (∀ y ∈ c.modelCard, MLModelCard.Exclusive v y) ∧ (∀ y ∈ c.data.elems, ComponentData.Exclusive v y) ∧
    (∀ y ∈ c.signature, JSFSignature.Exclusive v y) := by
  have hp : ExclusivePedigreeOpt v c.pedigree ↔ ∀ p ∈ c.pedigree, ∀ d ∈ p.relatives, d.Exclusive v := by
    rcases c.pedigree with _ | ⟨a, d, v⟩
    · simp [ExclusivePedigreeOpt]
    · simp [ExclusivePedigreeOpt, ExclusivePedigree, exclusiveComponents_iff, pedigree_relatives_iff]
  rw [component_children_iff, ← hp, ← exclusiveComponents_iff]
  cases c
  simp only [Component.Exclusive]
  exact ⟨fun ⟨a, b, c, d, e⟩ => ⟨a, b, ⟨d, c⟩, e⟩, fun ⟨a, b, ⟨d, c⟩, e⟩ => ⟨a, b, c, d, e⟩⟩

theorem Service.exclusive_iff (v : Int) (s : Service) : s.Exclusive v ↔
    (∀ y ∈ s.data.elems, DataClassification.Exclusive v y) ∧ LicensesExclusive v s.licenses ∧
    (∀ d ∈ s.children, d.Exclusive v) ∧ (∀ y ∈ s.signature, JSFSignature.Exclusive v y) := by
  rw [Service.children, ← exclusiveServices_iff]
  cases s
  simp only [Service.Exclusive]

/-! ### From one version to another -/

section
variable {u v : Int} (hle : v ≤ u)
  (hl : SpecVersion1_5 ≤ v → v ≤ SpecVersion1_6 → SpecVersion1_5 ≤ u ∧ u ≤ SpecVersion1_6)
include hle hl

theorem licenses_exclusive_mono {p : PSlice LicenseChoice} (h : LicensesExclusive u p) : LicensesExclusive v p := by
  refine ⟨fun a b => h.1 (hl a b).1 (hl a b).2, fun y hy => ?_⟩
  obtain ⟨h1, h2, h3, h4, h5, h6, h7, h8⟩ := h.2 y hy
  exact ⟨fun h => h1 (Int.le_trans h hle), fun h => h2 (Int.le_trans h hle), h3, fun h => h4 (Int.le_trans h hle),
    fun h => h5 (Int.le_trans h hle), fun h => h6 (Int.le_trans h hle), h7, h8⟩

theorem Component.exclusive_mono {c : Component} : c.Exclusive u → c.Exclusive v := by
  induction c using Component.induct with
  | h c ih =>
    rw [Component.exclusive_iff _ c, Component.exclusive_iff]
    rintro ⟨h0, h1, h2, h3, h4, h5, h6⟩
    exact ⟨fun h => h0 (Int.le_trans h hle), licenses_exclusive_mono hle hl h1, fun d hd => ih d hd (h2 d hd),
      fun y hy => licenses_exclusive_mono hle hl (h3 y hy), h4, h5, h6⟩

theorem Service.exclusive_mono {s : Service} : s.Exclusive u → s.Exclusive v := by
  induction s using Service.induct with
  | h s ih =>
    rw [Service.exclusive_iff _ s, Service.exclusive_iff]
    rintro ⟨h1, h2, h3, h4⟩
    exact ⟨h1, licenses_exclusive_mono hle hl h2, fun d hd => ih d hd (h3 d hd), h4⟩

theorem tools_exclusive_mono {t : ToolsChoice} (h : t.Exclusive u) : t.Exclusive v :=
  ⟨fun y hy => Component.exclusive_mono hle hl (h.1 y hy), fun y hy => Service.exclusive_mono hle hl (h.2 y hy)⟩

theorem annotation_exclusive_mono {a : Annotation} (h : a.Exclusive u) : a.Exclusive v := by
  refine ⟨fun y hy => ?_, h.2⟩
  obtain ⟨h1, h2, h3, h4, h5, h6, h7, h8⟩ := h.1 y hy
  exact ⟨h1, h2, h3, h4, h5, h6, fun z hz => Component.exclusive_mono hle hl (h7 z hz),
    fun z hz => Service.exclusive_mono hle hl (h8 z hz)⟩

theorem declarations_exclusive_mono {d : Declarations} (h : d.Exclusive u) : d.Exclusive v := by
  obtain ⟨h1, h2, h3, h4, h5, h6⟩ := h
  exact ⟨h1, h2, h3, fun y hy => ⟨fun z hz => Component.exclusive_mono hle hl ((h4 y hy).1 z hz),
    fun z hz => Service.exclusive_mono hle hl ((h4 y hy).2 z hz)⟩, h5, h6⟩

theorem formula_exclusive_mono {f : Formula} (h : f.Exclusive u) : f.Exclusive v :=
  ⟨fun y hy => Component.exclusive_mono hle hl (h.1 y hy), fun y hy => Service.exclusive_mono hle hl (h.2.1 y hy),
    h.2.2⟩

theorem BOM.exclusive_mono {b : BOM} (h : b.Exclusive u) : b.Exclusive v := by
  obtain ⟨h1, h2, h3, h4, h5, h6, h7, h8, h9, h10, h11⟩ := h
  refine ⟨fun y hy => ?_, fun y hy => Component.exclusive_mono hle hl (h2 y hy),
    fun y hy => Service.exclusive_mono hle hl (h3 y hy), h4,
    fun y hy => ⟨fun z hz => tools_exclusive_mono hle hl ((h5 y hy).1 z hz), (h5 y hy).2⟩,
    fun y hy => annotation_exclusive_mono hle hl (h6 y hy), fun y hy => formula_exclusive_mono hle hl (h7 y hy),
    fun y hy => declarations_exclusive_mono hle hl (h8 y hy), h9, h10, h11⟩
  obtain ⟨a, b, c, d⟩ := h1 y hy
  exact ⟨a, fun z hz => tools_exclusive_mono hle hl (b z hz), fun z hz => Component.exclusive_mono hle hl (c z hz),
    licenses_exclusive_mono hle hl d⟩

end

section
variable (v : Int)

/-! ### What is converted -/

theorem convertParty_exclusive {x : OrganizationalEntityOrContact} (h : x.Exclusive v) :
    (convertParty v x).Exclusive v := by
  simpa [OrganizationalEntityOrContact.Exclusive, convertParty] using h

theorem convertLicensing_exclusive {x : Licensing} (h : x.Exclusive v) : (convertLicensing v x).Exclusive v :=
  ⟨Option.map_all (fun _ => convertParty_exclusive v) h.1, Option.map_all (fun _ => convertParty_exclusive v) h.2.1,
    Option.map_all (fun _ => convertParty_exclusive v) h.2.2⟩

theorem licenseOf_exclusive {l : License} (h : l.Exclusive v) : (licenseOf v l).Exclusive v := by
  refine ⟨h.1, ?_⟩
  unfold licenseOf
  simp only
  split_ifs
  · simp
  · exact Option.map_all (fun _ => convertLicensing_exclusive v) h.2
  · exact h.2

theorem licenseChoice_exclusive {c : LicenseChoice} (h : c.Exclusive v) : (licenseChoice v c).Exclusive v := by
  rw [licenseChoice_eq]
  obtain ⟨h1, h2, h3, h4, h5, h6, h7, h8⟩ := h
  refine ⟨?_, ?_, ?_, ?_, ?_, ?_, Option.map_all (fun _ => licenseOf_exclusive v) h7, ?_⟩
  · intro h
    have := h1 h
    simp only [ne_eq, Option.map_eq_none_iff] at *
    exact this
  · intro h
    have := h2 h
    simp only [ne_eq, Option.map_eq_none_iff] at *
    exact this
  · simpa using h3
  · intro h
    have := h4 h
    simp only [ne_eq, Option.map_eq_none_iff] at *
    split_ifs <;> simp_all
  · intro h
    have := h5 h
    simp only [ne_eq, Option.map_eq_none_iff] at *
    split_ifs <;> simp_all
  · intro h
    have := h6 h
    simp only [ne_eq, Option.map_eq_none_iff] at *
    split_ifs <;> simp_all
  · simp only
    split_ifs
    · simp
    · exact h8

theorem convertLicenses_exclusive (hv : SpecVersion1_2 ≤ v) {ls : PSlice LicenseChoice}
    (h : LicensesExclusive v ls) : LicensesExclusive v (convertLicenses v ls) := by
  rw [convertLicenses_eq, if_neg (by simp only [SpecVersion1_1, SpecVersion1_2] at *; omega)]
  refine ⟨fun h5 h6 => ?_, PSlice.map_all (fun _ => licenseChoice_exclusive v) h.2⟩
  rcases ls with _ | _ | ls
  · simp [PSlice.map, PSlice.elems]
  · simp [PSlice.map, PSlice.elems]
  · simpa [PSlice.map, PSlice.elems, licenseChoice_eq] using h.1 h5 h6

theorem convertEvidence_exclusive (hv : SpecVersion1_2 ≤ v) {e : Option Evidence}
    (h : ∀ y ∈ e, Evidence.Exclusive v y) : ∀ y ∈ convertEvidence v e, Evidence.Exclusive v y := by
  rcases e with _ | e
  · simp [convertEvidence]
  · have h := h e rfl
    unfold convertEvidence
    split_ifs with v3 v5 v6
    · simp
    · intro y hy
      cases hy
      exact h
    · intro y hy
      cases hy
      exact convertLicenses_exclusive v hv h
    · intro y hy
      cases hy
      exact convertLicenses_exclusive v hv h

theorem convertModelCard_exclusive {m : Option MLModelCard} (h : ∀ y ∈ m, MLModelCard.Exclusive v y) :
    ∀ y ∈ convertModelCard v m, MLModelCard.Exclusive v y := by
  refine Option.map_all (P := MLModelCard.Exclusive v) (fun m h => ?_) h
  split_ifs
  · exact h
  · exact h

theorem recurseComponent_exclusive (hv : SpecVersion1_2 ≤ v) {c : Component} :
    c.Exclusive v → (recurseComponent (componentConverter v) c).Exclusive v := by
  induction c using Component.induct with
  | h c ih =>
    rw [recurseComponent_go', Component.exclusive_iff _ c, Component.exclusive_iff]
    rintro ⟨h0, h1, h2, h3, h4, h5, h6⟩
    refine ⟨?_, ?_, ?_, ?_, ?_, ?_, ?_⟩
    · intro h
      have h7 : ¬ v < SpecVersion1_4 := by simp only [SpecVersion1_4, SpecVersion1_7] at *; omega
      have h8 : ¬ v < SpecVersion1_7 := by omega
      simp only [Component.mapChildren, componentConverter_version, componentConverter_versionRange, h7, h8, if_false]
      exact h0 h
    · simp only [Component.mapChildren, componentConverter_licenses]
      exact convertLicenses_exclusive v hv h1
    · rw [Component.mapChildren_children]
      intro d hd
      obtain ⟨e, he, rfl⟩ := List.mem_map.1 hd
      have he := componentConverter_children v c e he
      exact ih e he (h2 e he)
    · simp only [Component.mapChildren, componentConverter_evidence]
      exact convertEvidence_exclusive v hv h3
    · simp only [Component.mapChildren, componentConverter_modelCard]
      split_ifs
      · simp
      · exact convertModelCard_exclusive v h4
    · simp only [Component.mapChildren, componentConverter_data]
      split_ifs
      · simp [PSlice.elems]
      · exact h5
    · simp only [Component.mapChildren, componentConverter_signature]
      exact h6

theorem recurseService_exclusive {s : Service} :
    s.Exclusive v → (recurseService (serviceConverter v) s).Exclusive v := by
  induction s using Service.induct with
  | h s ih =>
    rw [recurseService_go', Service.exclusive_iff _ s, Service.exclusive_iff]
    rintro ⟨h1, h2, h3, h4⟩
    refine ⟨?_, ?_, ?_, ?_⟩
    · simp only [Service.mapChildren, serviceConverter_data, convertDataClassifications]
      split_ifs
      · refine PSlice.map_all (P := DataClassification.Exclusive v) (fun d _ => ?_) h1
        simp [DataClassification.Exclusive]
      · exact h1
    · simp only [Service.mapChildren, serviceConverter_licenses]
      exact h2
    · rw [Service.mapChildren_children, serviceConverter_children]
      intro d hd
      obtain ⟨e, he, rfl⟩ := List.mem_map.1 hd
      exact ih e he (h3 e he)
    · simp only [Service.mapChildren, serviceConverter_signature]
      exact h4

theorem toolService_exclusive {s : Service} (h : s.Exclusive v) : (toolService v s).Exclusive v := by
  rw [Service.exclusive_iff] at h ⊢
  exact ⟨h.1, h.2.1, fun d hd => h.2.2.1 d hd, h.2.2.2⟩

theorem convertTools_exclusive {t : ToolsChoice} (h : t.Exclusive v) : (convertTools v t).Exclusive v := by
  by_cases h5 : v < SpecVersion1_5
  · rw [convertTools_old h5]
    exact ⟨by simp [PSlice.elems], by simp [PSlice.elems]⟩
  · rw [convertTools_new h5]
    exact ⟨h.1, PSlice.map_all (fun _ => toolService_exclusive v) h.2⟩

theorem convertMetadata_exclusive (hv : SpecVersion1_2 ≤ v) {m : Metadata} (h : m.Exclusive v) :
    (convertMetadata v m).Exclusive v := by
  obtain ⟨h0, h1, h2, h3⟩ := h
  refine ⟨?_, ?_, ?_, ?_⟩
  · rw [convertMetadata_lifecycles]
    split_ifs
    · simp [PSlice.elems]
    · exact h0
  · rw [convertMetadata_tools]
    intro t ht
    obtain ⟨u, hu, rfl⟩ := Option.map_eq_some_iff.1 ht
    exact convertTools_exclusive v (h1 u hu)
  · rw [convertMetadata_component]
    intro t ht
    obtain ⟨u, hu, rfl⟩ := Option.map_eq_some_iff.1 ht
    exact recurseComponent_exclusive v hv (h2 u hu)
  · rw [convertMetadata_licenses]
    split_ifs
    · simp [PSlice.elems, LicensesExclusive]
    · exact convertLicenses_exclusive v hv h3

theorem convertVulnerability_exclusive {x : Vulnerability} (h : x.Exclusive v) :
    (convertVulnerability v x).Exclusive v := by
  refine ⟨?_, ?_⟩
  · rw [convertVulnerability_tools]
    intro t ht
    obtain ⟨u, hu, rfl⟩ := Option.map_eq_some_iff.1 ht
    exact convertTools_exclusive v (h.1 u hu)
  · rw [convertVulnerability_affects]; exact h.2

theorem convertAnnotator_exclusive {a : Annotator} (h : a.Exclusive v) : (convertAnnotator v a).Exclusive v := by
  obtain ⟨h1, h2, h3, h4, h5, h6, h7, h8⟩ := h
  refine ⟨by simpa [convertAnnotator] using h1, by simpa [convertAnnotator] using h2,
    by simpa [convertAnnotator] using h3, by simpa [convertAnnotator] using h4,
    by simpa [convertAnnotator] using h5, by simpa [convertAnnotator] using h6, h7, ?_⟩
  intro t ht
  obtain ⟨u, hu, rfl⟩ := Option.map_eq_some_iff.1 ht
  exact recurseService_exclusive v (h8 u hu)

theorem convertAnnotations_exclusive {as : PSlice Annotation} (h : ∀ a ∈ as.elems, Annotation.Exclusive v a) :
    ∀ a ∈ (convertAnnotations v as).elems, Annotation.Exclusive v a := by
  unfold convertAnnotations
  split_ifs
  · refine PSlice.map_all (P := Annotation.Exclusive v) (fun a ha => ?_) h
    refine ⟨?_, ha.2⟩
    intro t ht
    obtain ⟨u, hu, rfl⟩ := Option.map_eq_some_iff.1 ht
    exact convertAnnotator_exclusive v (ha.1 u hu)
  · exact h

theorem convert_exclusive_same (hv : SpecVersion1_2 ≤ v) {b : BOM} (h : b.Exclusive v) :
    (convert v b).Exclusive v := by
  obtain ⟨h1, h2, h3, h4, h5, h6, h7, h8, h9, h10, h11⟩ := h
  refine ⟨?_, ?_, ?_, ?_, ?_, ?_, ?_, ?_, ?_, ?_, ?_⟩
  · rw [convert_metadata]
    split_ifs
    · simp
    · intro t ht
      obtain ⟨u, hu, rfl⟩ := Option.map_eq_some_iff.1 ht
      exact convertMetadata_exclusive v hv (h1 u hu)
  · rw [convert_components]
    exact PSlice.map_all (fun _ => recurseComponent_exclusive v hv) h2
  · rw [convert_services]
    split_ifs
    · simp [PSlice.elems]
    · exact PSlice.map_all (fun _ => recurseService_exclusive v) h3
  · rw [convert_compositions]
    split_ifs
    · simp [PSlice.elems]
    · refine PSlice.map_all (P := Composition.Exclusive v) (fun c hc => ?_) h4
      intro y hy
      rw [convertComposition_signature] at hy
      exact hc y hy
  · rw [convert_vulnerabilities]
    split_ifs
    · simp [PSlice.elems]
    · exact PSlice.map_all (fun _ => convertVulnerability_exclusive v) h5
  · rw [convert_annotations]
    split_ifs with h
    · simp [PSlice.elems]
    · exact convertAnnotations_exclusive v h6
  · rw [convert_formulation]
    split_ifs with h
    · simp [PSlice.elems]
    · exact h7
  · rw [convert_declarations]
    split_ifs with h
    · simp
    · exact h8
  · rw [convert_definitions]
    split_ifs
    · simp
    · refine Option.map_all (P := Definitions.Exclusive v) (fun d hd => ?_) h9
      exact hd
    · exact h9
  · rw [convert_citations]
    split_ifs
    · simp [PSlice.elems]
    · exact h10
  · rw [convert_signature]; exact h11

end

end Verif
