import Verif.Proofs.Preserve
import Verif.Proofs.GobXml

/-! Helper lemmas: conversion keeps what makes a value writable as XML (`Spec.XmlWritable`) and its integers Go integers
(`Spec.GoInts`); no property statements here. -/

namespace Verif

/-! ### Unfolding equations by fields -/

theorem Component.xWritable_iff (c : Component) : c.XWritable ↔
    (∀ y ∈ c.licenses.elems, LicenseChoice.XWritable y) ∧ (∀ d ∈ c.children, d.XWritable) ∧
    (∀ y ∈ c.evidence, Evidence.XWritable y) ∧ (∀ y ∈ c.cryptoProperties, CryptoProperties.XWritable y) ∧
    (∀ y ∈ c.patentAssertions.elems, PatentAssertion.XWritable y) := by
  have hp : XWritablePedigreeOpt c.pedigree ↔ ∀ p ∈ c.pedigree, ∀ d ∈ p.relatives, d.XWritable := by
    rcases c.pedigree with _ | ⟨a, d, v⟩
    · simp [XWritablePedigreeOpt]
    · simp [XWritablePedigreeOpt, XWritablePedigree, xWritableComponents_iff, pedigree_relatives_iff]
  rw [component_children_iff, ← hp, ← xWritableComponents_iff]
  cases c
  simp only [Component.XWritable]
  exact ⟨fun ⟨a, b, c, d⟩ => ⟨a, ⟨c, b⟩, d⟩, fun ⟨a, ⟨c, b⟩, d⟩ => ⟨a, b, c, d⟩⟩

theorem Component.goInts_iff (c : Component) : c.GoInts ↔
    (∀ y ∈ c.swid, SWID.GoInts y) ∧ (∀ d ∈ c.children, d.GoInts) ∧
    (∀ y ∈ c.evidence, Evidence.GoInts y) ∧ (∀ y ∈ c.cryptoProperties, CryptoProperties.GoInts y) := by
  have hp : GoIntsPedigreeOpt c.pedigree ↔ ∀ p ∈ c.pedigree, ∀ d ∈ p.relatives, d.GoInts := by
    rcases c.pedigree with _ | ⟨a, d, v⟩
    · simp [GoIntsPedigreeOpt]
    · simp [GoIntsPedigreeOpt, GoIntsPedigree, goIntsComponents_iff, pedigree_relatives_iff]
  rw [component_children_iff, ← hp, ← goIntsComponents_iff]
  cases c
  simp only [Component.GoInts]
  exact ⟨fun ⟨a, b, c, d⟩ => ⟨a, ⟨c, b⟩, d⟩, fun ⟨a, ⟨c, b⟩, d⟩ => ⟨a, b, c, d⟩⟩

theorem Service.xWritable_iff (s : Service) : s.XWritable ↔
    (∀ y ∈ s.licenses.elems, LicenseChoice.XWritable y) ∧ (∀ d ∈ s.children, d.XWritable) ∧
    (∀ y ∈ s.patentAssertions.elems, PatentAssertion.XWritable y) := by
  rw [Service.children, ← xWritableServices_iff]
  cases s
  simp only [Service.XWritable]

/-! ### Conversion keeps writability -/

section
variable (v : Int)

theorem licenseChoice_xwritable {c : LicenseChoice} (h : c.XWritable) : (licenseChoice v c).XWritable := by
  rw [licenseChoice_eq]
  intro l hl
  obtain ⟨l', hl', rfl⟩ := Option.map_eq_some_iff.1 hl
  exact h l' hl'

theorem convertLicense1_0_xwritable {c : LicenseChoice} (h : c.XWritable) :
    (convertLicense1_0 c).XWritable := by
  unfold convertLicense1_0
  rcases c with ⟨_ | l⟩
  · simp [LicenseChoice.XWritable]
  · by_cases hl : l.id = "" ∧ l.name = ""
    · simp [hl, LicenseChoice.XWritable]
    · simp only [if_neg hl, LicenseChoice.XWritable, Option.mem_some_iff, forall_eq'] at h ⊢
      exact ⟨trivial, h.2⟩

theorem convertLicenses_xwritable {ls : PSlice LicenseChoice} (h : ∀ c ∈ ls.elems, c.XWritable) :
    ∀ c ∈ (convertLicenses v ls).elems, c.XWritable := by
  rw [convertLicenses_eq]
  refine PSlice.map_all (fun _ => licenseChoice_xwritable v) ?_
  split
  · by_cases hn : ls = .nil
    · subst hn; intro c hc; cases hc
    · rw [convertLicenses1_0_of_ne hn, storeOrNil_elems]
      intro c hc
      obtain ⟨d, hd, rfl⟩ := List.mem_map.1 (List.mem_filter.1 hc).1
      exact convertLicense1_0_xwritable (h d hd)
  · exact h

theorem convertEvidence_xwritable {e : Option Evidence} (h : ∀ y ∈ e, y.XWritable) :
    ∀ y ∈ convertEvidence v e, y.XWritable := by
  rcases e with _ | e
  · simp [convertEvidence]
  · have h1 := h e rfl
    unfold convertEvidence
    split_ifs with v3 v5 v6
    · simp
    · simp [Evidence.XWritable]; exact h1
    · intro y hy
      cases hy
      exact convertLicenses_xwritable v h1
    · intro y hy
      cases hy
      exact convertLicenses_xwritable v h1

theorem convertCryptoProperties_xwritable {m : Option CryptoProperties} (h : ∀ y ∈ m, y.XWritable) :
    ∀ y ∈ convertCryptoProperties v m, y.XWritable := by
  refine Option.map_all (P := CryptoProperties.XWritable) (fun m h => ?_) h
  refine Option.map_all (P := CertificateProperties.XWritable) (fun c h => ?_) h
  unfold convertCertificateProperties
  split_ifs
  · simp [CertificateProperties.XWritable, PSlice.elems]
  · exact h

theorem recurseComponent_xwritable {c : Component} :
    c.XWritable → (recurseComponent (componentConverter v) c).XWritable := by
  induction c using Component.induct with
  | h c ih =>
    rw [recurseComponent_go', Component.xWritable_iff c, Component.xWritable_iff]
    rintro ⟨h1, h2, h3, h4, h5⟩
    refine ⟨?_, ?_, ?_, ?_, ?_⟩
    · simpa only [Component.mapChildren, componentConverter_licenses] using convertLicenses_xwritable v h1
    · rw [Component.mapChildren_children]
      intro d hd
      obtain ⟨e, he, rfl⟩ := List.mem_map.1 hd
      have he := componentConverter_children v c e he
      exact ih e he (h2 e he)
    · simpa only [Component.mapChildren, componentConverter_evidence] using convertEvidence_xwritable v h3
    · simp only [Component.mapChildren, componentConverter_cryptoProperties]
      split_ifs
      · simp
      · exact convertCryptoProperties_xwritable v h4
    · simp only [Component.mapChildren, componentConverter_patentAssertions]
      split_ifs
      · simp [PSlice.elems]
      · exact h5

theorem recurseService_xwritable {s : Service} :
    s.XWritable → (recurseService (serviceConverter v) s).XWritable := by
  induction s using Service.induct with
  | h s ih =>
    rw [recurseService_go', Service.xWritable_iff s, Service.xWritable_iff]
    rintro ⟨h1, h2, h3⟩
    refine ⟨?_, ?_, ?_⟩
    · simpa only [Service.mapChildren, serviceConverter_licenses] using h1
    · rw [Service.mapChildren_children, serviceConverter_children]
      intro d hd
      obtain ⟨e, he, rfl⟩ := List.mem_map.1 hd
      exact ih e he (h2 e he)
    · simp only [Service.mapChildren, serviceConverter_patentAssertions]
      split_ifs
      · simp [PSlice.elems]
      · exact h3

theorem toolService_xwritable {s : Service} (h : s.XWritable) : (toolService v s).XWritable := by
  rw [Service.xWritable_iff] at h ⊢
  exact h

theorem convertTools_xwritable {t : ToolsChoice} (h : t.XWritable) : (convertTools v t).XWritable := by
  by_cases h5 : v < SpecVersion1_5
  · rw [convertTools_old h5]
    exact ⟨.inr ⟨rfl, rfl⟩, by simp [PSlice.elems], by simp [PSlice.elems]⟩
  · rw [convertTools_new h5]
    obtain ⟨h1, h2, h3⟩ := h
    refine ⟨?_, h2, PSlice.map_all (fun _ => toolService_xwritable v) h3⟩
    rcases h1 with a | ⟨a, b⟩
    · exact .inl (by simp [a])
    · exact .inr ⟨a, by simp [b]⟩

theorem convertMetadata_xwritable {m : Metadata} (h : m.XWritable) : (convertMetadata v m).XWritable := by
  obtain ⟨h1, h2, h3⟩ := h
  refine ⟨?_, ?_, ?_⟩
  · rw [convertMetadata_tools]
    exact Option.map_all (fun _ => convertTools_xwritable v) h1
  · rw [convertMetadata_component]
    exact Option.map_all (fun _ => recurseComponent_xwritable v) h2
  · rw [convertMetadata_licenses]
    split_ifs
    · simp [PSlice.elems]
    · exact convertLicenses_xwritable v h3

theorem convertVulnerability_xwritable {x : Vulnerability} (h : x.XWritable) : (convertVulnerability v x).XWritable := by
  show ∀ y ∈ (convertVulnerability v x).tools, _
  rw [convertVulnerability_tools]
  exact Option.map_all (fun _ => convertTools_xwritable v) h

theorem convertAnnotator_xwritable {a : Annotator} (h : a.XWritable) : (convertAnnotator v a).XWritable :=
  ⟨h.1, Option.map_all (fun _ => recurseService_xwritable v) h.2⟩

theorem convertAnnotations_xwritable {as : PSlice Annotation} (h : ∀ a ∈ as.elems, a.XWritable) :
    ∀ a ∈ (convertAnnotations v as).elems, a.XWritable := by
  unfold convertAnnotations
  split_ifs
  · refine PSlice.map_all (P := Annotation.XWritable) (fun a ha => ?_) h
    exact Option.map_all (P := Annotator.XWritable) (fun _ => convertAnnotator_xwritable v) ha
  · exact h

theorem convert_xwritable {b : BOM} (h : b.XWritable) : (convert v b).XWritable := by
  obtain ⟨h1, h2, h3, h4, h5, h6, h7⟩ := h
  refine ⟨?_, ?_, ?_, ?_, ?_, ?_, ?_⟩
  · rw [convert_metadata]
    split_ifs
    · simp
    · exact Option.map_all (fun _ => convertMetadata_xwritable v) h1
  · rw [convert_components]
    exact PSlice.map_all (fun _ => recurseComponent_xwritable v) h2
  · rw [convert_services]
    split_ifs
    · simp [PSlice.elems]
    · exact PSlice.map_all (fun _ => recurseService_xwritable v) h3
  · rw [convert_vulnerabilities]
    split_ifs
    · simp [PSlice.elems]
    · exact PSlice.map_all (fun _ => convertVulnerability_xwritable v) h4
  · rw [convert_annotations]
    split_ifs
    · simp [PSlice.elems]
    · exact convertAnnotations_xwritable v h5
  · rw [convert_formulation]
    split_ifs
    · simp [PSlice.elems]
    · exact h6
  · rw [convert_declarations]
    split_ifs
    · simp
    · exact h7

end

/-! ### Conversion keeps Go integers -/

section
variable (v : Int)

theorem convertEvidence_goInts {e : Option Evidence} (h : ∀ y ∈ e, y.GoInts) :
    ∀ y ∈ convertEvidence v e, y.GoInts := by
  rcases e with _ | e
  · simp [convertEvidence]
  · obtain ⟨h1, h2⟩ := h e rfl
    unfold convertEvidence
    split_ifs with v3 v5 v6
    · simp
    · simp [Evidence.GoInts, PSlice.elems]
    · intro y hy
      cases hy
      refine ⟨PSlice.map_all (P := EvidenceOccurrence.GoInts) (fun o _ => ?_) h1, h2⟩
      simp [EvidenceOccurrence.GoInts, clearOccurrence]
    · intro y hy
      cases hy
      exact ⟨h1, h2⟩

theorem convertCryptoProperties_goInts {m : Option CryptoProperties} (h : ∀ y ∈ m, y.GoInts) :
    ∀ y ∈ convertCryptoProperties v m, y.GoInts := by
  refine Option.map_all (P := CryptoProperties.GoInts) (fun m h => ?_) h
  obtain ⟨h1, h3, h4⟩ := h
  refine ⟨?_, ?_, ?_⟩
  · refine Option.map_all (P := CryptoAlgorithmProperties.GoInts) (fun c h => ?_) h1
    simpa [CryptoAlgorithmProperties.GoInts] using h
  · refine Option.map_all (P := RelatedCryptoMaterialProperties.GoInts) (fun c h => ?_) h3
    simpa [RelatedCryptoMaterialProperties.GoInts] using h
  · refine Option.map_all (P := CryptoProtocolProperties.GoInts) (fun c h => ?_) h4
    simpa [CryptoProtocolProperties.GoInts] using h

theorem recurseComponent_goInts {c : Component} :
    c.GoInts → (recurseComponent (componentConverter v) c).GoInts := by
  induction c using Component.induct with
  | h c ih =>
    rw [recurseComponent_go', Component.goInts_iff c, Component.goInts_iff]
    rintro ⟨h1, h2, h3, h5⟩
    refine ⟨?_, ?_, ?_, ?_⟩
    · simp only [Component.mapChildren, componentConverter_swid]
      split_ifs
      · simp
      · exact h1
    · rw [Component.mapChildren_children]
      intro d hd
      obtain ⟨e, he, rfl⟩ := List.mem_map.1 hd
      have he := componentConverter_children v c e he
      exact ih e he (h2 e he)
    · simpa only [Component.mapChildren, componentConverter_evidence] using convertEvidence_goInts v h3
    · simp only [Component.mapChildren, componentConverter_cryptoProperties]
      split_ifs
      · simp
      · exact convertCryptoProperties_goInts v h5

theorem convertTools_goInts {t : ToolsChoice} (h : t.GoInts) : (convertTools v t).GoInts := by
  by_cases h5 : v < SpecVersion1_5
  · rw [convertTools_old h5]
    simp [ToolsChoice.GoInts, PSlice.elems]
  · rw [convertTools_new h5]
    exact h

theorem convertMetadata_goInts {m : Metadata} (h : m.GoInts) : (convertMetadata v m).GoInts := by
  refine ⟨?_, ?_⟩
  · rw [convertMetadata_tools]
    exact Option.map_all (fun _ => convertTools_goInts v) h.1
  · rw [convertMetadata_component]
    exact Option.map_all (fun _ => recurseComponent_goInts v) h.2

theorem convertVulnerability_goInts {x : Vulnerability} (h : x.GoInts) :
    (convertVulnerability v x).GoInts := by
  refine ⟨?_, ?_⟩
  · rw [convertVulnerability_cwes]; exact h.1
  · rw [convertVulnerability_tools]
    exact Option.map_all (fun _ => convertTools_goInts v) h.2

theorem convertAnnotations_goInts {as : PSlice Annotation} (h : ∀ a ∈ as.elems, a.GoInts) :
    ∀ a ∈ (convertAnnotations v as).elems, a.GoInts := by
  unfold convertAnnotations
  split_ifs
  · refine PSlice.map_all (P := Annotation.GoInts) (fun a ha => ?_) h
    exact Option.map_all (P := Annotator.GoInts) (fun a h => h) ha
  · exact h

theorem convert_goInts {b : BOM} (h : b.GoInts) : (convert v b).GoInts := by
  obtain ⟨h0, h1, h2, h4, h5, h6, h7⟩ := h
  refine ⟨?_, ?_, ?_, ?_, ?_, ?_, ?_⟩
  · rw [convert_version]; exact h0
  · rw [convert_metadata]
    split_ifs
    · simp
    · exact Option.map_all (fun _ => convertMetadata_goInts v) h1
  · rw [convert_components]
    exact PSlice.map_all (fun _ => recurseComponent_goInts v) h2
  · rw [convert_vulnerabilities]
    split_ifs
    · simp [PSlice.elems]
    · exact PSlice.map_all (fun _ => convertVulnerability_goInts v) h4
  · rw [convert_annotations]
    split_ifs
    · simp [PSlice.elems]
    · exact convertAnnotations_goInts v h5
  · rw [convert_formulation]
    split_ifs
    · simp [PSlice.elems]
    · exact h6
  · rw [convert_declarations]
    split_ifs
    · simp
    · exact h7

end

end Verif
