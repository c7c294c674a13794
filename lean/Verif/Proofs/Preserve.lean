import Verif.Proofs.Convert
import Verif.Proofs.GobRegular
import Verif.Json.WritableLaws

/-! Helper lemmas: conversion and copy keep what makes a value writable (`Spec.Writable`) and regular
(`Spec.Canonical`); no property statements here. -/

namespace Verif

/-! ### Unfolding equations by fields -/

theorem pedigree_relatives_iff {P : Component → Prop} {p : Pedigree Component} :
    (∀ d ∈ p.relatives, P d) ↔ (∀ d ∈ p.ancestors.elems, P d) ∧ (∀ d ∈ p.descendants.elems, P d) ∧
      (∀ d ∈ p.variants.elems, P d) := by
  simp only [Pedigree.relatives, List.mem_append, or_imp, forall_and, and_assoc]

theorem component_children_iff {P : Component → Prop} {c : Component} :
    (∀ d ∈ c.children, P d) ↔ (∀ d ∈ c.components.elems, P d) ∧
      (∀ p ∈ c.pedigree, ∀ d ∈ p.relatives, P d) := by
  unfold Component.children
  cases c.pedigree <;> simp [or_imp, forall_and]

theorem Component.writable_iff (c : Component) : c.Writable ↔
    (∀ y ∈ c.licenses.elems, LicenseChoice.Writable y) ∧ (∀ d ∈ c.children, d.Writable) ∧
    (∀ y ∈ c.evidence, Evidence.Writable y) ∧ (∀ y ∈ c.modelCard, MLModelCard.Writable y) ∧
    (∀ y ∈ c.cryptoProperties, CryptoProperties.Writable y) := by
  have hp : WritablePedigreeOpt c.pedigree ↔ ∀ p ∈ c.pedigree, ∀ d ∈ p.relatives, d.Writable := by
    rcases c.pedigree with _ | ⟨a, d, v⟩
    · simp [WritablePedigreeOpt]
    · simp [WritablePedigreeOpt, WritablePedigree, writableComponents_iff', pedigree_relatives_iff]
  rw [component_children_iff, ← hp, ← writableComponents_iff']
  cases c
  simp only [Component.Writable]
  exact ⟨fun ⟨a, b, c, d⟩ => ⟨a, ⟨c, b⟩, d⟩, fun ⟨a, ⟨c, b⟩, d⟩ => ⟨a, b, c, d⟩⟩

theorem Component.regular_iff (c : Component) : c.Regular ↔
    (∀ y ∈ c.swid, SWID.Regular y) ∧ (∀ d ∈ c.children, d.Regular) ∧
    (∀ y ∈ c.evidence, Evidence.Regular y) ∧
    (∀ y ∈ c.cryptoProperties, CryptoProperties.Regular y) := by
  have hp : RegularPedigreeOpt c.pedigree ↔ ∀ p ∈ c.pedigree, ∀ d ∈ p.relatives, d.Regular := by
    rcases c.pedigree with _ | ⟨a, d, v⟩
    · simp [RegularPedigreeOpt]
    · simp [RegularPedigreeOpt, RegularPedigree, regularComponents_iff, pedigree_relatives_iff]
  rw [component_children_iff, ← hp, ← regularComponents_iff]
  cases c
  simp only [Component.Regular]
  exact ⟨fun ⟨a, b, c, d⟩ => ⟨a, ⟨c, b⟩, d⟩, fun ⟨a, ⟨c, b⟩, d⟩ => ⟨a, b, c, d⟩⟩

theorem Service.writable_iff (s : Service) : s.Writable ↔
    (∀ y ∈ s.licenses.elems, LicenseChoice.Writable y) ∧ (∀ d ∈ s.children, d.Writable) := by
  rw [Service.children, ← writableServices_iff']
  cases s
  simp only [Service.Writable]

theorem Service.regular_iff (s : Service) : s.Regular ↔ (∀ d ∈ s.children, d.Regular) := by
  rw [Service.children, ← regularServices_iff]
  cases s
  simp only [Service.Regular]

/-! ### Children of a converted value -/

theorem PSlice.mem_map {α β : Type} {f : α → β} {p : PSlice α} {b : β} :
    b ∈ (p.map f).elems ↔ ∃ a ∈ p.elems, f a = b := by
  rw [PSlice.elems_map, List.mem_map]

theorem PSlice.map_all {α β : Type} {f : α → β} {P : α → Prop} {Q : β → Prop} {p : PSlice α}
    (hf : ∀ x, P x → Q (f x)) (h : ∀ x ∈ p.elems, P x) : ∀ y ∈ (p.map f).elems, Q y := by
  intro y hy
  obtain ⟨x, hx, rfl⟩ := PSlice.mem_map.1 hy
  exact hf x (h x hx)

theorem Component.mapChildren_children (f : Component → Component) (c : Component) :
    (c.mapChildren f).children = c.children.map f := by
  unfold Component.mapChildren Component.children
  cases c.pedigree <;>
    simp [PSlice.elems_map, Pedigree.relatives, Pedigree.mapComponents]

theorem Service.mapChildren_children (f : Service → Service) (s : Service) :
    (s.mapChildren f).children = s.children.map f := by
  simp [Service.mapChildren, Service.children, PSlice.elems_map]

/-! ### Conversion keeps writability -/

section
variable (v : Int)

theorem licenseChoice_writable {c : LicenseChoice} (h : c.Writable) : (licenseChoice v c).Writable := by
  rw [licenseChoice_eq]
  intro l hl
  obtain ⟨l', hl', rfl⟩ := Option.map_eq_some_iff.1 hl
  exact h l' hl'

theorem convertLicense1_0_writable {c : LicenseChoice} (h : c.Writable) :
    (convertLicense1_0 c).Writable := by
  unfold convertLicense1_0
  rcases c with ⟨_ | l⟩
  · exact h
  · by_cases hl : l.id = "" ∧ l.name = ""
    · simp [hl, LicenseChoice.Writable]
    · simp only [if_neg hl, LicenseChoice.Writable, Option.mem_some_iff, forall_eq'] at h ⊢
      exact h

theorem convertLicenses_writable {ls : PSlice LicenseChoice} (h : ∀ c ∈ ls.elems, c.Writable) :
    ∀ c ∈ (convertLicenses v ls).elems, c.Writable := by
  rw [convertLicenses_eq]
  refine PSlice.map_all (fun _ => licenseChoice_writable v) ?_
  split
  · by_cases hn : ls = .nil
    · subst hn; intro c hc; cases hc
    · rw [convertLicenses1_0_of_ne hn, storeOrNil_elems]
      intro c hc
      obtain ⟨d, hd, rfl⟩ := List.mem_map.1 (List.mem_filter.1 hc).1
      exact convertLicense1_0_writable (h d hd)
  · exact h

theorem clearFirst_writable {i : Option EvidenceIdentityChoice} (h : ∀ y ∈ i, y.Writable) :
    ∀ y ∈ clearConcludedValue (firstIdentity i), y.Writable := by
  rcases i with _ | ⟨id, _ | _ | (_ | ⟨x, xs⟩)⟩
  · simp [firstIdentity, clearConcludedValue]
  · simp only [firstIdentity, clearConcludedValue, Option.map_some, Option.mem_some_iff, forall_eq',
      EvidenceIdentityChoice.Writable] at h ⊢
    obtain ⟨-, h1, h2⟩ := h
    refine ⟨.inr trivial, ?_, h2⟩
    intro y hy
    obtain ⟨z, hz, rfl⟩ := Option.map_eq_some_iff.1 hy
    exact h1 z hz
  · simp [firstIdentity, clearConcludedValue, PSlice.elems]
  · simp [firstIdentity, clearConcludedValue, PSlice.elems]
  · simp only [firstIdentity, clearConcludedValue, PSlice.elems, Option.map_some, Option.mem_some_iff,
      forall_eq', EvidenceIdentityChoice.Writable] at h ⊢
    refine ⟨.inr trivial, h.2.2 x (List.mem_cons_self), by simp⟩

theorem convertEvidence_writable {e : Option Evidence} (h : ∀ y ∈ e, y.Writable) :
    ∀ y ∈ convertEvidence v e, y.Writable := by
  rcases e with _ | e
  · simp [convertEvidence]
  · obtain ⟨h1, h2⟩ := h e rfl
    unfold convertEvidence
    split_ifs with v3 v5 v6
    · simp
    · simp [Evidence.Writable]; exact h2
    · intro y hy
      cases hy
      exact ⟨clearFirst_writable h1, convertLicenses_writable v h2⟩
    · intro y hy
      cases hy
      exact ⟨h1, convertLicenses_writable v h2⟩

theorem convertModelCard_writable {m : Option MLModelCard} (h : ∀ y ∈ m, y.Writable) :
    ∀ y ∈ convertModelCard v m, y.Writable := by
  refine Option.map_all (P := MLModelCard.Writable) (fun m h => ?_) h
  split_ifs
  · intro c hc
    obtain ⟨d, -, rfl⟩ := Option.map_eq_some_iff.1 hc
    simp [MLModelCardConsiderations.Writable]
  · exact h

theorem convertCryptoProperties_writable {m : Option CryptoProperties} (h : ∀ y ∈ m, y.Writable) :
    ∀ y ∈ convertCryptoProperties v m, y.Writable := by
  refine Option.map_all (P := CryptoProperties.Writable) (fun m h => ?_) h
  refine Option.map_all (P := CertificateProperties.Writable) (fun c h => ?_) h
  unfold convertCertificateProperties
  split_ifs
  · simp [CertificateProperties.Writable, PSlice.elems]
  · exact h

theorem recurseComponent_writable {c : Component} :
    c.Writable → (recurseComponent (componentConverter v) c).Writable := by
  induction c using Component.induct with
  | h c ih =>
    rw [recurseComponent_go', Component.writable_iff c, Component.writable_iff]
    rintro ⟨h1, h2, h3, h4, h5⟩
    refine ⟨?_, ?_, ?_, ?_, ?_⟩
    · simpa only [Component.mapChildren, componentConverter_licenses] using convertLicenses_writable v h1
    · rw [Component.mapChildren_children]
      intro d hd
      obtain ⟨e, he, rfl⟩ := List.mem_map.1 hd
      have he := componentConverter_children v c e he
      exact ih e he (h2 e he)
    · simpa only [Component.mapChildren, componentConverter_evidence] using convertEvidence_writable v h3
    · simp only [Component.mapChildren, componentConverter_modelCard]
      split_ifs
      · simp
      · exact convertModelCard_writable v h4
    · simp only [Component.mapChildren, componentConverter_cryptoProperties]
      split_ifs
      · simp
      · exact convertCryptoProperties_writable v h5

theorem recurseService_writable {s : Service} :
    s.Writable → (recurseService (serviceConverter v) s).Writable := by
  induction s using Service.induct with
  | h s ih =>
    rw [recurseService_go', Service.writable_iff s, Service.writable_iff]
    rintro ⟨h1, h2⟩
    refine ⟨?_, ?_⟩
    · simpa only [Service.mapChildren, serviceConverter_licenses] using h1
    · rw [Service.mapChildren_children, serviceConverter_children]
      intro d hd
      obtain ⟨e, he, rfl⟩ := List.mem_map.1 hd
      exact ih e he (h2 e he)

theorem toolService_writable {s : Service} (h : s.Writable) : (toolService v s).Writable := by
  rw [Service.writable_iff] at h ⊢
  exact h

theorem PSlice.map_ne_nil {α β : Type} {f : α → β} {p : PSlice α} (h : p ≠ .nil) : p.map f ≠ .nil := by
  cases p <;> simp_all [PSlice.map]

/-- Whether or not it was ambiguous, a choice of tools with an entry converts to one that can be written,
except that from 1.5 on an ambiguous one stays ambiguous. -/
theorem convertTools_writable {t : ToolsChoice} (hn : t.NonEmpty) (h : t.Writable) :
    (convertTools v t).Writable := by
  by_cases h5 : v < SpecVersion1_5
  · rw [convertTools_old h5]
    refine ⟨.inl ⟨PSlice.map_ne_nil ?_, rfl, rfl⟩, by simp [PSlice.elems], by simp [PSlice.elems]⟩
    simp only [toolsToLegacy]
    split_ifs with he
    · simp only [List.isEmpty_iff, List.append_eq_nil_iff, List.map_eq_nil_iff] at he
      rcases hn with hn | hn | hn
      · intro h0; rw [h0] at hn; simp [PSlice.elems] at hn
      · exact absurd he.1 hn
      · exact absurd he.2 hn
    · cases t.tools <;> simp
  · rw [convertTools_new h5]
    obtain ⟨h1, h2, h3⟩ := h
    refine ⟨?_, h2, PSlice.map_all (fun _ => toolService_writable v) h3⟩
    rcases h1 with ⟨a, b, c⟩ | ⟨a, b⟩
    · exact .inl ⟨PSlice.map_ne_nil a, b, by simp [c]⟩
    · exact .inr ⟨by simp [a], b.imp _root_.id PSlice.map_ne_nil⟩

theorem convertMetadata_writable {m : Metadata} (hn : ∀ t ∈ m.tools, t.NonEmpty) (h : m.Writable) :
    (convertMetadata v m).Writable := by
  obtain ⟨h1, h2, h3⟩ := h
  refine ⟨?_, ?_, ?_⟩
  · rw [convertMetadata_tools]
    intro t ht
    obtain ⟨u, hu, rfl⟩ := Option.map_eq_some_iff.1 ht
    exact convertTools_writable v (hn u hu) (h1 u hu)
  · rw [convertMetadata_component]
    exact Option.map_all (fun _ => recurseComponent_writable v) h2
  · rw [convertMetadata_licenses]
    split_ifs
    · simp [PSlice.elems]
    · exact convertLicenses_writable v h3

theorem convertRating_writable {r : VulnerabilityRating} (h : r.Writable) : (convertRating v r).Writable := by
  unfold convertRating
  split_ifs
  · exact h
  · exact h

theorem convertVulnerability_writable {x : Vulnerability} (hn : ∀ t ∈ x.tools, t.NonEmpty)
    (h : x.Writable) : (convertVulnerability v x).Writable := by
  obtain ⟨h1, h2⟩ := h
  refine ⟨?_, ?_⟩
  · rw [convertVulnerability_ratings]
    exact PSlice.map_all (fun _ => convertRating_writable v) h1
  · rw [convertVulnerability_tools]
    intro t ht
    obtain ⟨u, hu, rfl⟩ := Option.map_eq_some_iff.1 ht
    exact convertTools_writable v (hn u hu) (h2 u hu)

theorem convertAnnotator_writable {a : Annotator} (h : a.Writable) : (convertAnnotator v a).Writable :=
  ⟨h.1, Option.map_all (fun _ => recurseService_writable v) h.2⟩

theorem convertAnnotations_writable {as : PSlice Annotation} (h : ∀ a ∈ as.elems, a.Writable) :
    ∀ a ∈ (convertAnnotations v as).elems, a.Writable := by
  unfold convertAnnotations
  split_ifs
  · refine PSlice.map_all (P := Annotation.Writable) (fun a ha => ?_) h
    exact Option.map_all (P := Annotator.Writable) (fun _ => convertAnnotator_writable v) ha
  · exact h

theorem convert_writable {b : BOM} (hn : b.ToolsNonEmpty) (h : b.Writable) : (convert v b).Writable := by
  obtain ⟨h1, h2, h3, h4, h5, h6, h7⟩ := h
  refine ⟨?_, ?_, ?_, ?_, ?_, ?_, ?_⟩
  · rw [convert_metadata]
    split_ifs
    · simp
    · intro t ht
      obtain ⟨u, hu, rfl⟩ := Option.map_eq_some_iff.1 ht
      exact convertMetadata_writable v (hn.1 u hu) (h1 u hu)
  · rw [convert_components]
    exact PSlice.map_all (fun _ => recurseComponent_writable v) h2
  · rw [convert_services]
    split_ifs
    · simp [PSlice.elems]
    · exact PSlice.map_all (fun _ => recurseService_writable v) h3
  · rw [convert_vulnerabilities]
    split_ifs
    · simp [PSlice.elems]
    · intro y hy
      obtain ⟨x, hx, rfl⟩ := PSlice.mem_map.1 hy
      exact convertVulnerability_writable v (hn.2 x hx) (h4 x hx)
  · rw [convert_annotations]
    split_ifs
    · simp [PSlice.elems]
    · exact convertAnnotations_writable v h5
  · rw [convert_formulation]
    split_ifs
    · simp [PSlice.elems]
    · exact h6
  · rw [convert_declarations]
    split_ifs
    · simp
    · exact h7

end

/-! ### Conversion keeps regularity -/

section
variable (v : Int)

theorem convertEvidence_regular {e : Option Evidence} (h : ∀ y ∈ e, y.Regular) :
    ∀ y ∈ convertEvidence v e, y.Regular := by
  rcases e with _ | e
  · simp [convertEvidence]
  · obtain ⟨h1, h2⟩ := h e rfl
    unfold convertEvidence
    split_ifs with v3 v5 v6
    · simp
    · simp [Evidence.Regular, PSlice.elems]
    · intro y hy
      cases hy
      refine ⟨PSlice.map_all (P := EvidenceOccurrence.Regular) (fun o _ => ?_) h1, h2⟩
      simp [EvidenceOccurrence.Regular, clearOccurrence]
    · intro y hy
      cases hy
      exact ⟨h1, h2⟩

theorem convertCryptoProperties_regular {m : Option CryptoProperties} (h : ∀ y ∈ m, y.Regular) :
    ∀ y ∈ convertCryptoProperties v m, y.Regular := by
  refine Option.map_all (P := CryptoProperties.Regular) (fun m h => ?_) h
  obtain ⟨h1, h2, h3, h4⟩ := h
  refine ⟨?_, ?_, ?_, ?_⟩
  · refine Option.map_all (P := CryptoAlgorithmProperties.Regular) (fun c h => ?_) h1
    simpa [CryptoAlgorithmProperties.Regular] using h
  · refine Option.map_all (P := CertificateProperties.Regular) (fun c h => ?_) h2
    unfold convertCertificateProperties
    split_ifs
    · simp [CertificateProperties.Regular, PSlice.elems]
    · exact h
  · refine Option.map_all (P := RelatedCryptoMaterialProperties.Regular) (fun c h => ?_) h3
    simpa [RelatedCryptoMaterialProperties.Regular] using h
  · refine Option.map_all (P := CryptoProtocolProperties.Regular) (fun c h => ?_) h4
    simpa [CryptoProtocolProperties.Regular] using h

theorem recurseComponent_regular {c : Component} :
    c.Regular → (recurseComponent (componentConverter v) c).Regular := by
  induction c using Component.induct with
  | h c ih =>
    rw [recurseComponent_go', Component.regular_iff c, Component.regular_iff]
    rintro ⟨h1, h2, h3, h5⟩
    refine ⟨?_, ?_, ?_, ?_⟩
    · simp only [Component.mapChildren, componentConverter_swid]
      split_ifs
      · simp
      · exact h1
    · rw [Component.mapChildren_children]
      intro d hd
      obtain ⟨e, he, rfl⟩ := List.mem_map.1 hd
      have he := componentConverter_children v c e he
      exact ih e he (h2 e he)
    · simpa only [Component.mapChildren, componentConverter_evidence] using convertEvidence_regular v h3
    · simp only [Component.mapChildren, componentConverter_cryptoProperties]
      split_ifs
      · simp
      · exact convertCryptoProperties_regular v h5

theorem recurseService_regular {s : Service} :
    s.Regular → (recurseService (serviceConverter v) s).Regular := by
  induction s using Service.induct with
  | h s ih =>
    rw [recurseService_go', Service.regular_iff s, Service.regular_iff]
    intro h2
    rw [Service.mapChildren_children, serviceConverter_children]
    intro d hd
    obtain ⟨e, he, rfl⟩ := List.mem_map.1 hd
    exact ih e he (h2 e he)

theorem toolService_regular {s : Service} (h : s.Regular) : (toolService v s).Regular := by
  rw [Service.regular_iff] at h ⊢
  exact h

theorem convertTools_regular {t : ToolsChoice} (h : t.Regular) : (convertTools v t).Regular := by
  by_cases h5 : v < SpecVersion1_5
  · rw [convertTools_old h5]
    exact ⟨by simp [PSlice.elems], by simp [PSlice.elems]⟩
  · rw [convertTools_new h5]
    exact ⟨h.1, PSlice.map_all (fun _ => toolService_regular v) h.2⟩

theorem convertMetadata_regular {m : Metadata} (h : m.Regular) : (convertMetadata v m).Regular := by
  refine ⟨?_, ?_⟩
  · rw [convertMetadata_tools]
    exact Option.map_all (fun _ => convertTools_regular v) h.1
  · rw [convertMetadata_component]
    exact Option.map_all (fun _ => recurseComponent_regular v) h.2

theorem convertVulnerability_regular {x : Vulnerability} (h : x.Regular) :
    (convertVulnerability v x).Regular := by
  refine ⟨?_, ?_⟩
  · rw [convertVulnerability_cwes]; exact h.1
  · rw [convertVulnerability_tools]
    exact Option.map_all (fun _ => convertTools_regular v) h.2

theorem convertAnnotations_regular {as : PSlice Annotation} (h : ∀ a ∈ as.elems, a.Regular) :
    ∀ a ∈ (convertAnnotations v as).elems, a.Regular := by
  unfold convertAnnotations
  split_ifs
  · refine PSlice.map_all (P := Annotation.Regular) (fun a ha => ?_) h
    refine Option.map_all (P := Annotator.Regular) (fun a h => ?_) ha
    exact ⟨h.1, Option.map_all (fun _ => recurseService_regular v) h.2⟩
  · exact h

theorem convert_regular {b : BOM} (h : b.Regular) : (convert v b).Regular := by
  obtain ⟨h0, h1, h2, h3, h4, h5, h6, h7, h8⟩ := h
  refine ⟨?_, ?_, ?_, ?_, ?_, ?_, ?_, ?_, ?_⟩
  · rw [convert_version]; exact h0
  · rw [convert_metadata]
    split_ifs
    · simp
    · exact Option.map_all (fun _ => convertMetadata_regular v) h1
  · rw [convert_components]
    exact PSlice.map_all (fun _ => recurseComponent_regular v) h2
  · rw [convert_services]
    split_ifs
    · simp [PSlice.elems]
    · exact PSlice.map_all (fun _ => recurseService_regular v) h3
  · rw [convert_vulnerabilities]
    split_ifs
    · simp [PSlice.elems]
    · exact PSlice.map_all (fun _ => convertVulnerability_regular v) h4
  · rw [convert_annotations]
    split_ifs
    · simp [PSlice.elems]
    · exact convertAnnotations_regular v h5
  · rw [convert_formulation]
    split_ifs
    · simp [PSlice.elems]
    · exact h6
  · rw [convert_declarations]
    split_ifs
    · simp
    · exact h7
  · rw [convert_definitions]
    split_ifs
    · simp
    · refine Option.map_all (P := Definitions.Regular) (fun d _ => ?_) h8
      simp [Definitions.Regular, PSlice.elems]
    · exact h8

end

/-! ### The copy of a whole BOM -/

theorem BOM.copy_writable {b : BOM} (hn : b.ToolsNonEmpty) (h : b.Writable) : b.copy.Writable := by
  obtain ⟨h1, h2, h3, h4, h5, h6, h7⟩ := h
  refine ⟨?_, PSlice.copyWith_all (fun _ => Component.copy_writable) h2,
    PSlice.copyWith_all (fun _ => Service.copy_writable) h3, ?_,
    PSlice.copyWith_all (fun _ => Annotation.copy_writable) h5,
    PSlice.copyWith_all (fun _ => Formula.copy_writable) h6,
    Option.map_all (fun _ => Declarations.copy_writable) h7⟩
  · intro m hm
    obtain ⟨x, hx, rfl⟩ := Option.map_eq_some_iff.1 hm
    obtain ⟨w1, w2, w3⟩ := h1 x hx
    refine ⟨?_, Option.map_all (fun _ => Component.copy_writable) w2,
      PSlice.copyWith_all (fun _ => LicenseChoice.copy_writable) w3⟩
    intro t ht
    obtain ⟨u, hu, rfl⟩ := Option.map_eq_some_iff.1 ht
    exact ToolsChoice.copy_writable (hn.1 x hx u hu) (w1 u hu)
  · intro y hy
    obtain ⟨x, hx, rfl⟩ := PSlice.mem_copyWith hy
    obtain ⟨w1, w2⟩ := h4 x hx
    refine ⟨PSlice.copyWith_all (fun _ => VulnerabilityRating.copy_writable) w1, ?_⟩
    intro t ht
    obtain ⟨u, hu, rfl⟩ := Option.map_eq_some_iff.1 ht
    exact ToolsChoice.copy_writable (hn.2 x hx u hu) (w2 u hu)

theorem PSlice.copyWith_elems_ne {α : Type} {f : α → α} {p : PSlice α} (h : p.elems ≠ []) :
    (p.copyWith f).elems ≠ [] := by
  match p, h with
  | .nil, h => simp [PSlice.elems] at h
  | .nilSlice, h => simp [PSlice.elems] at h
  | .list [], h => simp [PSlice.elems] at h
  | .list (y :: ys), _ => simp [PSlice.copyWith, PSlice.elems]

theorem ToolsChoice.copy_nonEmpty {t : ToolsChoice} (h : t.NonEmpty) : t.copy.NonEmpty := by
  rcases h with h | h | h
  · exact .inl (PSlice.copyWith_elems_ne h)
  · exact .inr (.inl (PSlice.copyWith_elems_ne h))
  · exact .inr (.inr (PSlice.copyWith_elems_ne h))

theorem BOM.copy_toolsNonEmpty {b : BOM} (h : b.ToolsNonEmpty) : b.copy.ToolsNonEmpty := by
  refine ⟨?_, ?_⟩
  · intro m hm t ht
    obtain ⟨x, hx, rfl⟩ := Option.map_eq_some_iff.1 hm
    obtain ⟨u, hu, rfl⟩ := Option.map_eq_some_iff.1 ht
    exact ToolsChoice.copy_nonEmpty (h.1 x hx u hu)
  · intro y hy t ht
    obtain ⟨x, hx, rfl⟩ := PSlice.mem_copyWith hy
    obtain ⟨u, hu, rfl⟩ := Option.map_eq_some_iff.1 ht
    exact ToolsChoice.copy_nonEmpty (h.2 x hx u hu)

end Verif
