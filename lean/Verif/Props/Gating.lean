import Verif.Props.Support
import Verif.Props.Version
import Verif.Spec.Gating

/-! # C12 - C16: what a converted document may contain -/

namespace Verif.Props

open Verif.Spec

/-! ## C12 -/

/-- **C12**: after conversion to `v` the document reports version `v`; for the eight specification
versions the XML namespace is `http://cyclonedx.org/schema/bom/<name>` and, from 1.2 on, the JSON schema
is `http://cyclonedx.org/schema/bom-<name>.schema.json` (before 1.2 there is no JSON schema). -/
theorem convert_stamps (v : Int) (b : BOM) :
    (convert v b).specVersion = v ∧
    (∀ name, (name, v) ∈ officialNames.zip allVersions →
      (convert v b).xmlns = "http://cyclonedx.org/schema/bom/" ++ name ∧
      (convert v b).jsonSchema =
        if v < SpecVersion1_2 then "" else "http://cyclonedx.org/schema/bom-" ++ name ++ ".schema.json") := by
  refine ⟨convert_specVersion v b, fun name h => ?_⟩
  rw [convert_xmlns, convert_jsonSchema]
  exact (by decide +kernel : ∀ p ∈ officialNames.zip allVersions,
    mapGet xmlNamespaces p.2 = "http://cyclonedx.org/schema/bom/" ++ p.1 ∧
    mapGet jsonSchemas p.2 =
      if p.2 < SpecVersion1_2 then "" else "http://cyclonedx.org/schema/bom-" ++ p.1 ++ ".schema.json")
    (name, v) h

example : ("1.5", SpecVersion1_5) ∈ officialNames.zip allVersions := by decide

/-! ## C13 -/

theorem respects_cons {α : Type} (f : Feature α) (fs : List (Feature α)) (ex : List String) (v : Int) (x : α) :
    Respects (f :: fs) ex v x ↔ (f.name ∉ ex → v < f.since → f.absent x) ∧ Respects fs ex v x := by
  unfold Respects
  simp only [List.mem_cons, forall_eq_or_imp]

theorem respects_nil {α : Type} (ex : List String) (v : Int) (x : α) :
    Respects ([] : List (Feature α)) ex v x ↔ True := by
  simp [Respects]

/-- Splits a statement about all entries of a feature table into one goal per entry. -/
macro "features " t:ident : tactic => `(tactic| (
  simp only [$t:ident, respects_cons, respects_nil, and_true]
  and_intros))

/-- **C13** (partial): after conversion to `v` no top-level member introduced after `v` is left, except
that `signature` (1.4) and `properties` (1.3) are never removed. -/
theorem convert_gates_bom_partial (v : Int) (b : BOM) :
    Respects bomFeatures ["signature", "properties"] v (convert v b) := by
  features bomFeatures
  all_goals first
    | (intro hne hv; exact absurd (by decide) hne)
    | (intro _ hv; simp only [convert_serialNumber, convert_externalReferences,
        convert_metadata, convert_services, convert_dependencies, convert_compositions,
        convert_vulnerabilities, convert_annotations, convert_formulation, convert_declarations,
        convert_definitions, convert_citations, if_pos hv]; done)
    | skip
  · intro _ hv d hd
    rw [convert_dependencies, if_pos hv] at hd
    split at hd
    · cases hd
    · rw [PSlice.elems_map] at hd
      obtain ⟨d', -, rfl⟩ := List.mem_map.1 hd
      rfl
  · intro _ hv d hd
    rw [convert_definitions, if_pos hv] at hd
    split at hd
    · cases hd
    · obtain ⟨d', -, rfl⟩ := Option.map_eq_some_iff.1 hd
      rfl

/-- **C13** for the metadata: nothing newer than `v` is left. -/
theorem convert_gates_metadata (v : Int) (b : BOM) (m : Metadata) (h : (convert v b).metadata = some m) :
    Respects metadataFeatures [] v m := by
  rw [convert_metadata] at h
  split at h
  · cases h
  · obtain ⟨m, -, rfl⟩ := Option.map_eq_some_iff.1 h
    have old : ∀ {t : ToolsChoice}, v < SpecVersion1_5 → (convertMetadata v m).tools = some t →
        t.components = .nil ∧ t.services = .nil := by
      intro t hv ht
      rw [convertMetadata_tools] at ht
      obtain ⟨t', -, rfl⟩ := Option.map_eq_some_iff.1 ht
      rw [convertTools_old hv]; exact ⟨rfl, rfl⟩
    have org : ∀ {o : OrganizationalEntity} {o' : Option OrganizationalEntity},
        o'.map (convertOrganizationalEntity v) = some o →
        (v < SpecVersion1_5 → o.bomRef = "") ∧ (v < SpecVersion1_6 → o.address = none) := by
      intro o o' ho
      obtain ⟨o'', -, rfl⟩ := Option.map_eq_some_iff.1 ho
      exact ⟨fun hv => by simp [hv], fun hv => by simp [hv]⟩
    features metadataFeatures
    all_goals first
      | (intro _ hv; simp only [convertMetadata_licenses, convertMetadata_properties,
          convertMetadata_lifecycles, convertMetadata_manufacturer,
          convertMetadata_distributionConstraints, if_pos hv]; done)
      | skip
    · exact fun _ hv t ht => (old hv ht).1
    · exact fun _ hv t ht => (old hv ht).2
    · intro _ hv a ha
      rw [convertMetadata_authors, PSlice.elems_map] at ha
      obtain ⟨a', -, rfl⟩ := List.mem_map.1 ha
      simp [convertOrganizationalContact, hv]
    · exact fun _ hv o ho => (org (by rwa [convertMetadata_manufacture] at ho)).1 hv
    · exact fun _ hv o ho => (org (by rwa [convertMetadata_supplier] at ho)).1 hv
    · exact fun _ hv o ho => (org (by rwa [convertMetadata_manufacture] at ho)).2 hv
    · exact fun _ hv o ho => (org (by rwa [convertMetadata_supplier] at ho)).2 hv

/-- **C13** is false for the two exceptions: conversion never removes a document's signature or
properties. -/
theorem convert_keeps_signature (v : Int) (b : BOM) :
    (convert v b).signature = b.signature ∧ (convert v b).properties = b.properties :=
  ⟨convert_signature v b, convert_properties v b⟩

/-- A concrete violation: converting a signed document to 1.3 leaves the signature in place, although
signatures exist since 1.4. -/
theorem convert_gates_bom_false : ¬ ∀ (v : Int) (b : BOM), Respects bomFeatures [] v (convert v b) := by
  intro h
  have := h SpecVersion1_3 { signature := some {} } ⟨"signature", SpecVersion1_4, fun b => b.signature = none⟩
    (by simp [bomFeatures]) (by simp) (by decide)
  simp at this

/-! ## C14 -/

theorem partOf_child {c d e : Component} (hd : d ∈ c.children) (h : PartOf e d) : PartOf e c := by
  unfold Component.children at hd
  rcases List.mem_append.1 hd with hd | hd
  · exact .nested hd h
  · cases hp : c.pedigree with
    | none => rw [hp] at hd; cases hd
    | some p =>
      rw [hp] at hd
      simp only [Pedigree.relatives, List.mem_append] at hd
      rcases hd with (hd | hd) | hd
      · exact .ancestor hp hd h
      · exact .descendant hp hd h
      · exact .variant hp hd h

/-- `PartOf` steps into a child. -/
theorem partOf_cases {e c : Component} (h : PartOf e c) : e = c ∨ ∃ d ∈ c.children, PartOf e d := by
  cases h with
  | self => exact .inl rfl
  | nested hd h => exact .inr ⟨_, List.mem_append_left _ hd, h⟩
  | ancestor hp hd h =>
    exact .inr ⟨_, List.mem_append_right _ (by rw [hp]; simp [Pedigree.relatives, hd]), h⟩
  | descendant hp hd h =>
    exact .inr ⟨_, List.mem_append_right _ (by rw [hp]; simp [Pedigree.relatives, hd]), h⟩
  | variant hp hd h =>
    exact .inr ⟨_, List.mem_append_right _ (by rw [hp]; simp [Pedigree.relatives, hd]), h⟩

theorem children_mapChildren (f : Component → Component) (c : Component) :
    (c.mapChildren f).children = c.children.map f := by
  unfold Component.children Component.mapChildren
  simp only [PSlice.elems_map, List.map_append]
  cases c.pedigree <;> simp [Pedigree.relatives, Pedigree.mapComponents, PSlice.elems_map]

/-- Every part of a converted component is a converted component. -/
theorem partOf_converted {v : Int} {e : Component} (c : Component)
    (h : PartOf e (recurseComponent (componentConverter v) c)) :
    ∃ d, PartOf d c ∧ e = recurseComponent (componentConverter v) d := by
  induction c using Component.induct with
  | h c ih =>
    rcases partOf_cases h with rfl | ⟨d, hd, h⟩
    · exact ⟨c, .self c, rfl⟩
    · rw [recurseComponent_go', children_mapChildren] at hd
      obtain ⟨d', hd', rfl⟩ := List.mem_map.1 hd
      have hd' := componentConverter_children v c d' hd'
      obtain ⟨x, hx, rfl⟩ := ih d' hd' h
      exact ⟨x, partOf_child hd' hx, rfl⟩

/-- The exceptions of C14: a component's signature is never removed, and the supplier of a component is
not adapted. -/
def componentLeaks : List String := ["signature", "supplier.bom-ref", "supplier.address"]

theorem evidence_cases {v : Int} {e : Option Evidence} {e' : Evidence} (h : convertEvidence v e = some e') :
    ¬ v < SpecVersion1_3 ∧
    (v < SpecVersion1_5 → e'.identity = none ∧ e'.occurrences = .nil ∧ e'.callstack = none) ∧
    (v < SpecVersion1_6 → (∀ i, e'.identity = some i → i.identities = .nil ∧
        ∀ x, i.identity = some x → x.concludedValue = "") ∧
      ∀ o ∈ e'.occurrences.elems, o.line = none ∧ o.offset = none ∧ o.symbol = "" ∧
        o.additionalContext = "") := by
  unfold convertEvidence at h
  cases e with
  | none => cases h
  | some e =>
    simp only at h
    split at h
    · cases h
    · rename_i h3
      refine ⟨h3, ?_⟩
      split at h
      · cases h
        refine ⟨fun _ => ⟨rfl, rfl, rfl⟩, fun _ => ⟨fun i hi => (by cases hi), fun o ho => (by cases ho)⟩⟩
      · rename_i h5
        cases h
        refine ⟨fun h => absurd h h5, fun h6 => ?_⟩
        simp only [h6, if_true]
        constructor
        · intro i hi
          unfold clearConcludedValue at hi
          obtain ⟨j, hj, rfl⟩ := Option.map_eq_some_iff.1 hi
          constructor
          · unfold firstIdentity at hj
            rcases hh : e.identity with _ | ch
            · rw [hh] at hj; cases hj
            · rw [hh] at hj
              simp only at hj
              split at hj
              · cases hj; simp_all
              · split at hj
                · cases hj
                · cases hj; rfl
          · intro x hx
            obtain ⟨y, -, rfl⟩ := Option.map_eq_some_iff.1 hx
            rfl
        · intro o ho
          rw [PSlice.elems_map] at ho
          obtain ⟨o', -, rfl⟩ := List.mem_map.1 ho
          exact ⟨rfl, rfl, rfl, rfl⟩

theorem converted_reference {v : Int} {r : ExternalReference} {rs : PSlice ExternalReference}
    (h : r ∈ (convertExternalReferences v rs).elems) : Respects externalReferenceFeatures [] v r := by
  unfold convertExternalReferences at h
  rw [PSlice.elems_map] at h
  obtain ⟨r', -, rfl⟩ := List.mem_map.1 h
  features externalReferenceFeatures
  all_goals first
    | (intro _ hv; simp [hv]; done)

theorem hashes_elems (v : Int) (hs : PSlice Hash) : (convertHashes v hs).elems =
    hs.elems.filter fun h => supportsHashAlgorithm v h.algorithm := by
  by_cases hn : hs = .nil
  · subst hn; rfl
  · rw [convertHashes_of_ne hn, storeOrNil_elems]

theorem converted_component_conforms {v : Int} (hv1 : SpecVersion1_0 ≤ v) (c : Component) :
    ComponentConforms componentLeaks v (recurseComponent (componentConverter v) c) := by
  rw [recurseComponent_go']
  constructor
  · features componentFeatures
    all_goals first
      | (intro hne hv; exact absurd (by decide) hne)
      | (intro _ hv; simp only [Component.mapChildren, componentConverter_bomRef,
          componentConverter_mimeType,
          componentConverter_supplier, componentConverter_author, componentConverter_swid,
          componentConverter_properties, componentConverter_releaseNotes, componentConverter_modelCard,
          componentConverter_data, componentConverter_manufacturer, componentConverter_authors,
          componentConverter_omniborID, componentConverter_swhid, componentConverter_cryptoProperties,
          componentConverter_tags, componentConverter_versionRange, componentConverter_patentAssertions,
          componentConverter_isExternal, componentConverter_externalReferences, componentConverter_pedigree,
          if_pos hv, Option.map_none]; done)
      | skip
    all_goals intro _ hv
    all_goals simp only [Component.mapChildren] at hv ⊢
    · intro p hp
      rw [componentConverter_pedigree, if_pos hv] at hp
      split at hp
      · cases hp
      · simp only [Option.map_map] at hp
        obtain ⟨p', -, rfl⟩ := Option.map_eq_some_iff.1 hp
        rfl
    · rw [componentConverter_evidence]
      cases he : convertEvidence v c.evidence with
      | none => rfl
      | some e => exact absurd hv (evidence_cases he).1
    · exact fun e he => ((evidence_cases (by rwa [componentConverter_evidence] at he)).2.1 hv).1
    · exact fun e he => ((evidence_cases (by rwa [componentConverter_evidence] at he)).2.1 hv).2.1
    · exact fun e he => ((evidence_cases (by rwa [componentConverter_evidence] at he)).2.1 hv).2.2
    · exact fun e he i hi =>
        (((evidence_cases (by rwa [componentConverter_evidence] at he)).2.2 hv).1 i hi).1
    · exact fun e he i hi =>
        (((evidence_cases (by rwa [componentConverter_evidence] at he)).2.2 hv).1 i hi).2
    · exact fun e he => ((evidence_cases (by rwa [componentConverter_evidence] at he)).2.2 hv).2
    · intro m hm k hk
      rw [componentConverter_modelCard] at hm
      split at hm
      · cases hm
      · unfold convertModelCard at hm
        obtain ⟨m', -, rfl⟩ := Option.map_eq_some_iff.1 hm
        rw [if_pos hv] at hk
        obtain ⟨k', -, rfl⟩ := Option.map_eq_some_iff.1 hk
        rfl
  · simp only [Component.mapChildren, componentConverter_type]
    split
    · rename_i h; exact supportsComponentType_known _ _ h
    · exact ⟨SpecVersion1_0, by decide, hv1⟩
  · simp only [Component.mapChildren, componentConverter_scope]
    split
    · rename_i h; exact .inr (supportsScope_known _ _ h)
    · exact .inl rfl
  · simp only [Component.mapChildren, componentConverter_hashes, hashes_elems]
    intro h hh
    exact (supportsHashAlgorithm_schema v _).1 (List.mem_filter.1 hh).2
  · simp only [Component.mapChildren, componentConverter_externalReferences]
    intro r hr
    split at hr
    · cases hr
    · exact converted_reference hr

/-- **C14** (partial): after conversion to `v`, every component of the document, at any depth, conforms to
`v`, except for the members listed in `componentLeaks`. -/
theorem convert_gates_components_partial (v : Int) (hv : SpecVersion1_0 ≤ v) (b : BOM) (c : Component)
    (h : ComponentOf (convert v b) c) : ComponentConforms componentLeaks v c := by
  have top : ∀ d, PartOf c (recurseComponent (componentConverter v) d) →
      ComponentConforms componentLeaks v c := by
    intro d hd
    obtain ⟨e, -, rfl⟩ := partOf_converted d hd
    exact converted_component_conforms hv e
  cases h with
  | metadata hm hc hp =>
    rw [convert_metadata] at hm
    split at hm
    · cases hm
    · obtain ⟨m, -, rfl⟩ := Option.map_eq_some_iff.1 hm
      rw [convertMetadata_component] at hc
      obtain ⟨d, -, rfl⟩ := Option.map_eq_some_iff.1 hc
      exact top d hp
  | top hd hp =>
    rw [convert_components, PSlice.elems_map] at hd
    obtain ⟨d, -, rfl⟩ := List.mem_map.1 hd
    exact top d hp

/-- A component two levels below a document's component: a variant in the pedigree of a nested one. -/
def exDeep : Component := { name := "deep", tags := .list ["x"] }
def exMiddle : Component := { name := "b", pedigree := some { variants := .list [exDeep] } }
def exTop : Component := { name := "a", components := .list [exMiddle] }

/-- The hypothesis of `convert_gates_components_partial` is met by `exDeep` in a document holding `exTop`. -/
example : ComponentOf (convert SpecVersion1_2 { components := .list [exTop] })
    (recurseComponent (componentConverter SpecVersion1_2) exDeep) := by
  refine .top (d := recurseComponent (componentConverter SpecVersion1_2) exTop) ?_ ?_
  · rw [convert_components, PSlice.elems_map]
    exact List.mem_map.2 ⟨_, List.mem_cons_self, rfl⟩
  · refine .nested (d := recurseComponent (componentConverter SpecVersion1_2) exMiddle) ?_ ?_
    · rw [recurseComponent_go']
      simp [Component.mapChildren, exTop, PSlice.elems, PSlice.map]
    · rw [recurseComponent_go' _ exMiddle]
      refine .variant (p := Pedigree.mapComponents (recurseComponent (componentConverter SpecVersion1_2))
        { variants := .list [exDeep] }) ?_ ?_ (.self _)
      · simp [Component.mapChildren, componentConverter_pedigree, exMiddle, SpecVersion1_2, SpecVersion1_1]
      · simp [Pedigree.mapComponents, PSlice.map, PSlice.elems]

/-- **C14** is false for signatures: a component's signature survives every conversion. -/
theorem convert_keeps_component_signature (v : Int) (c : Component) :
    (recurseComponent (componentConverter v) c).signature = c.signature := by
  rw [recurseComponent_go']; simp [Component.mapChildren]

/-- **C14** is false: a component whose supplier has an address keeps it at 1.2, although addresses exist
since 1.6. -/
theorem convert_gates_components_false : ¬ ∀ (v : Int), SpecVersion1_0 ≤ v → ∀ (b : BOM) (c : Component),
    ComponentOf (convert v b) c → ComponentConforms [] v c := by
  intro h
  have h := (h SpecVersion1_2 (by decide)
    { components := .list [{ name := "a", supplier := some { address := some {} } }] } _
    (.top (by rw [convert_components, PSlice.elems_map]; exact List.mem_map.2 ⟨_, List.mem_cons_self, rfl⟩)
      (.self _))).members
    ⟨"supplier.address", SpecVersion1_6, fun c => ∀ o, c.supplier = some o → o.address = none⟩
    (by simp [componentFeatures]) (by simp) (by decide) { address := some {} }
  rw [recurseComponent_go'] at h
  simp [Component.mapChildren, SpecVersion1_2] at h

/-! ## C15 -/

theorem servicePartOf_converted {v : Int} {e : Service} (s : Service)
    (h : ServicePartOf e (recurseService (serviceConverter v) s)) :
    ∃ d, ServicePartOf d s ∧ e = recurseService (serviceConverter v) d := by
  induction s using Service.induct with
  | h s ih =>
    generalize hr : recurseService (serviceConverter v) s = r at h
    cases h with
    | self => exact ⟨s, .self s, hr.symm⟩
    | nested hd h =>
      subst hr
      rw [recurseService_go'] at hd
      simp only [Service.mapChildren, PSlice.elems_map, serviceConverter_services] at hd
      obtain ⟨d', hd', rfl⟩ := List.mem_map.1 hd
      obtain ⟨x, hx, rfl⟩ := ih d' hd' h
      exact ⟨x, .nested hd' hx, rfl⟩

/-- The exceptions of C15. -/
def serviceLeaks : List String := ["signature", "tags"]

theorem converted_service_conforms (v : Int) (s : Service) :
    ServiceConforms serviceLeaks v (recurseService (serviceConverter v) s) := by
  rw [recurseService_go']
  constructor
  · features serviceFeatures
    all_goals first
      | (intro hne hv; exact absurd (by decide) hne)
      | (intro _ hv; simp only [Service.mapChildren, serviceConverter_properties,
          serviceConverter_releaseNotes, serviceConverter_trustZone, serviceConverter_patentAssertions,
          if_pos hv]; done)
      | skip
    all_goals intro _ hv
    all_goals simp only [Service.mapChildren] at hv ⊢
    · intro d hd
      rw [serviceConverter_data, convertDataClassifications, if_pos (Int.lt_trans hv (by decide))] at hd
      rw [PSlice.elems_map] at hd
      obtain ⟨d', -, rfl⟩ := List.mem_map.1 hd
      exact ⟨rfl, rfl, rfl, rfl, rfl⟩
    · intro o ho
      rw [serviceConverter_provider] at ho
      obtain ⟨o', -, rfl⟩ := Option.map_eq_some_iff.1 ho
      refine ⟨by simp [hv], fun c hc => ?_⟩
      rw [convertOrganizationalEntity_contact, if_pos hv, PSlice.elems_map] at hc
      obtain ⟨c', -, rfl⟩ := List.mem_map.1 hc
      simp [convertOrganizationalContact, hv]
    · intro o ho
      rw [serviceConverter_provider] at ho
      obtain ⟨o', -, rfl⟩ := Option.map_eq_some_iff.1 ho
      simp [hv]
  · simp only [Service.mapChildren, serviceConverter_externalReferences]
    exact fun r hr => converted_reference hr

/-- **C15** (partial): after conversion to `v`, every service of the document, at any depth, conforms to
`v`, except that signatures (1.4) and tags (1.6) are never removed. -/
theorem convert_gates_services_partial (v : Int) (b : BOM) (s : Service)
    (h : ServiceOf (convert v b) s) : ServiceConforms serviceLeaks v s := by
  cases h with
  | top hd hp =>
    rw [convert_services] at hd
    split at hd
    · cases hd
    · rw [PSlice.elems_map] at hd
      obtain ⟨d, -, rfl⟩ := List.mem_map.1 hd
      obtain ⟨e, -, rfl⟩ := servicePartOf_converted d hp
      exact converted_service_conforms v e

example : ServiceOf (convert SpecVersion1_3
      { services := .list [{ name := "s", services := .list [{ name := "t", trustZone := "z" }] }] })
    (recurseService (serviceConverter SpecVersion1_3) { name := "t", trustZone := "z" }) := by
  refine .top (t := recurseService (serviceConverter SpecVersion1_3)
    { name := "s", services := .list [{ name := "t", trustZone := "z" }] }) ?_ (.nested ?_ (.self _))
  · rw [convert_services, if_neg (by decide), PSlice.elems_map]
    exact List.mem_map.2 ⟨_, List.mem_cons_self, rfl⟩
  · rw [recurseService_go']
    simp only [Service.mapChildren, serviceConverter_services, PSlice.elems_map]
    exact List.mem_map.2 ⟨_, List.mem_cons_self, rfl⟩

/-- **C15** is false for the exceptions: signatures and tags of services survive every conversion. -/
theorem convert_keeps_service_tags (v : Int) (s : Service) :
    (recurseService (serviceConverter v) s).tags = s.tags ∧
    (recurseService (serviceConverter v) s).signature = s.signature := by
  rw [recurseService_go']; simp [Service.mapChildren]

end Verif.Props
