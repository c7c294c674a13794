import Verif.Props.Gating

/-! # C16 - C20, C42 (conversion part): whole-document laws of conversion -/

namespace Verif.Props

open Verif.Spec

/-! ## The recursion follows the Go code -/

/-- Go's `recurseComponent` calls the converter on a component and then recurses into the children of the
*modified* component (convert.go:704-733).  The model recurses first; this is the equation of the Go code. -/
theorem recurseComponent_go (v : Int) (c : Component) : recurseComponent (componentConverter v) c =
    (componentConverter v c).mapChildren (recurseComponent (componentConverter v)) :=
  recurseComponent_go' v c

/-- The same for services (convert.go:735-747). -/
theorem recurseService_go (v : Int) (s : Service) : recurseService (serviceConverter v) s =
    (serviceConverter v s).mapChildren (recurseService (serviceConverter v)) :=
  recurseService_go' v s

/-! ## C17, C18 -/

/-- **C17**: converting twice to the same version is converting once. -/
theorem convert_idempotent (v : Int) (b : BOM) : convert v (convert v b) = convert v b :=
  convert_absorb (Int.le_refl v) (stepOK_self v) b

/-- **C18** (partial): downgrading in two steps equals the direct downgrade, except when the final version
is 1.3 or 1.4 and the intermediate one 1.5 or 1.6. -/
theorem convert_stepwise_partial (v1 v2 : Int) (h : v1 ≤ v2)
    (hx : ¬ ((v1 = SpecVersion1_3 ∨ v1 = SpecVersion1_4) ∧ (v2 = SpecVersion1_5 ∨ v2 = SpecVersion1_6)))
    (b : BOM) : convert v1 (convert v2 b) = convert v1 b := by
  refine convert_absorb h ?_ b
  simp only [StepOK, SpecVersion1_3, SpecVersion1_4, SpecVersion1_5, SpecVersion1_6, SpecVersion1_7] at *
  omega

example : SpecVersion1_2 ≤ SpecVersion1_6 ∧
    ¬ ((SpecVersion1_2 = SpecVersion1_3 ∨ SpecVersion1_2 = SpecVersion1_4) ∧
       (SpecVersion1_6 = SpecVersion1_5 ∨ SpecVersion1_6 = SpecVersion1_6)) := by decide

/-- A component with an acknowledged license in its evidence. -/
def exEvidence : Component :=
  { name := "a", evidence := some { licenses := .list [{ license := some { id := "MIT", acknowledgement := "declared", bomRef := "x" }, licensing := some {} }] } }

/-- **C18** is false in each excluded case: for a final version 1.3 or 1.4 and an intermediate version 1.5
or 1.6 there is a document for which the two ways differ, because the licenses in a component's evidence
are adapted by a conversion to 1.5 or 1.6 but not by one to 1.3 or 1.4. -/
theorem convert_stepwise_false (v1 v2 : Int) (h1 : v1 = SpecVersion1_3 ∨ v1 = SpecVersion1_4)
    (h2 : v2 = SpecVersion1_5 ∨ v2 = SpecVersion1_6) :
    convert v1 (convert v2 { components := .list [exEvidence] }) ≠
      convert v1 { components := .list [exEvidence] } := by
  intro h
  have h := congrArg (fun b : BOM => b.components.elems.map fun c : Component =>
    c.evidence.map fun e => e.licenses.elems.map fun l => l.licensing) h
  simp only [convert_components, PSlice.elems_map] at h
  simp only [PSlice.elems, List.map_cons, List.map_nil,
    recurseComponent_go', Component.mapChildren, componentConverter_evidence, exEvidence] at h
  rcases h1 with rfl | rfl <;> rcases h2 with rfl | rfl <;>
    simp [convertEvidence, convertLicenses_eq, PSlice.map, licenseChoice_eq,
      SpecVersion1_1, SpecVersion1_3, SpecVersion1_4, SpecVersion1_5, SpecVersion1_6, SpecVersion1_7] at h

/-! ## C16 -/

/-- The example: a document whose formulation has a component of a type newer than 1.5. -/
def exLeak : BOM := { formulation := .list [{ components := .list [{ name := "a", tags := .list ["t"] }] }] }

/-- **C16** is false: the components of a formulation are not converted at all. -/
theorem convert_gates_document_false : ¬ ∀ (v : Int), SpecVersion1_0 ≤ v → ∀ b, DocumentConforms v (convert v b) := by
  intro h
  have h := ((h SpecVersion1_5 (by decide) exLeak).components { name := "a", tags := .list ["t"] }
    (.formula (f := { components := .list [{ name := "a", tags := .list ["t"] }] })
      (by rw [convert_formulation]; simp [SpecVersion1_5, exLeak, PSlice.elems])
      (by simp [PSlice.elems]) (.self _))).members
    ⟨"tags", SpecVersion1_6, fun c => c.tags = .nil⟩ (by simp [componentFeatures]) (by simp) (by decide)
  simp at h

/-- **C16**, places the conversion never touches, whatever the version that still has them: the components
and services of a formulation, the declarations (with their targets), the licenses of services, the
individual and the component of an annotator. -/
theorem convert_untouched (v : Int) (b : BOM) :
    (SpecVersion1_5 ≤ v → (convert v b).formulation = b.formulation) ∧
    (SpecVersion1_6 ≤ v → (convert v b).declarations = b.declarations) ∧
    (∀ s, (recurseService (serviceConverter v) s).licenses = s.licenses) ∧
    (∀ a, (convertAnnotator v a).component = a.component ∧ (convertAnnotator v a).individual = a.individual) ∧
    (SpecVersion1_5 ≤ v → ∀ t : ToolsChoice, (convertTools v t).components = t.components) := by
  refine ⟨fun h => ?_, fun h => ?_, fun s => ?_, fun a => ⟨rfl, rfl⟩, fun h t => ?_⟩
  · rw [convert_formulation, if_neg (by omega)]
  · rw [convert_declarations, if_neg (by omega)]
  · rw [recurseService_go']; simp [Service.mapChildren]
  · rw [convertTools_new (by omega)]

theorem licenses_elems {v : Int} {l : LicenseChoice} {ls : PSlice LicenseChoice}
    (h : l ∈ (convertLicenses v ls).elems) : ∃ l', l = licenseChoice v l' ∧
      (v < SpecVersion1_1 → ∃ l'', l' = convertLicense1_0 l'') := by
  rw [convertLicenses_eq, PSlice.elems_map] at h
  obtain ⟨l', hl', rfl⟩ := List.mem_map.1 h
  refine ⟨l', rfl, fun hv => ?_⟩
  rw [if_pos hv] at hl'
  by_cases hn : ls = .nil
  · subst hn; cases hl'
  · rw [convertLicenses1_0_of_ne hn, storeOrNil_elems] at hl'
    obtain ⟨l'', -, rfl⟩ := List.mem_map.1 (List.mem_filter.1 hl').1
    exact ⟨l'', rfl⟩

/-- The entries of a converted license list use nothing newer than `v`, except the acknowledgement and
bom-ref of the entry itself (as opposed to those of its license), which are never removed. -/
theorem convert_gates_licenses_partial (v : Int) (ls : PSlice LicenseChoice) :
    ∀ l ∈ (convertLicenses v ls).elems,
      Respects licenseChoiceFeatures ["acknowledgement", "bom-ref"] v l := by
  intro l hl
  obtain ⟨l', rfl, h0⟩ := licenses_elems hl
  rw [licenseChoice_eq]
  features licenseChoiceFeatures
  all_goals intro hne hv
  · obtain ⟨l'', rfl⟩ := h0 hv; rfl
  · obtain ⟨l'', rfl⟩ := h0 hv
    intro l hl
    simp only [convertLicense1_0] at hl
    obtain ⟨x, hx, rfl⟩ := Option.map_eq_some_iff.1 hl
    cases hq : l''.license with
    | none => rw [hq] at hx; simp [hq] at hx
    | some y =>
      simp only [hq] at hx
      split at hx
      · cases hx
      · cases hx; rfl
  · obtain ⟨l'', rfl⟩ := h0 hv
    intro l hl
    simp only [convertLicense1_0] at hl
    obtain ⟨x, hx, rfl⟩ := Option.map_eq_some_iff.1 hl
    cases hq : l''.license with
    | none => rw [hq] at hx; simp [hq] at hx
    | some y =>
      simp only [hq] at hx
      split at hx
      · cases hx
      · cases hx; rfl
  all_goals first
    | exact absurd (by decide) hne
    | (simp [hv]; done)
    | (intro l hl; obtain ⟨x, -, rfl⟩ := Option.map_eq_some_iff.1 hl; simp [licenseOf, hv])

/-- **C16** (partial): what does hold of the whole document after conversion to `v`.  Missing compared
with `DocumentConforms`: the members listed as exceptions, components and services outside
`components`/`services`/`metadata.component` (see `convert_untouched`), reference types that the code
considers older than they are, hash algorithms of external references, and unknown aggregates. -/
theorem convert_gates_document_partial (v : Int) (hv : SpecVersion1_0 ≤ v) (b : BOM) :
    Respects bomFeatures ["signature", "properties"] v (convert v b) ∧
    (∀ m, (convert v b).metadata = some m → Respects metadataFeatures [] v m) ∧
    (∀ c, ComponentOf (convert v b) c → ComponentConforms componentLeaks v c ∧
      (∀ l ∈ c.licenses.elems, Respects licenseChoiceFeatures ["acknowledgement", "bom-ref"] v l)) ∧
    (∀ s, ServiceOf (convert v b) s → ServiceConforms serviceLeaks v s) ∧
    (∀ x ∈ (convert v b).vulnerabilities.elems, ∀ r ∈ x.ratings.elems, Known scoringMethodSince v r.method) ∧
    (∀ c ∈ (convert v b).compositions.elems, c.aggregate ∈ aggregateSince.map Prod.fst →
      Known aggregateSince v c.aggregate) := by
  refine ⟨convert_gates_bom_partial v b, convert_gates_metadata v b, fun c hc =>
    ⟨convert_gates_components_partial v hv b c hc, ?_⟩, convert_gates_services_partial v b, ?_, ?_⟩
  · have top : ∀ d, PartOf c (recurseComponent (componentConverter v) d) →
        ∀ l ∈ c.licenses.elems, Respects licenseChoiceFeatures ["acknowledgement", "bom-ref"] v l := by
      intro d hd
      obtain ⟨e, -, rfl⟩ := partOf_converted d hd
      rw [recurseComponent_go']
      simp only [Component.mapChildren, componentConverter_licenses]
      exact convert_gates_licenses_partial v _
    cases hc with
    | metadata hm hc hp =>
      rw [convert_metadata] at hm
      split at hm
      · cases hm
      · obtain ⟨m, -, rfl⟩ := Option.map_eq_some_iff.1 hm
        rw [convertMetadata_component] at hc
        obtain ⟨d, -, rfl⟩ := Option.map_eq_some_iff.1 hc
        exact top d hp
    | top hd hp =>
      rw [convert_components, PSlice.elems_map] at hd
      obtain ⟨d, -, rfl⟩ := List.mem_map.1 hd
      exact top d hp
  · intro x hx r hr
    rw [convert_vulnerabilities] at hx
    split at hx
    · cases hx
    · rename_i h4
      rw [convertVulnerabilities, PSlice.elems_map] at hx
      obtain ⟨x', -, rfl⟩ := List.mem_map.1 hx
      rw [convertVulnerability_ratings, PSlice.elems_map] at hr
      obtain ⟨r', -, rfl⟩ := List.mem_map.1 hr
      unfold convertRating
      cases hs : supportsScoringMethod v r'.method
      · exact ⟨SpecVersion1_4, by simp only [Bool.not_false, if_true]; decide, by omega⟩
      · simpa [hs] using (supportsScoringMethod_schema v _).1 hs
  · intro c hc ha
    rw [convert_compositions] at hc
    split at hc
    · cases hc
    · rename_i h3
      rw [convertCompositions, PSlice.elems_map] at hc
      obtain ⟨c', -, rfl⟩ := List.mem_map.1 hc
      rw [← supportsCompositionAggregate_schema v _ ha, convertComposition_aggregate]
      split
      · assumption
      · rw [supportsCompositionAggregate_since]
        exact ⟨SpecVersion1_3, by decide, by omega⟩

/-! ## C19 -/

/-- What C19 needs of a component: a type the code supports, a known scope or none, known hash algorithms
and no pointer to an empty slice of hashes. -/
structure LatestComponent (c : Component) : Prop where
  type : c.type ∈ componentTypeSince.map Prod.fst ∧ c.type ≠ "cryptographic-asset"
  scope : c.scope = "" ∨ c.scope ∈ scopeSince.map Prod.fst
  hashes : ∀ h ∈ c.hashes.elems, h.algorithm ∈ hashAlgorithmSince.map Prod.fst
  noEmpty : c.hashes ≠ .list []

theorem known_latest {table : List (String × Int)} {v : Int} {s : String}
    (h : ∀ e ∈ table, e.2 ≤ SpecVersion1_7) (hv : SpecVersion1_7 ≤ v) (hs : s ∈ table.map Prod.fst) :
    Known table v s := by
  obtain ⟨e, he, rfl⟩ := List.mem_map.1 hs
  exact ⟨e.2, he, Int.le_trans (h e he) hv⟩

theorem convertHashes_latest {v : Int} (hv : SpecVersion1_7 ≤ v) {hs : PSlice Hash}
    (h : ∀ h ∈ hs.elems, h.algorithm ∈ hashAlgorithmSince.map Prod.fst) (hn : hs ≠ .list []) :
    convertHashes v hs = hs := by
  cases hs with
  | nil => rfl
  | nilSlice => rfl
  | list xs =>
    rw [convertHashes_of_ne (by simp)]
    have : xs.filter (fun h => supportsHashAlgorithm v h.algorithm) = xs := by
      rw [List.filter_eq_self]
      exact fun a ha => (supportsHashAlgorithm_schema v _).2
        (known_latest (by decide +kernel) hv (h a ha))
    simp only [PSlice.elems, this]
    cases xs with
    | nil => exact absurd rfl hn
    | cons x xs => rfl

theorem notLt {v : Int} (hv : SpecVersion1_7 ≤ v) : ¬ v < SpecVersion1_1 ∧ ¬ v < SpecVersion1_2 ∧
    ¬ v < SpecVersion1_3 ∧ ¬ v < SpecVersion1_4 ∧ ¬ v < SpecVersion1_5 ∧ ¬ v < SpecVersion1_6 ∧
    ¬ v < SpecVersion1_7 := by
  simp only [SpecVersion1_1, SpecVersion1_2, SpecVersion1_3, SpecVersion1_4, SpecVersion1_5, SpecVersion1_6,
    SpecVersion1_7] at *
  omega

theorem convertOrganizationalEntity_latest {v : Int} (hv : SpecVersion1_7 ≤ v) (o : OrganizationalEntity) :
    convertOrganizationalEntity v o = o := by
  obtain ⟨-, -, -, -, h5, h6, -⟩ := notLt hv
  simp [convertOrganizationalEntity, h5, h6]

theorem convertOrganizationalContact_latest {v : Int} (hv : SpecVersion1_7 ≤ v) (o : OrganizationalContact) :
    convertOrganizationalContact v o = o := by
  obtain ⟨-, -, -, -, h5, h6, -⟩ := notLt hv
  simp [convertOrganizationalContact, h5]

theorem supports_default_latest {v : Int} (hv : SpecVersion1_7 ≤ v) (s : String) :
    supportsExternalReferenceType v s = true ∧ supportsCryptoPrimitive v s = true ∧
    supportsCryptoProtocolType v s = true ∧ supportsCompositionAggregate v s = true := by
  simp only [supportsExternalReferenceType_since, supportsCryptoPrimitive_since,
    supportsCryptoProtocolType_since, supportsCompositionAggregate_since]
  refine ⟨?_, ?_, ?_, ?_⟩
  · unfold sinceExternalReferenceType
    repeat' split
    all_goals exact ⟨_, rfl, Int.le_trans (by decide) hv⟩
  · unfold sinceCryptoPrimitive
    repeat' split
    all_goals exact ⟨_, rfl, Int.le_trans (by decide) hv⟩
  · unfold sinceCryptoProtocolType
    repeat' split
    all_goals exact ⟨_, rfl, Int.le_trans (by decide) hv⟩
  · unfold sinceCompositionAggregate
    repeat' split
    all_goals exact ⟨_, rfl, Int.le_trans (by decide) hv⟩

theorem convertExternalReferences_latest {v : Int} (hv : SpecVersion1_7 ≤ v) (rs : PSlice ExternalReference) :
    convertExternalReferences v rs = rs := by
  obtain ⟨-, -, h3, -, -, -, h7⟩ := notLt hv
  refine PSlice.map_id' fun r _ => ?_
  simp [convertExternalReference, h3, h7, (supports_default_latest hv _).1]

theorem optMap_id {α : Type _} {f : α → α} (h : ∀ a, f a = a) (o : Option α) : o.map f = o := by
  cases o <;> simp [h]

theorem convertCryptoProperties_latest {v : Int} (hv : SpecVersion1_7 ≤ v) (o : Option CryptoProperties) :
    convertCryptoProperties v o = o := by
  obtain ⟨-, -, -, -, -, -, h7⟩ := notLt hv
  refine optMap_id (fun p => ?_) o
  have h1 : ∀ x, convertAlgorithmProperties v x = x := fun x => by
    simp [convertAlgorithmProperties, h7, (supports_default_latest hv _).2.1]
  have h2 : ∀ x, convertProtocolProperties v x = x := fun x => by
    simp [convertProtocolProperties, h7, (supports_default_latest hv _).2.2.1,
      PSlice.map_id' (f := fun x : CipherSuite => x) fun _ _ => rfl]
  have h3 : ∀ x, convertCertificateProperties v x = x := fun x => by
    simp [convertCertificateProperties, h7]
  have h4 : ∀ x, convertRelatedCryptoMaterial v x = x := fun x => by
    simp [convertRelatedCryptoMaterial, h7]
  simp [optMap_id h1, optMap_id h2, optMap_id h3, optMap_id h4]

theorem convertEvidence_latest {v : Int} (hv : SpecVersion1_7 ≤ v) (o : Option Evidence) :
    convertEvidence v o = o := by
  obtain ⟨-, -, h3, -, h5, h6, h7⟩ := notLt hv
  cases o <;> simp [convertEvidence, h3, h5, h6, convertLicenses_latest hv]

theorem componentConverter_latest {v : Int} (hv : SpecVersion1_7 ≤ v) {c : Component}
    (h : LatestComponent c) : componentConverter v c = c := by
  obtain ⟨h1, h2, h3, h4, h5, h6, h7⟩ := notLt hv
  have ht : supportsComponentType v c.type = true := (supportsComponentType_schema_partial v _ h.type.2).2
    (known_latest (by decide +kernel) hv h.type.1)
  have hs : (if supportsScope v c.scope = true then c.scope else "") = c.scope := by
    rcases h.scope with e | e
    · rw [e]; simp
    · have : supportsScope v c.scope = true := by
        by_cases hx : c.scope = "excluded"
        · rw [hx, supportsScope_since]
          exact ⟨SpecVersion1_2, by decide, Int.le_trans (by decide) hv⟩
        · exact (supportsScope_schema_partial v _ hx).2 (known_latest (by decide +kernel) hv e)
      simp [this]
  have hm : convertModelCard v c.modelCard = c.modelCard := by
    refine optMap_id (fun m => ?_) _
    simp [h6]
  apply Component.ext <;>
    simp [h1, h2, h3, h4, h5, h6, h7, ht, hs, hm, convertHashes_latest hv h.hashes h.noEmpty,
      convertLicenses_latest hv, convertExternalReferences_latest hv, convertEvidence_latest hv,
      convertCryptoProperties_latest hv]

theorem Component.mapChildren_id {c : Component} {f : Component → Component}
    (h : ∀ d ∈ c.children, f d = d) : c.mapChildren f = c := by
  rw [Component.mapChildren_congr (g := fun d => d) h]
  have h1 : ∀ p : PSlice Component, p.map (fun d => d) = p := fun p => PSlice.map_id' fun _ _ => rfl
  unfold Component.mapChildren
  apply Component.ext <;> simp only [h1]
  exact optMap_id (fun p => by simp [Pedigree.mapComponents, h1]) _

theorem recurseComponent_latest {v : Int} (hv : SpecVersion1_7 ≤ v) (c : Component)
    (h : ∀ d, PartOf d c → LatestComponent d) : recurseComponent (componentConverter v) c = c := by
  induction c using Component.induct with
  | h c ih =>
    rw [recurseComponent_go', componentConverter_latest hv (h c (.self c))]
    exact Component.mapChildren_id fun d hd => ih d hd fun e he => h e (partOf_child hd he)

theorem serviceConverter_latest {v : Int} (hv : SpecVersion1_7 ≤ v) (s : Service) :
    serviceConverter v s = s := by
  obtain ⟨h1, h2, h3, h4, h5, h6, h7⟩ := notLt hv
  apply Service.ext <;>
    simp [h3, h4, h5, h6, h7, optMap_id (convertOrganizationalEntity_latest hv),
      convertExternalReferences_latest hv, convertDataClassifications]

theorem recurseService_latest {v : Int} (hv : SpecVersion1_7 ≤ v) (s : Service) :
    recurseService (serviceConverter v) s = s := by
  induction s using Service.induct with
  | h s ih =>
    rw [recurseService_go', serviceConverter_latest hv]
    unfold Service.mapChildren
    rw [PSlice.map_id' ih]
    exact Service.ext rfl rfl rfl rfl rfl rfl rfl rfl rfl rfl rfl rfl rfl rfl rfl rfl rfl rfl rfl

/-- What C19 needs of the tools of metadata and vulnerabilities. -/
def LatestTools (t : ToolsChoice) : Prop :=
  ∀ x ∈ t.tools.elems, (∀ h ∈ x.hashes.elems, h.algorithm ∈ hashAlgorithmSince.map Prod.fst) ∧
    x.hashes ≠ .list []

theorem convertTools_latest {v : Int} (hv : SpecVersion1_7 ≤ v) {t : ToolsChoice} (h : LatestTools t) :
    convertTools v t = t := by
  obtain ⟨h1, h2, h3, h4, h5, h6, h7⟩ := notLt hv
  rw [convertTools_new h5]
  have e1 : t.services.map (toolService v) = t.services := PSlice.map_id' fun s _ => by
    apply Service.ext <;> simp [toolService, optMap_id (convertOrganizationalEntity_latest hv)]
  have e2 : t.tools.map (convertTool v) = t.tools := PSlice.map_id' fun x hx => by
    apply Tool.ext <;> simp [h4, convertExternalReferences_latest hv,
      convertHashes_latest hv (h x hx).1 (h x hx).2]
  rw [e1, e2]

/-- What C19 needs of a document: enumeration values known to the schemas at the places the conversion
looks at, and no pointers to empty hash lists. -/
structure LatestDocument (b : BOM) : Prop where
  components : ∀ c, ComponentOf b c → LatestComponent c
  tools : ∀ m, b.metadata = some m → ∀ t, m.tools = some t → LatestTools t
  vulnerabilityTools : ∀ x ∈ b.vulnerabilities.elems, ∀ t, x.tools = some t → LatestTools t
  ratings : ∀ x ∈ b.vulnerabilities.elems, ∀ r ∈ x.ratings.elems, r.method ∈ scoringMethodSince.map Prod.fst

/-- **C19** (partial): converting a document to 1.7 changes nothing but the version stamps, provided its
enumeration values are those of the schemas (and not `cryptographic-asset`). -/
theorem convert_latest_partial (b : BOM) (h : LatestDocument b) : convert SpecVersion1_7 b =
    { b with
      specVersion := SpecVersion1_7
      xmlns := "http://cyclonedx.org/schema/bom/1.7"
      jsonSchema := "http://cyclonedx.org/schema/bom-1.7.schema.json" } := by
  have hv : SpecVersion1_7 ≤ SpecVersion1_7 := Int.le_refl _
  generalize hw : SpecVersion1_7 = v at hv
  have hv : SpecVersion1_7 ≤ v := by rw [hw]; exact hv
  obtain ⟨h1, h2, h3, h4, h5, h6, h7⟩ := notLt hv
  have hx : mapGet xmlNamespaces v = "http://cyclonedx.org/schema/bom/1.7" := by rw [← hw]; decide
  have hj : mapGet jsonSchemas v = "http://cyclonedx.org/schema/bom-1.7.schema.json" := by rw [← hw]; decide
  have hm : b.metadata.map (convertMetadata v) = b.metadata := by
    cases he : b.metadata with
    | none => rfl
    | some m =>
      simp only [Option.map_some, Option.some.injEq]
      have e1 : m.component.map (recurseComponent (componentConverter v)) = m.component := by
        cases hc : m.component with
        | none => rfl
        | some c =>
          simp only [Option.map_some, Option.some.injEq]
          exact recurseComponent_latest hv c fun d hd => h.components d (.metadata he hc hd)
      have e2 : m.tools.map (convertTools v) = m.tools := by
        cases ht : m.tools with
        | none => rfl
        | some t => simp only [Option.map_some, convertTools_latest hv (h.tools m he t ht)]
      apply Metadata.ext <;> simp [h3, h5, h6, h7, e1, e2, optMap_id (convertOrganizationalEntity_latest hv),
        convertLicenses_latest hv, PSlice.map_id' fun a _ => convertOrganizationalContact_latest hv a]
  have hc : b.components.map (recurseComponent (componentConverter v)) = b.components :=
    PSlice.map_id' fun c hc => recurseComponent_latest hv c fun d hd => h.components d (.top hc hd)
  have hvu : convertVulnerabilities v b.vulnerabilities = b.vulnerabilities :=
    PSlice.map_id' fun x hx => by
      have e2 : x.tools.map (convertTools v) = x.tools := by
        cases ht : x.tools with
        | none => rfl
        | some t => simp only [Option.map_some,
            convertTools_latest hv (h.vulnerabilityTools x hx t ht)]
      have e3 : x.ratings.map (convertRating v) = x.ratings := PSlice.map_id' fun r hr => by
        have : supportsScoringMethod v r.method = true := (supportsScoringMethod_schema v _).2
          (known_latest (by decide +kernel) hv (h.ratings x hx r hr))
        simp [convertRating, this]
      apply Vulnerability.ext <;> simp [h5, h6, e2, e3]
  have hco : convertCompositions v b.compositions = b.compositions := PSlice.map_id' fun c _ => by
    apply Composition.ext <;> simp [h5, (supports_default_latest hv _).2.2.2]
  have hs : b.services.map (recurseService (serviceConverter v)) = b.services :=
    PSlice.map_id' fun s _ => recurseService_latest hv s
  apply BOM.ext <;> simp [h1, h2, h3, h4, h5, h6, h7, hx, hj, hm, hc, hs, hvu, hco,
    convertExternalReferences_latest hv, convertAnnotations]

/-- A document meeting the hypothesis of `convert_latest_partial`. -/
example : LatestDocument { components := .list [{ name := "a", type := "library", scope := "required", hashes := .list [{ algorithm := "SHA-256" }] }] } := by
  constructor
  · intro c hc
    cases hc with
    | metadata hm => cases hm
    | top hd hp =>
      simp only [PSlice.elems, List.mem_singleton] at hd
      subst hd
      rcases partOf_cases hp with rfl | ⟨d, hd, -⟩
      · constructor <;> simp only [PSlice.elems, List.mem_singleton, forall_eq] <;> first | decide +kernel | simp
      · simp [Component.children, PSlice.elems] at hd
  all_goals simp [PSlice.elems]

/-- **C19** is false for components of type `cryptographic-asset` (a value of the 1.6 and 1.7 schemas): the
conversion to 1.7 - to any version - turns them into applications. -/
theorem convert_latest_false (v : Int) :
    (convert v { components := .list [{ name := "key", type := ComponentTypeCryptographicAsset }] }).components.elems.map
      (fun c => (c.name, c.type)) = [("key", "application")] := by
  simp only [convert_components, PSlice.elems_map]
  simp only [PSlice.elems, List.map_cons, List.map_nil,
    recurseComponent_go', Component.mapChildren, componentConverter_type, componentConverter_name]
  rw [cryptographic_asset_unsupported.2 v]; rfl

/-- **C19** is false for ratings without a method: the conversion to any version from 1.4 on sets the
method `other`. -/
theorem convert_latest_false_rating (v : Int) (hv : SpecVersion1_4 ≤ v) :
    (convert v { vulnerabilities := .list [{ ratings := .list [{}] }] }).vulnerabilities.elems.map
      (fun x => x.ratings.elems.map fun r => r.method) = [["other"]] := by
  rw [convert_vulnerabilities, if_neg (by omega), convertVulnerabilities, PSlice.elems_map]
  simp only [PSlice.elems, List.map_cons, List.map_nil, convertVulnerability_ratings, PSlice.map]
  have : supportsScoringMethod v "" = false := by
    unfold supportsScoringMethod
    repeat rw [if_neg (by decide)]
  simp [convertRating, this]; rfl

/-- **C42** (conversion part): `NewBOM()` is a fixed point of the conversion to 1.7. -/
theorem newBOM_convert : convert SpecVersion1_7 newBOM = newBOM := by
  rw [convert_latest_partial]
  · rfl
  · constructor
    · intro c hc
      cases hc with
      | metadata hm => cases hm
      | top hd => cases hd
    · intro m hm; cases hm
    · intro x hx; cases hx
    · intro x hx; cases hx

/-! ## C20 -/

theorem sameList_map {α : Type} {R : α → α → Prop} {f : α → α} {p : PSlice α}
    (h : ∀ a ∈ p.elems, R (f a) a) : SameList R (p.map f) p := by
  cases p with
  | nil => exact .nil
  | nilSlice => exact .nilSlice
  | list xs =>
    refine .list (by simp) fun i hx hy => ?_
    rw [List.getElem_map]
    exact h _ (List.getElem_mem hy)

/-- **C20**, one component: the converted tree is the original tree, entry by entry, and from 1.1 on also
the pedigree relatives. -/
theorem recurseComponent_sameTree (v : Int) (c : Component) :
    SameTree (decide (SpecVersion1_1 ≤ v)) (recurseComponent (componentConverter v) c) c := by
  induction c using Component.induct with
  | h c ih =>
    have key : ∀ p q, (recurseComponent (componentConverter v) c).pedigree = some p → c.pedigree = some q →
        p.ancestors = q.ancestors.map (recurseComponent (componentConverter v)) ∧
        p.descendants = q.descendants.map (recurseComponent (componentConverter v)) ∧
        p.variants = q.variants.map (recurseComponent (componentConverter v)) := by
      intro p q hp hq
      rw [recurseComponent_go'] at hp
      simp only [Component.mapChildren, componentConverter_pedigree, hq, Option.map_some] at hp
      split at hp
      · cases hp
      · split at hp <;> (cases hp; exact ⟨rfl, rfl, rfl⟩)
    have mem : ∀ q, c.pedigree = some q → ∀ d ∈ q.relatives, d ∈ c.children := by
      intro q hq d hd
      refine List.mem_append_right _ ?_
      rw [hq]; exact hd
    refine .mk ?_ ?_ ?_ ?_ ?_ ?_ ?_
    · rw [recurseComponent_go']; simp [Component.mapChildren]
    · rw [recurseComponent_go']; simp [Component.mapChildren]
    · rw [recurseComponent_go']
      simp only [Component.mapChildren, componentConverter_components]
      exact sameList_map fun d hd => ih d (List.mem_append_left _ hd)
    · intro hv
      have hv : ¬ v < SpecVersion1_1 := by simp only [decide_eq_true_eq] at hv; omega
      rw [recurseComponent_go']
      simp only [Component.mapChildren, componentConverter_pedigree, if_neg hv]
      split <;> simp
    · intro p q hp hq
      rw [(key p q hp hq).1]
      exact sameList_map fun d hd => ih d (mem q hq d (by simp [Pedigree.relatives, hd]))
    · intro p q hp hq
      rw [(key p q hp hq).2.1]
      exact sameList_map fun d hd => ih d (mem q hq d (by simp [Pedigree.relatives, hd]))
    · intro p q hp hq
      rw [(key p q hp hq).2.2]
      exact sameList_map fun d hd => ih d (mem q hq d (by simp [Pedigree.relatives, hd]))

theorem recurseService_same (v : Int) (s : Service) :
    SameServices (recurseService (serviceConverter v) s) s := by
  induction s using Service.induct with
  | h s ih =>
    rw [recurseService_go']
    refine .mk ?_ ?_ ?_ ?_ ?_ <;> simp only [Service.mapChildren, serviceConverter_name,
      serviceConverter_group, serviceConverter_version, serviceConverter_bomRef, serviceConverter_services]
    exact sameList_map ih

/-- **C20**: conversion keeps the tree of components (from 1.1 on including pedigree relatives), the
metadata component and - in the versions that have them - the tree of services. -/
theorem convert_sameTree (v : Int) (b : BOM) :
    SameList (SameTree (decide (SpecVersion1_1 ≤ v))) (convert v b).components b.components ∧
    (SpecVersion1_2 ≤ v → SameList SameServices (convert v b).services b.services) ∧
    (∀ m m', (convert v b).metadata = some m → b.metadata = some m' →
      (m.component = none ↔ m'.component = none) ∧
      ∀ c c', m.component = some c → m'.component = some c' → SameTree (decide (SpecVersion1_1 ≤ v)) c c') ∧
    (SpecVersion1_2 ≤ v → ((convert v b).metadata = none ↔ b.metadata = none)) := by
  refine ⟨?_, fun hv => ?_, fun m m' hm hm' => ?_, fun hv => ?_⟩
  · rw [convert_components]
    exact sameList_map fun c _ => recurseComponent_sameTree v c
  · rw [convert_services, if_neg (by omega)]
    exact sameList_map fun s _ => recurseService_same v s
  · rw [convert_metadata] at hm
    split at hm
    · cases hm
    · rw [hm'] at hm
      cases hm
      rw [convertMetadata_component]
      refine ⟨by simp, fun c c' hc hc' => ?_⟩
      rw [hc'] at hc
      cases hc
      exact recurseComponent_sameTree v c'
  · rw [convert_metadata, if_neg (by omega)]; simp

end Verif.Props
