import Verif.Props.Lists
import Verif.Spec.Keeps

/-! # C21 and C46: conversion invents nothing and keeps everything the version has -/

namespace Verif.Props

open Verif.Spec

variable {v : Int}

/-! ## Combinators -/

theorem erased_ite {α : Type} (k : Int) (z x : α) : Erased v k z (if v < k then z else x) x := by
  unfold Erased; split
  · rename_i h; exact .inr ⟨h, rfl⟩
  · exact .inl rfl

theorem erased_refl {α : Type} (k : Int) (z x : α) : Erased v k z x x := .inl rfl

theorem sameO_map {α : Type} {R : α → α → Prop} {f : α → α} (h : ∀ a, R (f a) a) (o : Option α) :
    SameO R (o.map f) o := by
  cases o with
  | none => exact .inl ⟨rfl, rfl⟩
  | some a => exact .inr ⟨_, _, rfl, rfl, h a⟩

theorem sameO_refl {α : Type} {R : α → α → Prop} (h : ∀ a, R a a) (o : Option α) : SameO R o o := by
  have := sameO_map (f := id) h o; rwa [Option.map_id] at this

theorem sameList_refl {α : Type} {R : α → α → Prop} (h : ∀ a, R a a) (o : PSlice α) : SameList R o o := by
  have := sameList_map (f := fun a => a) (p := o) fun a _ => h a
  rwa [PSlice.map_id' fun _ _ => rfl] at this

theorem erasedO_ite {α : Type} {R : α → α → Prop} {f : α → α} (k : Int) (h : ∀ a, R (f a) a)
    (o : Option α) : ErasedO R v k (if v < k then none else o.map f) o := by
  unfold ErasedO; split
  · rename_i h; exact .inr ⟨h, rfl⟩
  · exact .inl (sameO_map h o)

theorem erasedP_ite {α : Type} {R : α → α → Prop} {f : α → α} (k : Int) (h : ∀ a, R (f a) a)
    (o : PSlice α) : ErasedP R v k (if v < k then .nil else o.map f) o := by
  unfold ErasedP; split
  · rename_i h; exact .inr ⟨h, rfl⟩
  · exact .inl (sameList_map fun a _ => h a)

theorem enum_ite {t : List (String × Int)} {p : Bool} {s d : String} {Q : Prop}
    (h : Known t v s → p = true ∨ Q) :
    (if p = true then s else d) = s ∨ ((if p = true then s else d) = d ∧ (¬ Known t v s ∨ Q)) := by
  cases p with
  | true => exact .inl rfl
  | false =>
    refine .inr ⟨rfl, ?_⟩
    by_cases hk : Known t v s
    · rcases h hk with h | h
      · cases h
      · exact .inr h
    · exact .inl hk

theorem enum_ite' {t : List (String × Int)} {p : Bool} {s d : String} (h : Known t v s → p = true) :
    (if p = true then s else d) = s ∨ ((if p = true then s else d) = d ∧ ¬ Known t v s) := by
  rcases enum_ite (d := d) (Q := False) fun hk => .inl (h hk) with h | ⟨h1, h2⟩
  · exact .inl h
  · exact .inr ⟨h1, h2.resolve_right id⟩

theorem all2_map {α β γ : Type} {R : α → β → Prop} {f : γ → α} {g : γ → β} {xs : List γ}
    (h : ∀ x ∈ xs, R (f x) (g x)) : All2 R (xs.map f) (xs.map g) := by
  induction xs with
  | nil => exact .nil
  | cons x xs ih =>
    exact .cons (h x (by simp)) (ih fun y hy => h y (by simp [hy]))

theorem all2_map_left {α β : Type} {R : α → β → Prop} {f : β → α} {xs : List β}
    (h : ∀ x ∈ xs, R (f x) x) : All2 R (xs.map f) xs := by
  have := all2_map (g := fun x => x) h
  rwa [List.map_id'] at this

/-! ## Leaves -/

theorem keeps_contact (c : OrganizationalContact) :
    KeepsOrganizationalContact v (convertOrganizationalContact v c) c := by
  constructor <;> simp only [convertOrganizationalContact, apply_ite OrganizationalContact.bomRef,
    apply_ite OrganizationalContact.name, apply_ite OrganizationalContact.email,
    apply_ite OrganizationalContact.phone, ite_self]
  exact erased_ite _ _ _

theorem keeps_contact_refl (c : OrganizationalContact) : KeepsOrganizationalContact v c c := by
  constructor <;> first | rfl | exact erased_refl _ _ _

theorem keeps_entity (o : OrganizationalEntity) :
    KeepsOrganizationalEntity v (convertOrganizationalEntity v o) o := by
  constructor <;> simp only [convertOrganizationalEntity_bomRef, convertOrganizationalEntity_name,
    convertOrganizationalEntity_address, convertOrganizationalEntity_url,
    convertOrganizationalEntity_contact]
  · exact erased_ite _ _ _
  · exact erased_ite _ _ _
  · split
    · exact sameList_map fun c _ => keeps_contact c
    · exact sameList_refl keeps_contact_refl _

theorem keeps_entity_refl (o : OrganizationalEntity) : KeepsOrganizationalEntity v o o := by
  constructor <;> first | rfl | exact erased_refl _ _ _ | exact sameList_refl keeps_contact_refl _

theorem reference_known (s : String) (hk : Known externalReferenceTypeSince v s) :
    supportsExternalReferenceType v s = true := by
  rw [supportsExternalReferenceType_since]
  obtain ⟨k, hm, hk⟩ := hk
  have := (by decide +kernel : ∀ e ∈ externalReferenceTypeSince,
    (sinceExternalReferenceType e.1).any (fun j => decide (j ≤ e.2)) = true) _ hm
  cases hs : sinceExternalReferenceType s with
  | none => simp [hs] at this
  | some j =>
    simp [hs] at this
    exact ⟨j, rfl, Int.le_trans this hk⟩

theorem keeps_reference (r : ExternalReference) :
    KeepsExternalReference v (convertExternalReference v r) r := by
  constructor <;> simp only [convertExternalReference_url, convertExternalReference_comment,
    convertExternalReference_hashes, convertExternalReference_type, convertExternalReference_properties]
  · exact erased_ite _ _ _
  · exact enum_ite' (reference_known r.type)
  · exact erased_ite _ _ _

theorem keeps_reference_refl (r : ExternalReference) : KeepsExternalReference v r r := by
  constructor <;> first | rfl | exact erased_refl _ _ _ | exact .inl rfl

theorem keeps_references (rs : PSlice ExternalReference) :
    SameList (KeepsExternalReference v) (convertExternalReferences v rs) rs :=
  sameList_map fun r _ => keeps_reference r

theorem keeps_composition (c : Composition) : KeepsComposition v (convertComposition v c) c := by
  constructor <;> simp only [convertComposition_bomRef, convertComposition_aggregate,
    convertComposition_assemblies, convertComposition_dependencies, convertComposition_vulnerabilities,
    convertComposition_signature]
  · exact erased_ite _ _ _
  · exact enum_ite' fun hk => (supportsCompositionAggregate_schema v _
      (by obtain ⟨k, hm, -⟩ := hk; exact List.mem_map.2 ⟨_, hm, rfl⟩)).2 hk
  · exact erased_ite _ _ _

theorem keeps_hashes (hs : PSlice Hash) : HashesKept v (convertHashes v hs) hs :=
  ⟨(convert_hashes_presence v hs).symm, fun x => supportsHashAlgorithm v x.algorithm,
    fun _ => supportsHashAlgorithm_schema v _, hashes_elems v hs⟩

/-! ## Licenses -/

theorem keeps_party (p : OrganizationalEntityOrContact) :
    KeepsOrganizationalEntityOrContact v (convertParty v p) p :=
  ⟨sameO_map keeps_entity _, rfl⟩

theorem keeps_party_refl (p : OrganizationalEntityOrContact) :
    KeepsOrganizationalEntityOrContact v p p :=
  ⟨sameO_refl keeps_entity_refl _, rfl⟩

theorem keeps_licensing (l : Licensing) : KeepsLicensing v (convertLicensing v l) l := by
  constructor <;> first | rfl | exact sameO_map keeps_party _

theorem keeps_licensing_refl (l : Licensing) : KeepsLicensing v l l := by
  constructor <;> first | rfl | exact sameO_refl keeps_party_refl _

theorem keeps_license (l : License) : KeepsLicense v (licenseOf v l) l := by
  constructor <;> simp only [licenseOf] <;> first | rfl | exact erased_ite _ _ _ | exact erased_refl _ _ _ | skip
  unfold ErasedO
  split
  · rename_i h; exact .inr ⟨h, rfl⟩
  · split
    · exact .inl (sameO_map keeps_licensing _)
    · exact .inl (sameO_refl keeps_licensing_refl _)

theorem keeps_license_refl (l : License) : KeepsLicense v l l := by
  constructor <;> first | rfl | exact erased_refl _ _ _ | exact .inl (sameO_refl keeps_licensing_refl _)

theorem keeps_choice (c : LicenseChoice) : KeepsLicenseChoice v (licenseChoice v c) c := by
  rw [licenseChoice_eq]
  constructor <;> simp only <;>
    first | rfl | exact erased_ite _ _ _ | exact erased_refl _ _ _ | exact sameO_map keeps_license _

theorem keeps_choice_refl (c : LicenseChoice) : KeepsLicenseChoice v c c := by
  constructor <;> first | rfl | exact erased_refl _ _ _ | exact sameO_refl keeps_license_refl _

theorem keeps_choice1_0 (hv : v < SpecVersion1_1) (c : LicenseChoice) (l : License) (hl : c.license = some l)
    (hn : ¬ (l.id = "" ∧ l.name = "")) :
    KeepsLicenseChoice v (licenseChoice v (convertLicense1_0 c)) c := by
  have h5 : v < SpecVersion1_5 := by simp only [SpecVersion1_1, SpecVersion1_5] at *; omega
  rw [licenseChoice_eq]
  simp only [convertLicense1_0, hl, if_neg hn]
  constructor <;> simp only [Option.map_some] <;>
    first | rfl | exact erased_ite _ _ _ | exact erased_refl _ _ _ | exact .inr ⟨hv, rfl⟩ | skip
  rw [hl]
  refine .inr ⟨_, _, rfl, rfl, ?_⟩
  constructor <;> simp only [licenseOf] <;>
    first | rfl | exact erased_ite _ _ _ | exact erased_refl _ _ _ | exact .inr ⟨hv, rfl⟩ | skip
  rw [if_pos h5]; exact .inr ⟨h5, rfl⟩

theorem keeps_licenses (ls : PSlice LicenseChoice) : LicensesKept v (convertLicenses v ls) ls := by
  refine ⟨?_, fun hv => ?_, fun hv => ?_⟩
  · rw [convertLicenses_eq]
    constructor
    · rintro rfl; split <;> rfl
    · intro h
      by_cases hn : ls = .nil
      · exact hn
      · split at h
        · rw [convertLicenses1_0_of_ne hn] at h
          generalize hg : storeOrNil _ = g at h
          cases g with
          | nil => exact absurd hg (storeOrNil_ne_nil _)
          | nilSlice => cases h
          | list xs => cases h
        · cases ls with
          | nil => rfl
          | nilSlice => cases h
          | list xs => cases h
  · rw [convertLicenses_eq, if_neg (by omega)]
    exact sameList_map fun c _ => keeps_choice c
  · refine ⟨fun c => (convertLicense1_0 c).license.isSome, fun c => ?_, ?_⟩
    · simp only [convertLicense1_0]
      cases hl : c.license with
      | none => simp [hl]
      | some l =>
        by_cases hz : l.id = "" ∧ l.name = ""
        · simp [hz]
        · have : l.id ≠ "" ∨ l.name ≠ "" := Classical.not_and_iff_not_or_not.1 hz
          simp [hz, this]
    · rw [convertLicenses_eq, if_pos hv, PSlice.elems_map]
      by_cases hn : ls = .nil
      · subst hn; exact .nil
      rw [convertLicenses1_0_of_ne hn, storeOrNil_elems, List.filter_map, List.map_map]
      refine all2_map_left fun c hc => ?_
      have := (List.mem_filter.1 hc).2
      simp only [Function.comp, convertLicense1_0] at this
      cases hl : c.license with
      | none => simp [hl] at this
      | some l =>
        by_cases hz : l.id = "" ∧ l.name = ""
        · simp [hl, hz] at this
        · exact keeps_choice1_0 hv c l hl hz

theorem keeps_licenses_refl (hv : SpecVersion1_1 ≤ v) (ls : PSlice LicenseChoice) : LicensesKept v ls ls :=
  ⟨Iff.rfl, fun _ => sameList_refl keeps_choice_refl _, fun h => absurd h (by omega)⟩

/-! ## Components -/

theorem keeps_occurrence (hv : v < SpecVersion1_6) (o : EvidenceOccurrence) :
    KeepsEvidenceOccurrence v (clearOccurrence o) o := by
  constructor <;> first | rfl | exact .inr ⟨hv, rfl⟩

theorem keeps_occurrence_refl (o : EvidenceOccurrence) : KeepsEvidenceOccurrence v o o := by
  constructor <;> first | rfl | exact .inl rfl

theorem identityList_first (i : Option EvidenceIdentityChoice) :
    identityList (clearConcludedValue (firstIdentity i)) =
      ((identityList i).take 1).map fun i => { i with concludedValue := "" } := by
  cases i with
  | none => rfl
  | some ch =>
    cases hi : ch.identities with
    | nil =>
      simp only [identityList, firstIdentity, hi, clearConcludedValue, Option.map_some]
      cases ch.identity <;> rfl
    | nilSlice => simp [firstIdentity, clearConcludedValue, identityList, hi, PSlice.elems, PSlice.isNil]
    | list xs =>
      cases xs with
      | nil => simp [firstIdentity, clearConcludedValue, identityList, hi, PSlice.elems, PSlice.isNil]
      | cons x xs => simp [firstIdentity, clearConcludedValue, identityList, hi, PSlice.elems, PSlice.isNil]

theorem sub_nil {α β : Type} {R : α → β → Prop} (ys : List β) : Sub R [] ys := by
  induction ys with
  | nil => exact .nil
  | cons y ys ih => exact .skip ih

theorem sub_refl {α : Type} {R : α → α → Prop} (h : ∀ a, R a a) (ys : List α) : Sub R ys ys := by
  induction ys with
  | nil => exact .nil
  | cons y ys ih => exact .keep (h y) ih

theorem keeps_evidence (o : Option Evidence) : ErasedO (KeepsEvidence v) v SpecVersion1_3 (convertEvidence v o) o := by
  cases o with
  | none => exact .inl (.inl ⟨rfl, rfl⟩)
  | some e =>
    by_cases h3 : v < SpecVersion1_3
    · exact .inr ⟨h3, by simp [convertEvidence, h3]⟩
    refine .inl (.inr ⟨
      if v < SpecVersion1_5 then { e with identity := none, occurrences := .nil, callstack := none }
      else if v < SpecVersion1_6 then
        { e with identity := clearConcludedValue (firstIdentity e.identity),
                 occurrences := e.occurrences.map clearOccurrence, licenses := convertLicenses v e.licenses }
      else { e with licenses := convertLicenses v e.licenses }, e, ?_, rfl, ?_⟩)
    · simp only [convertEvidence, if_neg h3]
      split
      · rfl
      · split <;> rfl
    by_cases h5 : v < SpecVersion1_5
    · simp only [if_pos h5]
      constructor
      · exact ⟨fun h => by vomega, fun _ => sub_nil _, fun h => by vomega⟩
      · exact .inr ⟨h5, rfl⟩
      · exact .inr ⟨h5, rfl⟩
      · exact keeps_licenses_refl (Int.le_trans (by decide) (Int.not_lt.1 h3)) _
      · rfl
    · simp only [if_neg h5]
      by_cases h6 : v < SpecVersion1_6
      · simp only [if_pos h6]
        constructor
        · refine ⟨fun h => by vomega, fun _ => ?_, fun _ => ?_⟩
          · simp only [identityList_first]
            cases identityList e.identity with
            | nil => exact .nil
            | cons x xs =>
              refine .keep ?_ (sub_nil _)
              constructor <;> first | rfl | exact .inr ⟨h6, rfl⟩
          · simp only [identityList_first]
            cases identityList e.identity <;> simp
        · exact .inl (sameList_map fun o _ => keeps_occurrence h6 o)
        · exact .inl rfl
        · exact keeps_licenses _
        · rfl
      · simp only [if_neg h6]
        constructor
        · exact ⟨fun _ => rfl, fun h => absurd h h6, fun _ h => h⟩
        · exact .inl (sameList_refl keeps_occurrence_refl _)
        · exact .inl rfl
        · exact keeps_licenses _
        · rfl

theorem keeps_modelCard (o : Option MLModelCard) : SameO (KeepsMLModelCard v) (convertModelCard v o) o := by
  refine sameO_map (fun m => ?_) o
  by_cases h6 : v < SpecVersion1_6
  · simp only [if_pos h6]
    constructor <;> first | rfl | skip
    refine sameO_map (fun c => ?_) _
    constructor <;> first | rfl | exact .inr ⟨h6, rfl⟩
  · simp only [if_neg h6]
    constructor <;> first | rfl | skip
    refine sameO_refl (fun c => ?_) _
    constructor <;> first | rfl | exact .inl rfl

theorem keeps_algorithm (p : CryptoAlgorithmProperties) :
    KeepsCryptoAlgorithmProperties v (convertAlgorithmProperties v p) p := by
  constructor <;> simp only [convertAlgorithmProperties_primitive, convertAlgorithmProperties_parameterSetIdentifier, convertAlgorithmProperties_algorithmFamily, convertAlgorithmProperties_curve, convertAlgorithmProperties_ellipticCurve, convertAlgorithmProperties_executionEnvironment, convertAlgorithmProperties_implementationPlatform, convertAlgorithmProperties_certificationLevel, convertAlgorithmProperties_mode, convertAlgorithmProperties_padding, convertAlgorithmProperties_cryptoFunctions, convertAlgorithmProperties_classicalSecurityLevel, convertAlgorithmProperties_nistQuantumSecurityLevel] <;> first | exact erased_ite _ _ _ | skip
  exact enum_ite' fun hk => (supportsCryptoPrimitive_schema v _
      (by obtain ⟨k, hm, -⟩ := hk; exact List.mem_map.2 ⟨_, hm, rfl⟩)).2 hk

theorem keeps_certificate (p : CertificateProperties) :
    KeepsCertificateProperties v (convertCertificateProperties v p) p := by
  constructor <;> simp <;> exact erased_ite _ _ _

theorem keeps_material (p : RelatedCryptoMaterialProperties) :
    KeepsRelatedCryptoMaterialProperties v (convertRelatedCryptoMaterial v p) p := by
  constructor <;> simp <;> exact erased_ite _ _ _

theorem keeps_protocol (p : CryptoProtocolProperties) :
    KeepsCryptoProtocolProperties v (convertProtocolProperties v p) p := by
  constructor <;> simp only [convertProtocolProperties_type, convertProtocolProperties_version,
    convertProtocolProperties_cipherSuites, convertProtocolProperties_ikev2TransformTypes,
    convertProtocolProperties_cryptoRefArray, convertProtocolProperties_relatedCryptographicAssets]
  · exact enum_ite' fun hk => (supportsCryptoProtocolType_schema v _
      (by obtain ⟨k, hm, -⟩ := hk; exact List.mem_map.2 ⟨_, hm, rfl⟩)).2 hk
  · refine sameList_map fun c _ => ?_
    by_cases h7 : v < SpecVersion1_7
    · simp only [if_pos h7]; constructor <;> first | rfl | exact .inr ⟨h7, rfl⟩
    · simp only [if_neg h7]; constructor <;> first | rfl | exact .inl rfl
  · exact erased_ite _ _ _

theorem keeps_crypto (p : Option CryptoProperties) :
    SameO (KeepsCryptoProperties v) (convertCryptoProperties v p) p := by
  refine sameO_map (fun p => ?_) p
  constructor <;> first
    | rfl
    | exact sameO_map keeps_algorithm _
    | exact sameO_map keeps_certificate _
    | exact sameO_map keeps_protocol _
    | exact sameO_map keeps_material _

theorem keeps_component (g : Component → Component) (c : Component) :
    KeepsComponent v ((componentConverter v c).mapChildren g) c := by
  constructor <;> simp only [Component.mapChildren, componentConverter_bomRef, componentConverter_mimeType,
    componentConverter_type, componentConverter_supplier, componentConverter_manufacturer,
    componentConverter_author, componentConverter_authors, componentConverter_publisher,
    componentConverter_group, componentConverter_name, componentConverter_version,
    componentConverter_description, componentConverter_scope, componentConverter_hashes,
    componentConverter_licenses, componentConverter_copyright, componentConverter_cpe,
    componentConverter_packageURL, componentConverter_omniborID, componentConverter_swhid,
    componentConverter_swid, componentConverter_modified, componentConverter_pedigree,
    componentConverter_externalReferences, componentConverter_properties, componentConverter_evidence,
    componentConverter_releaseNotes, componentConverter_modelCard, componentConverter_data,
    componentConverter_cryptoProperties, componentConverter_tags, componentConverter_isExternal,
    componentConverter_patentAssertions, componentConverter_versionRange, componentConverter_signature]
  all_goals first | exact erased_ite _ _ _ | skip
  · refine enum_ite fun hk => ?_
    by_cases hs : c.type = "cryptographic-asset"
    · exact .inr hs
    · exact .inl ((supportsComponentType_schema_partial v _ hs).2 hk)
  · split
    · rename_i h; split
      · rename_i h2; exact .inr ⟨h, h2, rfl⟩
      · exact .inl rfl
    · exact .inl rfl
  · refine enum_ite fun hk => ?_
    by_cases hs : c.scope = "excluded"
    · by_cases hv : v < SpecVersion1_2
      · exact .inr ⟨hs, hv⟩
      · left
        rw [hs, supportsScope_since]
        exact ⟨SpecVersion1_2, by decide, by omega⟩
    · exact .inl ((supportsScope_schema_partial v _ hs).2 hk)
  · exact keeps_hashes _
  · exact keeps_licenses _
  · split
    · rename_i h
      cases c.modified with
      | none => exact .inr ⟨h, rfl, rfl⟩
      | some m => exact .inl rfl
    · exact .inl rfl
  · split
    · rename_i h; exact .inr ⟨h, rfl⟩
    · split
      · rename_i h
        rw [Option.map_map]
        refine .inl (sameO_map (fun p => ?_) _)
        constructor <;> first | rfl | exact .inr ⟨h, rfl⟩
      · refine .inl (sameO_map (fun p => ?_) _)
        constructor <;> first | rfl | exact .inl rfl
  · unfold ErasedP; split
    · rename_i h; exact .inr ⟨h, rfl⟩
    · exact .inl (keeps_references _)
  · exact keeps_evidence _
  · unfold ErasedO; split
    · rename_i h; exact .inr ⟨h, rfl⟩
    · exact .inl (keeps_modelCard _)
  · unfold ErasedO; split
    · rename_i h; exact .inr ⟨h, rfl⟩
    · exact .inl (keeps_crypto _)

theorem walk_none (v : Int) (ss : List Step) (c : Component) (h : walk c ss = none) :
    walk (recurseComponent (componentConverter v) c) ss = none := by
  cases hw : walk (recurseComponent (componentConverter v) c) ss with
  | none => rfl
  | some d =>
    obtain ⟨e, he, -⟩ := walk_converted v ss c d hw
    rw [h] at he; cases he

theorem walk_plain (v : Int) (ss : List Step) : ∀ (c : Component), Plain ss →
    walk (recurseComponent (componentConverter v) c) ss =
      (walk c ss).map (recurseComponent (componentConverter v)) := by
  induction ss with
  | nil => intro c _; rfl
  | cons s ss ih =>
    intro c hp
    obtain ⟨i, rfl⟩ := hp s (by simp)
    have : step (recurseComponent (componentConverter v) c) (.child i) =
        (step c (.child i)).map (recurseComponent (componentConverter v)) := by
      rw [recurseComponent_go']
      simp only [step, Component.mapChildren, componentConverter_components, elems_getElem?]
    simp only [walk, this]
    cases step c (.child i) with
    | none => rfl
    | some d => exact ih d fun s hs => hp s (by simp [hs])

theorem keeps_tree (c : Component) : KeepsComponentTree v (recurseComponent (componentConverter v) c) c := by
  intro path
  refine ⟨fun d hd hp => ⟨recurseComponent (componentConverter v) d, ?_, ?_⟩, walk_none v path c⟩
  · rcases hp with hp | hv
    · rw [walk_plain v path c hp, hd]; rfl
    · rw [walk_kept v hv, hd]; rfl
  · rw [recurseComponent_go']; exact keeps_component _ d

/-! ## Services -/

theorem keeps_data (h : v < SpecVersion1_6) (d : DataClassification) : KeepsDataClassification v
    { d with name := "", description := "", governance := none, source := .nil, destination := .nil } d := by
  constructor <;> first | rfl | exact .inr ⟨h, rfl⟩

theorem keeps_data_refl (d : DataClassification) : KeepsDataClassification v d d := by
  constructor <;> first | rfl | exact .inl rfl

theorem keeps_service (g : Service → Service) (s : Service) :
    KeepsService v ((serviceConverter v s).mapChildren g) s := by
  constructor <;> simp only [Service.mapChildren, serviceConverter_bomRef, serviceConverter_provider,
    serviceConverter_group, serviceConverter_name, serviceConverter_version, serviceConverter_description,
    serviceConverter_endpoints, serviceConverter_authenticated, serviceConverter_crossesTrustBoundary,
    serviceConverter_data, serviceConverter_licenses, serviceConverter_externalReferences,
    serviceConverter_properties, serviceConverter_releaseNotes, serviceConverter_tags,
    serviceConverter_trustZone, serviceConverter_patentAssertions, serviceConverter_signature]
  all_goals first | exact erased_ite _ _ _ | skip
  · exact sameO_map keeps_entity _
  · by_cases h : v < SpecVersion1_6
    · simp only [convertDataClassifications, if_pos h]
      exact sameList_map fun d _ => keeps_data h d
    · simp only [convertDataClassifications, if_neg h]
      exact sameList_refl keeps_data_refl _
  · exact keeps_references _

theorem keeps_service_refl (s : Service) : KeepsService v s s := by
  constructor <;> first
    | rfl
    | exact .inl rfl
    | exact sameO_refl keeps_entity_refl _
    | exact sameList_refl keeps_data_refl _
    | exact sameList_refl keeps_reference_refl _

theorem walkService_kept (v : Int) (path : List Nat) : ∀ (s : Service),
    walkService (recurseService (serviceConverter v) s) path =
      (walkService s path).map (recurseService (serviceConverter v)) := by
  induction path with
  | nil => intro s; rfl
  | cons i is ih =>
    intro s
    rw [recurseService_go']
    simp only [walkService, Service.mapChildren, serviceConverter_services, elems_getElem?]
    cases s.services.elems[i]? with
    | none => rfl
    | some t => simp [ih]

theorem keeps_serviceTree (s : Service) : KeepsServiceTree v (recurseService (serviceConverter v) s) s := by
  intro path
  rw [walkService_kept]
  refine ⟨fun t ht => ⟨_, by rw [ht]; rfl, ?_⟩, fun h => by rw [h]; rfl⟩
  rw [recurseService_go']; exact keeps_service _ t

theorem keeps_serviceTree_refl (s : Service) : KeepsServiceTree v s s :=
  fun _ => ⟨fun t ht => ⟨t, ht, keeps_service_refl t⟩, id⟩

/-! ## Tools -/

theorem keeps_tool (t : Tool) : KeepsTool v (convertTool v t) t := by
  constructor <;> simp only [convertTool_vendor, convertTool_name, convertTool_version, convertTool_hashes,
    convertTool_externalReferences]
  · exact keeps_hashes _
  · unfold ErasedP; split
    · rename_i h; exact .inr ⟨h, rfl⟩
    · exact .inl (keeps_references _)

theorem keeps_tools (t : ToolsChoice) : KeepsTools v (convertTools v t) t := by
  constructor
  · intro hv
    rw [convertTools_new (by omega)]
    exact ⟨sameList_map fun t _ => keeps_tool t, rfl,
      sameList_map fun s _ => ⟨_, sameO_map keeps_entity _, rfl⟩⟩
  · intro hv
    refine ⟨by rw [convertTools_old hv], by rw [convertTools_old hv],
      t.tools.elems.map (convertTool v), (t.components.elems.map convertComponentToTool).map (convertTool v),
      (t.services.elems.map convertServiceToTool).map (convertTool v), ?_, ?_, ?_, ?_⟩
    · rw [convertTools_old_tools hv]; simp
    · exact all2_map_left fun x _ => keeps_tool x
    · rw [List.map_map]
      refine all2_map_left fun c _ => ?_
      have k := keeps_tool (v := v) (convertComponentToTool c)
      refine ⟨?_, k.name, k.version, k.hashes, k.externalReferences⟩
      rw [Function.comp, k.vendor]
      cases hs : c.supplier with
      | none => exact .inl ⟨rfl, by simp [convertComponentToTool, hs]⟩
      | some s => exact .inr ⟨s, rfl, by simp [convertComponentToTool, hs]⟩
    · rw [List.map_map]
      refine all2_map_left fun s _ => ?_
      have k := keeps_tool (v := v) (convertServiceToTool s)
      refine ⟨?_, k.name, k.version, ?_, k.externalReferences⟩
      · rw [Function.comp, k.vendor]
        cases hs : s.provider with
        | none => exact .inl ⟨rfl, by simp [convertServiceToTool, hs]⟩
        | some p => exact .inr ⟨p, rfl, by simp [convertServiceToTool, hs]⟩
      · exact (k.hashes.1.1 rfl)

/-! ## Vulnerabilities, annotations, metadata -/

theorem keeps_vulnerability (x : Vulnerability) : KeepsVulnerability v (convertVulnerability v x) x := by
  constructor <;> simp only [convertVulnerability_bomRef, convertVulnerability_id, convertVulnerability_source,
    convertVulnerability_references, convertVulnerability_ratings, convertVulnerability_cwes,
    convertVulnerability_description, convertVulnerability_detail, convertVulnerability_recommendation,
    convertVulnerability_workaround, convertVulnerability_proofOfConcept, convertVulnerability_advisories,
    convertVulnerability_created, convertVulnerability_published, convertVulnerability_updated,
    convertVulnerability_rejected, convertVulnerability_credits, convertVulnerability_tools,
    convertVulnerability_analysis, convertVulnerability_affects, convertVulnerability_properties]
  all_goals first | exact erased_ite _ _ _ | skip
  · refine sameList_map fun r _ => ?_
    unfold convertRating
    cases hs : supportsScoringMethod v r.method
    · simp only [Bool.not_false, if_true]
      constructor <;> first | rfl | skip
      refine .inr ⟨rfl, fun hk => ?_⟩
      rw [← supportsScoringMethod_schema, hs] at hk; cases hk
    · simp only [Bool.not_true, Bool.false_eq_true, if_false]
      constructor <;> first | rfl | exact .inl rfl
  · split
    · refine sameO_map (fun c => ?_) _
      exact ⟨sameList_map fun o _ => keeps_entity o, sameList_map fun o _ => keeps_contact o⟩
    · refine sameO_refl (fun c => ?_) _
      exact ⟨sameList_refl keeps_entity_refl _, sameList_refl keeps_contact_refl _⟩
  · exact sameO_map keeps_tools _
  · split
    · rename_i h
      refine sameO_map (fun c => ?_) _
      constructor <;> first | rfl | exact .inr ⟨h, rfl⟩
    · refine sameO_refl (fun c => ?_) _
      constructor <;> first | rfl | exact .inl rfl

theorem keeps_annotations (as : PSlice Annotation) :
    SameList (KeepsAnnotation v) (convertAnnotations v as) as := by
  unfold convertAnnotations
  split
  · refine sameList_map fun a _ => ?_
    constructor <;> first | rfl | skip
    refine sameO_map (fun n => ?_) _
    constructor <;> first | rfl | exact sameO_map keeps_entity _ | exact sameO_map keeps_serviceTree _
  · refine sameList_refl (fun a => ?_) _
    constructor <;> first | rfl | skip
    refine sameO_refl (fun n => ?_) _
    constructor <;> first | rfl | exact sameO_refl keeps_entity_refl _ | exact sameO_refl keeps_serviceTree_refl _

theorem keeps_metadata (m : Metadata) : KeepsMetadata v (convertMetadata v m) m := by
  constructor <;> simp only [convertMetadata_timestamp, convertMetadata_lifecycles, convertMetadata_tools,
    convertMetadata_authors, convertMetadata_component, convertMetadata_manufacture,
    convertMetadata_manufacturer, convertMetadata_supplier, convertMetadata_licenses,
    convertMetadata_properties, convertMetadata_distributionConstraints]
  all_goals first | exact erased_ite _ _ _ | skip
  · exact sameO_map keeps_tools _
  · exact sameList_map fun c _ => keeps_contact c
  · exact sameO_map keeps_tree _
  · exact sameO_map keeps_entity _
  · exact sameO_map keeps_entity _
  · split
    · rename_i h; exact .inr ⟨h, rfl⟩
    · exact .inl (keeps_licenses _)

/-- **C21** and **C46**: the converted document holds nothing that is not in the original, apart from the
documented defaults, and keeps everything of the original that version `v` has. -/
theorem convert_keeps (v : Int) (b : BOM) : KeepsBOM v (convert v b) b := by
  constructor <;> simp only [convert_xmlName, convert_bomFormat, convert_serialNumber, convert_version,
    convert_metadata, convert_components, convert_services, convert_externalReferences,
    convert_dependencies, convert_compositions, convert_properties, convert_vulnerabilities,
    convert_annotations, convert_formulation, convert_declarations, convert_definitions, convert_citations,
    convert_signature]
  all_goals first | exact erased_ite _ _ _ | skip
  · exact erasedO_ite _ keeps_metadata _
  · exact sameList_map fun c _ => keeps_tree c
  · exact erasedP_ite _ keeps_serviceTree _
  · exact erasedP_ite _ keeps_reference _
  · unfold ErasedP
    split
    · rename_i h; exact .inr ⟨h, rfl⟩
    · split
      · rename_i h
        refine .inl (sameList_map fun d _ => ?_)
        constructor <;> first | rfl | exact .inr ⟨h, rfl⟩
      · refine .inl (sameList_refl (fun d => ?_) _)
        constructor <;> first | rfl | exact .inl rfl
  · exact erasedP_ite _ keeps_composition _
  · exact erasedP_ite _ keeps_vulnerability _
  · unfold ErasedP
    split
    · rename_i h; exact .inr ⟨h, rfl⟩
    · exact .inl (keeps_annotations _)
  · unfold ErasedO
    split
    · rename_i h; exact .inr ⟨h, rfl⟩
    · split
      · rename_i h
        refine .inl (sameO_map (fun d => ?_) _)
        constructor <;> first | rfl | exact .inr ⟨h, rfl⟩
      · refine .inl (sameO_refl (fun d => ?_) _)
        constructor <;> first | rfl | exact .inl rfl

/-- The theorem has no hypotheses; what it says, for instance, of a nested component at 1.2: name, CPE and
author are kept. -/
example : ∃ c, walk (recurseComponent (componentConverter SpecVersion1_2)
      { name := "a", components := .list [{ name := "b", author := "x", cpe := "y" }] }) [.child 0] = some c ∧
    c.name = "b" ∧ c.cpe = "y" ∧ c.author = "x" := by
  obtain ⟨c, hc, hk⟩ := (keeps_tree (v := SpecVersion1_2)
    { name := "a", components := .list [{ name := "b", author := "x", cpe := "y" }] } [.child 0]).1 _ rfl
    (.inr (by decide))
  refine ⟨c, hc, hk.name, hk.cpe, ?_⟩
  rcases hk.author with h | h
  · exact h
  · exact absurd h.1 (by decide)

end Verif.Props
