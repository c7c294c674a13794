import Verif.Spec.JsonListedConverted
import Verif.Json.EnumLaws
import Verif.Proofs.FitsConverted

/-! Helper lemmas: `ListedConverted` is `Listed` of the converted BOM; no property statements here. -/

namespace Verif

set_option linter.unusedSimpArgs false
set_option linter.unusedSectionVars false

open Spec

namespace ListedConverted

open FitsConverted

variable {v : Int}

/-! ### The strings -/

theorem lists_iff {p : Place} {k : String} {gs : List (Int × List String)} (h : p.enums.lookup k = some gs)
    (s : String) : p.Lists v k s ↔ ∃ g ∈ gs, g.1 ≤ v ∧ s ∈ g.2 := by
  unfold Place.Lists
  rw [h]
  exact ⟨fun h => h _ rfl, fun h gs hg => Option.some.inj hg ▸ h⟩

/-- The enumerations of the latest version are the longest. -/
theorem lists_latest {p : Place} {k : String} {gs : List (Int × List String)} (h : p.enums.lookup k = some gs)
    (hg : ∀ g ∈ gs, g.1 ≤ SpecVersion1_7) {s : String} (hs : p.Lists v k s) : p.Lists SpecVersion1_7 k s := by
  rw [lists_iff h] at hs ⊢
  obtain ⟨g, hm, -, hs⟩ := hs
  exact ⟨g, hm, hg g hm, hs⟩

/-- Values of the tables of `Spec.Schema`, which are read from the XML schemas, are enumerated in JSON as well. -/
theorem lists_of_known {p : Place} {k : String} {gs : List (Int × List String)} (h : p.enums.lookup k = some gs)
    {table : List (String × Int)} (ht : ∀ e ∈ table, ∃ g ∈ gs, (g.1 ≤ e.2 ∨ g.1 ≤ SpecVersion1_2) ∧ e.1 ∈ g.2)
    (hv : SpecVersion1_2 ≤ v) {s : String} (hs : Known table v s) : p.Lists v k s := by
  rw [lists_iff h]
  obtain ⟨n, hm, hn⟩ := hs
  obtain ⟨g, hg, hl, hs⟩ := ht _ hm
  refine ⟨g, hg, ?_, hs⟩
  rcases hl with hl | hl <;> omega

theorem mem_of_lists {p : Place} {k : String} {gs : List (Int × List String)} (h : p.enums.lookup k = some gs)
    {table : List (String × Int)} (ht : ∀ g ∈ gs, ∀ s ∈ g.2, s ∈ table.map Prod.fst)
    {s : String} (hs : p.Lists v k s) : s ∈ table.map Prod.fst := by
  obtain ⟨g, hg, -, hs⟩ := (lists_iff h s).1 hs
  exact ht g hg s hs

theorem componentType (hv : SpecVersion1_2 ≤ v) (s : String) :
    Place.Lists v .component "type" (if supportsComponentType v s then s else ComponentTypeApplication) := by
  split_ifs with h
  · exact lists_of_known rfl (by decide +kernel) hv (Props.supportsComponentType_known v s h)
  · exact (lists_iff rfl _).2 ⟨_, List.mem_cons_self, by simp only [SpecVersion1_0, SpecVersion1_2] at *; omega, by decide⟩

theorem scope (hv : SpecVersion1_2 ≤ v) (s : String) (h : (if supportsScope v s then s else "") ≠ "") :
    Place.Lists v .component "scope" (if supportsScope v s then s else "") := by
  split_ifs at h ⊢ with h'
  · exact lists_of_known rfl (by decide +kernel) hv (Props.supportsScope_known v s h')
  · exact absurd rfl h

theorem hash (hv : SpecVersion1_2 ≤ v) (s : String) (h : supportsHashAlgorithm v s) :
    Place.Lists v .hash "alg" s :=
  lists_of_known rfl (by decide +kernel) hv ((Props.supportsHashAlgorithm_schema v s).1 h)

theorem method (hv : SpecVersion1_2 ≤ v) (s : String) :
    Place.Lists v .rating "method" (if supportsScoringMethod v s then s else ScoringMethodOther) := by
  split_ifs with h
  · exact lists_of_known rfl (by decide +kernel) hv ((Props.supportsScoringMethod_schema v s).1 h)
  · exact (lists_iff rfl _).2 ⟨_, List.mem_cons_self, by simp only [SpecVersion1_0, SpecVersion1_2] at *; omega, by decide⟩

/-- What no schema enumerates is supported by the code. -/
theorem aggregate_unknown (hv : SpecVersion1_3 ≤ v) (s : String) (h : s ∉ aggregateSince.map Prod.fst) :
    supportsCompositionAggregate v s := by
  rw [supportsCompositionAggregate_since]
  refine ⟨_, ?_, hv⟩
  unfold sinceCompositionAggregate
  rw [if_neg fun hm => h ((by decide +kernel : ∀ t ∈ _, t ∈ aggregateSince.map Prod.fst) s hm)]

theorem primitive_unknown (hv : SpecVersion1_6 ≤ v) (s : String) (h : s ∉ cryptoPrimitiveSince.map Prod.fst) :
    supportsCryptoPrimitive v s := by
  rw [supportsCryptoPrimitive_since]
  refine ⟨_, ?_, hv⟩
  unfold sinceCryptoPrimitive
  rw [if_neg fun hm => h ((by decide +kernel : ∀ t ∈ _, t ∈ cryptoPrimitiveSince.map Prod.fst) s hm)]

theorem protocol_unknown (hv : SpecVersion1_6 ≤ v) (s : String) (h : s ∉ protocolTypeSince.map Prod.fst) :
    supportsCryptoProtocolType v s := by
  rw [supportsCryptoProtocolType_since]
  refine ⟨_, ?_, hv⟩
  unfold sinceCryptoProtocolType
  rw [if_neg fun hm => h ((by decide +kernel : ∀ t ∈ _, t ∈ protocolTypeSince.map Prod.fst) s hm)]

theorem reference_unknown (hv : SpecVersion1_2 ≤ v) (s : String)
    (h : s ∉ externalReferenceTypeSince.map Prod.fst ∨ s ∈ lateReferenceTypes) : supportsExternalReferenceType v s := by
  rw [supportsExternalReferenceType_since]
  refine ⟨SpecVersion1_1, ?_, by simp only [SpecVersion1_1, SpecVersion1_2] at *; omega⟩
  rcases h with h | h
  · unfold sinceExternalReferenceType
    repeat rw [if_neg fun hm => h ((by decide +kernel : ∀ t ∈ _, t ∈ externalReferenceTypeSince.map Prod.fst) s hm)]
  · exact (by decide +kernel : ∀ s ∈ lateReferenceTypes, sinceExternalReferenceType s = some SpecVersion1_1) s h

theorem aggregate (hv : SpecVersion1_3 ≤ v) (s : String) :
    Place.Lists v .compositions "aggregate" (if supportsCompositionAggregate v s then s else CompositionAggregateUnknown) ↔
      Place.Lists SpecVersion1_7 .compositions "aggregate" s := by
  have h2 : SpecVersion1_2 ≤ v := by simp only [SpecVersion1_2, SpecVersion1_3] at *; omega
  constructor
  · intro h
    split_ifs at h with hs
    · exact lists_latest rfl (by decide) h
    · by_cases hm : s ∈ aggregateSince.map Prod.fst
      · obtain ⟨⟨t, n⟩, ht, rfl⟩ := List.mem_map.1 hm
        exact lists_of_known rfl (by decide +kernel) (by decide) ⟨n, ht, (by decide +kernel : ∀ e ∈ aggregateSince, e.2 ≤ SpecVersion1_7) _ ht⟩
      · exact absurd (aggregate_unknown hv s hm) hs
  · intro h
    split_ifs with hs
    · exact lists_of_known rfl (by decide +kernel) h2
        ((Props.supportsCompositionAggregate_schema v s (mem_of_lists rfl (by decide +kernel) h)).1 hs)
    · exact (lists_iff rfl _).2 ⟨_, List.mem_cons_self, by simp only [SpecVersion1_0, SpecVersion1_2] at *; omega, by decide⟩

theorem primitive (hv : SpecVersion1_6 ≤ v) (s : String) :
    ((if supportsCryptoPrimitive v s then s else "") ≠ "" →
      Place.Lists v .algorithmProperties "primitive" (if supportsCryptoPrimitive v s then s else "")) ↔
    (s ≠ "" → Place.Lists SpecVersion1_7 .algorithmProperties "primitive" s) := by
  have h2 : SpecVersion1_2 ≤ v := by simp only [SpecVersion1_2, SpecVersion1_6] at *; omega
  constructor
  · intro h hne
    split_ifs at h with hs
    · exact lists_latest rfl (by decide) (h hne)
    · by_cases hm : s ∈ cryptoPrimitiveSince.map Prod.fst
      · obtain ⟨⟨t, n⟩, ht, rfl⟩ := List.mem_map.1 hm
        exact lists_of_known rfl (by decide +kernel) (by decide) ⟨n, ht, (by decide +kernel : ∀ e ∈ cryptoPrimitiveSince, e.2 ≤ SpecVersion1_7) _ ht⟩
      · exact absurd (primitive_unknown hv s hm) hs
  · intro h hne
    split_ifs at hne ⊢ with hs
    · exact lists_of_known rfl (by decide +kernel) h2
        ((Props.supportsCryptoPrimitive_schema v s (mem_of_lists rfl (by decide +kernel) (h hne))).1 hs)
    · exact absurd rfl hne

theorem protocolType (hv : SpecVersion1_6 ≤ v) (s : String) :
    ((if supportsCryptoProtocolType v s then s else "") ≠ "" →
      Place.Lists v .protocolProperties "type" (if supportsCryptoProtocolType v s then s else "")) ↔
    (s ≠ "" → Place.Lists SpecVersion1_7 .protocolProperties "type" s) := by
  have h2 : SpecVersion1_2 ≤ v := by simp only [SpecVersion1_2, SpecVersion1_6] at *; omega
  constructor
  · intro h hne
    split_ifs at h with hs
    · exact lists_latest rfl (by decide) (h hne)
    · by_cases hm : s ∈ protocolTypeSince.map Prod.fst
      · obtain ⟨⟨t, n⟩, ht, rfl⟩ := List.mem_map.1 hm
        exact lists_of_known rfl (by decide +kernel) (by decide) ⟨n, ht, (by decide +kernel : ∀ e ∈ protocolTypeSince, e.2 ≤ SpecVersion1_7) _ ht⟩
      · exact absurd (protocol_unknown hv s hm) hs
  · intro h hne
    split_ifs at hne ⊢ with hs
    · exact lists_of_known rfl (by decide +kernel) h2
        ((Props.supportsCryptoProtocolType_schema v s (mem_of_lists rfl (by decide +kernel) (h hne))).1 hs)
    · exact absurd rfl hne

theorem referenceType (hv : SpecVersion1_2 ≤ v) (s : String) :
    Place.Lists v .externalReference "type" (if supportsExternalReferenceType v s then s else ERTypeOther) ↔
      Place.Lists SpecVersion1_7 .externalReference "type" s ∧
      (s ∈ lateReferenceTypes → Place.Lists v .externalReference "type" s) := by
  constructor
  · intro h
    split_ifs at h with hs
    · exact ⟨lists_latest rfl (by decide) h, fun _ => h⟩
    · refine ⟨?_, fun hm => absurd (reference_unknown hv s (.inr hm)) hs⟩
      by_cases hm : s ∈ externalReferenceTypeSince.map Prod.fst
      · obtain ⟨⟨t, n⟩, ht, rfl⟩ := List.mem_map.1 hm
        exact lists_of_known rfl (by decide +kernel) (by decide) ⟨n, ht, (by decide +kernel : ∀ e ∈ externalReferenceTypeSince, e.2 ≤ SpecVersion1_7) _ ht⟩
      · exact absurd (reference_unknown hv s (.inl hm)) hs
  · rintro ⟨h, hl⟩
    by_cases hm : s ∈ lateReferenceTypes
    · rw [if_pos (reference_unknown hv s (.inr hm))]
      exact hl hm
    split_ifs with hs
    · exact lists_of_known rfl (by decide +kernel) hv
        ((Props.supportsExternalReferenceType_schema_partial v s (mem_of_lists rfl (by decide +kernel) h) hm).1 hs)
    · exact (lists_iff rfl _).2 ⟨_, List.mem_cons_self, by simp only [SpecVersion1_0, SpecVersion1_2] at *; omega, by decide⟩

/-! ### The parts of components -/

theorem extref (hv : SpecVersion1_2 ≤ v) (x : ExternalReference) :
    (convertExternalReference v x).Listed v ↔ ExternalReference.ListedConverted v x := by
  have e : (convertExternalReference v x).type = if supportsExternalReferenceType v x.type then x.type else ERTypeOther := by
    unfold convertExternalReference
    split_ifs <;> simp_all
  unfold ExternalReference.Listed
  rw [e, referenceType hv, convertExternalReference_hashes]
  versions hv using [ExternalReference.ListedConverted]
  all_goals regroup

theorem licenseOf_listed (hv : SpecVersion1_2 ≤ v) (x : License) :
    (licenseOf v x).Listed v ↔ License.ListedConverted v x := by
  versions hv using [License.Listed, licenseOf, License.ListedConverted, convertLicensing, Licensing.Listed]

theorem license (hv : SpecVersion1_2 ≤ v) (x : LicenseChoice) :
    (licenseChoice v x).Listed v ↔ LicenseChoice.ListedConverted v x := by
  versions hv using [LicenseChoice.Listed, licenseChoice_eq, licenseOf_listed hv, LicenseChoice.ListedConverted]

theorem licenses (hv : SpecVersion1_2 ≤ v) (p : PSlice LicenseChoice) :
    (∀ l ∈ (convertLicenses v p).elems, LicenseChoice.Listed v l) ↔
      ∀ l ∈ p.elems, LicenseChoice.ListedConverted v l := by
  versions hv using [convertLicenses_eq, license hv]

theorem hashes (hv : SpecVersion1_2 ≤ v) (p : PSlice Hash) : ∀ h ∈ (convertHashes v p).elems, Hash.Listed v h := by
  intro h hm
  have : supportsHashAlgorithm v h.algorithm := by
    unfold convertHashes storeOrNil at hm
    cases p with
    | nil => simp [PSlice.elems] at hm
    | nilSlice => simp [PSlice.elems] at hm
    | list xs =>
      simp only at hm
      split_ifs at hm
      · simp [PSlice.elems] at hm
      · exact (List.mem_filter.1 hm).2
  exact hash hv _ this

theorem identity (x : EvidenceIdentity) : EvidenceIdentity.Listed v { x with concludedValue := "" } ↔ EvidenceIdentity.Listed v x :=
  Iff.rfl

theorem firstIdentity_listed (h6 : v < SpecVersion1_6) (o : Option EvidenceIdentityChoice) :
    (∀ y ∈ clearConcludedValue (firstIdentity o), EvidenceIdentityChoice.Listed v y) ↔
      ∀ ch ∈ o, EvidenceIdentityChoice.ListedConverted v ch := by
  have h6' : ¬ SpecVersion1_6 ≤ v := by omega
  cases o with
  | none => simp [clearConcludedValue, firstIdentity]
  | some ch =>
    obtain ⟨i, is⟩ := ch
    match is with
    | .nil => cases i <;> simp [clearConcludedValue, firstIdentity, EvidenceIdentityChoice.Listed, EvidenceIdentityChoice.ListedConverted, PSlice.elems, identity, h6, h6']
    | .nilSlice => cases i <;> simp [clearConcludedValue, firstIdentity, EvidenceIdentityChoice.Listed, EvidenceIdentityChoice.ListedConverted, PSlice.elems, identity, h6, h6']
    | .list [] => cases i <;> simp [clearConcludedValue, firstIdentity, EvidenceIdentityChoice.Listed, EvidenceIdentityChoice.ListedConverted, PSlice.elems, identity, h6, h6']
    | .list (x :: xs) => cases i <;> simp [clearConcludedValue, firstIdentity, EvidenceIdentityChoice.Listed, EvidenceIdentityChoice.ListedConverted, PSlice.elems, identity, h6, h6']

theorem identities (h6 : SpecVersion1_6 ≤ v) (ch : EvidenceIdentityChoice) :
    EvidenceIdentityChoice.ListedConverted v ch ↔ EvidenceIdentityChoice.Listed v ch := by
  have h6' : ¬ v < SpecVersion1_6 := by omega
  simp [EvidenceIdentityChoice.ListedConverted, h6, h6']

theorem evidence (hv : SpecVersion1_2 ≤ v) (o : Option Evidence) :
    (∀ y ∈ convertEvidence v o, Evidence.Listed v y) ↔ ∀ e ∈ o, Evidence.ListedConverted v e := by
  cases o with
  | none => simp [convertEvidence]
  | some e =>
    versions hv using [convertEvidence, Evidence.Listed, Evidence.ListedConverted, licenses hv, firstIdentity_listed,
      identities, Option.mem_some_iff, forall_eq', forall_eq]

theorem modelCard (h5 : SpecVersion1_5 ≤ v) (o : Option MLModelCard) :
    (∀ y ∈ convertModelCard v o, MLModelCard.Listed v y) ↔ ∀ y ∈ o, MLModelCard.ListedConverted v y := by
  have hv : SpecVersion1_2 ≤ v := by simp only [SpecVersion1_2, SpecVersion1_5] at *; omega
  versions hv using [convertModelCard, MLModelCard.Listed, MLModelCard.ListedConverted, MLModelCardConsiderations.Listed]

theorem algorithm (h6 : SpecVersion1_6 ≤ v) (x : CryptoAlgorithmProperties) :
    (convertAlgorithmProperties v x).Listed v ↔ CryptoAlgorithmProperties.ListedConverted v x := by
  unfold CryptoAlgorithmProperties.ListedConverted
  rw [← primitive h6]
  unfold convertAlgorithmProperties CryptoAlgorithmProperties.Listed
  by_cases h : v < SpecVersion1_7 <;> by_cases hs : supportsCryptoPrimitive v x.primitive <;> simp [h, hs]

theorem certificate (h6 : SpecVersion1_6 ≤ v) (x : CertificateProperties) :
    (convertCertificateProperties v x).Listed v ↔ (SpecVersion1_7 ≤ v → CertificateProperties.Listed v x) := by
  have hv : SpecVersion1_2 ≤ v := by simp only [SpecVersion1_2, SpecVersion1_6] at *; omega
  versions hv using [convertCertificateProperties, CertificateProperties.Listed]

theorem material (h6 : SpecVersion1_6 ≤ v) (x : RelatedCryptoMaterialProperties) :
    (convertRelatedCryptoMaterial v x).Listed v ↔ RelatedCryptoMaterialProperties.ListedConverted v x := by
  have hv : SpecVersion1_2 ≤ v := by simp only [SpecVersion1_2, SpecVersion1_6] at *; omega
  versions hv using [convertRelatedCryptoMaterial, RelatedCryptoMaterialProperties.Listed, RelatedCryptoMaterialProperties.ListedConverted]

theorem protocol (h6 : SpecVersion1_6 ≤ v) (x : CryptoProtocolProperties) :
    (convertProtocolProperties v x).Listed v ↔ (x.type ≠ "" → Place.Lists SpecVersion1_7 .protocolProperties "type" x.type) := by
  rw [← protocolType h6]
  unfold convertProtocolProperties CryptoProtocolProperties.Listed
  by_cases h : v < SpecVersion1_7 <;> by_cases hs : supportsCryptoProtocolType v x.type <;> simp [h, hs]

theorem crypto (h6 : SpecVersion1_6 ≤ v) (o : Option CryptoProperties) :
    (∀ y ∈ convertCryptoProperties v o, CryptoProperties.Listed v y) ↔
      ∀ y ∈ o, CryptoProperties.ListedConverted v y := by
  cases o with
  | none => simp [convertCryptoProperties]
  | some c =>
    simp only [convertCryptoProperties, CryptoProperties.Listed, CryptoProperties.ListedConverted, map_all,
      algorithm h6, certificate h6, material h6, protocol h6, Option.map_some, Option.mem_some_iff, forall_eq']
    refine and_congr_right fun _ => and_congr_right fun _ => and_congr_left fun _ => ?_
    exact ⟨fun h a b c => h b c a, fun h b c a => h a b c⟩

/-! ### Components -/

theorem component_listed (c : Component) : c.Listed v ↔
    Place.Lists v .component "type" c.type ∧
    (c.scope ≠ "" → Place.Lists v .component "scope" c.scope) ∧
    (∀ y ∈ c.hashes.elems, Hash.Listed v y) ∧
    (∀ y ∈ c.licenses.elems, LicenseChoice.Listed v y) ∧
    (∀ y ∈ c.swid, SWID.Listed v y) ∧
    (∀ p ∈ c.pedigree, (∀ d ∈ p.relatives, d.Listed v) ∧ ∀ y ∈ p.patches.elems, Patch.Listed v y) ∧
    (∀ y ∈ c.externalReferences.elems, ExternalReference.Listed v y) ∧
    (∀ d ∈ c.components.elems, d.Listed v) ∧
    (∀ y ∈ c.evidence, Evidence.Listed v y) ∧
    (∀ y ∈ c.releaseNotes, ReleaseNotes.Listed v y) ∧
    (∀ y ∈ c.modelCard, MLModelCard.Listed v y) ∧
    (∀ y ∈ c.data.elems, ComponentData.Listed v y) ∧
    (∀ y ∈ c.cryptoProperties, CryptoProperties.Listed v y) ∧
    (∀ y ∈ c.patentAssertions.elems, PatentAssertion.Listed v y) ∧
    (∀ y ∈ c.signature, JSFSignature.Listed v y) := by
  have hp : ListedPedigreeOpt v c.pedigree ↔
      ∀ p ∈ c.pedigree, (∀ d ∈ p.relatives, d.Listed v) ∧ ∀ y ∈ p.patches.elems, Patch.Listed v y := by
    rcases c.pedigree with _ | ⟨a, d, v⟩
    · simp [ListedPedigreeOpt]
    · simp [ListedPedigreeOpt, ListedPedigree, listedComponents_iff, pedigree_relatives_iff, and_assoc]
  rw [← hp, ← listedComponents_iff]
  cases c
  simp only [Component.Listed]

theorem pedigree {f : Component → Component} (p : Pedigree Component) :
    (∀ d ∈ (Pedigree.mapComponents f p).relatives, d.Listed v) ↔ ∀ d ∈ p.relatives, (f d).Listed v := by
  simp only [pedigree_relatives_iff, Pedigree.mapComponents, PSlice.elems_map, list_all]

theorem patches {f : Component → Component} (p : Pedigree Component) :
    (Pedigree.mapComponents f p).patches = p.patches := rfl

/-- A component with everything below it. -/
theorem component (hv : SpecVersion1_2 ≤ v) (c : Component) :
    (recurseComponent (componentConverter v) c).Listed v ↔ Component.ListedConverted v c := by
  induction c using Component.induct with
  | h c ih =>
    unfold Component.ListedConverted
    rw [walk_all, component_children_iff, recurseComponent_go', component_listed]
    have h1 : (∀ d ∈ c.components.elems, Component.Listed v (recurseComponent (componentConverter v) d)) ↔
        ∀ d ∈ c.components.elems, ∀ ss e, walk d ss = some e → e.OwnListed v :=
      forall₂_congr fun d hd => ih d (List.mem_append_left _ hd)
    have h2 : (∀ p ∈ c.pedigree, ∀ d ∈ p.relatives, Component.Listed v (recurseComponent (componentConverter v) d)) ↔
        ∀ p ∈ c.pedigree, ∀ d ∈ p.relatives, ∀ ss e, walk d ss = some e → e.OwnListed v := by
      refine forall₂_congr fun p hp => forall₂_congr fun d hd => ih d (List.mem_append_right _ ?_)
      rw [Option.mem_def.1 hp]; exact hd
    rw [← h1, ← h2]
    have h3 := componentType hv c.type
    have h4 : ((if supportsScope v c.scope then c.scope else "") ≠ "" →
        Place.Lists v .component "scope" (if supportsScope v c.scope then c.scope else "")) ↔ True :=
      iff_true_intro (scope hv c.scope)
    have h5 := iff_true_intro (hashes hv c.hashes)
    simp only [Component.mapChildren, Component.OwnListed, componentConverter_evidence, componentConverter_type,
      componentConverter_scope, componentConverter_hashes, evidence hv, h3, h4, h5]
    versions hv using [componentConverter_type, componentConverter_scope, componentConverter_hashes, componentConverter_licenses, componentConverter_swid, componentConverter_pedigree, componentConverter_externalReferences, componentConverter_components, componentConverter_evidence, componentConverter_releaseNotes, componentConverter_modelCard, componentConverter_data, componentConverter_cryptoProperties, componentConverter_patentAssertions, componentConverter_signature, convertExternalReferences, extref hv, licenses hv, evidence hv, modelCard, crypto,
      pedigree, patches, forall_and, imp_and]
    all_goals regroup

/-! ### Services -/

theorem service_listed (s : Service) : s.Listed v ↔
    (∀ y ∈ s.data.elems, DataClassification.Listed v y) ∧
    (∀ y ∈ s.licenses.elems, LicenseChoice.Listed v y) ∧
    (∀ y ∈ s.externalReferences.elems, ExternalReference.Listed v y) ∧
    (∀ d ∈ s.services.elems, d.Listed v) ∧
    (∀ y ∈ s.releaseNotes, ReleaseNotes.Listed v y) ∧
    (∀ y ∈ s.patentAssertions.elems, PatentAssertion.Listed v y) ∧
    (∀ y ∈ s.signature, JSFSignature.Listed v y) := by
  rw [← listedServices_iff]
  cases s
  simp only [Service.Listed]

theorem data (p : PSlice DataClassification) : (∀ y ∈ (convertDataClassifications v p).elems,
      DataClassification.Listed v y) ↔ ∀ y ∈ p.elems, DataClassification.Listed v y := by
  unfold convertDataClassifications
  split_ifs
  · rw [PSlice.elems_map, list_all]
    exact Iff.rfl
  · exact Iff.rfl

/-- A service with everything below it. -/
theorem service (hv : SpecVersion1_2 ≤ v) (s : Service) :
    (recurseService (serviceConverter v) s).Listed v ↔ Service.ListedConverted v s := by
  induction s using Service.induct with
  | h s ih =>
    unfold Service.ListedConverted
    rw [walkService_all, recurseService_go', service_listed]
    have h1 : (∀ d ∈ s.services.elems, Service.Listed v (recurseService (serviceConverter v) d)) ↔
        ∀ d ∈ s.children, ∀ ss e, walkService d ss = some e → e.OwnListed v :=
      forall₂_congr fun d hd => ih d hd
    rw [← h1]
    simp only [Service.mapChildren, Service.OwnListed]
    versions hv using [serviceConverter_data, serviceConverter_licenses, serviceConverter_externalReferences, serviceConverter_services, serviceConverter_releaseNotes, serviceConverter_patentAssertions, serviceConverter_signature, convertExternalReferences, extref hv, data]
    all_goals regroup

/-! ### Tools -/

theorem tool (hv : SpecVersion1_2 ≤ v) (x : Tool) : (convertTool v x).Listed v ↔
    (SpecVersion1_4 ≤ v → ∀ r ∈ x.externalReferences.elems, ExternalReference.ListedConverted v r) := by
  have h := iff_true_intro (hashes hv x.hashes)
  simp only [Tool.Listed, convertTool_hashes, h]
  versions hv using [convertTool_externalReferences, convertExternalReferences, extref hv]

theorem toolService_listed (s : Service) : (toolService v s).Listed v ↔ s.Listed v := by
  rw [service_listed, service_listed, toolService]

theorem tools (hv : SpecVersion1_2 ≤ v) (x : ToolsChoice) :
    (convertTools v x).Listed v ↔ ToolsChoice.ListedConverted v x := by
  by_cases h : v < SpecVersion1_5
  · have h5 : ¬ SpecVersion1_5 ≤ v := by omega
    rw [convertTools_old h]
    simp only [ToolsChoice.Listed, ToolsChoice.ListedConverted, h, h5, PSlice.elems_map, list_all, legacy_elems,
      List.mem_append, or_imp, forall_and, tool hv, nil_elems, List.not_mem_nil, false_implies, implies_true,
      and_true, true_implies]
    by_cases h4 : SpecVersion1_4 ≤ v <;> simp [h4, convertComponentToTool, convertServiceToTool]
  · have h5 : SpecVersion1_5 ≤ v := by omega
    have h4 : SpecVersion1_4 ≤ v := by simp only [SpecVersion1_4, SpecVersion1_5] at *; omega
    rw [convertTools_new h]
    simp only [ToolsChoice.Listed, ToolsChoice.ListedConverted, h, h5, h4, PSlice.elems_map, list_all, tool hv,
      toolService_listed, true_implies, false_implies, true_and, implies_true]

/-! ### The rest -/

theorem rating (hv : SpecVersion1_2 ≤ v) (x : VulnerabilityRating) : (convertRating v x).Listed v ↔
    (x.severity ≠ "" → Place.Lists v .rating "severity" x.severity) := by
  have h := method hv x.method
  unfold convertRating VulnerabilityRating.Listed
  by_cases hs : supportsScoringMethod v x.method <;> simp_all

theorem vulnerability (hv : SpecVersion1_2 ≤ v) (x : Vulnerability) :
    (convertVulnerability v x).Listed v ↔ Vulnerability.ListedConverted v x := by
  versions hv using [Vulnerability.Listed, Vulnerability.ListedConverted, convertVulnerability_ratings,
    convertVulnerability_proofOfConcept, convertVulnerability_tools, convertVulnerability_analysis,
    convertVulnerability_affects, rating hv, tools hv, VulnerabilityAnalysis.Listed]

theorem metadata (hv : SpecVersion1_2 ≤ v) (x : Metadata) :
    (convertMetadata v x).Listed v ↔ Metadata.ListedConverted v x := by
  versions hv using [Metadata.Listed, Metadata.ListedConverted, convertMetadata_lifecycles, convertMetadata_tools,
    convertMetadata_component, convertMetadata_licenses, convertMetadata_distributionConstraints, tools hv, component hv,
    licenses hv]

theorem composition (h3 : SpecVersion1_3 ≤ v) (x : Composition) :
    (convertComposition v x).Listed v ↔ Composition.ListedConverted v x := by
  rw [Composition.Listed, Composition.ListedConverted, convertComposition_aggregate, convertComposition_signature,
    aggregate h3]

theorem annotations (h5 : SpecVersion1_5 ≤ v) (p : PSlice Annotation) :
    (∀ y ∈ (convertAnnotations v p).elems, Annotation.Listed v y) ↔
    ∀ y ∈ p.elems, Annotation.ListedConverted v y := by
  have hv : SpecVersion1_2 ≤ v := by simp only [SpecVersion1_2, SpecVersion1_5] at *; omega
  versions hv using [convertAnnotations, Annotation.Listed, Annotation.ListedConverted, Annotator.Listed,
    Annotator.ListedConverted, convertAnnotator, service hv]

theorem bom (hv : SpecVersion1_2 ≤ v) (x : BOM) : (convert v x).Listed v ↔ BOM.ListedConverted v x := by
  versions hv using [BOM.Listed, BOM.ListedConverted, convert_bomFormat, convert_metadata, convert_components, convert_services, convert_externalReferences, convert_compositions, convert_vulnerabilities, convert_annotations, convert_formulation, convert_declarations, convert_definitions, convert_citations, convert_signature, metadata hv, component hv, service hv, extref hv,
    convertExternalReferences, convertCompositions, composition, convertVulnerabilities, vulnerability hv,
    annotations, Definitions.Listed]

/-! ### A BOM with the strings of the version -/

theorem license_of (x : LicenseChoice) (h : x.Listed v) : LicenseChoice.ListedConverted v x :=
  ⟨fun y hy => ⟨fun _ => (h.1 y hy).1, (h.1 y hy).2.1, fun _ => (h.1 y hy).2.2⟩, fun _ => h.2.1, h.2.2.1, fun _ => h.2.2.2⟩

theorem extref_of (x : ExternalReference) (h : x.Listed v) : ExternalReference.ListedConverted v x :=
  ⟨lists_latest rfl (by decide) h.2, fun _ => h.2, fun _ => h.1⟩

theorem identity_of (x : EvidenceIdentityChoice) (h : x.Listed v) : EvidenceIdentityChoice.ListedConverted v x :=
  ⟨fun _ => h, fun _ => ⟨fun _ => h.1, fun i hi => h.2 i (List.mem_of_mem_head? hi)⟩⟩

theorem evidence_of (x : Evidence) (h : x.Listed v) : Evidence.ListedConverted v x :=
  ⟨fun _ y hy => identity_of y (h.1 y hy), fun _ _ => h.2, fun _ y hy => license_of y (h.2 y hy)⟩

theorem crypto_of (x : CryptoProperties) (h : x.Listed v) : CryptoProperties.ListedConverted v x := by
  obtain ⟨h1, h2, h3, h4, h5⟩ := h
  refine ⟨h1, fun y hy => ?_, fun _ => h3, fun y hy => ?_, fun y hy hn => lists_latest rfl (by decide) (h5 y hy hn)⟩
  · obtain ⟨a, b⟩ := h2 y hy
    exact ⟨fun hn => lists_latest rfl (by decide) (a hn), fun hn => absurd rfl hn, b⟩
  · obtain ⟨a, b, c⟩ := h4 y hy
    exact ⟨a, b, fun _ => c⟩

theorem component_of (c : Component) : c.Listed v → Component.ListedConverted v c := by
  induction c using Component.induct with
  | h c ih =>
    unfold Component.ListedConverted
    rw [walk_all, component_listed]
    rintro ⟨-, -, -, h1, h2, h3, h4, h5, h6, h7, h8, h9, h10, h11, h12⟩
    refine ⟨⟨fun y hy => license_of y (h1 y hy), h2, fun p hp => (h3 p hp).2, fun y hy => extref_of y (h4 y hy),
      fun y hy => evidence_of y (h6 y hy), fun _ => h7, fun _ y hy => ⟨(h8 y hy).1, (h8 y hy).2.1, fun _ => (h8 y hy).2.2⟩,
      fun _ => h9, fun _ y hy => crypto_of y (h10 y hy), fun _ => h11, h12⟩, fun e he => ih e he ?_⟩
    exact component_children_iff.2 ⟨h5, fun p hp => (h3 p hp).1⟩ e he

theorem service_of (s : Service) : s.Listed v → Service.ListedConverted v s := by
  induction s using Service.induct with
  | h s ih =>
    unfold Service.ListedConverted
    rw [walkService_all, service_listed]
    rintro ⟨h1, h2, h3, h4, h5, h6, h7⟩
    exact ⟨⟨h1, h2, fun y hy => extref_of y (h3 y hy), fun _ => h5, fun _ => h6, h7⟩, fun e he => ih e he (h4 e he)⟩

theorem tools_of (x : ToolsChoice) (h : x.Listed v) : ToolsChoice.ListedConverted v x :=
  ⟨fun _ t ht r hr => extref_of r ((h.1 t ht).2 r hr),
   fun _ _ => ⟨fun c hc r hr => extref_of r (((component_listed c).1 (h.2.1 c hc)).2.2.2.2.2.2.1 r hr),
     fun s hs r hr => extref_of r (((service_listed s).1 (h.2.2 s hs)).2.2.1 r hr)⟩,
   fun _ => h.2⟩

theorem bom_of (x : BOM) (h : x.Listed v) : BOM.ListedConverted v x := by
  obtain ⟨h1, h2, h3, h4, h5, h6, h7, h8, h9, h10, h11, h12, h13⟩ := h
  refine ⟨h1, fun y hy => ?_, fun y hy => component_of y (h3 y hy), fun y hy => service_of y (h4 y hy),
    fun y hy => extref_of y (h5 y hy), fun _ y hy => ?_, fun _ y hy => ?_, fun _ y hy => ?_, fun _ => h9, fun _ => h10,
    fun _ y hy => ⟨(h11 y hy).1, fun _ => (h11 y hy).2⟩, fun _ => h12, h13⟩
  · obtain ⟨a, b, c, d, e⟩ := h2 y hy
    exact ⟨fun _ => a, fun z hz => tools_of z (b z hz), fun z hz => component_of z (c z hz),
      fun _ z hz => license_of z (d z hz), fun _ => e⟩
  · exact ⟨lists_latest rfl (by decide) (h6 y hy).1, (h6 y hy).2⟩
  · obtain ⟨a, b, c, d, e⟩ := h7 y hy
    exact ⟨fun z hz => (a z hz).1, fun _ => b, fun z hz => tools_of z (c z hz), d, e⟩
  · obtain ⟨a, b⟩ := h8 y hy
    exact ⟨fun z hz => ⟨(a z hz).1, fun _ w hw => service_of w ((a z hz).2 w hw), fun _ => (a z hz).2⟩, b⟩

end ListedConverted
end Verif
