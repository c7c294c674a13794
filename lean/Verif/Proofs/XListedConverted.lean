import Verif.Spec.XmlListedConverted
import Verif.Xml.ListedLaws
import Verif.Proofs.XFitsConverted

/-! Helper lemmas: `XListedConverted` is `Listed` of the converted BOM; no property statements here. -/

namespace Verif

set_option linter.unusedSimpArgs false
set_option linter.unusedSectionVars false

open Spec

namespace XListedConverted

open FitsConverted (map_all list_all map_none nil_elems elems_or none_or walk_all walkService_all legacy_elems)
open XFitsConverted (bands pmap_nil nil_or)

variable {v : Int}

/-! ### The strings -/

/-- The table, if there is one, enumerates the string for the version. -/
def Enum (v : Int) (t : Option (List (Int × List String))) (s : String) : Prop :=
  ∀ gs, t = some gs → ∃ g ∈ gs, g.1 ≤ v ∧ s ∈ g.2

theorem lists_iff {t : Option (List (Int × List String))} {gs : List (Int × List String)} (h : t = some gs)
    (s : String) : Enum v t s ↔ ∃ g ∈ gs, g.1 ≤ v ∧ s ∈ g.2 := by
  unfold Enum
  rw [h]
  exact ⟨fun h => h _ rfl, fun h gs hg => Option.some.inj hg ▸ h⟩

/-- The enumerations of the latest version are the longest. -/
theorem lists_latest {t : Option (List (Int × List String))} {gs : List (Int × List String)} (h : t = some gs)
    (hg : ∀ g ∈ gs, g.1 ≤ SpecVersion1_7) {s : String} (hs : Enum v t s) : Enum SpecVersion1_7 t s := by
  rw [lists_iff h] at hs ⊢
  obtain ⟨g, hm, -, hs⟩ := hs
  exact ⟨g, hm, hg g hm, hs⟩

/-- Values of the tables of `Spec.Schema` are enumerated. -/
theorem lists_of_known {t : Option (List (Int × List String))} {gs : List (Int × List String)} (h : t = some gs)
    {table : List (String × Int)} (ht : ∀ e ∈ table, ∃ g ∈ gs, g.1 ≤ e.2 ∧ e.1 ∈ g.2)
    {s : String} (hs : Known table v s) : Enum v t s := by
  rw [lists_iff h]
  obtain ⟨n, hm, hn⟩ := hs
  obtain ⟨g, hg, hl, hs⟩ := ht _ hm
  exact ⟨g, hg, by omega, hs⟩

theorem mem_of_lists {t : Option (List (Int × List String))} {gs : List (Int × List String)} (h : t = some gs)
    {table : List (String × Int)} (ht : ∀ g ∈ gs, ∀ s ∈ g.2, s ∈ table.map Prod.fst)
    {s : String} (hs : Enum v t s) : s ∈ table.map Prod.fst := by
  obtain ⟨g, hg, -, hs⟩ := (lists_iff h s).1 hs
  exact ht g hg s hs

theorem componentType (hv : SpecVersion1_0 ≤ v) (s : String) :
    XPlace.ListsAttr v .component "type" (if supportsComponentType v s then s else ComponentTypeApplication) := by
  split_ifs with h
  · exact lists_of_known rfl (by decide +kernel) (Props.supportsComponentType_known v s h)
  · exact (lists_iff rfl _).2 ⟨_, List.mem_cons_self, by simp only [SpecVersion1_0, SpecVersion1_1, SpecVersion1_2, SpecVersion1_3, SpecVersion1_6] at *; omega, by decide⟩

theorem scope (hv : SpecVersion1_0 ≤ v) (s : String) (h : (if supportsScope v s then s else "") ≠ "") :
    XPlace.ListsElem v .component "scope" (if supportsScope v s then s else "") := by
  split_ifs at h ⊢ with h'
  · exact lists_of_known rfl (by decide +kernel) (Props.supportsScope_known v s h')
  · exact absurd rfl h

theorem hash (hv : SpecVersion1_0 ≤ v) (s : String) (h : supportsHashAlgorithm v s) :
    XPlace.ListsAttr v .hash "alg" s :=
  lists_of_known rfl (by decide +kernel) ((Props.supportsHashAlgorithm_schema v s).1 h)

theorem method (hv : SpecVersion1_0 ≤ v) (s : String) :
    XPlace.ListsElem v .rating "method" (if supportsScoringMethod v s then s else ScoringMethodOther) := by
  split_ifs with h
  · exact lists_of_known rfl (by decide +kernel) ((Props.supportsScoringMethod_schema v s).1 h)
  · exact (lists_iff rfl _).2 ⟨_, List.mem_cons_self, by simp only [SpecVersion1_0, SpecVersion1_1, SpecVersion1_2, SpecVersion1_3, SpecVersion1_6] at *; omega, by decide⟩

/-- What no schema enumerates is supported by the code. -/
theorem aggregate_unknown (hv : SpecVersion1_3 ≤ v) (s : String) (h : s ∉ aggregateSince.map Prod.fst) :
    supportsCompositionAggregate v s := by
  rw [supportsCompositionAggregate_since]
  refine ⟨_, ?_, hv⟩
  unfold sinceCompositionAggregate
  rw [if_neg fun hm => h ((by decide +kernel : ∀ t ∈ _, t ∈ aggregateSince.map Prod.fst) s hm)]

theorem primitive_unknown (hv : SpecVersion1_6 ≤ v) (s : String) (h : s ∉ cryptoPrimitiveSince.map Prod.fst) :
    supportsCryptoPrimitive v s := by
  rw [supportsCryptoPrimitive_since]
  refine ⟨_, ?_, hv⟩
  unfold sinceCryptoPrimitive
  rw [if_neg fun hm => h ((by decide +kernel : ∀ t ∈ _, t ∈ cryptoPrimitiveSince.map Prod.fst) s hm)]

theorem protocol_unknown (hv : SpecVersion1_6 ≤ v) (s : String) (h : s ∉ protocolTypeSince.map Prod.fst) :
    supportsCryptoProtocolType v s := by
  rw [supportsCryptoProtocolType_since]
  refine ⟨_, ?_, hv⟩
  unfold sinceCryptoProtocolType
  rw [if_neg fun hm => h ((by decide +kernel : ∀ t ∈ _, t ∈ protocolTypeSince.map Prod.fst) s hm)]

theorem reference_unknown (hv : SpecVersion1_1 ≤ v) (s : String)
    (h : s ∉ externalReferenceTypeSince.map Prod.fst ∨ s ∈ lateReferenceTypes) : supportsExternalReferenceType v s := by
  rw [supportsExternalReferenceType_since]
  refine ⟨SpecVersion1_1, ?_, hv⟩
  rcases h with h | h
  · unfold sinceExternalReferenceType
    repeat rw [if_neg fun hm => h ((by decide +kernel : ∀ t ∈ _, t ∈ externalReferenceTypeSince.map Prod.fst) s hm)]
  · exact (by decide +kernel : ∀ s ∈ lateReferenceTypes, sinceExternalReferenceType s = some SpecVersion1_1) s h

theorem aggregate (hv : SpecVersion1_3 ≤ v) (s : String) :
    XPlace.ListsElem v .composition "aggregate" (if supportsCompositionAggregate v s then s else CompositionAggregateUnknown) ↔
      XPlace.ListsElem SpecVersion1_7 .composition "aggregate" s := by
  have h2 : SpecVersion1_0 ≤ v := by simp only [SpecVersion1_0, SpecVersion1_3] at *; omega
  constructor
  · intro h
    split_ifs at h with hs
    · exact lists_latest rfl (by decide) h
    · by_cases hm : s ∈ aggregateSince.map Prod.fst
      · obtain ⟨⟨t, n⟩, ht, rfl⟩ := List.mem_map.1 hm
        exact lists_of_known rfl (by decide +kernel) ⟨n, ht, (by decide +kernel : ∀ e ∈ aggregateSince, e.2 ≤ SpecVersion1_7) _ ht⟩
      · exact absurd (aggregate_unknown hv s hm) hs
  · intro h
    split_ifs with hs
    · exact lists_of_known rfl (by decide +kernel)
        ((Props.supportsCompositionAggregate_schema v s (mem_of_lists rfl (by decide +kernel) h)).1 hs)
    · exact (lists_iff rfl _).2 ⟨_, List.mem_cons_self, by simp only [SpecVersion1_0, SpecVersion1_1, SpecVersion1_2, SpecVersion1_3, SpecVersion1_6] at *; omega, by decide⟩

theorem primitive (hv : SpecVersion1_6 ≤ v) (s : String) :
    ((if supportsCryptoPrimitive v s then s else "") ≠ "" →
      XPlace.ListsElem v .algorithmProperties "primitive" (if supportsCryptoPrimitive v s then s else "")) ↔
    (s ≠ "" → XPlace.ListsElem SpecVersion1_7 .algorithmProperties "primitive" s) := by
  have h2 : SpecVersion1_0 ≤ v := by simp only [SpecVersion1_0, SpecVersion1_6] at *; omega
  constructor
  · intro h hne
    split_ifs at h with hs
    · exact lists_latest rfl (by decide) (h hne)
    · by_cases hm : s ∈ cryptoPrimitiveSince.map Prod.fst
      · obtain ⟨⟨t, n⟩, ht, rfl⟩ := List.mem_map.1 hm
        exact lists_of_known rfl (by decide +kernel) ⟨n, ht, (by decide +kernel : ∀ e ∈ cryptoPrimitiveSince, e.2 ≤ SpecVersion1_7) _ ht⟩
      · exact absurd (primitive_unknown hv s hm) hs
  · intro h hne
    split_ifs at hne ⊢ with hs
    · exact lists_of_known rfl (by decide +kernel)
        ((Props.supportsCryptoPrimitive_schema v s (mem_of_lists rfl (by decide +kernel) (h hne))).1 hs)
    · exact absurd rfl hne

theorem protocolType (hv : SpecVersion1_6 ≤ v) (s : String) :
    ((if supportsCryptoProtocolType v s then s else "") ≠ "" →
      XPlace.ListsElem v .protocolProperties "type" (if supportsCryptoProtocolType v s then s else "")) ↔
    (s ≠ "" → XPlace.ListsElem SpecVersion1_7 .protocolProperties "type" s) := by
  have h2 : SpecVersion1_0 ≤ v := by simp only [SpecVersion1_0, SpecVersion1_6] at *; omega
  constructor
  · intro h hne
    split_ifs at h with hs
    · exact lists_latest rfl (by decide) (h hne)
    · by_cases hm : s ∈ protocolTypeSince.map Prod.fst
      · obtain ⟨⟨t, n⟩, ht, rfl⟩ := List.mem_map.1 hm
        exact lists_of_known rfl (by decide +kernel) ⟨n, ht, (by decide +kernel : ∀ e ∈ protocolTypeSince, e.2 ≤ SpecVersion1_7) _ ht⟩
      · exact absurd (protocol_unknown hv s hm) hs
  · intro h hne
    split_ifs at hne ⊢ with hs
    · exact lists_of_known rfl (by decide +kernel)
        ((Props.supportsCryptoProtocolType_schema v s (mem_of_lists rfl (by decide +kernel) (h hne))).1 hs)
    · exact absurd rfl hne

theorem referenceType (hv : SpecVersion1_1 ≤ v) (s : String) :
    XPlace.ListsAttr v .externalReference "type" (if supportsExternalReferenceType v s then s else ERTypeOther) ↔
      XPlace.ListsAttr SpecVersion1_7 .externalReference "type" s ∧
      (s ∈ lateReferenceTypes → XPlace.ListsAttr v .externalReference "type" s) := by
  constructor
  · intro h
    split_ifs at h with hs
    · exact ⟨lists_latest rfl (by decide) h, fun _ => h⟩
    · refine ⟨?_, fun hm => absurd (reference_unknown hv s (.inr hm)) hs⟩
      by_cases hm : s ∈ externalReferenceTypeSince.map Prod.fst
      · obtain ⟨⟨t, n⟩, ht, rfl⟩ := List.mem_map.1 hm
        exact lists_of_known rfl (by decide +kernel) ⟨n, ht, (by decide +kernel : ∀ e ∈ externalReferenceTypeSince, e.2 ≤ SpecVersion1_7) _ ht⟩
      · exact absurd (reference_unknown hv s (.inl hm)) hs
  · rintro ⟨h, hl⟩
    by_cases hm : s ∈ lateReferenceTypes
    · rw [if_pos (reference_unknown hv s (.inr hm))]
      exact hl hm
    split_ifs with hs
    · exact lists_of_known rfl (by decide +kernel)
        ((Props.supportsExternalReferenceType_schema_partial v s (mem_of_lists rfl (by decide +kernel) h) hm).1 hs)
    · exact (lists_iff rfl _).2 ⟨_, List.mem_cons_self, by simp only [SpecVersion1_0, SpecVersion1_1, SpecVersion1_2, SpecVersion1_3, SpecVersion1_6] at *; omega, by decide⟩

/-! ### The parts of components -/

theorem extref (h1 : SpecVersion1_1 ≤ v) (x : ExternalReference) :
    (convertExternalReference v x).XListed v ↔ ExternalReference.XListedConverted v x := by
  have e : (convertExternalReference v x).type = if supportsExternalReferenceType v x.type then x.type else ERTypeOther := by
    unfold convertExternalReference
    split_ifs <;> simp_all
  have hv : SpecVersion1_0 ≤ v := by simp only [SpecVersion1_0, SpecVersion1_1] at *; omega
  unfold ExternalReference.XListed
  rw [e, referenceType h1, convertExternalReference_hashes]
  xversions hv using [ExternalReference.XListedConverted]
  all_goals regroup

theorem licenseOf_listed (hv : SpecVersion1_0 ≤ v) (x : License) :
    (licenseOf v x).XListed v ↔ License.XListedConverted v x := by
  xversions hv using [License.XListed, licenseOf, License.XListedConverted, convertLicensing, Licensing.XListed]

theorem license (h1 : SpecVersion1_1 ≤ v) (x : LicenseChoice) :
    (licenseChoice v x).XListed v ↔ LicenseChoice.XListedConverted v x := by
  have hv : SpecVersion1_0 ≤ v := by simp only [SpecVersion1_0, SpecVersion1_1] at *; omega
  xversions hv using [LicenseChoice.XListed, licenseChoice_eq, licenseOf_listed hv, LicenseChoice.XListedConverted,
    Option.map_eq_none_iff]

/-- In version 1.0 nothing that is enumerated is left of a license. -/
theorem licenses_first (h : v < SpecVersion1_1) (p : PSlice LicenseChoice) :
    ∀ l ∈ (convertLicenses v p).elems, LicenseChoice.XListed v l := by
  have h0 : ∀ x ∈ (convertLicenses1_0 p).elems, ∃ l, x.license = some l ∧ l.text = none := by
    intro x hx
    have key : ∀ xs : List LicenseChoice, x ∈ (storeOrNil ((xs.map convertLicense1_0).filter fun c => c.license.isSome)).elems →
        ∃ l, x.license = some l ∧ l.text = none := by
      intro xs hx
      have hx : x ∈ (xs.map convertLicense1_0).filter fun c => c.license.isSome := by
        unfold storeOrNil at hx
        split_ifs at hx
        · simp [PSlice.elems] at hx
        · exact hx
      obtain ⟨hm, hs⟩ := List.mem_filter.1 hx
      obtain ⟨c, -, rfl⟩ := List.mem_map.1 hm
      unfold convertLicense1_0 at hs ⊢
      cases hl : c.license with
      | none => simp [hl] at hs
      | some l =>
        simp only [hl] at hs ⊢
        split
        · rename_i he; simp [he] at hs
        · exact ⟨_, rfl, rfl⟩
    cases p with
    | nil => simp [convertLicenses1_0, PSlice.elems] at hx
    | nilSlice => exact key _ hx
    | list xs => exact key _ hx
  intro x hx
  rw [convertLicenses_eq, if_pos h, PSlice.elems_map] at hx
  obtain ⟨c, hc, rfl⟩ := List.mem_map.1 hx
  obtain ⟨l, hl, ht⟩ := h0 c hc
  have h5 : v < SpecVersion1_5 := by simp only [SpecVersion1_1, SpecVersion1_5] at *; omega
  have h6 : v < SpecVersion1_6 := by simp only [SpecVersion1_1, SpecVersion1_6] at *; omega
  rw [licenseChoice_eq]
  simp [LicenseChoice.XListed, hl, License.XListed, licenseOf, h5, h6, ht]

theorem licenses (hv : SpecVersion1_0 ≤ v) (p : PSlice LicenseChoice) :
    (∀ l ∈ (convertLicenses v p).elems, LicenseChoice.XListed v l) ↔
      ∀ l ∈ p.elems, LicenseChoice.XListedConverted v l := by
  by_cases h1 : SpecVersion1_1 ≤ v
  · xversions hv using [convertLicenses_eq, license h1]
  · exact ⟨fun _ l _ h => absurd h h1, fun _ => licenses_first (by omega) p⟩

theorem hashes (hv : SpecVersion1_0 ≤ v) (p : PSlice Hash) : ∀ h ∈ (convertHashes v p).elems, Hash.XListed v h := by
  intro h hm
  have : supportsHashAlgorithm v h.algorithm := by
    unfold convertHashes storeOrNil at hm
    cases p with
    | nil => simp [PSlice.elems] at hm
    | nilSlice => simp [PSlice.elems] at hm
    | list xs =>
      simp only at hm
      split_ifs at hm
      · simp [PSlice.elems] at hm
      · exact (List.mem_filter.1 hm).2
  exact hash hv _ this

theorem identity (x : EvidenceIdentity) : EvidenceIdentity.XListed v { x with concludedValue := "" } ↔ EvidenceIdentity.XListed v x :=
  Iff.rfl

theorem firstIdentity_listed (h6 : v < SpecVersion1_6) (o : Option EvidenceIdentityChoice) :
    (∀ y ∈ clearConcludedValue (firstIdentity o), EvidenceIdentityChoice.XListed v y) ↔
      ∀ ch ∈ o, EvidenceIdentityChoice.XListedConverted v ch := by
  have h6' : ¬ SpecVersion1_6 ≤ v := by omega
  cases o with
  | none => simp [clearConcludedValue, firstIdentity]
  | some ch =>
    obtain ⟨i, is⟩ := ch
    match is with
    | .nil => cases i <;> simp [clearConcludedValue, firstIdentity, EvidenceIdentityChoice.XListed, EvidenceIdentityChoice.XListedConverted, PSlice.elems, identity, h6, h6']
    | .nilSlice => cases i <;> simp [clearConcludedValue, firstIdentity, EvidenceIdentityChoice.XListed, EvidenceIdentityChoice.XListedConverted, PSlice.elems, identity, h6, h6']
    | .list [] => cases i <;> simp [clearConcludedValue, firstIdentity, EvidenceIdentityChoice.XListed, EvidenceIdentityChoice.XListedConverted, PSlice.elems, identity, h6, h6']
    | .list (x :: xs) => cases i <;> simp [clearConcludedValue, firstIdentity, EvidenceIdentityChoice.XListed, EvidenceIdentityChoice.XListedConverted, PSlice.elems, identity, h6, h6']

theorem identities (h6 : SpecVersion1_6 ≤ v) (ch : EvidenceIdentityChoice) :
    EvidenceIdentityChoice.XListedConverted v ch ↔ EvidenceIdentityChoice.XListed v ch := by
  have h6' : ¬ v < SpecVersion1_6 := by omega
  simp [EvidenceIdentityChoice.XListedConverted, h6, h6']

theorem evidence (hv : SpecVersion1_0 ≤ v) (o : Option Evidence) :
    (∀ y ∈ convertEvidence v o, Evidence.XListed v y) ↔ (SpecVersion1_3 ≤ v → ∀ e ∈ o, Evidence.XListedConverted v e) := by
  cases o with
  | none => simp [convertEvidence]
  | some e =>
    xversions hv using [convertEvidence, Evidence.XListed, Evidence.XListedConverted, licenses hv, firstIdentity_listed,
      identities, Option.mem_some_iff, forall_eq', forall_eq]

theorem modelCard (h5 : SpecVersion1_5 ≤ v) (o : Option MLModelCard) :
    (∀ y ∈ convertModelCard v o, MLModelCard.XListed v y) ↔ ∀ y ∈ o, MLModelCard.XListedConverted v y := by
  have hv : SpecVersion1_0 ≤ v := by simp only [SpecVersion1_0, SpecVersion1_5] at *; omega
  xversions hv using [convertModelCard, MLModelCard.XListed, MLModelCard.XListedConverted, MLModelCardConsiderations.XListed]

theorem algorithm (h6 : SpecVersion1_6 ≤ v) (x : CryptoAlgorithmProperties) :
    (convertAlgorithmProperties v x).XListed v ↔ CryptoAlgorithmProperties.XListedConverted v x := by
  unfold CryptoAlgorithmProperties.XListedConverted
  rw [← primitive h6]
  unfold convertAlgorithmProperties CryptoAlgorithmProperties.XListed
  by_cases h : v < SpecVersion1_7 <;> by_cases hs : supportsCryptoPrimitive v x.primitive <;> simp [h, hs]

theorem certificate (h6 : SpecVersion1_6 ≤ v) (x : CertificateProperties) :
    (convertCertificateProperties v x).XListed v ↔ (SpecVersion1_7 ≤ v → CertificateProperties.XListed v x) := by
  have hv : SpecVersion1_0 ≤ v := by simp only [SpecVersion1_0, SpecVersion1_6] at *; omega
  xversions hv using [convertCertificateProperties, CertificateProperties.XListed]

theorem material (h6 : SpecVersion1_6 ≤ v) (x : RelatedCryptoMaterialProperties) :
    (convertRelatedCryptoMaterial v x).XListed v ↔ RelatedCryptoMaterialProperties.XListedConverted v x := by
  have hv : SpecVersion1_0 ≤ v := by simp only [SpecVersion1_0, SpecVersion1_6] at *; omega
  xversions hv using [convertRelatedCryptoMaterial, RelatedCryptoMaterialProperties.XListed, RelatedCryptoMaterialProperties.XListedConverted]

theorem protocol (h6 : SpecVersion1_6 ≤ v) (x : CryptoProtocolProperties) :
    (convertProtocolProperties v x).XListed v ↔ (x.type ≠ "" → XPlace.ListsElem SpecVersion1_7 .protocolProperties "type" x.type) := by
  rw [← protocolType h6]
  unfold convertProtocolProperties CryptoProtocolProperties.XListed
  by_cases h : v < SpecVersion1_7 <;> by_cases hs : supportsCryptoProtocolType v x.type <;> simp [h, hs]

theorem crypto (h6 : SpecVersion1_6 ≤ v) (o : Option CryptoProperties) :
    (∀ y ∈ convertCryptoProperties v o, CryptoProperties.XListed v y) ↔
      ∀ y ∈ o, CryptoProperties.XListedConverted v y := by
  cases o with
  | none => simp [convertCryptoProperties]
  | some c =>
    simp only [convertCryptoProperties, CryptoProperties.XListed, CryptoProperties.XListedConverted, map_all,
      algorithm h6, certificate h6, material h6, protocol h6, Option.map_some, Option.mem_some_iff, forall_eq']
    refine and_congr_right fun _ => and_congr_right fun _ => and_congr_left fun _ => ?_
    exact ⟨fun h a b c => h b c a, fun h b c a => h a b c⟩

/-! ### Components -/

theorem component_listed (c : Component) : c.XListed v ↔
    XPlace.ListsAttr v .component "type" c.type ∧
    (c.scope ≠ "" → XPlace.ListsElem v .component "scope" c.scope) ∧
    (∀ y ∈ c.hashes.elems, Hash.XListed v y) ∧
    (∀ y ∈ c.licenses.elems, LicenseChoice.XListed v y) ∧
    (∀ y ∈ c.swid, SWID.XListed v y) ∧
    (∀ p ∈ c.pedigree, (∀ d ∈ p.relatives, d.XListed v) ∧ ∀ y ∈ p.patches.elems, Patch.XListed v y) ∧
    (∀ y ∈ c.externalReferences.elems, ExternalReference.XListed v y) ∧
    (∀ d ∈ c.components.elems, d.XListed v) ∧
    (∀ y ∈ c.evidence, Evidence.XListed v y) ∧
    (∀ y ∈ c.releaseNotes, ReleaseNotes.XListed v y) ∧
    (∀ y ∈ c.modelCard, MLModelCard.XListed v y) ∧
    (∀ y ∈ c.data.elems, ComponentData.XListed v y) ∧
    (∀ y ∈ c.cryptoProperties, CryptoProperties.XListed v y) ∧
    (∀ y ∈ c.patentAssertions.elems, PatentAssertion.XListed v y) := by
  have hp : XListedPedigreeOpt v c.pedigree ↔
      ∀ p ∈ c.pedigree, (∀ d ∈ p.relatives, d.XListed v) ∧ ∀ y ∈ p.patches.elems, Patch.XListed v y := by
    rcases c.pedigree with _ | ⟨a, d, v⟩
    · simp [XListedPedigreeOpt]
    · simp [XListedPedigreeOpt, XListedPedigree, xlistedComponents_iff, pedigree_relatives_iff, and_assoc]
  rw [← hp, ← xlistedComponents_iff]
  cases c
  simp only [Component.XListed]

theorem pedigree {f : Component → Component} (p : Pedigree Component) :
    (∀ d ∈ (Pedigree.mapComponents f p).relatives, d.XListed v) ↔ ∀ d ∈ p.relatives, (f d).XListed v := by
  simp only [pedigree_relatives_iff, Pedigree.mapComponents, PSlice.elems_map, list_all]

theorem patches {f : Component → Component} (p : Pedigree Component) :
    (Pedigree.mapComponents f p).patches = p.patches := rfl

/-- In version 1.0 nothing of a component is enumerated but what is replaced. -/
theorem own_first (h : v < SpecVersion1_1) (c : Component) : c.XOwnListed v := by
  have h1 : ¬ SpecVersion1_1 ≤ v := by omega
  have h2 : ¬ SpecVersion1_2 ≤ v := by simp only [SpecVersion1_1, SpecVersion1_2] at *; omega
  have h3 : ¬ SpecVersion1_3 ≤ v := by simp only [SpecVersion1_1, SpecVersion1_3] at *; omega
  have h4 : ¬ SpecVersion1_4 ≤ v := by simp only [SpecVersion1_1, SpecVersion1_4] at *; omega
  have h5 : ¬ SpecVersion1_5 ≤ v := by simp only [SpecVersion1_1, SpecVersion1_5] at *; omega
  have h6 : ¬ SpecVersion1_6 ≤ v := by simp only [SpecVersion1_1, SpecVersion1_6] at *; omega
  have h7 : ¬ SpecVersion1_7 ≤ v := by simp only [SpecVersion1_1, SpecVersion1_7] at *; omega
  simp only [Component.XOwnListed, LicenseChoice.XListedConverted, h1, h2, h3, h4, h5, h6, h7, false_implies, implies_true,
    and_self]

/-- A component with everything below it. -/
theorem component (hv : SpecVersion1_0 ≤ v) (c : Component) :
    (recurseComponent (componentConverter v) c).XListed v ↔ Component.XListedConverted v c := by
  induction c using Component.induct with
  | h c ih =>
    unfold Component.XListedConverted
    rw [walk_all, component_children_iff, recurseComponent_go', component_listed]
    have h1 : (∀ d ∈ c.components.elems, Component.XListed v (recurseComponent (componentConverter v) d)) ↔
        ∀ d ∈ c.components.elems, ∀ ss e, walk d ss = some e → e.XOwnListed v :=
      forall₂_congr fun d hd => ih d (List.mem_append_left _ hd)
    have h2 : (∀ p ∈ c.pedigree, ∀ d ∈ p.relatives, ∀ ss e, walk d ss = some e → e.XOwnListed v) ↔ (SpecVersion1_1 ≤ v →
        ∀ p ∈ c.pedigree, ∀ d ∈ p.relatives, Component.XListed v (recurseComponent (componentConverter v) d)) := by
      by_cases h : SpecVersion1_1 ≤ v
      · simp only [h, true_implies]
        refine forall₂_congr fun p hp => forall₂_congr fun d hd => (ih d (List.mem_append_right _ ?_)).symm
        rw [Option.mem_def.1 hp]; exact hd
      · simp only [h, false_implies, iff_true]
        exact fun _ _ _ _ _ e _ => own_first (by omega) e
    rw [← h1, h2]
    have h3 := componentType hv c.type
    have h4 : ((if supportsScope v c.scope then c.scope else "") ≠ "" →
        XPlace.ListsElem v .component "scope" (if supportsScope v c.scope then c.scope else "")) ↔ True :=
      iff_true_intro (scope hv c.scope)
    have h5 := iff_true_intro (hashes hv c.hashes)
    simp only [Component.mapChildren, Component.XOwnListed, componentConverter_evidence, componentConverter_type,
      componentConverter_scope, componentConverter_hashes, evidence hv, h3, h4, h5]
    xversions hv using [componentConverter_type, componentConverter_scope, componentConverter_hashes, componentConverter_licenses, componentConverter_swid, componentConverter_pedigree, componentConverter_externalReferences, componentConverter_components, componentConverter_evidence, componentConverter_releaseNotes, componentConverter_modelCard, componentConverter_data, componentConverter_cryptoProperties, componentConverter_patentAssertions, convertExternalReferences, extref, licenses hv, evidence hv, modelCard, crypto,
      pedigree, patches, forall_and, imp_and]
    all_goals regroup

/-! ### Services -/

theorem service_listed (s : Service) : s.XListed v ↔
    (∀ y ∈ s.data.elems, DataClassification.XListed v y) ∧
    (∀ y ∈ s.licenses.elems, LicenseChoice.XListed v y) ∧
    (∀ y ∈ s.externalReferences.elems, ExternalReference.XListed v y) ∧
    (∀ d ∈ s.services.elems, d.XListed v) ∧
    (∀ y ∈ s.releaseNotes, ReleaseNotes.XListed v y) ∧
    (∀ y ∈ s.patentAssertions.elems, PatentAssertion.XListed v y) := by
  rw [← xlistedServices_iff]
  cases s
  simp only [Service.XListed]

theorem data (p : PSlice DataClassification) : (∀ y ∈ (convertDataClassifications v p).elems,
      DataClassification.XListed v y) ↔ ∀ y ∈ p.elems, DataClassification.XListed v y := by
  unfold convertDataClassifications
  split_ifs
  · rw [PSlice.elems_map, list_all]
    exact Iff.rfl
  · exact Iff.rfl

/-- A service with everything below it. -/
theorem service (h2 : SpecVersion1_2 ≤ v) (s : Service) :
    (recurseService (serviceConverter v) s).XListed v ↔ Service.XListedConverted v s := by
  induction s using Service.induct with
  | h s ih =>
    unfold Service.XListedConverted
    rw [walkService_all, recurseService_go', service_listed]
    have h1 : (∀ d ∈ s.services.elems, Service.XListed v (recurseService (serviceConverter v) d)) ↔
        ∀ d ∈ s.children, ∀ ss e, walkService d ss = some e → e.XOwnListed v :=
      forall₂_congr fun d hd => ih d hd
    rw [← h1]
    simp only [Service.mapChildren, Service.XOwnListed]
    have hv : SpecVersion1_0 ≤ v := by simp only [SpecVersion1_0, SpecVersion1_2] at *; omega
    xversions hv using [serviceConverter_data, serviceConverter_licenses, serviceConverter_externalReferences, serviceConverter_services, serviceConverter_releaseNotes, serviceConverter_patentAssertions, convertExternalReferences, extref, data]
    all_goals regroup

/-! ### Tools -/

theorem tool (hv : SpecVersion1_0 ≤ v) (x : Tool) : (convertTool v x).XListed v ↔
    (SpecVersion1_4 ≤ v → ∀ r ∈ x.externalReferences.elems, ExternalReference.XListedConverted v r) := by
  have h := iff_true_intro (hashes hv x.hashes)
  simp only [Tool.XListed, convertTool_hashes, h]
  xversions hv using [convertTool_externalReferences, convertExternalReferences, extref]

theorem toolService_listed (s : Service) : (toolService v s).XListed v ↔ s.XListed v := by
  rw [service_listed, service_listed, toolService]

theorem tools (hv : SpecVersion1_0 ≤ v) (x : ToolsChoice) :
    (convertTools v x).XListed v ↔ ToolsChoice.XListedConverted v x := by
  by_cases h : v < SpecVersion1_5
  · have h5 : ¬ SpecVersion1_5 ≤ v := by omega
    rw [convertTools_old h]
    simp only [ToolsChoice.XListed, ToolsChoice.XListedConverted, h, h5, PSlice.elems_map, list_all, legacy_elems,
      List.mem_append, or_imp, forall_and, tool hv, nil_elems, List.not_mem_nil, false_implies, implies_true,
      and_true, true_implies]
    by_cases h4 : SpecVersion1_4 ≤ v <;> simp [h4, convertComponentToTool, convertServiceToTool]
  · have h5 : SpecVersion1_5 ≤ v := by omega
    have h4 : SpecVersion1_4 ≤ v := by simp only [SpecVersion1_4, SpecVersion1_5] at *; omega
    rw [convertTools_new h]
    simp only [ToolsChoice.XListed, ToolsChoice.XListedConverted, h, h5, h4, PSlice.elems_map, list_all, tool hv,
      toolService_listed, true_implies, false_implies, true_and, implies_true]

/-! ### The rest -/

theorem rating (hv : SpecVersion1_0 ≤ v) (x : VulnerabilityRating) : (convertRating v x).XListed v ↔
    (x.severity ≠ "" → XPlace.ListsElem v .rating "severity" x.severity) := by
  have h := method hv x.method
  unfold convertRating VulnerabilityRating.XListed
  by_cases hs : supportsScoringMethod v x.method <;> simp_all

theorem vulnerability (hv : SpecVersion1_0 ≤ v) (x : Vulnerability) :
    (convertVulnerability v x).XListed v ↔ Vulnerability.XListedConverted v x := by
  xversions hv using [Vulnerability.XListed, Vulnerability.XListedConverted, convertVulnerability_ratings,
    convertVulnerability_proofOfConcept, convertVulnerability_tools, convertVulnerability_analysis,
    convertVulnerability_affects, rating hv, tools hv, VulnerabilityAnalysis.XListed]

theorem metadata (hv : SpecVersion1_0 ≤ v) (x : Metadata) :
    (convertMetadata v x).XListed v ↔ Metadata.XListedConverted v x := by
  xversions hv using [Metadata.XListed, Metadata.XListedConverted, convertMetadata_lifecycles, convertMetadata_tools,
    convertMetadata_component, convertMetadata_licenses, convertMetadata_distributionConstraints, tools hv, component hv,
    licenses hv]

theorem composition (h3 : SpecVersion1_3 ≤ v) (x : Composition) :
    (convertComposition v x).XListed v ↔ Composition.XListedConverted x := by
  rw [Composition.XListed, Composition.XListedConverted, convertComposition_aggregate,
    aggregate h3]

theorem annotations (h5 : SpecVersion1_5 ≤ v) (p : PSlice Annotation) :
    (∀ y ∈ (convertAnnotations v p).elems, Annotation.XListed v y) ↔
    ∀ y ∈ p.elems, Annotation.XListedConverted v y := by
  have hv : SpecVersion1_0 ≤ v := by simp only [SpecVersion1_0, SpecVersion1_5] at *; omega
  xversions hv using [convertAnnotations, Annotation.XListed, Annotation.XListedConverted, Annotator.XListed,
    Annotator.XListedConverted, convertAnnotator, service]

theorem bom (hv : SpecVersion1_0 ≤ v) (x : BOM) : (convert v x).XListed v ↔ BOM.XListedConverted v x := by
  xversions hv using [BOM.XListed, BOM.XListedConverted, convert_metadata, convert_components, convert_services, convert_externalReferences, convert_compositions, convert_vulnerabilities, convert_annotations, convert_formulation, convert_declarations, convert_definitions, metadata hv, component hv, service, extref,
    convertExternalReferences, convertCompositions, composition, convertVulnerabilities, vulnerability hv,
    annotations, Definitions.XListed]

/-! ### A BOM with the strings of the version -/

theorem license_of (x : LicenseChoice) (h : x.XListed v) : LicenseChoice.XListedConverted v x := fun _ =>
  ⟨fun y hy => ⟨fun _ => (h.1 y hy).1, (h.1 y hy).2.1, fun _ => (h.1 y hy).2.2⟩,
   fun hl he => ⟨(h.2 hl he).1, fun _ => (h.2 hl he).2⟩⟩

theorem extref_of (x : ExternalReference) (h : x.XListed v) : ExternalReference.XListedConverted v x :=
  ⟨lists_latest rfl (by decide) h.2, fun _ => h.2, fun _ => h.1⟩

theorem identity_of (x : EvidenceIdentityChoice) (h : x.XListed v) : EvidenceIdentityChoice.XListedConverted v x :=
  ⟨fun _ => h, fun _ => ⟨h.2, fun i hi => h.1 i (List.mem_of_mem_head? hi)⟩⟩

theorem evidence_of (x : Evidence) (h : x.XListed v) : Evidence.XListedConverted v x :=
  ⟨fun _ y hy => identity_of y (h.1 y hy), fun _ => h.2, fun _ y hy => license_of y (h.2 y hy)⟩

theorem crypto_of (x : CryptoProperties) (h : x.XListed v) : CryptoProperties.XListedConverted v x := by
  obtain ⟨h1, h2, h3, h4, h5⟩ := h
  refine ⟨h1, fun y hy => ?_, fun _ => h3, fun y hy => ?_, fun y hy hn => lists_latest rfl (by decide) (h5 y hy hn)⟩
  · obtain ⟨a, b⟩ := h2 y hy
    exact ⟨fun hn => lists_latest rfl (by decide) (a hn), fun hn => absurd rfl hn, b⟩
  · obtain ⟨a, b, c⟩ := h4 y hy
    exact ⟨a, b, fun _ => c⟩

theorem component_of (c : Component) : c.XListed v → Component.XListedConverted v c := by
  induction c using Component.induct with
  | h c ih =>
    unfold Component.XListedConverted
    rw [walk_all, component_listed]
    rintro ⟨-, -, -, h1, h2, h3, h4, h5, h6, h7, h8, h9, h10, h11⟩
    refine ⟨⟨fun y hy => license_of y (h1 y hy), fun _ => h2, fun _ p hp => (h3 p hp).2, fun _ y hy => extref_of y (h4 y hy),
      fun _ y hy => evidence_of y (h6 y hy), fun _ => h7, fun _ y hy => ⟨(h8 y hy).1, (h8 y hy).2.1, fun _ => (h8 y hy).2.2⟩,
      fun _ => h9, fun _ y hy => crypto_of y (h10 y hy), fun _ => h11⟩, fun e he => ih e he ?_⟩
    exact component_children_iff.2 ⟨h5, fun p hp => (h3 p hp).1⟩ e he

theorem service_of (s : Service) : s.XListed v → Service.XListedConverted v s := by
  induction s using Service.induct with
  | h s ih =>
    unfold Service.XListedConverted
    rw [walkService_all, service_listed]
    rintro ⟨h1, h2, h3, h4, h5, h6⟩
    exact ⟨⟨h1, h2, fun y hy => extref_of y (h3 y hy), fun _ => h5, fun _ => h6⟩, fun e he => ih e he (h4 e he)⟩

theorem tools_of (x : ToolsChoice) (h : x.XListed v) : ToolsChoice.XListedConverted v x :=
  ⟨fun _ t ht r hr => extref_of r ((h.1 t ht).2 r hr),
   fun _ _ => ⟨fun c hc r hr => extref_of r (((component_listed c).1 (h.2.1 c hc)).2.2.2.2.2.2.1 r hr),
     fun s hs r hr => extref_of r (((service_listed s).1 (h.2.2 s hs)).2.2.1 r hr)⟩,
   fun _ => h.2⟩

theorem bom_of (x : BOM) (h : x.XListed v) : BOM.XListedConverted v x := by
  obtain ⟨h2, h3, h4, h5, h6, h7, h8, h9, h10, h11⟩ := h
  refine ⟨fun _ y hy => ?_, fun y hy => component_of y (h3 y hy), fun _ y hy => service_of y (h4 y hy),
    fun _ y hy => extref_of y (h5 y hy), fun _ y hy => ?_, fun _ y hy => ?_, fun _ y hy => ?_, fun _ => h9, fun _ => h10,
    fun _ y hy => ⟨(h11 y hy).1, fun _ => (h11 y hy).2⟩⟩
  · obtain ⟨a, b, c, d, e⟩ := h2 y hy
    exact ⟨fun _ => a, fun z hz => tools_of z (b z hz), fun z hz => component_of z (c z hz),
      fun _ z hz => license_of z (d z hz), fun _ => e⟩
  · exact lists_latest rfl (by decide) (h6 y hy)
  · obtain ⟨a, b, c, d, e⟩ := h7 y hy
    exact ⟨fun z hz => (a z hz).1, fun _ => b, fun z hz => tools_of z (c z hz), d, e⟩
  · have a := h8 y hy
    exact fun z hz => ⟨(a z hz).1, fun _ w hw => service_of w ((a z hz).2 w hw), fun _ => (a z hz).2⟩

end XListedConverted
end Verif
