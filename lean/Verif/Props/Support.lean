import Verif.Proofs.Support

/-! # C26, C27, C45: which enumeration values a version supports -/

namespace Verif.Props

open Verif.Spec

/-- **C26**: whatever a version supports, every later version supports. -/
theorem support_monotone {v w : Int} (h : v ≤ w) (s : String) :
    (supportsComponentType v s → supportsComponentType w s) ∧
    (supportsHashAlgorithm v s → supportsHashAlgorithm w s) ∧
    (supportsScope v s → supportsScope w s) ∧
    (supportsScoringMethod v s → supportsScoringMethod w s) ∧
    (supportsExternalReferenceType v s → supportsExternalReferenceType w s) ∧
    (supportsCompositionAggregate v s → supportsCompositionAggregate w s) ∧
    (supportsCryptoPrimitive v s → supportsCryptoPrimitive w s) ∧
    (supportsCryptoProtocolType v s → supportsCryptoProtocolType w s) :=
  ⟨supportsComponentType_mono h, supportsHashAlgorithm_mono h, supportsScope_mono h,
   supportsScoringMethod_mono h, supportsExternalReferenceType_mono h,
   supportsCompositionAggregate_mono h, supportsCryptoPrimitive_mono h, supportsCryptoProtocolType_mono h⟩

example : supportsComponentType SpecVersion1_1 "file" = true ∧ SpecVersion1_1 ≤ SpecVersion1_6 := by decide

/-- **C27** (partial): version 1.7 supports every exported constant of the eight kinds, except the
component type `cryptographic-asset`. -/
theorem constants_supported_partial :
    (∀ t ∈ ComponentType.all, t ≠ "cryptographic-asset" → supportsComponentType SpecVersion1_7 t) ∧
    (∀ t ∈ HashAlgorithm.all, supportsHashAlgorithm SpecVersion1_7 t) ∧
    (∀ t ∈ Scope.all, supportsScope SpecVersion1_7 t) ∧
    (∀ t ∈ ScoringMethod.all, supportsScoringMethod SpecVersion1_7 t) ∧
    (∀ t ∈ ExternalReferenceType.all, supportsExternalReferenceType SpecVersion1_7 t) ∧
    (∀ t ∈ CompositionAggregate.all, supportsCompositionAggregate SpecVersion1_7 t) ∧
    (∀ t ∈ CryptoPrimitive.all, supportsCryptoPrimitive SpecVersion1_7 t) ∧
    (∀ t ∈ CryptoProtocolType.all, supportsCryptoProtocolType SpecVersion1_7 t) := by
  decide +kernel

/-- **C27** is false as stated: the exported constant `ComponentTypeCryptographicAsset` is supported by no
version at all. -/
theorem cryptographic_asset_unsupported :
    ComponentTypeCryptographicAsset ∈ ComponentType.all ∧
    ∀ v, supportsComponentType v ComponentTypeCryptographicAsset = false :=
  ⟨by decide, fun v => by
    unfold supportsComponentType
    repeat rw [if_neg (by decide)]⟩

/-! ## Agreement with the published schemas -/

/-- **C45** (hash algorithms): for every string, the code supports it exactly when the schema knows it. -/
theorem supportsHashAlgorithm_schema (v : Int) (s : String) :
    supportsHashAlgorithm v s ↔ Known hashAlgorithmSince v s := by
  rw [supportsHashAlgorithm_since]
  refine known_of_since ?_ (by decide +kernel)
  by_cases h : s ∈ hashAlgorithmSince.map Prod.fst
  · exact (by decide +kernel : ∀ s ∈ hashAlgorithmSince.map Prod.fst,
      sinceHashAlgorithm s = hashAlgorithmSince.lookup s) s h
  · rw [lookup_none h]
    unfold sinceHashAlgorithm
    repeat rw [if_neg fun hm => h ((by decide +kernel : ∀ t ∈ _, t ∈ hashAlgorithmSince.map Prod.fst) s hm)]

/-- **C45** (scoring methods): exact for every string. -/
theorem supportsScoringMethod_schema (v : Int) (s : String) :
    supportsScoringMethod v s ↔ Known scoringMethodSince v s := by
  rw [supportsScoringMethod_since]
  refine known_of_since ?_ (by decide +kernel)
  by_cases h : s ∈ scoringMethodSince.map Prod.fst
  · exact (by decide +kernel : ∀ s ∈ scoringMethodSince.map Prod.fst,
      sinceScoringMethod s = scoringMethodSince.lookup s) s h
  · rw [lookup_none h]
    unfold sinceScoringMethod
    repeat rw [if_neg fun hm => h ((by decide +kernel : ∀ t ∈ _, t ∈ scoringMethodSince.map Prod.fst) s hm)]

/-- **C45** (component types, partial): exact for every string except `cryptographic-asset`, which the
schemas know since 1.6 and the code never supports. -/
theorem supportsComponentType_schema_partial (v : Int) (s : String) (hs : s ≠ "cryptographic-asset") :
    supportsComponentType v s ↔ Known componentTypeSince v s := by
  rw [supportsComponentType_since]
  refine known_of_since ?_ (by decide +kernel)
  by_cases h : s ∈ componentTypeSince.map Prod.fst
  · exact (by decide +kernel : ∀ s ∈ componentTypeSince.map Prod.fst, s ≠ "cryptographic-asset" →
      sinceComponentType s = componentTypeSince.lookup s) s h hs
  · rw [lookup_none h]
    unfold sinceComponentType
    repeat rw [if_neg fun hm => h ((by decide +kernel : ∀ t ∈ _, t ∈ componentTypeSince.map Prod.fst) s hm)]

/-- **C45** (scopes, partial): exact for every string except `excluded`, which the schemas know since 1.1
and the code supports only from 1.2 on. -/
theorem supportsScope_schema_partial (v : Int) (s : String) (hs : s ≠ "excluded") :
    supportsScope v s ↔ Known scopeSince v s := by
  rw [supportsScope_since]
  refine known_of_since ?_ (by decide +kernel)
  by_cases h : s ∈ scopeSince.map Prod.fst
  · exact (by decide +kernel : ∀ s ∈ scopeSince.map Prod.fst, s ≠ "excluded" →
      sinceScope s = scopeSince.lookup s) s h hs
  · rw [lookup_none h]
    unfold sinceScope
    repeat rw [if_neg fun hm => h ((by decide +kernel : ∀ t ∈ _, t ∈ scopeSince.map Prod.fst) s hm)]

/-- What the code supports is never newer than the schema allows: component types, scopes. -/
theorem supportsComponentType_known (v : Int) (s : String) (h : supportsComponentType v s) :
    Known componentTypeSince v s := by
  by_cases hs : s = "cryptographic-asset"
  · subst hs; exact absurd (h.symm.trans (cryptographic_asset_unsupported.2 v)) (by decide)
  · exact (supportsComponentType_schema_partial v s hs).1 h

theorem supportsScope_known (v : Int) (s : String) (h : supportsScope v s) : Known scopeSince v s := by
  by_cases hs : s = "excluded"
  · subst hs
    refine ⟨SpecVersion1_1, by decide, ?_⟩
    obtain ⟨k, hk, hv⟩ := (supportsScope_since _ _).1 h
    have : k = SpecVersion1_2 := by
      have : sinceScope "excluded" = some SpecVersion1_2 := by decide
      rw [this] at hk; cases hk; rfl
    simp only [this, SpecVersion1_2, SpecVersion1_1] at *; omega
  · exact (supportsScope_schema_partial v s hs).1 h

/-- **C45** is false for the scope `excluded` at version 1.1: the 1.1 schema has it, the code drops it. -/
theorem excluded_scope_at_1_1 :
    Known scopeSince SpecVersion1_1 "excluded" ∧ supportsScope SpecVersion1_1 "excluded" = false :=
  ⟨⟨SpecVersion1_1, by decide, by decide⟩, by decide⟩

/-- The external reference types the code considers older than they are. -/
def prematureReferenceTypes : List String :=
  ["release-notes", "security-contact", "poam", "source-distribution", "electronic-signature",
   "digital-signature", "rfc-9116"]

/-- **C45** (external reference types, partial): exact for the schema's values except the seven of
`prematureReferenceTypes`. -/
theorem supportsExternalReferenceType_schema_partial (v : Int) (s : String)
    (h : s ∈ externalReferenceTypeSince.map Prod.fst) (hs : s ∉ prematureReferenceTypes) :
    supportsExternalReferenceType v s ↔ Known externalReferenceTypeSince v s := by
  rw [supportsExternalReferenceType_since]
  refine known_of_since ?_ (by decide +kernel)
  exact (by decide +kernel : ∀ s ∈ externalReferenceTypeSince.map Prod.fst, s ∉ prematureReferenceTypes →
    sinceExternalReferenceType s = externalReferenceTypeSince.lookup s) s h hs

/-- **C45** is false for each of the seven: the code supports it from 1.1 on, the 1.1 schema does not
know it. -/
theorem premature_reference_types : ∀ s ∈ prematureReferenceTypes,
    supportsExternalReferenceType SpecVersion1_1 s ∧ ¬ Known externalReferenceTypeSince SpecVersion1_1 s := by
  intro s hs
  refine ⟨(by decide +kernel : ∀ s ∈ prematureReferenceTypes,
    supportsExternalReferenceType SpecVersion1_1 s = true) s hs, ?_⟩
  rintro ⟨k, hm, hk⟩
  exact (by decide +kernel : ∀ e ∈ externalReferenceTypeSince, e.1 ∈ prematureReferenceTypes →
    ¬ e.2 ≤ SpecVersion1_1) _ hm hs hk

/-- **C45** (composition aggregates): exact for the schema's values. -/
theorem supportsCompositionAggregate_schema (v : Int) (s : String) (h : s ∈ aggregateSince.map Prod.fst) :
    supportsCompositionAggregate v s ↔ Known aggregateSince v s := by
  rw [supportsCompositionAggregate_since]
  refine known_of_since ?_ (by decide +kernel)
  exact (by decide +kernel : ∀ s ∈ aggregateSince.map Prod.fst,
    sinceCompositionAggregate s = aggregateSince.lookup s) s h

/-- **C45** (crypto primitives): exact for the schema's values. -/
theorem supportsCryptoPrimitive_schema (v : Int) (s : String)
    (h : s ∈ cryptoPrimitiveSince.map Prod.fst) :
    supportsCryptoPrimitive v s ↔ Known cryptoPrimitiveSince v s := by
  rw [supportsCryptoPrimitive_since]
  refine known_of_since ?_ (by decide +kernel)
  exact (by decide +kernel : ∀ s ∈ cryptoPrimitiveSince.map Prod.fst,
    sinceCryptoPrimitive s = cryptoPrimitiveSince.lookup s) s h

/-- **C45** (protocol types): exact for the schema's values. -/
theorem supportsCryptoProtocolType_schema (v : Int) (s : String)
    (h : s ∈ protocolTypeSince.map Prod.fst) :
    supportsCryptoProtocolType v s ↔ Known protocolTypeSince v s := by
  rw [supportsCryptoProtocolType_since]
  refine known_of_since ?_ (by decide +kernel)
  exact (by decide +kernel : ∀ s ∈ protocolTypeSince.map Prod.fst,
    sinceCryptoProtocolType s = protocolTypeSince.lookup s) s h

/-- The exported constants are values of the latest schema, kind by kind. -/
theorem constants_in_schema :
    (∀ t ∈ ComponentType.all, t ∈ componentTypeSince.map Prod.fst) ∧
    (∀ t ∈ HashAlgorithm.all, t ∈ hashAlgorithmSince.map Prod.fst) ∧
    (∀ t ∈ Scope.all, t ∈ scopeSince.map Prod.fst) ∧
    (∀ t ∈ ScoringMethod.all, t ∈ scoringMethodSince.map Prod.fst) ∧
    (∀ t ∈ ExternalReferenceType.all, t ∈ externalReferenceTypeSince.map Prod.fst) ∧
    (∀ t ∈ CompositionAggregate.all, t ∈ aggregateSince.map Prod.fst) ∧
    (∀ t ∈ CryptoPrimitive.all, t ∈ cryptoPrimitiveSince.map Prod.fst) ∧
    (∀ t ∈ CryptoProtocolType.all, t ∈ protocolTypeSince.map Prod.fst) := by
  decide +kernel

end Verif.Props
