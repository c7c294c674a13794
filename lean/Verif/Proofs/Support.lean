import Verif.Proofs.Convert
import Verif.Spec.Schema

/-! Helper lemmas: the support tables of the code, as "first version" functions. -/

namespace Verif

def sinceComponentType (t : ComponentType) : Option Int :=
  if t ∈ [ComponentTypeApplication, ComponentTypeDevice, ComponentTypeFramework, ComponentTypeLibrary,
      ComponentTypeOS] then some SpecVersion1_0
  else if t ∈ [ComponentTypeFile] then some SpecVersion1_1
  else if t ∈ [ComponentTypeContainer, ComponentTypeFirmware] then some SpecVersion1_2
  else if t ∈ [ComponentTypeData, ComponentTypeDeviceDriver, ComponentTypeMachineLearningModel,
      ComponentTypePlatform] then some SpecVersion1_5
  else none

def sinceCompositionAggregate (t : CompositionAggregate) : Option Int :=
  if t ∈ [CompositionAggregateIncompleteFirstPartyOpenSourceOnly,
      CompositionAggregateIncompleteFirstPartyProprietaryOnly,
      CompositionAggregateIncompleteThirdPartyOpenSourceOnly,
      CompositionAggregateIncompleteThirdPartyProprietaryOnly] then some SpecVersion1_5
  else some SpecVersion1_3

def sinceExternalReferenceType (t : ExternalReferenceType) : Option Int :=
  if t ∈ [ERTypeAdversaryModel, ERTypeAttestation, ERTypeCertificationReport,
      ERTypeCodifiedInfrastructure, ERTypeComponentAnalysisReport, ERTypeConfiguration,
      ERTypeDistributionIntake, ERTypeDynamicAnalysisReport, ERTypeEvidence,
      ERTypeExploitabilityStatement, ERTypeFormulation, ERTypeLog, ERTypeMaturityReport,
      ERTypeModelCard, ERTypePentestReport, ERTypeQualityMetrics, ERTypeRiskAssessment,
      ERTypeRuntimeAnalysisReport, ERTypeStaticAnalysisReport, ERTypeThreatModel,
      ERTypeVulnerabilityAssertion] then some SpecVersion1_5
  else if t ∈ [ERTypePatent, ERTypePatentFamily, ERTypePatentAssertion, ERTypeCitation] then
    some SpecVersion1_7
  else some SpecVersion1_1

def sinceCryptoPrimitive (t : CryptoPrimitive) : Option Int :=
  if t ∈ [CryptoPrimitiveKeyWrap] then some SpecVersion1_7 else some SpecVersion1_6

def sinceCryptoProtocolType (t : CryptoProtocolType) : Option Int :=
  if t ∈ [CryptoProtocolTypeDTLS, CryptoProtocolTypeQUIC, CryptoProtocolTypeEAPAKA,
      CryptoProtocolTypeEAPAKAPrime, CryptoProtocolTypePRINS, CryptoProtocolType5GAKA] then
    some SpecVersion1_7
  else some SpecVersion1_6

def sinceHashAlgorithm (t : HashAlgorithm) : Option Int :=
  if t ∈ [HashAlgoMD5, HashAlgoSHA1, HashAlgoSHA256, HashAlgoSHA384, HashAlgoSHA512, HashAlgoSHA3_256,
      HashAlgoSHA3_512] then some SpecVersion1_0
  else if t ∈ [HashAlgoSHA3_384, HashAlgoBlake2b_256, HashAlgoBlake2b_384, HashAlgoBlake2b_512,
      HashAlgoBlake3] then some SpecVersion1_2
  else if t ∈ [HashAlgoStreebog256, HashAlgoStreebog512] then some SpecVersion1_7
  else none

def sinceScope (t : Scope) : Option Int :=
  if t ∈ [ScopeRequired, ScopeOptional] then some SpecVersion1_0
  else if t ∈ [ScopeExcluded] then some SpecVersion1_2
  else none

def sinceScoringMethod (t : ScoringMethod) : Option Int :=
  if t ∈ [ScoringMethodCVSSv2, ScoringMethodCVSSv3, ScoringMethodCVSSv31, ScoringMethodOWASP,
      ScoringMethodOther] then some SpecVersion1_4
  else if t ∈ [ScoringMethodCVSSv4, ScoringMethodSSVC] then some SpecVersion1_5
  else none

theorem supportsComponentType_since (v : Int) (t : ComponentType) : supportsComponentType v t = true ↔
    ∃ k, sinceComponentType t = some k ∧ k ≤ v := by
  unfold supportsComponentType sinceComponentType
  repeat' split
  all_goals simp

theorem supportsCompositionAggregate_since (v : Int) (t : CompositionAggregate) : supportsCompositionAggregate v t = true ↔
    ∃ k, sinceCompositionAggregate t = some k ∧ k ≤ v := by
  unfold supportsCompositionAggregate sinceCompositionAggregate
  repeat' split
  all_goals simp

theorem supportsExternalReferenceType_since (v : Int) (t : ExternalReferenceType) : supportsExternalReferenceType v t = true ↔
    ∃ k, sinceExternalReferenceType t = some k ∧ k ≤ v := by
  unfold supportsExternalReferenceType sinceExternalReferenceType
  repeat' split
  all_goals simp

theorem supportsCryptoPrimitive_since (v : Int) (t : CryptoPrimitive) : supportsCryptoPrimitive v t = true ↔
    ∃ k, sinceCryptoPrimitive t = some k ∧ k ≤ v := by
  unfold supportsCryptoPrimitive sinceCryptoPrimitive
  repeat' split
  all_goals simp

theorem supportsCryptoProtocolType_since (v : Int) (t : CryptoProtocolType) : supportsCryptoProtocolType v t = true ↔
    ∃ k, sinceCryptoProtocolType t = some k ∧ k ≤ v := by
  unfold supportsCryptoProtocolType sinceCryptoProtocolType
  repeat' split
  all_goals simp

theorem supportsHashAlgorithm_since (v : Int) (t : HashAlgorithm) : supportsHashAlgorithm v t = true ↔
    ∃ k, sinceHashAlgorithm t = some k ∧ k ≤ v := by
  unfold supportsHashAlgorithm sinceHashAlgorithm
  repeat' split
  all_goals simp

theorem supportsScope_since (v : Int) (t : Scope) : supportsScope v t = true ↔
    ∃ k, sinceScope t = some k ∧ k ≤ v := by
  unfold supportsScope sinceScope
  repeat' split
  all_goals simp

theorem supportsScoringMethod_since (v : Int) (t : ScoringMethod) : supportsScoringMethod v t = true ↔
    ∃ k, sinceScoringMethod t = some k ∧ k ≤ v := by
  unfold supportsScoringMethod sinceScoringMethod
  repeat' split
  all_goals simp

theorem Spec.known_of_since {table : List (String × Int)} {f : String → Option Int} {v : Int} {s : String}
    (h : f s = table.lookup s) (hd : ∀ e ∈ table, table.lookup e.1 = some e.2) :
    (∃ k, f s = some k ∧ k ≤ v) ↔ Spec.Known table v s := by
  rw [h]
  constructor
  · rintro ⟨k, hk, hv⟩
    refine ⟨k, ?_, hv⟩
    obtain ⟨l1, l2, hl, _⟩ := List.lookup_eq_some_iff.1 hk
    rw [hl]; simp
  · rintro ⟨k, hm, hv⟩
    exact ⟨k, hd _ hm, hv⟩

theorem Spec.lookup_none {table : List (String × Int)} {s : String}
    (h : s ∉ table.map Prod.fst) : table.lookup s = none := by
  rw [List.lookup_eq_none_iff]
  intro p hp
  cases hb : s == p.1
  · simp only [bne, hb, Bool.not_false]
  · exact absurd (List.mem_map.2 ⟨p, hp, (eq_of_beq hb).symm⟩) h

end Verif
