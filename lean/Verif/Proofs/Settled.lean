import Verif.Spec.Settled
import Verif.Proofs.FitsConverted

/-!
# `Settled` is exactly what the conversion leaves as it is
-/

namespace Verif

set_option linter.unusedSimpArgs false

open Spec (walk walkService Known Late hashAlgorithmSince componentTypeSince scopeSince externalReferenceTypeSince
  aggregateSince scoringMethodSince cryptoPrimitiveSince protocolTypeSince)

namespace Settled

variable {v : Int}

theorem ps_iff {α : Type} {f : α → α} (p : PSlice α) : p.map f = p ↔ ∀ a ∈ p.elems, f a = a := by
  constructor
  · intro h a ha
    cases p with
    | list xs =>
      simp only [PSlice.map, PSlice.list.injEq] at h
      have : xs.map f = xs.map id := by rw [h, List.map_id]
      exact List.map_inj_left.1 this a ha
    | nil => simp [PSlice.elems] at ha
    | nilSlice => simp [PSlice.elems] at ha
  · exact PSlice.map_id'

theorem opt_iff {α : Type} {f : α → α} (o : Option α) : o.map f = o ↔ ∀ a ∈ o, f a = a := by
  cases o <;> simp

theorem ite_iff {α : Type} {k : Int} (d x : α) : (if v < k then d else x) = x ↔ x = d ∨ k ≤ v := by
  by_cases h : v < k
  · simp only [h, if_true]
    constructor
    · intro e; exact .inl e.symm
    · rintro (e | e)
      · exact e.symm
      · omega
  · simp only [h, if_false, true_iff]
    exact .inr (by omega)

theorem ite_iff' {α : Type} {k : Int} (d y x : α) :
    (if v < k then d else y) = x ↔ (v < k ∧ x = d) ∨ (k ≤ v ∧ y = x) := by
  by_cases h : v < k
  · simp only [h, if_true, true_and]
    constructor
    · intro e; exact .inl e.symm
    · rintro (e | e)
      · exact e.symm
      · omega
  · simp only [h, if_false, false_and, false_or]
    exact ⟨fun e => ⟨by omega, e⟩, fun e => e.2⟩

theorem keep_iff {p : Bool} (d x : String) : (if p = true then x else d) = x ↔ p = true ∨ x = d := by
  cases p
  · simp only [Bool.false_eq_true, if_false, false_or]; exact ⟨fun e => e.symm, fun e => e.symm⟩
  · simp

/-! ### Strings -/

theorem not_known_late {table : List (String × Int)} {s : String} {k : Int} (hd : ∀ e ∈ table, table.lookup e.1 = some e.2)
    (hm : (s, k) ∈ table) : ¬ Known table v s ↔ Late table v s := by
  constructor
  · intro h
    exact ⟨k, hm, by
      by_cases hk : v < k
      · exact hk
      · exact absurd ⟨k, hm, by omega⟩ h⟩
  · rintro ⟨k', hk', hv⟩ ⟨k'', hk'', hv''⟩
    have h1 := hd _ hk'
    have h2 := hd _ hk''
    simp only [h1, Option.some.injEq] at h2
    omega

theorem support_late {table : List (String × Int)} {s : String} {p : Bool} (hd : ∀ e ∈ table, table.lookup e.1 = some e.2)
    (hin : s ∈ table.map Prod.fst → (p = true ↔ Known table v s)) (hout : s ∉ table.map Prod.fst → p = true) :
    p = true ↔ ¬ Late table v s := by
  by_cases h : s ∈ table.map Prod.fst
  · obtain ⟨⟨s', k⟩, hm, rfl⟩ := List.mem_map.1 h
    rw [hin h, ← not_known_late hd hm, Classical.not_not]
  · simp only [hout h, true_iff]
    rintro ⟨k, hk, -⟩
    exact h (List.mem_map.2 ⟨_, hk, rfl⟩)

theorem aggregate_iff (hv : SpecVersion1_3 ≤ v) (s : String) :
    (if supportsCompositionAggregate v s = true then s else CompositionAggregateUnknown) = s ↔ ¬ Late aggregateSince v s := by
  rw [keep_iff]
  have key : supportsCompositionAggregate v s = true ↔ ¬ Late aggregateSince v s := by
    refine support_late (by decide +kernel) (Props.supportsCompositionAggregate_schema v s) fun h => ?_
    unfold supportsCompositionAggregate
    rw [if_neg, decide_eq_true_eq]
    · exact hv
    · intro hm
      exact h ((by decide +kernel : ∀ t ∈ [CompositionAggregateIncompleteFirstPartyOpenSourceOnly,
        CompositionAggregateIncompleteFirstPartyProprietaryOnly, CompositionAggregateIncompleteThirdPartyOpenSourceOnly,
        CompositionAggregateIncompleteThirdPartyProprietaryOnly], t ∈ aggregateSince.map Prod.fst) s hm)
  rw [key, or_iff_left_of_imp]
  rintro rfl
  rw [← key]
  exact supportsCompositionAggregate_mono hv (by decide)

theorem primitive_iff (hv : SpecVersion1_6 ≤ v) (s : String) :
    (if supportsCryptoPrimitive v s = true then s else "") = s ↔ ¬ Late cryptoPrimitiveSince v s := by
  rw [keep_iff]
  have key : supportsCryptoPrimitive v s = true ↔ ¬ Late cryptoPrimitiveSince v s := by
    refine support_late (by decide +kernel) (Props.supportsCryptoPrimitive_schema v s) fun h => ?_
    unfold supportsCryptoPrimitive
    rw [if_neg, decide_eq_true_eq]
    · exact hv
    · intro hm
      exact h ((by decide +kernel : ∀ t ∈ [CryptoPrimitiveKeyWrap], t ∈ cryptoPrimitiveSince.map Prod.fst) s hm)
  rw [key, or_iff_left_of_imp]
  rintro rfl
  rw [← key]
  exact supportsCryptoPrimitive_mono hv (by decide)

theorem protocol_iff (hv : SpecVersion1_6 ≤ v) (s : String) :
    (if supportsCryptoProtocolType v s = true then s else "") = s ↔ ¬ Late protocolTypeSince v s := by
  rw [keep_iff]
  have key : supportsCryptoProtocolType v s = true ↔ ¬ Late protocolTypeSince v s := by
    refine support_late (by decide +kernel) (Props.supportsCryptoProtocolType_schema v s) fun h => ?_
    unfold supportsCryptoProtocolType
    rw [if_neg, decide_eq_true_eq]
    · exact hv
    · intro hm
      exact h ((by decide +kernel : ∀ t ∈ [CryptoProtocolTypeDTLS, CryptoProtocolTypeQUIC, CryptoProtocolTypeEAPAKA,
        CryptoProtocolTypeEAPAKAPrime, CryptoProtocolTypePRINS, CryptoProtocolType5GAKA],
        t ∈ protocolTypeSince.map Prod.fst) s hm)
  rw [key, or_iff_left_of_imp]
  rintro rfl
  rw [← key]
  exact supportsCryptoProtocolType_mono hv (by decide)

theorem reference_iff (hv : SpecVersion1_1 ≤ v) (s : String) :
    (if supportsExternalReferenceType v s = true then s else ERTypeOther) = s ↔
      (Late externalReferenceTypeSince v s → s ∈ lateReferenceTypes) := by
  rw [keep_iff]
  have key : supportsExternalReferenceType v s = true ↔ (Late externalReferenceTypeSince v s → s ∈ lateReferenceTypes) := by
    by_cases hp : s ∈ lateReferenceTypes
    · simp only [hp, implies_true, iff_true]
      exact supportsExternalReferenceType_mono hv
        ((Props.premature_reference_types s hp).1)
    · simp only [hp, imp_false]
      refine support_late (by decide +kernel)
        (fun h => Props.supportsExternalReferenceType_schema_partial v s h hp) fun h => ?_
      have out : ∀ t ∈ externalReferenceTypeSince.map Prod.fst, t ≠ s := fun t ht e => h (e ▸ ht)
      unfold supportsExternalReferenceType
      rw [if_neg, if_neg, decide_eq_true_eq]
      · exact hv
      · intro hm
        exact out s ((by decide +kernel : ∀ t ∈ [ERTypePatent, ERTypePatentFamily, ERTypePatentAssertion, ERTypeCitation],
          t ∈ externalReferenceTypeSince.map Prod.fst) s hm) rfl
      · intro hm
        exact out s ((by decide +kernel : ∀ t ∈ [ERTypeAdversaryModel, ERTypeAttestation, ERTypeCertificationReport,
          ERTypeCodifiedInfrastructure, ERTypeComponentAnalysisReport, ERTypeConfiguration,
          ERTypeDistributionIntake, ERTypeDynamicAnalysisReport, ERTypeEvidence,
          ERTypeExploitabilityStatement, ERTypeFormulation, ERTypeLog, ERTypeMaturityReport,
          ERTypeModelCard, ERTypePentestReport, ERTypeQualityMetrics, ERTypeRiskAssessment,
          ERTypeRuntimeAnalysisReport, ERTypeStaticAnalysisReport, ERTypeThreatModel,
          ERTypeVulnerabilityAssertion], t ∈ externalReferenceTypeSince.map Prod.fst) s hm) rfl
  rw [key, or_iff_left_of_imp]
  rintro rfl
  rw [← key]
  exact supportsExternalReferenceType_mono hv (by decide)

theorem type_iff (hv : SpecVersion1_0 ≤ v) (s : String) :
    (if supportsComponentType v s = true then s else ComponentTypeApplication) = s ↔
      Known componentTypeSince v s ∧ s ≠ "cryptographic-asset" := by
  rw [keep_iff]
  have key : supportsComponentType v s = true ↔ Known componentTypeSince v s ∧ s ≠ "cryptographic-asset" := by
    by_cases hc : s = "cryptographic-asset"
    · subst hc
      simp only [ne_eq, not_true_eq_false, and_false, iff_false, Bool.not_eq_true]
      exact Props.cryptographic_asset_unsupported.2 v
    · rw [Props.supportsComponentType_schema_partial v s hc]
      simp [hc]
  rw [key, or_iff_left_of_imp]
  rintro rfl
  rw [← key]
  exact supportsComponentType_mono hv (by decide)

theorem scope_iff (s : String) : (if supportsScope v s = true then s else "") = s ↔
    s = "" ∨ Known scopeSince v s ∧ (s = "excluded" → SpecVersion1_2 ≤ v) := by
  rw [keep_iff, or_comm]
  refine or_congr_right ?_
  by_cases hx : s = "excluded"
  · subst hx
    have : supportsScope v "excluded" = true ↔ SpecVersion1_2 ≤ v := by
      rw [supportsScope_since]
      constructor
      · rintro ⟨k, hk, hv⟩
        have : sinceScope "excluded" = some SpecVersion1_2 := by decide
        rw [this, Option.some.injEq] at hk
        omega
      · intro h
        exact ⟨SpecVersion1_2, by decide, h⟩
    rw [this]
    constructor
    · intro h
      refine ⟨⟨SpecVersion1_1, by decide, ?_⟩, fun _ => h⟩
      simp only [SpecVersion1_1, SpecVersion1_2] at *; omega
    · exact fun h => h.2 rfl
  · rw [Props.supportsScope_schema_partial v s hx]
    simp [hx]

theorem rating_iff (hv : SpecVersion1_4 ≤ v) (r : VulnerabilityRating) :
    convertRating v r = r ↔ Known scoringMethodSince v r.method := by
  rw [← Props.supportsScoringMethod_schema]
  unfold convertRating
  cases h : supportsScoringMethod v r.method
  · simp only [Bool.not_false, if_true, Bool.false_eq_true, iff_false]
    intro e
    have : r.method = ScoringMethodOther := by rw [← e]
    rw [this] at h
    rw [supportsScoringMethod_mono hv (by decide)] at h
    cases h
  · simp

/-! ### Values -/

theorem contact (x : OrganizationalContact) : convertOrganizationalContact v x = x ↔ x.Settled v := by
  unfold convertOrganizationalContact OrganizationalContact.Settled
  rw [ite_iff]
  refine or_congr_left ?_
  cases x; simp

theorem entity (x : OrganizationalEntity) : convertOrganizationalEntity v x = x ↔ x.Settled v := by
  rw [OrganizationalEntity.ext_iff]
  simp only [convertOrganizationalEntity_bomRef, convertOrganizationalEntity_name, convertOrganizationalEntity_address,
    convertOrganizationalEntity_url, convertOrganizationalEntity_contact, true_and, ite_iff, OrganizationalEntity.Settled]
  refine and_congr_right fun _ => and_congr_right fun _ => ?_
  rw [eq_comm, ps_iff]
  simp only [contact]
  exact or_iff_left_of_imp fun h y _ => .inr h

theorem composition (hv : SpecVersion1_3 ≤ v) (x : Composition) : convertComposition v x = x ↔ x.Settled v := by
  rw [Composition.ext_iff]
  simp only [convertComposition_bomRef, convertComposition_aggregate, convertComposition_assemblies,
    convertComposition_dependencies, convertComposition_vulnerabilities, convertComposition_signature,
    ite_iff, aggregate_iff hv, true_and, and_true, Composition.Settled]
  exact iff_of_eq (by ac_rfl)

theorem classifications (p : PSlice DataClassification) :
    convertDataClassifications v p = p ↔ ∀ y ∈ p.elems, DataClassification.Settled v y := by
  unfold convertDataClassifications
  rw [ite_iff, eq_comm, ps_iff]
  have : ∀ d : DataClassification, { d with name := "", description := "", governance := none, source := .nil, destination := .nil } = d ↔
      d.name = "" ∧ d.description = "" ∧ d.governance = none ∧ d.source = .nil ∧ d.destination = .nil := by
    intro d
    cases d
    simp only [DataClassification.mk.injEq, true_and]
    constructor <;> (rintro ⟨h1, h2, h3, h4, h5⟩; exact ⟨h1.symm, h2.symm, h3.symm, h4.symm, h5.symm⟩)
  simp only [this, DataClassification.Settled]
  constructor
  · rintro (h | h) y hy
    · exact .inl (h y hy)
    · exact .inr h
  · intro h
    by_cases hv : SpecVersion1_6 ≤ v
    · exact .inr hv
    · exact .inl fun y hy => (h y hy).resolve_right hv

theorem reference (hv : SpecVersion1_1 ≤ v) (x : ExternalReference) : convertExternalReference v x = x ↔ x.Settled v := by
  rw [ExternalReference.ext_iff]
  simp only [convertExternalReference_url, convertExternalReference_comment, convertExternalReference_hashes,
    convertExternalReference_type, convertExternalReference_properties, ite_iff, reference_iff hv, true_and, and_true,
    ExternalReference.Settled]
  exact iff_of_eq (by ac_rfl)

theorem references (hv : SpecVersion1_1 ≤ v) (p : PSlice ExternalReference) :
    convertExternalReferences v p = p ↔ ∀ y ∈ p.elems, ExternalReference.Settled v y := by
  unfold convertExternalReferences
  simp only [ps_iff, reference hv]

theorem hashes (p : PSlice Hash) : convertHashes v p = p ↔ HashesSettled v p := by
  unfold HashesSettled
  match p with
  | .nil => simp [convertHashes, PSlice.elems]
  | .nilSlice => simp [convertHashes, PSlice.elems, storeOrNil]
  | .list [] => simp [convertHashes, PSlice.elems, storeOrNil]
  | .list (x :: xs) =>
    rw [convertHashes_of_ne (by simp)]
    simp only [PSlice.elems, ne_eq, PSlice.list.injEq, List.cons_ne_nil, not_false_eq_true, true_and,
      ← Props.supportsHashAlgorithm_schema]
    generalize hl : x :: xs = l
    rw [← List.filter_eq_self]
    constructor
    · intro h
      have := congrArg PSlice.elems h
      rwa [storeOrNil_elems] at this
    · intro h
      rw [h, ← hl]; rfl

theorem party (x : OrganizationalEntityOrContact) : convertParty v x = x ↔ x.Settled v := by
  unfold convertParty OrganizationalEntityOrContact.Settled
  cases x
  simp only [OrganizationalEntityOrContact.mk.injEq, and_true, opt_iff, entity]

theorem licensing (x : Licensing) : convertLicensing v x = x ↔ x.Settled v := by
  unfold convertLicensing Licensing.Settled
  cases x
  simp only [Licensing.mk.injEq, and_true, true_and, opt_iff, party]

theorem entity_new (h : SpecVersion1_6 ≤ v) (x : OrganizationalEntity) : x.Settled v := by
  have h5 : SpecVersion1_5 ≤ v := by simp only [SpecVersion1_5, SpecVersion1_6] at *; omega
  exact ⟨.inr h5, .inr h, fun y _ => .inr h5⟩

theorem licensing_new (h : SpecVersion1_6 ≤ v) (x : Licensing) : x.Settled v :=
  ⟨fun _ _ _ _ => entity_new h _, fun _ _ _ _ => entity_new h _, fun _ _ _ _ => entity_new h _⟩

theorem license (x : License) : licenseOf v x = x ↔ x.Settled v := by
  unfold licenseOf License.Settled
  cases x with
  | mk bomRef id name acknowledgement text url lic properties =>
  simp only [License.mk.injEq, and_true, true_and, ite_iff]
  have : ((if v < SpecVersion1_5 then none else if v < SpecVersion1_6 then lic.map (convertLicensing v) else lic) = lic) ↔
      (lic = none ∨ SpecVersion1_5 ≤ v ∧ ∀ y ∈ lic, Licensing.Settled v y) := by
    by_cases h5 : v < SpecVersion1_5
    · simp only [h5, if_true]
      constructor
      · intro h; exact .inl h.symm
      · rintro (h | h)
        · exact h.symm
        · omega
    · by_cases h6 : v < SpecVersion1_6
      · simp only [h5, h6, if_false, if_true, opt_iff, licensing]
        constructor
        · exact fun h => .inr ⟨by omega, h⟩
        · rintro (rfl | h)
          · simp
          · exact h.2
      · simp only [h5, h6, if_false, true_iff]
        exact .inr ⟨by omega, fun y _ => licensing_new (by omega) y⟩
  rw [this]

theorem choice (x : LicenseChoice) : licenseChoice v x = x ↔ x.Settled v := by
  rw [licenseChoice_eq]
  unfold LicenseChoice.Settled
  cases x
  simp only [LicenseChoice.mk.injEq, and_true, true_and, ite_iff, opt_iff, license]

/-- What the branch below version 1.1 makes of a license is plain, if it is kept. -/
theorem plain_of (x : LicenseChoice) (h : (convertLicense1_0 x).license.isSome = true) :
    (licenseChoice v (convertLicense1_0 x)).Plain1_0 := by
  rw [licenseChoice_eq]
  unfold convertLicense1_0 at h ⊢
  unfold LicenseChoice.Plain1_0
  rcases x with ⟨_ | l⟩
  · simp at h
  · by_cases hl : l.id = "" ∧ l.name = ""
    · simp [hl] at h
    · simp only [hl, if_false]
      refine ⟨trivial, _, rfl, ?_, rfl, rfl⟩
      simp only [licenseOf]
      by_cases hi : l.id = ""
      · exact .inr fun hn => hl ⟨hi, hn⟩
      · exact .inl hi

theorem of_plain (x : LicenseChoice) (h : x.Plain1_0) :
    convertLicense1_0 x = x ∧ (convertLicense1_0 x).license.isSome = true := by
  obtain ⟨he, l, hl, hn, ht, hu⟩ := h
  have : ¬ (l.id = "" ∧ l.name = "") := fun h => hn.elim (· h.1) (· h.2)
  have e : ({ l with text := none, url := "" } : License) = l := by
    cases l; simp only [License.mk.injEq, true_and, and_true]; exact ⟨ht.symm, hu.symm⟩
  have : convertLicense1_0 x = x := by
    unfold convertLicense1_0
    rw [hl]
    simp only [this, if_false, e]
    cases x
    simp only [LicenseChoice.mk.injEq, true_and, and_true]
    exact ⟨hl.symm, he.symm⟩
  exact ⟨this, by rw [this, hl]; rfl⟩

theorem licenses (ls : PSlice LicenseChoice) : convertLicenses v ls = ls ↔ LicensesSettled v ls := by
  rw [convertLicenses_eq]
  unfold LicensesSettled
  by_cases hv : v < SpecVersion1_1
  · have hn : ¬ SpecVersion1_1 ≤ v := by omega
    simp only [hv, if_true, hn, false_or]
    match ls with
    | .nil => simp [convertLicenses1_0, PSlice.elems, PSlice.map]
    | .nilSlice => simp [convertLicenses1_0, PSlice.elems, storeOrNil, PSlice.map]
    | .list [] => simp [convertLicenses1_0, PSlice.elems, storeOrNil, PSlice.map]
    | .list (x :: xs) =>
      rw [convertLicenses1_0_of_ne (by simp), storeOrNil_map]
      simp only [PSlice.elems, ne_eq, PSlice.list.injEq, List.cons_ne_nil, not_false_eq_true, true_and]
      generalize hl : x :: xs = l
      constructor
      · intro h
        have h := congrArg PSlice.elems h
        rw [storeOrNil_elems] at h
        simp only [PSlice.elems] at h
        have hf : (l.map convertLicense1_0).filter (fun c => c.license.isSome) = l.map convertLicense1_0 := by
          apply List.Sublist.eq_of_length List.filter_sublist
          have := congrArg List.length h
          rw [List.length_map] at this
          rw [this, List.length_map]
        rw [hf, List.map_map] at h
        have h' : ∀ a ∈ l, licenseChoice v (convertLicense1_0 a) = a := by
          have : l.map (licenseChoice v ∘ convertLicense1_0) = l.map id := by rw [h, List.map_id]
          exact List.map_inj_left.1 this
        have hs : ∀ a ∈ l, (convertLicense1_0 a).license.isSome = true := by
          intro a ha
          exact (List.filter_eq_self.1 hf) _ (List.mem_map.2 ⟨a, ha, rfl⟩)
        refine ⟨fun a ha => h' a ha ▸ plain_of a (hs a ha), fun a ha => (choice a).1 ?_⟩
        rw [← h' a ha, licenseChoice_absorb (Int.le_refl v)]
      · rintro ⟨hp, hc⟩
        have h1 : l.map convertLicense1_0 = l := by
          have : l.map convertLicense1_0 = l.map id := List.map_inj_left.2 fun a ha => (of_plain a (hp a ha)).1
          rw [this, List.map_id]
        have h2 : l.filter (fun c => c.license.isSome) = l := List.filter_eq_self.2 fun a ha => by
          have := (of_plain a (hp a ha))
          rw [this.1] at this
          exact this.2
        have h3 : l.map (licenseChoice v) = l := by
          have : l.map (licenseChoice v) = l.map id := List.map_inj_left.2 fun a ha => (choice a).2 (hc a ha)
          rw [this, List.map_id]
        rw [h1, h2, h3, ← hl]; rfl
  · have hn : SpecVersion1_1 ≤ v := by omega
    simp only [hv, if_false, hn, true_or, true_and, ps_iff, choice]

/-! ### Parts of components -/

theorem identity (h6 : v < SpecVersion1_6) (o : Option EvidenceIdentityChoice) :
    clearConcludedValue (firstIdentity o) = o ↔ ∀ y ∈ o, EvidenceIdentityChoice.Settled v y := by
  have h6' : ¬ SpecVersion1_6 ≤ v := by omega
  simp only [EvidenceIdentityChoice.Settled, h6', false_or]
  rcases o with _ | ⟨id, ids⟩
  · simp [clearConcludedValue, firstIdentity]
  · have hc : ∀ i : EvidenceIdentity, { i with concludedValue := "" } = i ↔ i.concludedValue = "" := by
      intro i; cases i; simp [eq_comm]
    match ids with
    | .nil =>
      simp only [firstIdentity, clearConcludedValue, Option.map_some, Option.some.injEq,
        EvidenceIdentityChoice.mk.injEq, and_true, opt_iff, hc, Option.mem_some_iff, forall_eq', true_and]
    | .nilSlice => simp [firstIdentity, clearConcludedValue, PSlice.elems]
    | .list [] => simp [firstIdentity, clearConcludedValue, PSlice.elems]
    | .list (i :: is) => simp [firstIdentity, clearConcludedValue, PSlice.elems]

theorem occurrence (h6 : v < SpecVersion1_6) (x : EvidenceOccurrence) : clearOccurrence x = x ↔ x.Settled v := by
  have h6' : ¬ SpecVersion1_6 ≤ v := by omega
  unfold EvidenceOccurrence.Settled clearOccurrence
  simp only [h6', or_false]
  cases x
  simp only [EvidenceOccurrence.mk.injEq, true_and]
  constructor <;> (rintro ⟨h1, h2, h3, h4⟩; exact ⟨h1.symm, h2.symm, h3.symm, h4.symm⟩)

theorem evidence (o : Option Evidence) : convertEvidence v o = o ↔ ∀ y ∈ o, Evidence.Settled v y := by
  rcases o with _ | e
  · simp [convertEvidence]
  · simp only [Option.mem_some_iff, forall_eq']
    unfold Evidence.Settled
    by_cases h3 : v < SpecVersion1_3
    · have : ¬ SpecVersion1_3 ≤ v := by omega
      simp [convertEvidence, h3, this]
    · have h3' : SpecVersion1_3 ≤ v := by omega
      by_cases h5 : v < SpecVersion1_5
      · have : ¬ SpecVersion1_5 ≤ v := by omega
        simp only [convertEvidence, h3, h5, if_true, if_false, Option.some.injEq, h3', this, false_and, or_false,
          false_implies, and_true, true_and]
        cases e
        simp only [Evidence.mk.injEq, and_true]
        constructor <;> (rintro ⟨h1, h2, h3⟩; exact ⟨h1.symm, h2.symm, h3.symm⟩)
      · have h5' : SpecVersion1_5 ≤ v := by omega
        have left : ∀ {p q : Prop}, (p → q) → (p ∨ q ↔ q) := fun h => or_iff_right_of_imp h
        by_cases h6 : v < SpecVersion1_6
        · simp only [convertEvidence, h3, h5, h6, if_true, if_false, Option.some.injEq, h3', h5', true_and, or_true,
            true_implies]
          cases e with
          | mk id occ cs lic cr =>
          simp only [Evidence.mk.injEq, and_true, true_and, identity h6, licenses, ps_iff, occurrence h6]
          rw [left (p := id = none) (by rintro rfl; simp), left (p := occ = .nil) (by rintro rfl; simp [PSlice.elems])]
        · have h6' : SpecVersion1_6 ≤ v := by omega
          simp only [convertEvidence, h3, h5, h6, if_true, if_false, Option.some.injEq, h3', h5', true_and, or_true,
            true_implies, EvidenceIdentityChoice.Settled, EvidenceOccurrence.Settled, h6', true_or, implies_true]
          cases e
          simp only [Evidence.mk.injEq, and_true, true_and, licenses]

theorem card (h5 : SpecVersion1_5 ≤ v) (o : Option MLModelCard) : convertModelCard v o = o ↔ ∀ y ∈ o, MLModelCard.Settled v y := by
  unfold convertModelCard MLModelCard.Settled
  rw [opt_iff]
  simp only [h5, true_and]
  refine forall_congr' fun m => forall_congr' fun _ => ?_
  rw [ite_iff, eq_comm]
  refine or_congr_left ?_
  cases m
  simp only [MLModelCard.mk.injEq, and_true, true_and, opt_iff]
  refine forall_congr' fun c => forall_congr' fun _ => ?_
  cases c; simp [eq_comm]

theorem algorithm (h6 : SpecVersion1_6 ≤ v) (x : CryptoAlgorithmProperties) :
    convertAlgorithmProperties v x = x ↔ x.Settled v := by
  rw [CryptoAlgorithmProperties.ext_iff]
  simp only [convertAlgorithmProperties_primitive, convertAlgorithmProperties_parameterSetIdentifier,
    convertAlgorithmProperties_algorithmFamily, convertAlgorithmProperties_curve,
    convertAlgorithmProperties_ellipticCurve, convertAlgorithmProperties_executionEnvironment,
    convertAlgorithmProperties_implementationPlatform, convertAlgorithmProperties_certificationLevel,
    convertAlgorithmProperties_mode, convertAlgorithmProperties_padding, convertAlgorithmProperties_cryptoFunctions,
    convertAlgorithmProperties_classicalSecurityLevel, convertAlgorithmProperties_nistQuantumSecurityLevel,
    ite_iff, primitive_iff h6, true_and, and_true, CryptoAlgorithmProperties.Settled]
  exact iff_of_eq (by ac_rfl)

theorem certificate (x : CertificateProperties) : convertCertificateProperties v x = x ↔ x.Settled v := by
  unfold convertCertificateProperties CertificateProperties.Settled
  by_cases h7 : v < SpecVersion1_7
  · have : ¬ SpecVersion1_7 ≤ v := by omega
    simp only [h7, if_true, this, or_false]
    cases x
    simp only [CertificateProperties.mk.injEq, and_true, true_and]
    constructor <;>
      (rintro ⟨h1, h2, h3, h4, h5, h6, h7, h8, h9, h10, h11⟩
       exact ⟨h1.symm, h2.symm, h3.symm, h4.symm, h5.symm, h6.symm, h7.symm, h8.symm, h9.symm, h10.symm, h11.symm⟩)
  · have : SpecVersion1_7 ≤ v := by omega
    simp [h7, this]

theorem related (x : RelatedCryptoMaterialProperties) : convertRelatedCryptoMaterial v x = x ↔ x.Settled v := by
  unfold convertRelatedCryptoMaterial RelatedCryptoMaterialProperties.Settled
  by_cases h7 : v < SpecVersion1_7
  · have : ¬ SpecVersion1_7 ≤ v := by omega
    simp only [h7, if_true, this, or_false]
    cases x
    simp only [RelatedCryptoMaterialProperties.mk.injEq, and_true, true_and]
    constructor <;> (rintro ⟨h1, h2⟩; exact ⟨h1.symm, h2.symm⟩)
  · have : SpecVersion1_7 ≤ v := by omega
    simp [h7, this]

theorem suite (x : CipherSuite) :
    (if v < SpecVersion1_7 then { x with tlsGroups := .nil, tlsSignatureSchemes := .nil } else x) = x ↔ x.Settled v := by
  unfold CipherSuite.Settled
  by_cases h7 : v < SpecVersion1_7
  · have : ¬ SpecVersion1_7 ≤ v := by omega
    simp only [h7, if_true, this, or_false]
    cases x
    simp only [CipherSuite.mk.injEq, and_true, true_and]
    constructor <;> (rintro ⟨h1, h2⟩; exact ⟨h1.symm, h2.symm⟩)
  · have : SpecVersion1_7 ≤ v := by omega
    simp [h7, this]

theorem protocol (h6 : SpecVersion1_6 ≤ v) (x : CryptoProtocolProperties) :
    convertProtocolProperties v x = x ↔ x.Settled v := by
  rw [CryptoProtocolProperties.ext_iff]
  simp only [convertProtocolProperties_type, convertProtocolProperties_version,
    convertProtocolProperties_cipherSuites, convertProtocolProperties_ikev2TransformTypes,
    convertProtocolProperties_cryptoRefArray, convertProtocolProperties_relatedCryptographicAssets,
    ps_iff, suite]
  simp only [ite_iff, protocol_iff h6, true_and, and_true, CryptoProtocolProperties.Settled]
  exact iff_of_eq (by ac_rfl)

theorem crypto (h6 : SpecVersion1_6 ≤ v) (o : Option CryptoProperties) :
    convertCryptoProperties v o = o ↔ ∀ y ∈ o, CryptoProperties.Settled v y := by
  unfold convertCryptoProperties CryptoProperties.Settled
  rw [opt_iff]
  simp only [h6, true_and]
  refine forall_congr' fun m => forall_congr' fun _ => ?_
  cases m
  simp only [CryptoProperties.mk.injEq, and_true, true_and, opt_iff, algorithm h6, certificate, related, protocol h6]

/-- A field that is removed below a version and converted otherwise. -/
theorem gone_opt {α : Type} {k : Int} {f : Option α → Option α} {P : α → Prop} (o : Option α)
    (h : k ≤ v → (f o = o ↔ ∀ y ∈ o, P y)) :
    (if v < k then none else f o) = o ↔ o = none ∨ k ≤ v ∧ ∀ y ∈ o, P y := by
  by_cases hk : v < k
  · have : ¬ k ≤ v := by omega
    simp only [hk, if_true, this, false_and, or_false]; exact eq_comm
  · have hk' : k ≤ v := by omega
    simp only [hk, if_false, hk', true_and]
    rw [h hk']
    refine (or_iff_right_of_imp ?_).symm
    rintro rfl; simp

theorem gone_list {α : Type} {k : Int} {f : PSlice α → PSlice α} {P : α → Prop} (o : PSlice α)
    (h : k ≤ v → (f o = o ↔ ∀ y ∈ o.elems, P y)) :
    (if v < k then .nil else f o) = o ↔ o = .nil ∨ k ≤ v ∧ ∀ y ∈ o.elems, P y := by
  by_cases hk : v < k
  · have : ¬ k ≤ v := by omega
    simp only [hk, if_true, this, false_and, or_false]; exact eq_comm
  · have hk' : k ≤ v := by omega
    simp only [hk, if_false, hk', true_and]
    rw [h hk']
    refine (or_iff_right_of_imp ?_).symm
    rintro rfl; simp [PSlice.elems]

theorem own (hv : SpecVersion1_0 ≤ v) (c : Component) : componentConverter v c = c ↔ c.OwnSettled v := by
  rw [Component.ext_iff]
  have hver : (if v < SpecVersion1_4 then (if c.version = "" then "0.0.0" else c.version) else c.version) = c.version ↔
      c.version ≠ "" ∨ SpecVersion1_4 ≤ v := by
    rw [ite_iff]
    refine or_congr_left ?_
    by_cases h : c.version = "" <;> simp [h]
  have hmod : (if v < SpecVersion1_1 then some (c.modified.getD false) else c.modified) = c.modified ↔
      c.modified ≠ none ∨ SpecVersion1_1 ≤ v := by
    rw [ite_iff]
    refine or_congr_left ?_
    cases c.modified <;> simp
  have hped : (if v < SpecVersion1_1 then none else if v < SpecVersion1_2 then c.pedigree.map (fun p => { p with patches := .nil })
      else c.pedigree) = c.pedigree ↔
      c.pedigree = none ∨ SpecVersion1_1 ≤ v ∧ ∀ p ∈ c.pedigree, p.patches = .nil ∨ SpecVersion1_2 ≤ v := by
    refine gone_opt (f := fun o => if v < SpecVersion1_2 then o.map (fun (p : Pedigree Component) => { p with patches := .nil }) else o) _ fun h1 => ?_
    rw [ite_iff, eq_comm, opt_iff]
    constructor
    · rintro (h | h) p hp
      · exact .inl (by rw [← h p hp])
      · exact .inr h
    · intro h
      by_cases h2 : SpecVersion1_2 ≤ v
      · exact .inr h2
      · refine .inl fun p hp => ?_
        have := (h p hp).resolve_right h2
        cases p; simp only [Pedigree.mk.injEq, true_and, and_true] at *; exact this.symm
  have hext := gone_list (k := SpecVersion1_1) (f := convertExternalReferences v) c.externalReferences fun h => references h _
  have hcard : (if v < SpecVersion1_5 then none else convertModelCard v c.modelCard) = c.modelCard ↔
      ∀ y ∈ c.modelCard, MLModelCard.Settled v y := by
    rw [gone_opt (f := convertModelCard v) c.modelCard fun h => card h _]
    cases c.modelCard <;> simp [MLModelCard.Settled]
  have hcrypto : (if v < SpecVersion1_6 then none else convertCryptoProperties v c.cryptoProperties) = c.cryptoProperties ↔
      ∀ y ∈ c.cryptoProperties, CryptoProperties.Settled v y := by
    rw [gone_opt (f := convertCryptoProperties v) c.cryptoProperties fun h => crypto h _]
    cases c.cryptoProperties <;> simp (config := {contextual := true}) [CryptoProperties.Settled]
  simp only [
    componentConverter_bomRef, componentConverter_mimeType, componentConverter_type,
    componentConverter_supplier, componentConverter_manufacturer, componentConverter_author,
    componentConverter_authors, componentConverter_publisher, componentConverter_group, componentConverter_name,
    componentConverter_version, componentConverter_description, componentConverter_scope, componentConverter_hashes,
    componentConverter_licenses, componentConverter_copyright, componentConverter_cpe, componentConverter_packageURL,
    componentConverter_omniborID, componentConverter_swhid, componentConverter_swid, componentConverter_modified,
    componentConverter_pedigree, componentConverter_externalReferences, componentConverter_properties,
    componentConverter_components, componentConverter_evidence, componentConverter_releaseNotes,
    componentConverter_modelCard, componentConverter_data, componentConverter_cryptoProperties,
    componentConverter_tags, componentConverter_isExternal, componentConverter_patentAssertions,
    componentConverter_versionRange, componentConverter_signature,
    hver, hmod, hped, hext, hcard, hcrypto, type_iff hv, scope_iff, hashes, licenses, evidence]
  simp only [ite_iff, true_and, and_true, Component.OwnSettled]

theorem children_iff {f : Component → Component} (c : Component) : c.mapChildren f = c ↔ ∀ d ∈ c.children, f d = d := by
  constructor
  · intro h d hd
    simp only [Component.children, List.mem_append] at hd
    have h1 := congrArg Component.components h
    have h2 := congrArg Component.pedigree h
    simp only [Component.mapChildren, ps_iff, opt_iff] at h1 h2
    rcases hd with hd | hd
    · exact h1 d hd
    · cases hp : c.pedigree with
      | none => simp [hp] at hd
      | some p =>
        have := h2 p hp
        rw [hp] at hd
        cases p with
        | mk an de va co pa no =>
        simp only [Pedigree.mapComponents, Pedigree.mk.injEq, ps_iff, and_true] at this
        simp only [Pedigree.relatives, List.mem_append] at hd
        rcases hd with (hd | hd) | hd
        · exact this.1 d hd
        · exact this.2.1 d hd
        · exact this.2.2 d hd
  · intro h
    rw [Component.mapChildren_congr (g := fun d => d) h]
    have h1 : ∀ p : PSlice Component, p.map (fun d => d) = p := fun p => PSlice.map_id' fun _ _ => rfl
    unfold Component.mapChildren
    apply Component.ext <;> simp only [h1]
    exact (opt_iff _).2 fun p _ => by simp [Pedigree.mapComponents, h1]

theorem recurse_iff {f : Component → Component} (c : Component) :
    (componentConverter v c).mapChildren f = c ↔ componentConverter v c = c ∧ c.mapChildren f = c := by
  constructor
  · intro h
    have hc : componentConverter v c = c := by
      have h' := (Component.ext_iff).1 h
      simp only [Component.mapChildren] at h'
      have hp := congrArg Component.pedigree h
      simp only [Component.mapChildren, componentConverter_pedigree] at hp
      have hp' : (componentConverter v c).pedigree = c.pedigree := by
        rw [componentConverter_pedigree]
        by_cases h1 : v < SpecVersion1_1
        · simp only [h1, if_true, Option.map_none] at hp ⊢
          exact hp
        · by_cases h2 : v < SpecVersion1_2
          · simp only [h1, h2, if_true, if_false] at hp ⊢
            cases hq : c.pedigree with
            | none => rfl
            | some p =>
              rw [hq] at hp
              cases p
              simp only [Option.map_some, Option.some.injEq, Pedigree.mapComponents, Pedigree.mk.injEq, true_and, and_true] at hp ⊢
              exact hp.2.2.2
          · simp only [h1, h2, if_false]
      apply Component.ext <;> first
        | exact hp'
        | exact componentConverter_components v c
        | simp only [h']
    exact ⟨hc, by rwa [hc] at h⟩
  · rintro ⟨h1, h2⟩
    rw [h1, h2]

theorem component (hv : SpecVersion1_0 ≤ v) (c : Component) :
    recurseComponent (componentConverter v) c = c ↔ c.Settled v := by
  induction c using Component.induct with
  | h c ih =>
    unfold Component.Settled
    rw [recurseComponent_go', recurse_iff, children_iff, FitsConverted.walk_all, own hv]
    refine and_congr_right fun _ => ?_
    constructor
    · exact fun h e he => (ih e he).1 (h e he)
    · exact fun h e he => (ih e he).2 (h e he)

/-! ### Services -/

theorem serviceOwn (hv : SpecVersion1_1 ≤ v) (s : Service) : serviceConverter v s = s ↔ s.OwnSettled v := by
  rw [Service.ext_iff]
  simp only [
    serviceConverter_bomRef, serviceConverter_provider, serviceConverter_group,
    serviceConverter_name, serviceConverter_version, serviceConverter_description,
    serviceConverter_endpoints, serviceConverter_authenticated,
    serviceConverter_crossesTrustBoundary, serviceConverter_data, serviceConverter_licenses,
    serviceConverter_externalReferences, serviceConverter_properties, serviceConverter_services,
    serviceConverter_releaseNotes, serviceConverter_tags, serviceConverter_trustZone,
    serviceConverter_patentAssertions, serviceConverter_signature,
    ite_iff, opt_iff, entity, classifications, references hv, true_and, and_true, Service.OwnSettled]

theorem serviceChildren_iff {f : Service → Service} (s : Service) : s.mapChildren f = s ↔ ∀ d ∈ s.children, f d = d := by
  unfold Service.mapChildren Service.children
  rw [← ps_iff]
  constructor
  · intro h
    exact congrArg Service.services h
  · intro h
    rw [h]
    cases s; rfl

theorem serviceRecurse_iff {f : Service → Service} (s : Service) :
    (serviceConverter v s).mapChildren f = s ↔ serviceConverter v s = s ∧ s.mapChildren f = s := by
  constructor
  · intro h
    have hc : serviceConverter v s = s := by
      have h' := (Service.ext_iff).1 h
      simp only [Service.mapChildren] at h'
      apply Service.ext <;> first
        | exact serviceConverter_services v s
        | simp only [h']
    exact ⟨hc, by rwa [hc] at h⟩
  · rintro ⟨h1, h2⟩
    rw [h1, h2]

theorem service (hv : SpecVersion1_1 ≤ v) (s : Service) : recurseService (serviceConverter v) s = s ↔ s.Settled v := by
  induction s using Service.induct with
  | h s ih =>
    unfold Service.Settled
    rw [recurseService_go', serviceRecurse_iff, serviceChildren_iff, FitsConverted.walkService_all, serviceOwn hv]
    refine and_congr_right fun _ => ?_
    constructor
    · exact fun h e he => (ih e he).1 (h e he)
    · exact fun h e he => (ih e he).2 (h e he)

/-! ### Tools -/

theorem tool (x : Tool) : convertTool v x = x ↔ x.Settled v := by
  rw [Tool.ext_iff]
  have hext : (if v < SpecVersion1_4 then .nil else convertExternalReferences v x.externalReferences) = x.externalReferences ↔
      x.externalReferences = .nil ∨ SpecVersion1_4 ≤ v ∧ ∀ y ∈ x.externalReferences.elems, ExternalReference.Settled v y :=
    gone_list (k := SpecVersion1_4) (f := convertExternalReferences v) x.externalReferences fun h =>
      references (by simp only [SpecVersion1_1, SpecVersion1_4] at *; omega) _
  simp only [convertTool_vendor, convertTool_name, convertTool_version, convertTool_hashes,
    convertTool_externalReferences, hashes, hext, true_and, Tool.Settled]

theorem tools (x : ToolsChoice) : convertTools v x = x ↔ x.Settled v := by
  unfold ToolsChoice.Settled
  rcases x with ⟨ts, cs, ss⟩
  by_cases h5 : v < SpecVersion1_5
  · have h5' : ¬ SpecVersion1_5 ≤ v := by omega
    rw [convertTools_old h5]
    simp only [ToolsChoice.mk.injEq, h5', false_and, or_false]
    constructor
    · rintro ⟨h1, rfl, rfl⟩
      refine ⟨?_, rfl, rfl⟩
      simp only [toolsToLegacy, PSlice.elems, List.map_nil, List.append_nil, List.isEmpty_nil, if_true, ps_iff, tool] at h1
      exact h1
    · rintro ⟨h1, rfl, rfl⟩
      refine ⟨?_, rfl, rfl⟩
      simp only [toolsToLegacy, PSlice.elems, List.map_nil, List.append_nil, List.isEmpty_nil, if_true, ps_iff, tool]
      exact h1
  · have h5' : SpecVersion1_5 ≤ v := by omega
    have hs : ∀ s : Service, toolService v s = s ↔ ∀ y ∈ s.provider, OrganizationalEntity.Settled v y := by
      intro s
      unfold toolService
      simp only [← entity, ← opt_iff]
      constructor
      · intro h
        exact congrArg Service.provider h
      · intro h
        rw [h]
        cases s; rfl
    rw [convertTools_new h5]
    simp only [ToolsChoice.mk.injEq, h5', true_and, or_true, ps_iff, hs, tool]
    refine and_congr_right fun _ => (or_iff_right_of_imp ?_).symm
    rintro rfl
    simp [PSlice.elems]

/-! ### The document -/

theorem vulnerability (h4 : SpecVersion1_4 ≤ v) (x : Vulnerability) : convertVulnerability v x = x ↔ x.Settled v := by
  rw [Vulnerability.ext_iff]
  have hcred : (if v < SpecVersion1_6 then x.credits.map (fun c => { c with
        organizations := c.organizations.map (convertOrganizationalEntity v)
        individuals := c.individuals.map (convertOrganizationalContact v) }) else x.credits) = x.credits ↔
      ∀ c ∈ x.credits, (∀ y ∈ c.organizations.elems, OrganizationalEntity.Settled v y) ∧
        ∀ y ∈ c.individuals.elems, OrganizationalContact.Settled v y := by
    rw [ite_iff, eq_comm, opt_iff]
    have : ∀ c : Credits, { c with
        organizations := c.organizations.map (convertOrganizationalEntity v)
        individuals := c.individuals.map (convertOrganizationalContact v) } = c ↔
        (∀ y ∈ c.organizations.elems, OrganizationalEntity.Settled v y) ∧
          ∀ y ∈ c.individuals.elems, OrganizationalContact.Settled v y := by
      intro c; cases c; simp only [Credits.mk.injEq, ps_iff, entity, contact]
    simp only [this]
    refine or_iff_left_of_imp fun h6 c _ => ⟨fun y _ => entity_new h6 y, fun y _ => .inr ?_⟩
    simp only [SpecVersion1_5, SpecVersion1_6] at *; omega
  have hana : (if v < SpecVersion1_5 then x.analysis.map (fun a => { a with firstIssued := "", lastUpdated := "" }) else x.analysis) =
      x.analysis ↔ ∀ y ∈ x.analysis, y.firstIssued = "" ∧ y.lastUpdated = "" ∨ SpecVersion1_5 ≤ v := by
    rw [ite_iff, eq_comm, opt_iff]
    have : ∀ a : VulnerabilityAnalysis, { a with firstIssued := "", lastUpdated := "" } = a ↔ a.firstIssued = "" ∧ a.lastUpdated = "" := by
      intro a; cases a; simp only [VulnerabilityAnalysis.mk.injEq, true_and]
      constructor <;> (rintro ⟨h1, h2⟩; exact ⟨h1.symm, h2.symm⟩)
    simp only [this]
    constructor
    · rintro (h | h) y hy
      · exact .inl (h y hy)
      · exact .inr h
    · intro h
      by_cases h5 : SpecVersion1_5 ≤ v
      · exact .inr h5
      · exact .inl fun y hy => (h y hy).resolve_right h5
  simp only [
    convertVulnerability_bomRef, convertVulnerability_id, convertVulnerability_source,
    convertVulnerability_references, convertVulnerability_ratings, convertVulnerability_cwes,
    convertVulnerability_description, convertVulnerability_detail,
    convertVulnerability_recommendation, convertVulnerability_workaround,
    convertVulnerability_proofOfConcept, convertVulnerability_advisories,
    convertVulnerability_created, convertVulnerability_published, convertVulnerability_updated,
    convertVulnerability_rejected, convertVulnerability_credits, convertVulnerability_tools,
    convertVulnerability_analysis, convertVulnerability_affects, convertVulnerability_properties,
    hcred, hana, ps_iff, opt_iff, tools, rating_iff h4]
  simp only [ite_iff, true_and, and_true, Vulnerability.Settled]

theorem annotation (hv : SpecVersion1_5 ≤ v) (p : PSlice Annotation) :
    convertAnnotations v p = p ↔ ∀ y ∈ p.elems, ∀ a ∈ y.annotator, Annotator.Settled v a := by
  unfold convertAnnotations
  by_cases h6 : v < SpecVersion1_6
  · have h6' : ¬ SpecVersion1_6 ≤ v := by omega
    have h1 : SpecVersion1_1 ≤ v := by simp only [SpecVersion1_1, SpecVersion1_5] at *; omega
    simp only [h6, if_true, ps_iff]
    refine forall_congr' fun y => forall_congr' fun _ => ?_
    have ha : ∀ a : Annotator, convertAnnotator v a = a ↔ a.Settled v := by
      intro a
      unfold convertAnnotator Annotator.Settled
      cases a
      simp only [Annotator.mk.injEq, true_and, opt_iff, entity, service h1, h6', false_or]
    simp only [← ha, ← opt_iff]
    cases y; simp
  · have h6' : SpecVersion1_6 ≤ v := by omega
    simp only [h6, if_false, true_iff]
    exact fun _ _ _ _ => .inl h6'

theorem metadata (hv : SpecVersion1_2 ≤ v) (x : Metadata) : convertMetadata v x = x ↔ x.Settled v := by
  rw [Metadata.ext_iff]
  have h0 : SpecVersion1_0 ≤ v := by simp only [SpecVersion1_0, SpecVersion1_2] at *; omega
  have h1 : SpecVersion1_1 ≤ v := by simp only [SpecVersion1_1, SpecVersion1_2] at *; omega
  have hl : (if v < SpecVersion1_3 then .nil else convertLicenses v x.licenses) = x.licenses ↔
      x.licenses = .nil ∨ SpecVersion1_3 ≤ v ∧ ∀ y ∈ x.licenses.elems, LicenseChoice.Settled v y :=
    gone_list (k := SpecVersion1_3) (f := convertLicenses v) x.licenses fun _ => by
      rw [licenses]; simp only [LicensesSettled, h1, true_or, true_and]
  simp only [
    convertMetadata_timestamp, convertMetadata_lifecycles, convertMetadata_tools,
    convertMetadata_authors, convertMetadata_component, convertMetadata_manufacture,
    convertMetadata_manufacturer, convertMetadata_supplier, convertMetadata_licenses,
    convertMetadata_properties, convertMetadata_distributionConstraints,
    hl, opt_iff, ps_iff, tools, contact, entity, component h0]
  simp only [ite_iff, true_and, and_true, Metadata.Settled]

theorem bom (hv : SpecVersion1_0 ≤ v) (x : BOM) :
    convert v x = { x with specVersion := v, xmlns := mapGet xmlNamespaces v, jsonSchema := mapGet jsonSchemas v } ↔
      x.Settled v := by
  rw [BOM.ext_iff]
  have one {k : Int} (h : k ≤ v) (hk : SpecVersion1_1 ≤ k) : SpecVersion1_1 ≤ v := by omega
  have hm := gone_opt (v := v) (k := SpecVersion1_2) (f := fun o => o.map (convertMetadata v)) (P := Metadata.Settled v) x.metadata
    fun h => by simp only [opt_iff, metadata h]
  have hs := gone_list (v := v) (k := SpecVersion1_2) (f := fun o => o.map (recurseService (serviceConverter v)))
    (P := Service.Settled v) x.services fun h => by simp only [ps_iff, service (one h (by decide))]
  have he := gone_list (v := v) (k := SpecVersion1_1) (f := convertExternalReferences v) x.externalReferences fun h => references h _
  have hd := gone_list (v := v) (k := SpecVersion1_2) (f := fun o => if v < SpecVersion1_6 then
      o.map (fun (d : Dependency) => { d with provides := .nil }) else o)
    (P := fun y => y.provides = .nil ∨ SpecVersion1_6 ≤ v) x.dependencies fun h => by
      rw [ite_iff, eq_comm, ps_iff]
      constructor
      · rintro (h | h) y hy
        · exact .inl (by rw [← h y hy])
        · exact .inr h
      · intro h
        by_cases h6 : SpecVersion1_6 ≤ v
        · exact .inr h6
        · refine .inl fun y hy => ?_
          have := (h y hy).resolve_right h6
          cases y; simp only [Dependency.mk.injEq, true_and] at *; exact this.symm
  have hc := gone_list (v := v) (k := SpecVersion1_3) (f := convertCompositions v) (P := Composition.Settled v) x.compositions
    fun h => by simp only [convertCompositions, ps_iff, composition h]
  have hvu := gone_list (v := v) (k := SpecVersion1_4) (f := convertVulnerabilities v) (P := Vulnerability.Settled v)
    x.vulnerabilities fun h => by simp only [convertVulnerabilities, ps_iff, vulnerability h]
  have ha := gone_list (v := v) (k := SpecVersion1_5) (f := convertAnnotations v) x.annotations fun h => annotation h _
  have hde := gone_opt (v := v) (k := SpecVersion1_6) (f := fun o => if v < SpecVersion1_7 then
      o.map (fun (d : Definitions) => { d with patents := .nil }) else o)
    (P := fun y => y.patents = .nil ∨ SpecVersion1_7 ≤ v) x.definitions fun h => by
      rw [ite_iff, eq_comm, opt_iff]
      constructor
      · rintro (h | h) y hy
        · exact .inl (by rw [← h y hy])
        · exact .inr h
      · intro h
        by_cases h6 : SpecVersion1_7 ≤ v
        · exact .inr h6
        · refine .inl fun y hy => ?_
          have := (h y hy).resolve_right h6
          cases y; simp only [Definitions.mk.injEq, true_and] at *; exact this.symm
  simp only [
    convert_xmlName, convert_xmlns, convert_jsonSchema, convert_bomFormat, convert_specVersion,
    convert_serialNumber, convert_version, convert_metadata, convert_components, convert_services,
    convert_externalReferences, convert_dependencies, convert_compositions, convert_properties,
    convert_vulnerabilities, convert_annotations, convert_formulation, convert_declarations,
    convert_definitions, convert_citations, convert_signature,
    hm, hs, he, hd, hc, hvu, ha, hde, ps_iff, component hv]
  simp only [ite_iff, true_and, and_true, BOM.Settled]

end Settled
end Verif
