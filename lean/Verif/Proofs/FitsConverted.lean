import Verif.Spec.JsonFitsConverted
import Verif.Proofs.FitsCopied
import Verif.Proofs.Preserve
import Verif.Proofs.Convert
import Verif.Proofs.ConvertFields
import Verif.Props.Support
import Mathlib.Tactic.CasesM

/-!
# `FitsConverted` is `Fits` of the converted deep copy
-/

namespace Verif

set_option linter.unusedSimpArgs false

open Spec (walk walkService step)

namespace FitsConverted

theorem map_ne_nilSlice {α β : Type} {f : α → α} {g : α → β} (p : PSlice α) : (p.copyWith f).map g ≠ .nilSlice := by
  match p with
  | .nil => simp [PSlice.copyWith, PSlice.map]
  | .nilSlice => simp [PSlice.copyWith, PSlice.map]
  | .list [] => simp [PSlice.copyWith, PSlice.map]
  | .list (x :: xs) => simp [PSlice.copyWith, PSlice.map]
theorem map_eq_nil {α β : Type} {f : α → α} {g : α → β} (p : PSlice α) : (p.copyWith f).map g = .nil ↔ p.elems = [] := by
  match p with
  | .nil => simp [PSlice.copyWith, PSlice.map, PSlice.elems]
  | .nilSlice => simp [PSlice.copyWith, PSlice.map, PSlice.elems]
  | .list [] => simp [PSlice.copyWith, PSlice.map, PSlice.elems]
  | .list (x :: xs) => simp [PSlice.copyWith, PSlice.map, PSlice.elems]
theorem map_all {α β : Type} {f : α → β} {P : β → Prop} (o : Option α) :
    (∀ y ∈ o.map f, P y) ↔ ∀ y ∈ o, P (f y) := by cases o <;> simp
theorem list_all {α β : Type} {f : α → β} {P : β → Prop} (l : List α) :
    (∀ y ∈ l.map f, P y) ↔ ∀ y ∈ l, P (f y) := by simp
theorem map_none {α β : Type} {f : α → β} (o : Option α) : o.map f = none ↔ o = none := by cases o <;> simp
theorem nil_elems {α : Type} : (PSlice.nil : PSlice α).elems = [] := rfl
theorem elems_or {α : Type} {P : α → Prop} {l : List α} : (l = [] ∨ ∀ y ∈ l, P y) ↔ ∀ y ∈ l, P y := by
  constructor
  · rintro (rfl | h)
    · simp
    · exact h
  · exact Or.inr
theorem none_or {α : Type} {P : α → Prop} {o : Option α} : (o = none ∨ ∀ y ∈ o, P y) ↔ ∀ y ∈ o, P y := by
  cases o <;> simp

/-- The version lies in one of six bands; in each, every comparison of the conversion is decided. -/
theorem bands {v : Int} (hv : SpecVersion1_2 ≤ v) {P : Prop}
    (h2 : v < SpecVersion1_3 → ¬ v < SpecVersion1_1 → ¬ v < SpecVersion1_2 → v < SpecVersion1_4 → v < SpecVersion1_5 → v < SpecVersion1_6 → v < SpecVersion1_7 →
      ¬ SpecVersion1_3 ≤ v → ¬ SpecVersion1_4 ≤ v → ¬ SpecVersion1_5 ≤ v → ¬ SpecVersion1_6 ≤ v → ¬ SpecVersion1_7 ≤ v → P)
    (h3 : ¬ v < SpecVersion1_3 → ¬ v < SpecVersion1_1 → ¬ v < SpecVersion1_2 → v < SpecVersion1_4 → v < SpecVersion1_5 → v < SpecVersion1_6 → v < SpecVersion1_7 →
      SpecVersion1_3 ≤ v → ¬ SpecVersion1_4 ≤ v → ¬ SpecVersion1_5 ≤ v → ¬ SpecVersion1_6 ≤ v → ¬ SpecVersion1_7 ≤ v → P)
    (h4 : ¬ v < SpecVersion1_3 → ¬ v < SpecVersion1_1 → ¬ v < SpecVersion1_2 → ¬ v < SpecVersion1_4 → v < SpecVersion1_5 → v < SpecVersion1_6 → v < SpecVersion1_7 →
      SpecVersion1_3 ≤ v → SpecVersion1_4 ≤ v → ¬ SpecVersion1_5 ≤ v → ¬ SpecVersion1_6 ≤ v → ¬ SpecVersion1_7 ≤ v → P)
    (h5 : ¬ v < SpecVersion1_3 → ¬ v < SpecVersion1_1 → ¬ v < SpecVersion1_2 → ¬ v < SpecVersion1_4 → ¬ v < SpecVersion1_5 → v < SpecVersion1_6 → v < SpecVersion1_7 →
      SpecVersion1_3 ≤ v → SpecVersion1_4 ≤ v → SpecVersion1_5 ≤ v → ¬ SpecVersion1_6 ≤ v → ¬ SpecVersion1_7 ≤ v → P)
    (h6 : ¬ v < SpecVersion1_3 → ¬ v < SpecVersion1_1 → ¬ v < SpecVersion1_2 → ¬ v < SpecVersion1_4 → ¬ v < SpecVersion1_5 → ¬ v < SpecVersion1_6 → v < SpecVersion1_7 →
      SpecVersion1_3 ≤ v → SpecVersion1_4 ≤ v → SpecVersion1_5 ≤ v → SpecVersion1_6 ≤ v → ¬ SpecVersion1_7 ≤ v → P)
    (h7 : ¬ v < SpecVersion1_3 → ¬ v < SpecVersion1_1 → ¬ v < SpecVersion1_2 → ¬ v < SpecVersion1_4 → ¬ v < SpecVersion1_5 → ¬ v < SpecVersion1_6 → ¬ v < SpecVersion1_7 →
      SpecVersion1_3 ≤ v → SpecVersion1_4 ≤ v → SpecVersion1_5 ≤ v → SpecVersion1_6 ≤ v → SpecVersion1_7 ≤ v → P) : P := by
  simp only [SpecVersion1_1, SpecVersion1_2, SpecVersion1_3, SpecVersion1_4, SpecVersion1_5, SpecVersion1_6, SpecVersion1_7] at *
  by_cases h : v < 4
  · exact h2 h (by omega) (by omega) (by omega) (by omega) (by omega) (by omega) (by omega) (by omega) (by omega) (by omega) (by omega)
  by_cases h' : v < 5
  · exact h3 h (by omega) (by omega) (by omega) (by omega) (by omega) (by omega) (by omega) (by omega) (by omega) (by omega) (by omega)
  by_cases h'' : v < 6
  · exact h4 h (by omega) (by omega) (by omega) (by omega) (by omega) (by omega) (by omega) (by omega) (by omega) (by omega) (by omega)
  by_cases h''' : v < 7
  · exact h5 h (by omega) (by omega) (by omega) (by omega) (by omega) (by omega) (by omega) (by omega) (by omega) (by omega) (by omega)
  by_cases h'''' : v < 8
  · exact h6 h (by omega) (by omega) (by omega) (by omega) (by omega) (by omega) (by omega) (by omega) (by omega) (by omega) (by omega)
  · exact h7 h (by omega) (by omega) (by omega) (by omega) (by omega) (by omega) (by omega) (by omega) (by omega) (by omega) (by omega)

/-- Decides every comparison with a version, then simplifies. -/
syntax "versions " term " using " "[" Lean.Parser.Tactic.simpLemma,* "]" : tactic
macro_rules
  | `(tactic| versions $hv using [$ls,*]) => `(tactic|
      refine bands $hv ?_ ?_ ?_ ?_ ?_ ?_ <;> intro a1 a2 a3 a4 a5 a6 a7 b3 b4 b5 b6 b7 <;> first | contradiction |
        simp only [$ls,*, a1, a2, a3, a4, a5, a6, a7, b3, b4, b5, b6, b7, if_true, if_false, false_and, and_false, or_false,
          false_or, true_and, and_true, true_or, or_true, or_self, eq_self_iff_true, ne_eq, not_true_eq_false,
          not_false_eq_true, map_ne_nilSlice, map_eq_nil, map_all, list_all, map_none, nil_elems, elems_or, none_or,
          FitsCopied.ne_nilSlice, FitsCopied.eq_nil, FitsCopied.elems, FitsCopied.map_all, FitsCopied.list_all,
          FitsCopied.map_none, FitsCopied.gob_string, FitsCopied.gob_ref, FitsCopied.gob_bool, FitsCopied.gob_int,
          PSlice.elems_map, implies_true, FitsCopied.true_all, reduceCtorEq, List.not_mem_nil, Option.not_mem_none,
          false_implies, true_implies, List.map_map, Function.comp_apply, forall_const, imp_false])

/-- Closes an equivalence of two conjunctions of the same members. -/
macro "regroup" : tactic =>
  `(tactic| (constructor <;> intro h <;> casesm* _ ∧ _ <;> (repeat' apply And.intro) <;> assumption))

variable {v : Int}

theorem contact (hv : SpecVersion1_2 ≤ v) (x : OrganizationalContact) :
    (convertOrganizationalContact v x.copy).Fits v ↔ True := by
  versions hv using [OrganizationalContact.Fits, convertOrganizationalContact]

/-- From version 1.5 on everything about a contact is declared. -/
theorem contact_true (h : SpecVersion1_5 ≤ v) (x : OrganizationalContact) : OrganizationalContact.FitsCopied v x ↔ True := by
  simp [OrganizationalContact.FitsCopied, h]

theorem entity_true (h : SpecVersion1_6 ≤ v) (x : OrganizationalEntity) : OrganizationalEntity.FitsCopied v x ↔ True := by
  have h5 : SpecVersion1_5 ≤ v := by simp only [SpecVersion1_5, SpecVersion1_6] at *; omega
  simp [OrganizationalEntity.FitsCopied, h, h5, contact_true]

theorem entity (hv : SpecVersion1_2 ≤ v) (x : OrganizationalEntity) :
    (convertOrganizationalEntity v x.copy).Fits v ↔ True := by
  versions hv using [OrganizationalEntity.Fits, convertOrganizationalEntity_bomRef, convertOrganizationalEntity_address,
    convertOrganizationalEntity_url, convertOrganizationalEntity_contact, OrganizationalEntity.copy, contact hv,
    OrganizationalContact.copy_fits, contact_true]

theorem extref (hv : SpecVersion1_2 ≤ v) (x : ExternalReference) :
    (convertExternalReference v x.copy).Fits v ↔ True := by
  versions hv using [ExternalReference.Fits, convertExternalReference_hashes, convertExternalReference_properties,
    ExternalReference.copy]

theorem entityOrContact_true (h : SpecVersion1_6 ≤ v) (x : OrganizationalEntityOrContact) :
    OrganizationalEntityOrContact.FitsCopied v x ↔ True := by
  have h5 : SpecVersion1_5 ≤ v := by simp only [SpecVersion1_5, SpecVersion1_6] at *; omega
  simp [OrganizationalEntityOrContact.FitsCopied, entity_true h, contact_true h5]

theorem licensing_true (h : SpecVersion1_6 ≤ v) (x : Licensing) : Licensing.FitsCopied v x ↔ True := by
  simp [Licensing.FitsCopied, entityOrContact_true h]

theorem party (hv : SpecVersion1_5 ≤ v) (x : OrganizationalEntityOrContact) :
    (convertParty v x.copy).Fits v ↔ True := by
  have h2 : SpecVersion1_2 ≤ v := by simp only [SpecVersion1_2, SpecVersion1_5] at *; omega
  simp [OrganizationalEntityOrContact.Fits, convertParty, OrganizationalEntityOrContact.copy, entity h2,
    OrganizationalContact.copy_fits, contact_true hv]

theorem licensing (hv : SpecVersion1_5 ≤ v) (x : Licensing) : (convertLicensing v x.copy).Fits v ↔ True := by
  simp [Licensing.Fits, convertLicensing, Licensing.copy, party hv, FitsCopied.ne_nilSlice]

theorem licenseOf_fits (hv : SpecVersion1_2 ≤ v) (x : License) : (licenseOf v x.copy).Fits v ↔ True := by
  versions hv using [License.Fits, licenseOf, License.copy, licensing, Licensing.copy_fits, licensing_true]

theorem license (hv : SpecVersion1_2 ≤ v) (x : LicenseChoice) :
    (licenseChoice v x.copy).Fits v ↔ LicenseChoice.FitsConverted v x := by
  versions hv using [LicenseChoice.Fits, licenseChoice_eq, LicenseChoice.copy, licenseOf_fits hv, Licensing.copy_fits,
    licensing_true, LicenseChoice.FitsConverted]

theorem licenses_ne (hv : SpecVersion1_2 ≤ v) (p : PSlice LicenseChoice) :
    convertLicenses v (p.copyWith LicenseChoice.copy) ≠ .nilSlice := by
  versions hv using [convertLicenses_eq]
theorem licenses_nil (hv : SpecVersion1_2 ≤ v) (p : PSlice LicenseChoice) :
    convertLicenses v (p.copyWith LicenseChoice.copy) = .nil ↔ p.elems = [] := by
  versions hv using [convertLicenses_eq]
theorem licenses (hv : SpecVersion1_2 ≤ v) (p : PSlice LicenseChoice) :
    (∀ l ∈ (convertLicenses v (p.copyWith LicenseChoice.copy)).elems, LicenseChoice.Fits v l) ↔
      ∀ l ∈ p.elems, LicenseChoice.FitsConverted v l := by
  versions hv using [convertLicenses_eq, license hv]

theorem hashes (p : PSlice Hash) : convertHashes v (p.copyWith Hash.copy) ≠ .nilSlice ↔ HashesFit v p := by
  unfold HashesFit
  by_cases h : p.elems = []
  · have : p.copyWith Hash.copy = .nil := (FitsCopied.eq_nil p).2 h
    simp [this, h]
  · have hn : p.copyWith Hash.copy ≠ .nil := fun e => h ((FitsCopied.eq_nil p).1 e)
    rw [convertHashes_of_ne hn, FitsCopied.elems]
    simp only [h, false_or, storeOrNil]
    split
    · rename_i he
      simp only [ne_eq, not_true_eq_false, false_iff, not_exists, not_and]
      intro x hx hk
      rw [List.isEmpty_iff, List.filter_eq_nil_iff] at he
      exact he x.copy (List.mem_map_of_mem hx) ((Props.supportsHashAlgorithm_schema v _).2 hk)
    · rename_i he
      simp only [ne_eq, reduceCtorEq, not_false_eq_true, true_iff]
      rw [List.isEmpty_iff, List.filter_eq_nil_iff] at he
      simp only [List.mem_map, forall_exists_index, and_imp, forall_apply_eq_imp_iff₂, Classical.not_forall,
        Classical.not_not] at he
      obtain ⟨x, hx, hk⟩ := he
      exact ⟨x, hx, (Props.supportsHashAlgorithm_schema v _).1 hk⟩

theorem occurrence (x : EvidenceOccurrence) : (clearOccurrence x.copy).Fits v ↔ True := by
  simp [EvidenceOccurrence.Fits, clearOccurrence]
theorem occurrence_true (h : SpecVersion1_6 ≤ v) (x : EvidenceOccurrence) : EvidenceOccurrence.FitsCopied v x ↔ True := by
  simp [EvidenceOccurrence.FitsCopied, h]
theorem identity_true (h : SpecVersion1_6 ≤ v) (x : EvidenceIdentity) : EvidenceIdentity.FitsCopied v x ↔ True := by
  simp [EvidenceIdentity.FitsCopied, h]
theorem clearIdentity (x : EvidenceIdentity) :
    EvidenceIdentity.Fits v { x.copy with concludedValue := "" } ↔ True := by
  simp [EvidenceIdentity.Fits, EvidenceIdentity.copy, FitsCopied.ne_nilSlice]

theorem firstIdentity_fits (o : Option EvidenceIdentityChoice) :
    (∀ y ∈ clearConcludedValue (firstIdentity (o.map EvidenceIdentityChoice.copy)), EvidenceIdentityChoice.Fits v y) ↔
      ∀ ch ∈ o, ch.identity = none → ch.identities.elems ≠ [] := by
  cases o with
  | none => simp [clearConcludedValue, firstIdentity]
  | some ch =>
    obtain ⟨i, is⟩ := ch
    match is with
    | .nil => cases i <;> simp [clearConcludedValue, firstIdentity, EvidenceIdentityChoice.copy, EvidenceIdentityChoice.Fits, PSlice.copyWith, PSlice.elems, clearIdentity]
    | .nilSlice => cases i <;> simp [clearConcludedValue, firstIdentity, EvidenceIdentityChoice.copy, EvidenceIdentityChoice.Fits, PSlice.copyWith, PSlice.elems, clearIdentity]
    | .list [] => cases i <;> simp [clearConcludedValue, firstIdentity, EvidenceIdentityChoice.copy, EvidenceIdentityChoice.Fits, PSlice.copyWith, PSlice.elems, clearIdentity]
    | .list (x :: xs) => cases i <;> simp [clearConcludedValue, firstIdentity, EvidenceIdentityChoice.copy, EvidenceIdentityChoice.Fits, PSlice.copyWith, PSlice.elems, clearIdentity]

theorem identities_fits (h6 : SpecVersion1_6 ≤ v) (ch : EvidenceIdentityChoice) :
    EvidenceIdentityChoice.FitsCopied v ch ↔ (ch.identity = none → ch.identities.elems ≠ []) := by
  simp [EvidenceIdentityChoice.FitsCopied, h6, identity_true h6]

theorem evidence (hv : SpecVersion1_2 ≤ v) (o : Option Evidence) :
    (convertEvidence v (o.map Evidence.copy) = none ∨ SpecVersion1_3 ≤ v ∧
      ∀ y ∈ convertEvidence v (o.map Evidence.copy), Evidence.Fits v y) ↔ ∀ e ∈ o, Evidence.FitsConverted v e := by
  cases o with
  | none => simp [convertEvidence]
  | some e =>
    versions hv using [convertEvidence, Option.map_some, Evidence.Fits, Evidence.FitsConverted, Evidence.copy,
      LicenseChoice.copy_fits, licenses hv, licenses_ne hv, Callstack.copy_fits, occurrence, firstIdentity_fits,
      EvidenceIdentityChoice.copy_fits, EvidenceOccurrence.copy_fits, occurrence_true, identities_fits, Option.mem_some_iff,
      forall_eq', forall_eq, Option.some_ne_none]
    all_goals exact and_comm

theorem considerations (x : MLModelCardConsiderations) :
    MLModelCardConsiderations.Fits v { x.copy with environmentalConsiderations := none } ↔ True := by
  simp [MLModelCardConsiderations.Fits, MLModelCardConsiderations.copy, FitsCopied.ne_nilSlice]

theorem modelCard (hv : SpecVersion1_5 ≤ v) (o : Option MLModelCard) :
    (∀ y ∈ convertModelCard v (o.map MLModelCard.copy), MLModelCard.Fits v y) ↔
      ∀ y ∈ o, MLModelCard.FitsConverted v y := by
  have h2 : SpecVersion1_2 ≤ v := by simp only [SpecVersion1_2, SpecVersion1_5] at *; omega
  versions h2 using [convertModelCard, MLModelCard.Fits, MLModelCard.copy, MLModelCard.FitsConverted,
    MLModelParameters.copy_fits, MLQuantitativeAnalysis.copy_fits, MLModelCardConsiderations.copy_fits, considerations]

theorem algorithm (hv : SpecVersion1_6 ≤ v) (x : CryptoAlgorithmProperties) :
    (convertAlgorithmProperties v x.copy).Fits v ↔ True := by
  have h2 : SpecVersion1_2 ≤ v := by simp only [SpecVersion1_2, SpecVersion1_6] at *; omega
  unfold convertAlgorithmProperties
  simp only
  split_ifs <;> versions h2 using [CryptoAlgorithmProperties.Fits, CryptoAlgorithmProperties.copy]

theorem certificate (hv : SpecVersion1_6 ≤ v) (x : CertificateProperties) :
    (convertCertificateProperties v x.copy).Fits v ↔ True := by
  have h2 : SpecVersion1_2 ≤ v := by simp only [SpecVersion1_2, SpecVersion1_6] at *; omega
  versions h2 using [convertCertificateProperties, CertificateProperties.Fits, CertificateProperties.copy]

theorem material (hv : SpecVersion1_6 ≤ v) (x : RelatedCryptoMaterialProperties) :
    (convertRelatedCryptoMaterial v x.copy).Fits v ↔ True := by
  have h2 : SpecVersion1_2 ≤ v := by simp only [SpecVersion1_2, SpecVersion1_6] at *; omega
  versions h2 using [convertRelatedCryptoMaterial, RelatedCryptoMaterialProperties.Fits, RelatedCryptoMaterialProperties.copy]

theorem protocol (hv : SpecVersion1_6 ≤ v) (x : CryptoProtocolProperties) :
    (convertProtocolProperties v x.copy).Fits v ↔ ∀ t ∈ x.ikev2TransformTypes, IKEv2TransformTypes.FitsCopied v t := by
  have h2 : SpecVersion1_2 ≤ v := by simp only [SpecVersion1_2, SpecVersion1_6] at *; omega
  unfold convertProtocolProperties
  simp only
  split_ifs <;> versions h2 using [CryptoProtocolProperties.Fits, CryptoProtocolProperties.copy, CipherSuite.Fits,
    CipherSuite.copy, IKEv2TransformTypes.copy_fits]

theorem crypto (hv : SpecVersion1_6 ≤ v) (o : Option CryptoProperties) :
    (∀ y ∈ convertCryptoProperties v (o.map CryptoProperties.copy), CryptoProperties.Fits v y) ↔
      ∀ y ∈ o, CryptoProperties.FitsConverted v y := by
  cases o with
  | none => simp [convertCryptoProperties]
  | some c =>
    simp [convertCryptoProperties, CryptoProperties.Fits, CryptoProperties.copy, CryptoProperties.FitsConverted, hv,
      algorithm hv, certificate hv, material hv, protocol hv]

/-! ### Components -/

theorem component_fits (c : Component) : c.Fits v ↔
    (∀ y ∈ c.supplier, OrganizationalEntity.Fits v y) ∧
    (c.manufacturer = none ∨ SpecVersion1_6 ≤ v ∧ ∀ y ∈ c.manufacturer, OrganizationalEntity.Fits v y) ∧
    (c.authors = .nil ∨ SpecVersion1_6 ≤ v ∧ c.authors ≠ .nilSlice ∧ ∀ y ∈ c.authors.elems, OrganizationalContact.Fits v y) ∧
    c.hashes ≠ .nilSlice ∧
    c.licenses ≠ .nilSlice ∧ (∀ y ∈ c.licenses.elems, LicenseChoice.Fits v y) ∧
    (c.omniborID = .nil ∨ SpecVersion1_6 ≤ v ∧ c.omniborID ≠ .nilSlice) ∧
    (c.swhid = .nil ∨ SpecVersion1_6 ≤ v ∧ c.swhid ≠ .nilSlice) ∧
    (∀ p ∈ c.pedigree, FitsPedigree v p) ∧
    c.externalReferences ≠ .nilSlice ∧ (∀ y ∈ c.externalReferences.elems, ExternalReference.Fits v y) ∧
    (c.properties = .nil ∨ SpecVersion1_3 ≤ v ∧ c.properties ≠ .nilSlice) ∧
    (c.components ≠ .nilSlice ∧ ∀ d ∈ c.components.elems, d.Fits v) ∧
    (c.evidence = none ∨ SpecVersion1_3 ≤ v ∧ ∀ y ∈ c.evidence, Evidence.Fits v y) ∧
    (c.releaseNotes = none ∨ SpecVersion1_4 ≤ v ∧ ∀ y ∈ c.releaseNotes, ReleaseNotes.Fits v y) ∧
    (c.modelCard = none ∨ SpecVersion1_5 ≤ v ∧ ∀ y ∈ c.modelCard, MLModelCard.Fits v y) ∧
    (c.data = .nil ∨ SpecVersion1_5 ≤ v ∧ c.data ≠ .nilSlice ∧ ∀ y ∈ c.data.elems, ComponentData.Fits v y) ∧
    (c.cryptoProperties = none ∨ SpecVersion1_6 ≤ v ∧ ∀ y ∈ c.cryptoProperties, CryptoProperties.Fits v y) ∧
    (c.tags = .nil ∨ SpecVersion1_6 ≤ v ∧ c.tags ≠ .nilSlice) ∧
    (c.isExternal = none ∨ SpecVersion1_7 ≤ v) ∧
    (c.patentAssertions = .nil ∨ SpecVersion1_7 ≤ v ∧ c.patentAssertions ≠ .nilSlice ∧ ∀ y ∈ c.patentAssertions.elems, PatentAssertion.Fits v y) ∧
    (c.versionRange = "" ∨ SpecVersion1_7 ≤ v) ∧
    (c.signature = none ∨ SpecVersion1_4 ≤ v ∧ ∀ y ∈ c.signature, JSFSignature.Fits v y) := by
  obtain ⟨⟩ := c
  rename_i pedigree _ _ _ _ _ _ _ _ _ _ _ _ _
  cases pedigree <;> simp only [Component.Fits, fitsComponents_iff', FitsPedigreeOpt, Option.mem_some_iff, forall_eq', Option.not_mem_none, false_implies, implies_true]

theorem pedigree_fits (p : Pedigree Component) : FitsPedigree v p ↔
    (p.ancestors ≠ .nilSlice ∧ ∀ d ∈ p.ancestors.elems, d.Fits v) ∧
    (p.descendants ≠ .nilSlice ∧ ∀ d ∈ p.descendants.elems, d.Fits v) ∧
    (p.variants ≠ .nilSlice ∧ ∀ d ∈ p.variants.elems, d.Fits v) ∧
    p.commits ≠ .nilSlice ∧
    p.patches ≠ .nilSlice ∧ (∀ y ∈ p.patches.elems, Patch.Fits v y) := by
  cases p; simp only [FitsPedigree, fitsComponents_iff']

theorem walk_all {P : Component → Prop} (c : Component) :
    (∀ ss d, walk c ss = some d → P d) ↔ P c ∧ ∀ e ∈ c.children, ∀ ss d, walk e ss = some d → P d := by
  constructor
  · intro h
    refine ⟨h [] c rfl, fun e he ss d hd => ?_⟩
    have : ∃ s, step c s = some e := by
      simp only [Component.children, List.mem_append] at he
      rcases he with he | he
      · obtain ⟨i, hi⟩ := List.mem_iff_getElem?.1 he
        exact ⟨.child i, hi⟩
      · cases hp : c.pedigree with
        | none => simp [hp] at he
        | some p =>
          simp only [hp, Pedigree.relatives, List.mem_append] at he
          rcases he with (he | he) | he <;> obtain ⟨i, hi⟩ := List.mem_iff_getElem?.1 he
          · exact ⟨.ancestor i, by simp [step, hp, hi]⟩
          · exact ⟨.descendant i, by simp [step, hp, hi]⟩
          · exact ⟨.variant i, by simp [step, hp, hi]⟩
    obtain ⟨s, hs⟩ := this
    exact h (s :: ss) d (by simp [walk, hs, hd])
  · rintro ⟨h0, h⟩ ss d hd
    cases ss with
    | nil => simp only [walk, Option.some.injEq] at hd; exact hd ▸ h0
    | cons s ss =>
      simp only [walk, Option.bind_eq_some_iff] at hd
      obtain ⟨e, he, hd⟩ := hd
      refine h e ?_ ss d hd
      unfold Component.children
      cases s with
      | child i => exact List.mem_append_left _ (List.mem_of_getElem? he)
      | _ i =>
        simp only [step, Option.bind_eq_some_iff] at he
        obtain ⟨p, hp, he⟩ := he
        refine List.mem_append_right _ ?_
        rw [hp]
        simp only [Pedigree.relatives, List.mem_append]
        have := List.mem_of_getElem? he
        simp [this]

theorem walkService_all {P : Service → Prop} (s : Service) :
    (∀ ss d, walkService s ss = some d → P d) ↔ P s ∧ ∀ e ∈ s.children, ∀ ss d, walkService e ss = some d → P d := by
  constructor
  · intro h
    refine ⟨h [] s rfl, fun e he ss d hd => ?_⟩
    obtain ⟨i, hi⟩ := List.mem_iff_getElem?.1 he
    exact h (i :: ss) d (by
      simp only [Service.children] at hi
      simp [walkService, hi, hd])
  · rintro ⟨h0, h⟩ ss d hd
    cases ss with
    | nil => simp only [walkService, Option.some.injEq] at hd; exact hd ▸ h0
    | cons i ss =>
      simp only [walkService, Option.bind_eq_some_iff] at hd
      obtain ⟨e, he, hd⟩ := hd
      exact h e (List.mem_of_getElem? he) ss d hd

theorem componentData_true (h : SpecVersion1_6 ≤ v) (x : ComponentData) : ComponentData.FitsCopied v x ↔ True := by
  have h5 : SpecVersion1_5 ≤ v := by simp only [SpecVersion1_5, SpecVersion1_6] at *; omega
  simp [ComponentData.FitsCopied, DataGovernance.FitsCopied, ComponentDataGovernanceResponsibleParty.FitsCopied,
    entity_true h, contact_true h5]

theorem modelCard_none (o : Option MLModelCard) : convertModelCard v o = none ↔ o = none := by
  cases o <;> simp [convertModelCard]
theorem crypto_none (o : Option CryptoProperties) : convertCryptoProperties v o = none ↔ o = none := by
  cases o <;> simp [convertCryptoProperties]
theorem modelCard_low (h : ¬ SpecVersion1_5 ≤ v) (x : MLModelCard) : MLModelCard.FitsConverted v x ↔ True := by
  simp [MLModelCard.FitsConverted, h]
theorem crypto_low (h : ¬ SpecVersion1_6 ≤ v) (x : CryptoProperties) : CryptoProperties.FitsConverted v x ↔ True := by
  simp [CryptoProperties.FitsConverted, h]
theorem modelCard_or (hv : SpecVersion1_5 ≤ v) (o : Option MLModelCard) :
    (o = none ∨ ∀ y ∈ convertModelCard v (o.map MLModelCard.copy), MLModelCard.Fits v y) ↔
      ∀ y ∈ o, MLModelCard.FitsConverted v y := by
  rw [modelCard hv]; exact none_or
theorem crypto_or (hv : SpecVersion1_6 ≤ v) (o : Option CryptoProperties) :
    (o = none ∨ ∀ y ∈ convertCryptoProperties v (o.map CryptoProperties.copy), CryptoProperties.Fits v y) ↔
      ∀ y ∈ o, CryptoProperties.FitsConverted v y := by
  rw [crypto hv]; exact none_or

/-! Fields of the copy of a component. -/
theorem componentCopy_bomRef (c : Component) : c.copy.bomRef = c.bomRef := by cases c; simp only [Component.copy]
theorem componentCopy_mimeType (c : Component) : c.copy.mimeType = c.mimeType := by cases c; simp only [Component.copy]
theorem componentCopy_type (c : Component) : c.copy.type = c.type := by cases c; simp only [Component.copy]
theorem componentCopy_supplier (c : Component) : c.copy.supplier = c.supplier.map OrganizationalEntity.copy := by cases c; simp only [Component.copy]
theorem componentCopy_manufacturer (c : Component) : c.copy.manufacturer = c.manufacturer.map OrganizationalEntity.copy := by cases c; simp only [Component.copy]
theorem componentCopy_author (c : Component) : c.copy.author = c.author := by cases c; simp only [Component.copy]
theorem componentCopy_authors (c : Component) : c.copy.authors = c.authors.copyWith OrganizationalContact.copy := by cases c; simp only [Component.copy]
theorem componentCopy_publisher (c : Component) : c.copy.publisher = c.publisher := by cases c; simp only [Component.copy]
theorem componentCopy_group (c : Component) : c.copy.group = c.group := by cases c; simp only [Component.copy]
theorem componentCopy_name (c : Component) : c.copy.name = c.name := by cases c; simp only [Component.copy]
theorem componentCopy_version (c : Component) : c.copy.version = c.version := by cases c; simp only [Component.copy]
theorem componentCopy_description (c : Component) : c.copy.description = c.description := by cases c; simp only [Component.copy]
theorem componentCopy_scope (c : Component) : c.copy.scope = c.scope := by cases c; simp only [Component.copy]
theorem componentCopy_hashes (c : Component) : c.copy.hashes = c.hashes.copyWith Hash.copy := by cases c; simp only [Component.copy]
theorem componentCopy_licenses (c : Component) : c.copy.licenses = c.licenses.copyWith LicenseChoice.copy := by cases c; simp only [Component.copy]
theorem componentCopy_copyright (c : Component) : c.copy.copyright = c.copyright := by cases c; simp only [Component.copy]
theorem componentCopy_cpe (c : Component) : c.copy.cpe = c.cpe := by cases c; simp only [Component.copy]
theorem componentCopy_packageURL (c : Component) : c.copy.packageURL = c.packageURL := by cases c; simp only [Component.copy]
theorem componentCopy_omniborID (c : Component) : c.copy.omniborID = c.omniborID.copyWith _root_.id := by cases c; simp only [Component.copy]
theorem componentCopy_swhid (c : Component) : c.copy.swhid = c.swhid.copyWith _root_.id := by cases c; simp only [Component.copy]
theorem componentCopy_swid (c : Component) : c.copy.swid = c.swid.map SWID.copy := by cases c; simp only [Component.copy]
theorem componentCopy_modified (c : Component) : c.copy.modified = Gob.bool c.modified := by cases c; simp only [Component.copy]
theorem componentCopy_pedigree (c : Component) : c.copy.pedigree = copyPedigreeOpt c.pedigree := by cases c; simp only [Component.copy]
theorem componentCopy_externalReferences (c : Component) : c.copy.externalReferences = c.externalReferences.copyWith ExternalReference.copy := by cases c; simp only [Component.copy]
theorem componentCopy_properties (c : Component) : c.copy.properties = c.properties.copyWith Property.copy := by cases c; simp only [Component.copy]
theorem componentCopy_components (c : Component) : c.copy.components = copyComponents c.components := by cases c; simp only [Component.copy]
theorem componentCopy_evidence (c : Component) : c.copy.evidence = c.evidence.map Evidence.copy := by cases c; simp only [Component.copy]
theorem componentCopy_releaseNotes (c : Component) : c.copy.releaseNotes = c.releaseNotes.map ReleaseNotes.copy := by cases c; simp only [Component.copy]
theorem componentCopy_modelCard (c : Component) : c.copy.modelCard = c.modelCard.map MLModelCard.copy := by cases c; simp only [Component.copy]
theorem componentCopy_data (c : Component) : c.copy.data = c.data.copyWith ComponentData.copy := by cases c; simp only [Component.copy]
theorem componentCopy_cryptoProperties (c : Component) : c.copy.cryptoProperties = c.cryptoProperties.map CryptoProperties.copy := by cases c; simp only [Component.copy]
theorem componentCopy_tags (c : Component) : c.copy.tags = c.tags.copyWith _root_.id := by cases c; simp only [Component.copy]
theorem componentCopy_isExternal (c : Component) : c.copy.isExternal = Gob.bool c.isExternal := by cases c; simp only [Component.copy]
theorem componentCopy_patentAssertions (c : Component) : c.copy.patentAssertions = c.patentAssertions.copyWith PatentAssertion.copy := by cases c; simp only [Component.copy]
theorem componentCopy_versionRange (c : Component) : c.copy.versionRange = c.versionRange := by cases c; simp only [Component.copy]
theorem componentCopy_signature (c : Component) : c.copy.signature = c.signature.map JSFSignature.copy := by cases c; simp only [Component.copy]

/-! Fields of the copy of a service. -/
theorem serviceCopy_bomRef (s : Service) : s.copy.bomRef = s.bomRef := by cases s; simp only [Service.copy]
theorem serviceCopy_provider (s : Service) : s.copy.provider = s.provider.map OrganizationalEntity.copy := by cases s; simp only [Service.copy]
theorem serviceCopy_group (s : Service) : s.copy.group = s.group := by cases s; simp only [Service.copy]
theorem serviceCopy_name (s : Service) : s.copy.name = s.name := by cases s; simp only [Service.copy]
theorem serviceCopy_version (s : Service) : s.copy.version = s.version := by cases s; simp only [Service.copy]
theorem serviceCopy_description (s : Service) : s.copy.description = s.description := by cases s; simp only [Service.copy]
theorem serviceCopy_endpoints (s : Service) : s.copy.endpoints = s.endpoints.copyWith _root_.id := by cases s; simp only [Service.copy]
theorem serviceCopy_authenticated (s : Service) : s.copy.authenticated = Gob.bool s.authenticated := by cases s; simp only [Service.copy]
theorem serviceCopy_crossesTrustBoundary (s : Service) : s.copy.crossesTrustBoundary = Gob.bool s.crossesTrustBoundary := by cases s; simp only [Service.copy]
theorem serviceCopy_data (s : Service) : s.copy.data = s.data.copyWith DataClassification.copy := by cases s; simp only [Service.copy]
theorem serviceCopy_licenses (s : Service) : s.copy.licenses = s.licenses.copyWith LicenseChoice.copy := by cases s; simp only [Service.copy]
theorem serviceCopy_externalReferences (s : Service) : s.copy.externalReferences = s.externalReferences.copyWith ExternalReference.copy := by cases s; simp only [Service.copy]
theorem serviceCopy_properties (s : Service) : s.copy.properties = s.properties.copyWith Property.copy := by cases s; simp only [Service.copy]
theorem serviceCopy_services (s : Service) : s.copy.services = copyServices s.services := by cases s; simp only [Service.copy]
theorem serviceCopy_releaseNotes (s : Service) : s.copy.releaseNotes = s.releaseNotes.map ReleaseNotes.copy := by cases s; simp only [Service.copy]
theorem serviceCopy_tags (s : Service) : s.copy.tags = s.tags.copyWith _root_.id := by cases s; simp only [Service.copy]
theorem serviceCopy_trustZone (s : Service) : s.copy.trustZone = s.trustZone := by cases s; simp only [Service.copy]
theorem serviceCopy_patentAssertions (s : Service) : s.copy.patentAssertions = s.patentAssertions.copyWith PatentAssertion.copy := by cases s; simp only [Service.copy]
theorem serviceCopy_signature (s : Service) : s.copy.signature = s.signature.map JSFSignature.copy := by cases s; simp only [Service.copy]

theorem pedigree {f : Component → Component} (o : Option (Pedigree Component)) :
    (∀ p ∈ copyPedigreeOpt o, FitsPedigree v (Pedigree.mapComponents f p)) ↔
      ∀ p ∈ o, ∀ d ∈ p.relatives, (f d.copy).Fits v := by
  cases o with
  | none => simp [copyPedigreeOpt]
  | some p =>
    cases p
    simp only [copyPedigreeOpt, copyPedigree, Pedigree.mapComponents, Option.mem_some_iff, forall_eq',
      pedigree_fits, pedigree_relatives_iff, copyComponents_eq, map_ne_nilSlice, PSlice.elems_map, FitsCopied.elems,
      List.map_map, list_all, Function.comp_apply, FitsCopied.ne_nilSlice, Patch.copy_fits, ne_eq, not_false_eq_true,
      true_and, and_true, implies_true]

/-- A component with everything below it. -/
theorem component (hv : SpecVersion1_2 ≤ v) (c : Component) :
    (recurseComponent (componentConverter v) c.copy).Fits v ↔ Component.FitsConverted v c := by
  induction c using Component.induct with
  | h c ih =>
    unfold Component.FitsConverted
    rw [walk_all, component_children_iff, recurseComponent_go', component_fits]
    have h1 : (∀ d ∈ c.components.elems, Component.Fits v (recurseComponent (componentConverter v) d.copy)) ↔
        ∀ d ∈ c.components.elems, ∀ ss e, walk d ss = some e → e.OwnFits v :=
      forall₂_congr fun d hd => ih d (List.mem_append_left _ hd)
    have h2 : (∀ p ∈ c.pedigree, ∀ d ∈ p.relatives, Component.Fits v (recurseComponent (componentConverter v) d.copy)) ↔
        ∀ p ∈ c.pedigree, ∀ d ∈ p.relatives, ∀ ss e, walk d ss = some e → e.OwnFits v := by
      refine forall₂_congr fun p hp => forall₂_congr fun d hd => ih d (List.mem_append_right _ ?_)
      rw [Option.mem_def.1 hp]; exact hd
    rw [← h1, ← h2]
    simp only [Component.mapChildren, Component.OwnFits, componentConverter_evidence, componentCopy_evidence, evidence hv]
    versions hv using [componentConverter_bomRef, componentConverter_mimeType, componentConverter_type, componentConverter_supplier, componentConverter_manufacturer, componentConverter_author, componentConverter_authors, componentConverter_publisher, componentConverter_group, componentConverter_name, componentConverter_version, componentConverter_description, componentConverter_scope, componentConverter_hashes, componentConverter_licenses, componentConverter_copyright, componentConverter_cpe, componentConverter_packageURL, componentConverter_omniborID, componentConverter_swhid, componentConverter_swid, componentConverter_modified, componentConverter_pedigree, componentConverter_externalReferences, componentConverter_properties, componentConverter_components, componentConverter_evidence, componentConverter_releaseNotes, componentConverter_modelCard, componentConverter_data, componentConverter_cryptoProperties, componentConverter_tags, componentConverter_isExternal, componentConverter_patentAssertions, componentConverter_versionRange, componentConverter_signature, componentCopy_bomRef, componentCopy_mimeType, componentCopy_type, componentCopy_supplier, componentCopy_manufacturer, componentCopy_author, componentCopy_authors, componentCopy_publisher, componentCopy_group, componentCopy_name, componentCopy_version, componentCopy_description, componentCopy_scope, componentCopy_hashes, componentCopy_licenses, componentCopy_copyright, componentCopy_cpe, componentCopy_packageURL, componentCopy_omniborID, componentCopy_swhid, componentCopy_swid, componentCopy_modified, componentCopy_pedigree, componentCopy_externalReferences, componentCopy_properties, componentCopy_components, componentCopy_evidence, componentCopy_releaseNotes, componentCopy_modelCard, componentCopy_data, componentCopy_cryptoProperties, componentCopy_tags, componentCopy_isExternal, componentCopy_patentAssertions, componentCopy_versionRange, componentCopy_signature, pedigree, hashes, evidence hv,
      copyComponents_eq, convertExternalReferences, extref hv, licenses hv, licenses_ne hv, crypto_or, modelCard_or,
      crypto_none, modelCard_none, crypto_low, modelCard_low, OrganizationalEntity.copy_fits, entity_true,
      OrganizationalContact.copy_fits, contact_true, ReleaseNotes.copy_fits, ComponentData.copy_fits, componentData_true,
      PatentAssertion.copy_fits, JSFSignature.copy_fits]
    all_goals regroup

/-! ### Services -/

theorem service_fits (s : Service) : s.Fits v ↔
    (∀ y ∈ s.provider, OrganizationalEntity.Fits v y) ∧
    s.endpoints ≠ .nilSlice ∧
    s.data ≠ .nilSlice ∧ (∀ y ∈ s.data.elems, DataClassification.Fits v y) ∧
    s.licenses ≠ .nilSlice ∧ (∀ y ∈ s.licenses.elems, LicenseChoice.Fits v y) ∧
    s.externalReferences ≠ .nilSlice ∧ (∀ y ∈ s.externalReferences.elems, ExternalReference.Fits v y) ∧
    (s.properties = .nil ∨ SpecVersion1_3 ≤ v ∧ s.properties ≠ .nilSlice) ∧
    (s.services ≠ .nilSlice ∧ ∀ d ∈ s.services.elems, d.Fits v) ∧
    (s.releaseNotes = none ∨ SpecVersion1_4 ≤ v ∧ ∀ y ∈ s.releaseNotes, ReleaseNotes.Fits v y) ∧
    (s.tags = .nil ∨ SpecVersion1_6 ≤ v ∧ s.tags ≠ .nilSlice) ∧
    (s.trustZone = "" ∨ SpecVersion1_5 ≤ v) ∧
    (s.patentAssertions = .nil ∨ SpecVersion1_7 ≤ v ∧ s.patentAssertions ≠ .nilSlice ∧ ∀ y ∈ s.patentAssertions.elems, PatentAssertion.Fits v y) ∧
    (s.signature = none ∨ SpecVersion1_4 ≤ v ∧ ∀ y ∈ s.signature, JSFSignature.Fits v y) := by
  cases s
  simp only [Service.Fits, fitsServices_iff']

theorem governance_true (h : SpecVersion1_6 ≤ v) (x : DataGovernance) : DataGovernance.FitsCopied v x ↔ True := by
  have h5 : SpecVersion1_5 ≤ v := by simp only [SpecVersion1_5, SpecVersion1_6] at *; omega
  simp [DataGovernance.FitsCopied, ComponentDataGovernanceResponsibleParty.FitsCopied, entity_true h, contact_true h5]

theorem classification_true (h : SpecVersion1_6 ≤ v) (x : DataClassification) : DataClassification.FitsCopied v x ↔ True := by
  have h5 : SpecVersion1_5 ≤ v := by simp only [SpecVersion1_5, SpecVersion1_6] at *; omega
  simp [DataClassification.FitsCopied, h5, governance_true h]

theorem classification_cleared (x : DataClassification) : DataClassification.Fits v
    { x.copy with name := "", description := "", governance := none, source := .nil, destination := .nil } ↔ True := by
  simp [DataClassification.Fits]

/-- A service with everything below it. -/
theorem service (hv : SpecVersion1_2 ≤ v) (s : Service) :
    (recurseService (serviceConverter v) s.copy).Fits v ↔ Service.FitsConverted v s := by
  induction s using Service.induct with
  | h s ih =>
    unfold Service.FitsConverted
    rw [walkService_all, recurseService_go', service_fits]
    have h1 : (∀ d ∈ s.services.elems, Service.Fits v (recurseService (serviceConverter v) d.copy)) ↔
        ∀ d ∈ s.children, ∀ ss e, walkService d ss = some e → e.OwnFits v :=
      forall₂_congr fun d hd => ih d hd
    rw [← h1]
    simp only [Service.mapChildren, Service.OwnFits]
    versions hv using [serviceConverter_bomRef, serviceConverter_provider, serviceConverter_group, serviceConverter_name, serviceConverter_version, serviceConverter_description, serviceConverter_endpoints, serviceConverter_authenticated, serviceConverter_crossesTrustBoundary, serviceConverter_data, serviceConverter_licenses, serviceConverter_externalReferences, serviceConverter_properties, serviceConverter_services, serviceConverter_releaseNotes, serviceConverter_tags, serviceConverter_trustZone, serviceConverter_patentAssertions, serviceConverter_signature, serviceCopy_bomRef, serviceCopy_provider, serviceCopy_group, serviceCopy_name, serviceCopy_version, serviceCopy_description, serviceCopy_endpoints, serviceCopy_authenticated, serviceCopy_crossesTrustBoundary, serviceCopy_data, serviceCopy_licenses, serviceCopy_externalReferences, serviceCopy_properties, serviceCopy_services, serviceCopy_releaseNotes, serviceCopy_tags, serviceCopy_trustZone, serviceCopy_patentAssertions, serviceCopy_signature, convertDataClassifications,
      copyServices_eq, convertExternalReferences, extref hv, entity hv, classification_cleared, classification_true,
      DataClassification.copy_fits, LicenseChoice.copy_fits, ReleaseNotes.copy_fits, PatentAssertion.copy_fits,
      JSFSignature.copy_fits]
    all_goals regroup

/-! ### Tools -/

theorem tool (hv : SpecVersion1_2 ≤ v) (x : Tool) : (convertTool v x.copy).Fits v ↔ HashesFit v x.hashes := by
  versions hv using [Tool.Fits, convertTool_hashes, convertTool_externalReferences, Tool.copy, hashes,
    convertExternalReferences, extref hv]

theorem componentTool (hv : SpecVersion1_2 ≤ v) (x : Component) :
    (convertTool v (convertComponentToTool x.copy)).Fits v ↔ HashesFit v x.hashes := by
  versions hv using [Tool.Fits, convertTool_hashes, convertTool_externalReferences, convertComponentToTool,
    componentCopy_hashes, componentCopy_externalReferences, hashes, convertExternalReferences, extref hv]

theorem serviceTool (hv : SpecVersion1_2 ≤ v) (x : Service) :
    (convertTool v (convertServiceToTool x.copy)).Fits v ↔ True := by
  versions hv using [Tool.Fits, convertTool_hashes, convertTool_externalReferences, convertServiceToTool,
    serviceCopy_externalReferences, convertExternalReferences, extref hv, convertHashes_nil]

theorem legacy_elems (x : ToolsChoice) : (toolsToLegacy x).tools.elems =
    x.tools.elems ++ (x.components.elems.map convertComponentToTool ++ x.services.elems.map convertServiceToTool) := by
  unfold toolsToLegacy
  simp only
  split
  · rename_i h; rw [List.isEmpty_iff] at h; simp [h]
  · cases x.tools <;> simp [PSlice.elems]

theorem legacy_ne (x : ToolsChoice) : (toolsToLegacy x.copy).tools ≠ .nilSlice := by
  unfold toolsToLegacy
  simp only
  split
  · simp [ToolsChoice.copy, FitsCopied.ne_nilSlice]
  · split <;> simp

theorem map_ne {α β : Type} {f : α → β} {p : PSlice α} (h : p ≠ .nilSlice) : p.map f ≠ .nilSlice := by
  cases p <;> simp_all [PSlice.map]

theorem toolService_fits (hv : SpecVersion1_2 ≤ v) (s : Service) :
    (toolService v s.copy).Fits v ↔ Service.FitsCopied v { s with provider := none } := by
  have : Service.copy { s with provider := none } = { s.copy with provider := none } := by
    cases s; simp only [Service.copy, Option.map_none]
  rw [← Service.copy_fits, this, service_fits, service_fits, toolService]
  cases h : s.copy.provider with
  | none => simp
  | some p =>
    rw [serviceCopy_provider] at h
    cases hp : s.provider with
    | none => rw [hp] at h; simp at h
    | some q =>
      rw [hp] at h
      simp only [Option.map_some, Option.some.injEq] at h
      subst h
      simp [entity hv]

theorem tools (hv : SpecVersion1_2 ≤ v) (x : ToolsChoice) :
    (convertTools v x.copy).Fits v ↔ ToolsChoice.FitsConverted v x := by
  by_cases h : v < SpecVersion1_5
  · have h5 : ¬ SpecVersion1_5 ≤ v := by omega
    rw [convertTools_old h]
    simp only [ToolsChoice.Fits, ToolsChoice.FitsConverted, h, h5, PSlice.elems_map, list_all, legacy_elems]
    have e1 : (toolsToLegacy x.copy).components = .nil := rfl
    have e2 : (toolsToLegacy x.copy).services = .nil := rfl
    simp only [e1, e2, ToolsChoice.copy, FitsCopied.elems, List.mem_append, or_imp, forall_and, list_all, tool hv,
      componentTool hv, serviceTool hv, map_ne (legacy_ne _)]
    have := map_ne (f := convertTool v) (legacy_ne x)
    simp [ToolsChoice.copy] at this ⊢
    simp [this]
  · have h5 : SpecVersion1_5 ≤ v := by omega
    rw [convertTools_new h]
    simp only [ToolsChoice.Fits, ToolsChoice.FitsConverted, h, h5, PSlice.elems_map, list_all, ToolsChoice.copy,
      map_ne_nilSlice, map_eq_nil, FitsCopied.elems, tool hv, Component.copy_fits, FitsCopied.eq_nil, FitsCopied.ne_nilSlice,
      toolService_fits hv, FitsCopied.list_all, ne_eq, not_false_eq_true, true_and, false_implies, true_implies]
    refine and_congr_right fun _ => ⟨?_, .inr⟩
    rintro (⟨h1, h2⟩ | h)
    · simp [h1, h2]
    · exact h

/-! ### The rest -/

theorem credits_true (h : SpecVersion1_6 ≤ v) (x : Credits) : Credits.FitsCopied v x ↔ True := by
  have h5 : SpecVersion1_5 ≤ v := by simp only [SpecVersion1_5, SpecVersion1_6] at *; omega
  simp [Credits.FitsCopied, entity_true h, contact_true h5]

theorem credits (hv : SpecVersion1_2 ≤ v) (x : Credits) : Credits.Fits v
    { x.copy with
      organizations := x.copy.organizations.map (convertOrganizationalEntity v)
      individuals := x.copy.individuals.map (convertOrganizationalContact v) } ↔ True := by
  simp only [Credits.Fits, Credits.copy, map_ne_nilSlice, PSlice.elems_map, FitsCopied.elems, list_all, entity hv,
    contact hv, ne_eq, not_false_eq_true, implies_true, and_self]

theorem analysis_true (h : SpecVersion1_5 ≤ v) (x : VulnerabilityAnalysis) : VulnerabilityAnalysis.FitsCopied v x ↔ True := by
  simp [VulnerabilityAnalysis.FitsCopied, h]

theorem analysis (x : VulnerabilityAnalysis) : VulnerabilityAnalysis.Fits v
    { x.copy with firstIssued := "", lastUpdated := "" } ↔ True := by
  simp [VulnerabilityAnalysis.Fits, VulnerabilityAnalysis.copy, FitsCopied.ne_nilSlice]

theorem vulnerability (hv : SpecVersion1_2 ≤ v) (x : Vulnerability) :
    (convertVulnerability v x.copy).Fits v ↔ ∀ t ∈ x.tools, ToolsChoice.FitsConverted v t := by
  versions hv using [Vulnerability.Fits, convertVulnerability_bomRef, convertVulnerability_id, convertVulnerability_source, convertVulnerability_references, convertVulnerability_ratings, convertVulnerability_cwes, convertVulnerability_description, convertVulnerability_detail, convertVulnerability_recommendation, convertVulnerability_workaround, convertVulnerability_proofOfConcept, convertVulnerability_advisories, convertVulnerability_created, convertVulnerability_published, convertVulnerability_updated, convertVulnerability_rejected, convertVulnerability_credits, convertVulnerability_tools, convertVulnerability_analysis, convertVulnerability_affects, convertVulnerability_properties, Vulnerability.copy, ProofOfConcept.copy_fits, Credits.copy_fits, credits hv,
    credits_true, analysis, analysis_true, VulnerabilityAnalysis.copy_fits, Affects.copy_fits, tools hv]

theorem metadata (hv : SpecVersion1_2 ≤ v) (x : Metadata) :
    (convertMetadata v x.copy).Fits v ↔ Metadata.FitsConverted v x := by
  versions hv using [Metadata.Fits, convertMetadata_timestamp, convertMetadata_lifecycles, convertMetadata_tools, convertMetadata_authors, convertMetadata_component, convertMetadata_manufacture, convertMetadata_manufacturer, convertMetadata_supplier, convertMetadata_licenses, convertMetadata_properties, convertMetadata_distributionConstraints, Metadata.copy, tools hv, contact hv, entity hv, component hv, licenses hv,
    licenses_ne hv, licenses_nil hv, OrganizationalEntity.copy_fits, entity_true, Metadata.FitsConverted]

theorem composition (hv : SpecVersion1_2 ≤ v) (x : Composition) :
    (convertComposition v x.copy).Fits v ↔ (x.signature = none ∨ SpecVersion1_4 ≤ v) := by
  unfold convertComposition
  simp only
  split_ifs <;> versions hv using [Composition.Fits, Composition.copy, JSFSignature.copy_fits]

theorem dependency_true (h : SpecVersion1_6 ≤ v) (x : Dependency) : Dependency.FitsCopied v x ↔ True := by
  simp [Dependency.FitsCopied, h]

theorem dependency (x : Dependency) : Dependency.Fits v { x.copy with provides := .nil } ↔ True := by
  simp [Dependency.Fits, Dependency.copy, FitsCopied.ne_nilSlice]

theorem annotations (h5 : SpecVersion1_5 ≤ v) (p : PSlice Annotation) :
    (convertAnnotations v (p.copyWith Annotation.copy) = .nil ∨
      convertAnnotations v (p.copyWith Annotation.copy) ≠ .nilSlice ∧
      ∀ y ∈ (convertAnnotations v (p.copyWith Annotation.copy)).elems, Annotation.Fits v y) ↔
    ∀ y ∈ p.elems, ∀ a ∈ y.annotator, Annotator.FitsConverted v a := by
  have hv : SpecVersion1_2 ≤ v := by simp only [SpecVersion1_2, SpecVersion1_5] at *; omega
  versions hv using [convertAnnotations, Annotation.Fits, Annotation.copy, JSFSignature.copy_fits, Annotator.Fits,
    Annotator.copy, convertAnnotator, entity hv, service hv, Component.copy_fits, Service.copy_fits, contact_true,
    OrganizationalContact.copy_fits, OrganizationalEntity.copy_fits, entity_true, Annotator.FitsConverted]

theorem definitions_cleared (x : Definitions) : Definitions.Fits v { x.copy with patents := .nil } ↔
    ∀ d ∈ x.standards.elems, StandardDefinition.FitsCopied v d := by
  simp only [Definitions.Fits, Definitions.copy, FitsCopied.ne_nilSlice, FitsCopied.elems, FitsCopied.list_all,
    StandardDefinition.copy_fits, ne_eq, not_false_eq_true, true_and, true_or, and_true]

theorem bom (hv : SpecVersion1_2 ≤ v) (x : BOM) : (convert v x.copy).Fits v ↔ BOM.FitsConverted v x := by
  versions hv using [BOM.Fits, convert_xmlName, convert_xmlns, convert_jsonSchema, convert_bomFormat, convert_specVersion, convert_serialNumber, convert_version, convert_metadata, convert_components, convert_services, convert_externalReferences, convert_dependencies, convert_compositions, convert_properties, convert_vulnerabilities, convert_annotations, convert_formulation, convert_declarations, convert_definitions, convert_citations, convert_signature, BOM.copy, BOM.FitsConverted, metadata hv, component hv, service hv, extref hv,
    convertExternalReferences, convertCompositions, composition hv, convertVulnerabilities, vulnerability hv,
    dependency, Dependency.copy_fits, dependency_true, annotations, Formula.copy_fits, Declarations.copy_fits,
    Definitions.copy_fits, Definitions.FitsCopied, definitions_cleared, Citation.copy_fits, JSFSignature.copy_fits]

end FitsConverted

end Verif
