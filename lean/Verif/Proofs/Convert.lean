import Verif.Proofs.ConvertFields

/-! Helper lemmas about version conversion (no property statements here). -/

namespace Verif

/-! ### PSlice -/

theorem PSlice.map_map {α β γ : Type _} (f : α → β) (g : β → γ) (p : PSlice α) :
    (p.map f).map g = p.map (fun a => g (f a)) := by
  cases p <;> simp [PSlice.map]

theorem PSlice.map_congr {α β : Type _} {f g : α → β} {p : PSlice α}
    (h : ∀ a ∈ p.elems, f a = g a) : p.map f = p.map g := by
  cases p with
  | nil => rfl
  | nilSlice => rfl
  | list xs => simp only [PSlice.map]; congr 1; exact List.map_congr_left h

theorem PSlice.map_id' {α : Type _} {f : α → α} {p : PSlice α} (h : ∀ a ∈ p.elems, f a = a) :
    p.map f = p := by
  rw [PSlice.map_congr (g := id) h]; cases p <;> simp [PSlice.map]

theorem PSlice.elems_map {α β : Type _} (f : α → β) (p : PSlice α) :
    (p.map f).elems = p.elems.map f := by
  cases p <;> simp [PSlice.map, PSlice.elems]

@[simp] theorem PSlice.map_nil {α β : Type _} (f : α → β) : (PSlice.nil : PSlice α).map f = .nil := rfl

/-! ### Support tables are monotone -/

theorem ite_mono {p : Prop} [Decidable p] {a b a' b' : Bool} (h1 : a = true → a' = true)
    (h2 : b = true → b' = true) (h : (if p then a else b) = true) :
    (if p then a' else b') = true := by
  by_cases hp : p
  · rw [if_pos hp] at *; exact h1 h
  · rw [if_neg hp] at *; exact h2 h

theorem ge_mono {v w k : Int} (h : v ≤ w) (hs : decide (v ≥ k) = true) : decide (w ≥ k) = true := by
  simp only [decide_eq_true_eq] at *; omega

theorem supportsComponentType_mono {v w : Int} (h : v ≤ w) {t : ComponentType} :
    supportsComponentType v t = true → supportsComponentType w t = true :=
  ite_mono (ge_mono h) (ite_mono (ge_mono h) (ite_mono (ge_mono h) (ite_mono (ge_mono h) (id))))

theorem supportsCompositionAggregate_mono {v w : Int} (h : v ≤ w) {t : CompositionAggregate} :
    supportsCompositionAggregate v t = true → supportsCompositionAggregate w t = true :=
  ite_mono (ge_mono h) (ge_mono h)

theorem supportsExternalReferenceType_mono {v w : Int} (h : v ≤ w) {t : ExternalReferenceType} :
    supportsExternalReferenceType v t = true → supportsExternalReferenceType w t = true :=
  ite_mono (ge_mono h) (ite_mono (ge_mono h) (ge_mono h))

theorem supportsCryptoPrimitive_mono {v w : Int} (h : v ≤ w) {t : CryptoPrimitive} :
    supportsCryptoPrimitive v t = true → supportsCryptoPrimitive w t = true :=
  ite_mono (ge_mono h) (ge_mono h)

theorem supportsCryptoProtocolType_mono {v w : Int} (h : v ≤ w) {t : CryptoProtocolType} :
    supportsCryptoProtocolType v t = true → supportsCryptoProtocolType w t = true :=
  ite_mono (ge_mono h) (ge_mono h)

theorem supportsHashAlgorithm_mono {v w : Int} (h : v ≤ w) {t : HashAlgorithm} :
    supportsHashAlgorithm v t = true → supportsHashAlgorithm w t = true :=
  ite_mono (ge_mono h) (ite_mono (ge_mono h) (ite_mono (ge_mono h) (id)))

theorem supportsScope_mono {v w : Int} (h : v ≤ w) {t : Scope} :
    supportsScope v t = true → supportsScope w t = true :=
  ite_mono (ge_mono h) (ite_mono (ge_mono h) (id))

theorem supportsScoringMethod_mono {v w : Int} (h : v ≤ w) {t : ScoringMethod} :
    supportsScoringMethod v t = true → supportsScoringMethod w t = true :=
  ite_mono (ge_mono h) (ite_mono (ge_mono h) (id))

/-! ### Absorption: converting to `w` first does not matter for a conversion to `v ≤ w` -/

theorem ite_absorb {α : Type _} {v w k : Int} (h : v ≤ w) (d x : α) :
    (if v < k then d else if w < k then d else x) = if v < k then d else x := by
  split
  · rfl
  · rw [if_neg (by omega)]

theorem replace_absorb {α : Type _} {p q : α → Bool} {t d : α} (h : p t = true → q t = true) :
    (if p (if q t then t else d) then (if q t then t else d) else d) = if p t then t else d := by
  cases hq : q t
  · have hp : p t = false := by cases hp : p t <;> simp_all
    simp [hp]
  · simp

theorem optMap_absorb {α : Type _} {f g : α → α} (h : ∀ a, f (g a) = f a) (o : Option α) :
    (o.map g).map f = o.map f := by
  cases o <;> simp [h]

theorem psMap_absorb {α : Type _} {f g : α → α} (h : ∀ a, f (g a) = f a) (p : PSlice α) :
    (p.map g).map f = p.map f := by
  rw [PSlice.map_map]; exact PSlice.map_congr fun a _ => h a

section
variable {v w : Int}

theorem convertOrganizationalContact_absorb (h : v ≤ w) (c : OrganizationalContact) :
    convertOrganizationalContact v (convertOrganizationalContact w c) =
      convertOrganizationalContact v c := by
  unfold convertOrganizationalContact
  split_ifs <;> first | rfl | vomega

theorem convertOrganizationalEntity_absorb (h : v ≤ w) (o : OrganizationalEntity) :
    convertOrganizationalEntity v (convertOrganizationalEntity w o) =
      convertOrganizationalEntity v o := by
  apply OrganizationalEntity.ext <;> simp only [convertOrganizationalEntity_bomRef,
    convertOrganizationalEntity_name, convertOrganizationalEntity_address,
    convertOrganizationalEntity_url, convertOrganizationalEntity_contact, ite_absorb h]
  split_ifs <;> first | rfl | vomega | exact psMap_absorb (convertOrganizationalContact_absorb h) _

theorem convertComposition_absorb (h : v ≤ w) (c : Composition) :
    convertComposition v (convertComposition w c) = convertComposition v c := by
  apply Composition.ext <;> simp only [convertComposition_bomRef, convertComposition_aggregate,
    convertComposition_assemblies, convertComposition_dependencies, convertComposition_vulnerabilities,
    convertComposition_signature, ite_absorb h]
  exact replace_absorb (supportsCompositionAggregate_mono h)

theorem convertExternalReference_absorb (h : v ≤ w) (r : ExternalReference) :
    convertExternalReference v (convertExternalReference w r) = convertExternalReference v r := by
  apply ExternalReference.ext <;> simp only [convertExternalReference_url,
    convertExternalReference_comment, convertExternalReference_hashes, convertExternalReference_type,
    convertExternalReference_properties, ite_absorb h]
  exact replace_absorb (supportsExternalReferenceType_mono h)

theorem convertExternalReferences_absorb (h : v ≤ w) (rs : PSlice ExternalReference) :
    convertExternalReferences v (convertExternalReferences w rs) = convertExternalReferences v rs :=
  psMap_absorb (convertExternalReference_absorb h) rs

theorem convertDataClassifications_absorb (h : v ≤ w) (ds : PSlice DataClassification) :
    convertDataClassifications v (convertDataClassifications w ds) =
      convertDataClassifications v ds := by
  unfold convertDataClassifications
  split_ifs <;> first | rfl | vomega | (rw [PSlice.map_map])

theorem storeOrNil_elems {α : Type _} (xs : List α) : (storeOrNil xs).elems = xs := by
  unfold storeOrNil; cases xs <;> rfl

theorem storeOrNil_ne_nil {α : Type _} (xs : List α) : storeOrNil xs ≠ .nil := by
  unfold storeOrNil; cases xs <;> simp

theorem convertHashes_of_ne {hs : PSlice Hash} (h : hs ≠ .nil) (v : Int) : convertHashes v hs =
    storeOrNil (hs.elems.filter fun h => supportsHashAlgorithm v h.algorithm) := by
  cases hs <;> first | rfl | exact absurd rfl h

theorem convertHashes_absorb (h : v ≤ w) (hs : PSlice Hash) :
    convertHashes v (convertHashes w hs) = convertHashes v hs := by
  by_cases hn : hs = .nil
  · subst hn; rfl
  · rw [convertHashes_of_ne hn, convertHashes_of_ne (storeOrNil_ne_nil _), convertHashes_of_ne hn,
      storeOrNil_elems, List.filter_filter]
    congr 2; funext a
    cases hv : supportsHashAlgorithm v a.algorithm <;>
      simp [supportsHashAlgorithm_mono h (t := a.algorithm), hv]

/-! #### Licenses -/

/-- What `convertLicenses` does to one entry, apart from the filtering below 1.1. -/
def licenseChoice (v : Int) (c : LicenseChoice) : LicenseChoice :=
  let c := if v < SpecVersion1_5 then convertLicense1_4 c else c
  let c := if v < SpecVersion1_6 then convertLicense1_5 v c else c
  if v < SpecVersion1_7 then convertLicense1_6 c else c

theorem convertLicenses_eq (v : Int) (ls : PSlice LicenseChoice) : convertLicenses v ls =
    (if v < SpecVersion1_1 then convertLicenses1_0 ls else ls).map (licenseChoice v) := by
  unfold convertLicenses licenseChoice
  generalize (if v < SpecVersion1_1 then convertLicenses1_0 ls else ls) = ls
  by_cases h5 : v < SpecVersion1_5 <;> by_cases h6 : v < SpecVersion1_6 <;>
    by_cases h7 : v < SpecVersion1_7 <;>
    simp only [h5, h6, h7, if_true, if_false, PSlice.map_map] <;>
    exact (PSlice.map_id' fun _ _ => rfl).symm

/-- What conversion does to a license. -/
def licenseOf (v : Int) (l : License) : License :=
  { l with
    bomRef := if v < SpecVersion1_5 then "" else l.bomRef
    licensing := if v < SpecVersion1_5 then none
      else if v < SpecVersion1_6 then l.licensing.map (convertLicensing v) else l.licensing
    properties := if v < SpecVersion1_5 then .nil else l.properties
    acknowledgement := if v < SpecVersion1_6 then "" else l.acknowledgement }

theorem licenseChoice_eq (v : Int) (c : LicenseChoice) : licenseChoice v c =
    { c with
      license := c.license.map (licenseOf v)
      expressionDetails := if v < SpecVersion1_7 then .nil else c.expressionDetails
      licensing := if v < SpecVersion1_7 then none else c.licensing
      properties := if v < SpecVersion1_7 then .nil else c.properties } := by
  rcases c with ⟨_ | l⟩
  all_goals
    by_cases h5 : v < SpecVersion1_5 <;> by_cases h6 : v < SpecVersion1_6 <;>
      by_cases h7 : v < SpecVersion1_7 <;> first
      | vomega
      | simp [licenseChoice, convertLicense1_4, convertLicense1_5, convertLicense1_6, licenseOf, h5, h6, h7]

theorem convertParty_absorb (h : v ≤ w) (p : OrganizationalEntityOrContact) :
    convertParty v (convertParty w p) = convertParty v p := by
  simp [convertParty, Function.comp_def, convertOrganizationalEntity_absorb h]

theorem convertLicensing_absorb (h : v ≤ w) (l : Licensing) :
    convertLicensing v (convertLicensing w l) = convertLicensing v l := by
  simp [convertLicensing, Function.comp_def, convertParty_absorb h]

theorem licenseOf_absorb (h : v ≤ w) (l : License) : licenseOf v (licenseOf w l) = licenseOf v l := by
  simp only [licenseOf, ite_absorb h, License.mk.injEq, true_and, and_true]
  split_ifs <;> first | rfl | vomega | exact optMap_absorb (convertLicensing_absorb h) _

theorem licenseChoice_absorb (h : v ≤ w) (c : LicenseChoice) :
    licenseChoice v (licenseChoice w c) = licenseChoice v c := by
  simp only [licenseChoice_eq, ite_absorb h, optMap_absorb (licenseOf_absorb h)]

theorem convertLicense1_0_choice (h : v ≤ w) (c : LicenseChoice) :
    licenseChoice v (convertLicense1_0 (licenseChoice w c)) =
      licenseChoice v (convertLicense1_0 c) := by
  simp only [licenseChoice_eq, convertLicense1_0]
  rcases c with ⟨_ | l⟩
  · simp [ite_absorb h]
  · by_cases hl : l.id = "" ∧ l.name = ""
    · simp [ite_absorb h, hl, licenseOf]
    · have : ¬ ((licenseOf w l).id = "" ∧ (licenseOf w l).name = "") := hl
      simp only [Option.map_some, if_neg hl, if_neg this, ite_absorb h]
      have := licenseOf_absorb h l
      simp only [licenseOf, License.mk.injEq] at this ⊢
      simp [this]

theorem convertLicense1_0_isSome (w : Int) (c : LicenseChoice) :
    (convertLicense1_0 (licenseChoice w c)).license.isSome = (convertLicense1_0 c).license.isSome := by
  simp only [licenseChoice_eq, convertLicense1_0]
  rcases c with ⟨_ | l⟩
  · rfl
  · by_cases hl : l.id = "" ∧ l.name = ""
    · simp [hl, licenseOf]
    · have : ¬ ((licenseOf w l).id = "" ∧ (licenseOf w l).name = "") := hl
      simp only [Option.map_some, if_neg hl, if_neg this, Option.isSome_some]

theorem storeOrNil_map {α β : Type _} (f : α → β) (xs : List α) :
    (storeOrNil xs).map f = storeOrNil (xs.map f) := by
  cases xs <;> rfl

theorem convertLicenses1_0_of_ne {ls : PSlice LicenseChoice} (h : ls ≠ .nil) : convertLicenses1_0 ls =
    storeOrNil ((ls.elems.map convertLicense1_0).filter fun c => c.license.isSome) := by
  cases ls <;> first | rfl | exact absurd rfl h

theorem convertLicense1_0_idem (c : LicenseChoice) :
    convertLicense1_0 (convertLicense1_0 c) = convertLicense1_0 c := by
  unfold convertLicense1_0
  rcases c with ⟨_ | l⟩
  · rfl
  · by_cases hl : l.id = "" ∧ l.name = "" <;> simp [hl]

theorem convertLicenses1_0_idem (ls : PSlice LicenseChoice) :
    convertLicenses1_0 (convertLicenses1_0 ls) = convertLicenses1_0 ls := by
  by_cases hn : ls = .nil
  · subst hn; rfl
  · rw [convertLicenses1_0_of_ne hn, convertLicenses1_0_of_ne (storeOrNil_ne_nil _), storeOrNil_elems]
    congr 1
    generalize ls.elems = xs
    induction xs with
    | nil => rfl
    | cons c cs ih =>
      cases hc : (convertLicense1_0 c).license.isSome <;>
        simp [hc, convertLicense1_0_idem, ih]

theorem convertLicenses1_0_map (h : v ≤ w) (ls : PSlice LicenseChoice) :
    (convertLicenses1_0 (ls.map (licenseChoice w))).map (licenseChoice v) =
      (convertLicenses1_0 ls).map (licenseChoice v) := by
  by_cases hn : ls = .nil
  · subst hn; rfl
  · have hn' : ls.map (licenseChoice w) ≠ .nil := by cases ls <;> simp_all [PSlice.map]
    rw [convertLicenses1_0_of_ne hn, convertLicenses1_0_of_ne hn', storeOrNil_map, storeOrNil_map,
      PSlice.elems_map]
    congr 1
    generalize ls.elems = xs
    induction xs with
    | nil => rfl
    | cons c cs ih =>
      cases hc : (convertLicense1_0 c).license.isSome <;>
        simp [hc, convertLicense1_0_isSome, convertLicense1_0_choice h] <;> simpa using ih

theorem convertLicenses_absorb (h : v ≤ w) (ls : PSlice LicenseChoice) :
    convertLicenses v (convertLicenses w ls) = convertLicenses v ls := by
  simp only [convertLicenses_eq]
  split_ifs with h1 h2
  · rw [convertLicenses1_0_map h, convertLicenses1_0_idem]
  · rw [convertLicenses1_0_map h]
  · vomega
  · exact psMap_absorb (licenseChoice_absorb h) ls

/-! #### Evidence, model card, crypto -/

theorem licenseOf_latest (h : SpecVersion1_6 ≤ w) (l : License) : licenseOf w l = l := by
  have h5 : ¬ w < SpecVersion1_5 := fun _ => by vomega
  have h6 : ¬ w < SpecVersion1_6 := fun _ => by vomega
  simp [licenseOf, h5, h6]

theorem licenseChoice_latest (h : SpecVersion1_7 ≤ w) (c : LicenseChoice) : licenseChoice w c = c := by
  have h5 : ¬ w < SpecVersion1_5 := fun _ => by vomega
  have h6 : ¬ w < SpecVersion1_6 := fun _ => by vomega
  have h7 : ¬ w < SpecVersion1_7 := fun _ => by vomega
  simp [licenseChoice, h5, h6, h7]

theorem convertLicenses_latest (h : SpecVersion1_7 ≤ w) (ls : PSlice LicenseChoice) :
    convertLicenses w ls = ls := by
  rw [convertLicenses_eq, if_neg (fun _ => by vomega)]
  exact PSlice.map_id' fun c _ => licenseChoice_latest h c

/-- The pairs of versions for which a conversion in two steps agrees with the direct one. -/
def StepOK (v w : Int) : Prop :=
  v < SpecVersion1_3 ∨ SpecVersion1_5 ≤ v ∨ w < SpecVersion1_5 ∨ SpecVersion1_7 ≤ w

theorem firstIdentity_clear (i : Option EvidenceIdentityChoice) :
    clearConcludedValue (firstIdentity (clearConcludedValue (firstIdentity i))) =
      clearConcludedValue (firstIdentity i) := by
  rcases i with _ | ⟨id, _ | _ | (_ | ⟨x, xs⟩)⟩ <;> simp [firstIdentity, clearConcludedValue, PSlice.elems, Function.comp_def]

theorem clearOccurrence_idem (o : EvidenceOccurrence) :
    clearOccurrence (clearOccurrence o) = clearOccurrence o := rfl

theorem convertEvidence_absorb (h : v ≤ w) (hs : StepOK v w) (e : Option Evidence) :
    convertEvidence v (convertEvidence w e) = convertEvidence v e := by
  rcases e with _ | e
  · rfl
  · unfold StepOK at hs
    unfold convertEvidence
    by_cases v3 : v < SpecVersion1_3 <;> by_cases v5 : v < SpecVersion1_5 <;>
      by_cases v6 : v < SpecVersion1_6 <;> by_cases w3 : w < SpecVersion1_3 <;>
      by_cases w5 : w < SpecVersion1_5 <;> by_cases w6 : w < SpecVersion1_6 <;>
      first
      | vomega
      | (simp [v3, v5, v6, w3, w5, w6, convertLicenses_absorb h, firstIdentity_clear,
          psMap_absorb clearOccurrence_idem]; done)
      | (have h7 : SpecVersion1_7 ≤ w := Decidable.byContradiction fun _ => by vomega
         simp [v3, v5, w3, w5, w6, convertLicenses_latest h7])

theorem convertModelCard_absorb (h : v ≤ w) (m : Option MLModelCard) :
    convertModelCard v (convertModelCard w m) = convertModelCard v m := by
  unfold convertModelCard
  rcases m with _ | m
  · rfl
  · simp only [Option.map_some, Option.some.injEq]
    split_ifs <;> first | rfl | vomega | simp [Function.comp_def]

theorem convertAlgorithmProperties_absorb (h : v ≤ w) (p : CryptoAlgorithmProperties) :
    convertAlgorithmProperties v (convertAlgorithmProperties w p) = convertAlgorithmProperties v p := by
  apply CryptoAlgorithmProperties.ext <;> simp only [
    convertAlgorithmProperties_primitive, convertAlgorithmProperties_parameterSetIdentifier,
    convertAlgorithmProperties_algorithmFamily, convertAlgorithmProperties_curve,
    convertAlgorithmProperties_ellipticCurve, convertAlgorithmProperties_executionEnvironment,
    convertAlgorithmProperties_implementationPlatform,
    convertAlgorithmProperties_certificationLevel, convertAlgorithmProperties_mode,
    convertAlgorithmProperties_padding, convertAlgorithmProperties_cryptoFunctions,
    convertAlgorithmProperties_classicalSecurityLevel,
    convertAlgorithmProperties_nistQuantumSecurityLevel,
    ite_absorb h]
  exact replace_absorb (supportsCryptoPrimitive_mono h)

theorem convertCertificateProperties_absorb (h : v ≤ w) (p : CertificateProperties) :
    convertCertificateProperties v (convertCertificateProperties w p) =
      convertCertificateProperties v p := by
  unfold convertCertificateProperties
  split_ifs <;> first | rfl | vomega

theorem convertRelatedCryptoMaterial_absorb (h : v ≤ w) (p : RelatedCryptoMaterialProperties) :
    convertRelatedCryptoMaterial v (convertRelatedCryptoMaterial w p) =
      convertRelatedCryptoMaterial v p := by
  unfold convertRelatedCryptoMaterial
  split_ifs <;> first | rfl | vomega

theorem convertProtocolProperties_absorb (h : v ≤ w) (p : CryptoProtocolProperties) :
    convertProtocolProperties v (convertProtocolProperties w p) = convertProtocolProperties v p := by
  apply CryptoProtocolProperties.ext <;> simp only [
    convertProtocolProperties_type, convertProtocolProperties_version,
    convertProtocolProperties_cipherSuites, convertProtocolProperties_ikev2TransformTypes,
    convertProtocolProperties_cryptoRefArray, convertProtocolProperties_relatedCryptographicAssets,
    ite_absorb h]
  · exact replace_absorb (supportsCryptoProtocolType_mono h)
  · refine psMap_absorb (fun c => ?_) _
    split_ifs <;> first | rfl | vomega

theorem convertCryptoProperties_absorb (h : v ≤ w) (p : Option CryptoProperties) :
    convertCryptoProperties v (convertCryptoProperties w p) = convertCryptoProperties v p := by
  unfold convertCryptoProperties
  simp [Function.comp_def, convertAlgorithmProperties_absorb h, convertCertificateProperties_absorb h,
    convertRelatedCryptoMaterial_absorb h, convertProtocolProperties_absorb h]

/-! #### Components -/

@[simp] theorem convertExternalReferences_nil (v : Int) : convertExternalReferences v .nil = .nil := rfl
@[simp] theorem convertHashes_nil (v : Int) : convertHashes v .nil = .nil := rfl
@[simp] theorem convertModelCard_none (v : Int) : convertModelCard v none = none := rfl
@[simp] theorem convertCryptoProperties_none (v : Int) : convertCryptoProperties v none = none := rfl

theorem componentConverter_absorb (h : v ≤ w) (hs : StepOK v w) (c : Component) :
    componentConverter v (componentConverter w c) = componentConverter v c := by
  apply Component.ext <;> simp only [
    componentConverter_bomRef, componentConverter_mimeType, componentConverter_type,
    componentConverter_supplier, componentConverter_manufacturer, componentConverter_author,
    componentConverter_authors, componentConverter_publisher, componentConverter_group,
    componentConverter_name, componentConverter_version, componentConverter_description,
    componentConverter_scope, componentConverter_hashes, componentConverter_licenses,
    componentConverter_copyright, componentConverter_cpe, componentConverter_packageURL,
    componentConverter_omniborID, componentConverter_swhid, componentConverter_swid,
    componentConverter_modified, componentConverter_pedigree,
    componentConverter_externalReferences, componentConverter_properties,
    componentConverter_components, componentConverter_evidence, componentConverter_releaseNotes,
    componentConverter_modelCard, componentConverter_data, componentConverter_cryptoProperties,
    componentConverter_tags, componentConverter_isExternal, componentConverter_patentAssertions,
    componentConverter_versionRange, componentConverter_signature,
    ite_absorb h, convertHashes_absorb h, convertLicenses_absorb h, convertEvidence_absorb h hs]
  · exact replace_absorb (supportsComponentType_mono h)
  · split_ifs <;> first | rfl | vomega
  · exact replace_absorb (supportsScope_mono h)
  · split_ifs <;> first | rfl | vomega
  · split_ifs <;> first | rfl | vomega | simp [Function.comp_def]
  · split_ifs <;> first | rfl | vomega | exact convertExternalReferences_absorb h _
  · split_ifs <;> first | rfl | vomega | exact convertModelCard_absorb h _
  · split_ifs <;> first | rfl | vomega | exact convertCryptoProperties_absorb h _

theorem componentConverter_mapChildren (v : Int) (g : Component → Component) (c : Component) :
    componentConverter v (c.mapChildren g) = (componentConverter v c).mapChildren g := by
  apply Component.ext <;> simp only [Component.mapChildren,
    componentConverter_bomRef, componentConverter_mimeType, componentConverter_type,
    componentConverter_supplier, componentConverter_manufacturer, componentConverter_author,
    componentConverter_authors, componentConverter_publisher, componentConverter_group,
    componentConverter_name, componentConverter_version, componentConverter_description,
    componentConverter_scope, componentConverter_hashes, componentConverter_licenses,
    componentConverter_copyright, componentConverter_cpe, componentConverter_packageURL,
    componentConverter_omniborID, componentConverter_swhid, componentConverter_swid,
    componentConverter_modified, componentConverter_pedigree,
    componentConverter_externalReferences, componentConverter_properties,
    componentConverter_components, componentConverter_evidence, componentConverter_releaseNotes,
    componentConverter_modelCard, componentConverter_data, componentConverter_cryptoProperties,
    componentConverter_tags, componentConverter_isExternal, componentConverter_patentAssertions,
    componentConverter_versionRange, componentConverter_signature]
  split_ifs
  · rfl
  · cases c.pedigree <;> rfl
  · rfl

theorem componentConverter_children (v : Int) (c : Component) :
    ∀ d ∈ (componentConverter v c).children, d ∈ c.children := by
  intro d hd
  simp only [Component.children, componentConverter_components, componentConverter_pedigree] at *
  rcases List.mem_append.1 hd with hd | hd
  · exact List.mem_append_left _ hd
  · refine List.mem_append_right _ ?_
    split_ifs at hd
    · simp at hd
    · cases hp : c.pedigree <;> simp_all [Pedigree.relatives]
    · exact hd

theorem Component.mapChildren_congr {f g : Component → Component} {c : Component}
    (h : ∀ d ∈ c.children, f d = g d) : c.mapChildren f = c.mapChildren g := by
  unfold Component.mapChildren
  have h1 : c.components.map f = c.components.map g :=
    PSlice.map_congr fun d hd => h d (List.mem_append_left _ hd)
  have h2 : c.pedigree.map (Pedigree.mapComponents f) = c.pedigree.map (Pedigree.mapComponents g) := by
    cases hp : c.pedigree with
    | none => rfl
    | some p =>
      have : ∀ d ∈ p.relatives, f d = g d := fun d hd => by
        refine h d (List.mem_append_right _ ?_)
        rw [hp]; exact hd
      simp only [Pedigree.relatives, List.mem_append] at this
      simp only [Option.map_some, Pedigree.mapComponents,
        PSlice.map_congr (p := p.ancestors) fun d hd => this d (.inl (.inl hd)),
        PSlice.map_congr (p := p.descendants) fun d hd => this d (.inl (.inr hd)),
        PSlice.map_congr (p := p.variants) fun d hd => this d (.inr hd)]
  rw [h1, h2]

theorem Component.mapChildren_mapChildren (f g : Component → Component) (c : Component) :
    (c.mapChildren g).mapChildren f = c.mapChildren (fun d => f (g d)) := by
  unfold Component.mapChildren
  simp only [PSlice.map_map, Option.map_map]
  congr 1
  cases c.pedigree <;> simp [Pedigree.mapComponents, PSlice.map_map]

theorem recurseComponent_go' (v : Int) (c : Component) : recurseComponent (componentConverter v) c =
    (componentConverter v c).mapChildren (recurseComponent (componentConverter v)) := by
  rw [recurseComponent_eq, componentConverter_mapChildren]

theorem recurseComponent_absorb (h : v ≤ w) (hs : StepOK v w) (c : Component) :
    recurseComponent (componentConverter v) (recurseComponent (componentConverter w) c) =
      recurseComponent (componentConverter v) c := by
  induction c using Component.induct with
  | h c ih =>
    rw [recurseComponent_go' v (recurseComponent _ c), recurseComponent_eq (componentConverter w) c,
      componentConverter_absorb h hs, componentConverter_mapChildren, Component.mapChildren_mapChildren,
      recurseComponent_go' v c]
    exact Component.mapChildren_congr fun d hd => ih d (componentConverter_children v c d hd)

/-! #### Services -/

theorem serviceConverter_absorb (h : v ≤ w) (s : Service) :
    serviceConverter v (serviceConverter w s) = serviceConverter v s := by
  apply Service.ext <;> simp only [
    serviceConverter_bomRef, serviceConverter_provider, serviceConverter_group,
    serviceConverter_name, serviceConverter_version, serviceConverter_description,
    serviceConverter_endpoints, serviceConverter_authenticated,
    serviceConverter_crossesTrustBoundary, serviceConverter_data, serviceConverter_licenses,
    serviceConverter_externalReferences, serviceConverter_properties, serviceConverter_services,
    serviceConverter_releaseNotes, serviceConverter_tags, serviceConverter_trustZone,
    serviceConverter_patentAssertions, serviceConverter_signature,
    ite_absorb h, convertDataClassifications_absorb h, convertExternalReferences_absorb h,
    optMap_absorb (convertOrganizationalEntity_absorb h)]

theorem serviceConverter_mapChildren (v : Int) (g : Service → Service) (s : Service) :
    serviceConverter v (s.mapChildren g) = (serviceConverter v s).mapChildren g := by
  apply Service.ext <;> simp only [Service.mapChildren,
    serviceConverter_bomRef, serviceConverter_provider, serviceConverter_group,
    serviceConverter_name, serviceConverter_version, serviceConverter_description,
    serviceConverter_endpoints, serviceConverter_authenticated,
    serviceConverter_crossesTrustBoundary, serviceConverter_data, serviceConverter_licenses,
    serviceConverter_externalReferences, serviceConverter_properties, serviceConverter_services,
    serviceConverter_releaseNotes, serviceConverter_tags, serviceConverter_trustZone,
    serviceConverter_patentAssertions, serviceConverter_signature]

theorem serviceConverter_children (v : Int) (s : Service) :
    (serviceConverter v s).children = s.children := by
  simp only [Service.children, serviceConverter_services]

theorem Service.mapChildren_congr {f g : Service → Service} {s : Service}
    (h : ∀ d ∈ s.children, f d = g d) : s.mapChildren f = s.mapChildren g := by
  unfold Service.mapChildren
  rw [PSlice.map_congr h]

theorem Service.mapChildren_mapChildren (f g : Service → Service) (s : Service) :
    (s.mapChildren g).mapChildren f = s.mapChildren (fun d => f (g d)) := by
  unfold Service.mapChildren
  simp only [PSlice.map_map]

theorem recurseService_go' (v : Int) (s : Service) : recurseService (serviceConverter v) s =
    (serviceConverter v s).mapChildren (recurseService (serviceConverter v)) := by
  rw [recurseService_eq, serviceConverter_mapChildren]

theorem recurseService_absorb (h : v ≤ w) (s : Service) :
    recurseService (serviceConverter v) (recurseService (serviceConverter w) s) =
      recurseService (serviceConverter v) s := by
  induction s using Service.induct with
  | h s ih =>
    rw [recurseService_go' v (recurseService _ s), recurseService_eq (serviceConverter w) s,
      serviceConverter_absorb h, serviceConverter_mapChildren, Service.mapChildren_mapChildren,
      recurseService_go' v s]
    exact Service.mapChildren_congr fun d hd => ih d (by rwa [serviceConverter_children] at hd)

/-! #### Tools -/

theorem convertTool_absorb (h : v ≤ w) (t : Tool) :
    convertTool v (convertTool w t) = convertTool v t := by
  apply Tool.ext <;> simp only [
    convertTool_vendor, convertTool_name, convertTool_version, convertTool_hashes,
    convertTool_externalReferences,
    convertHashes_absorb h]
  split_ifs <;> first | rfl | vomega | exact convertExternalReferences_absorb h _

/-- The effect of `convertTools` on a service. -/
def toolService (v : Int) (s : Service) : Service :=
  { s with provider := s.provider.map (convertOrganizationalEntity v) }

theorem convertTools_new (h : ¬ v < SpecVersion1_5) (tc : ToolsChoice) : convertTools v tc =
    { tc with services := tc.services.map (toolService v), tools := tc.tools.map (convertTool v) } := by
  simp only [convertTools, if_neg h]; rfl

theorem convertTools_old (h : v < SpecVersion1_5) (tc : ToolsChoice) : convertTools v tc =
    { tools := (toolsToLegacy tc).tools.map (convertTool v), components := .nil, services := .nil } := by
  simp only [convertTools, if_pos h]; rfl

theorem toolService_absorb (h : v ≤ w) (s : Service) :
    toolService v (toolService w s) = toolService v s := by
  simp [toolService, Function.comp_def, convertOrganizationalEntity_absorb h]

theorem convertServiceToTool_toolService (w : Int) (s : Service) :
    convertServiceToTool (toolService w s) = convertServiceToTool s := by
  unfold convertServiceToTool toolService
  cases s.provider <;> simp

theorem toolsToLegacy_map (h : v ≤ w) (tc : ToolsChoice) :
    (toolsToLegacy { tc with services := tc.services.map (toolService w), tools := tc.tools.map (convertTool w) }).tools.map (convertTool v) =
      (toolsToLegacy tc).tools.map (convertTool v) := by
  have : (tc.services.map (toolService w)).elems.map convertServiceToTool =
      tc.services.elems.map convertServiceToTool := by
    rw [PSlice.elems_map, List.map_map]
    exact List.map_congr_left fun s _ => convertServiceToTool_toolService w s
  unfold toolsToLegacy
  simp only [this]
  generalize tc.components.elems.map convertComponentToTool ++ tc.services.elems.map convertServiceToTool = cs
  by_cases hc : cs.isEmpty = true
  · simp only [hc, if_true]; exact psMap_absorb (convertTool_absorb h) _
  · simp only [hc]
    cases tc.tools with
    | nil => rfl
    | nilSlice => rfl
    | list xs => simp [PSlice.map, PSlice.elems, convertTool_absorb h]

theorem convertTools_absorb (h : v ≤ w) (tc : ToolsChoice) :
    convertTools v (convertTools w tc) = convertTools v tc := by
  by_cases hv : v < SpecVersion1_5
  · by_cases hw : w < SpecVersion1_5
    · rw [convertTools_old hw, convertTools_old hv, convertTools_old hv]
      simp only [toolsToLegacy, PSlice.elems, List.map_nil, List.append_nil, List.isEmpty_nil, if_true]
      congr 1
      exact psMap_absorb (convertTool_absorb h) _
    · rw [convertTools_new hw, convertTools_old hv, convertTools_old hv, toolsToLegacy_map h]
  · have hw : ¬ w < SpecVersion1_5 := fun _ => by vomega
    rw [convertTools_new hw, convertTools_new hv, convertTools_new hv]
    simp only [psMap_absorb (toolService_absorb h), psMap_absorb (convertTool_absorb h)]

/-! #### Vulnerabilities, annotations, the whole document -/

theorem convertRating_absorb (h : v ≤ w) (r : VulnerabilityRating) :
    convertRating v (convertRating w r) = convertRating v r := by
  unfold convertRating
  have := @supportsScoringMethod_mono v w h r.method
  cases hv : supportsScoringMethod v r.method <;> cases hw : supportsScoringMethod w r.method <;>
    simp_all

theorem convertVulnerability_absorb (h : v ≤ w) (x : Vulnerability) :
    convertVulnerability v (convertVulnerability w x) = convertVulnerability v x := by
  apply Vulnerability.ext <;> simp only [
    convertVulnerability_bomRef, convertVulnerability_id, convertVulnerability_source,
    convertVulnerability_references, convertVulnerability_ratings, convertVulnerability_cwes,
    convertVulnerability_description, convertVulnerability_detail,
    convertVulnerability_recommendation, convertVulnerability_workaround,
    convertVulnerability_proofOfConcept, convertVulnerability_advisories,
    convertVulnerability_created, convertVulnerability_published, convertVulnerability_updated,
    convertVulnerability_rejected, convertVulnerability_credits, convertVulnerability_tools,
    convertVulnerability_analysis, convertVulnerability_affects, convertVulnerability_properties,
    ite_absorb h, optMap_absorb (convertTools_absorb h), psMap_absorb (convertRating_absorb h)]
  · split_ifs <;> first | rfl | vomega | skip
    refine optMap_absorb (fun c => ?_) _
    simp [psMap_absorb (convertOrganizationalEntity_absorb h), psMap_absorb (convertOrganizationalContact_absorb h)]
  · split_ifs <;> first | rfl | vomega | simp [Function.comp_def]

theorem convertAnnotator_absorb (h : v ≤ w) (a : Annotator) :
    convertAnnotator v (convertAnnotator w a) = convertAnnotator v a := by
  simp only [convertAnnotator, optMap_absorb (convertOrganizationalEntity_absorb h),
    optMap_absorb (recurseService_absorb h)]

theorem convertAnnotations_absorb (h : v ≤ w) (as : PSlice Annotation) :
    convertAnnotations v (convertAnnotations w as) = convertAnnotations v as := by
  unfold convertAnnotations
  split_ifs <;> first | rfl | vomega | skip
  refine psMap_absorb (fun a => ?_) _
  simp only [optMap_absorb (convertAnnotator_absorb h)]

theorem convertMetadata_absorb (h : v ≤ w) (hs : StepOK v w) (m : Metadata) :
    convertMetadata v (convertMetadata w m) = convertMetadata v m := by
  apply Metadata.ext <;> simp only [
    convertMetadata_timestamp, convertMetadata_lifecycles, convertMetadata_tools,
    convertMetadata_authors, convertMetadata_component, convertMetadata_manufacture,
    convertMetadata_manufacturer, convertMetadata_supplier, convertMetadata_licenses,
    convertMetadata_properties, convertMetadata_distributionConstraints,
    ite_absorb h, optMap_absorb (convertTools_absorb h),
    optMap_absorb (convertOrganizationalEntity_absorb h),
    psMap_absorb (convertOrganizationalContact_absorb h), optMap_absorb (recurseComponent_absorb h hs)]
  split_ifs <;> first | rfl | vomega | exact convertLicenses_absorb h _

theorem convert_absorb (h : v ≤ w) (hs : StepOK v w) (b : BOM) :
    convert v (convert w b) = convert v b := by
  apply BOM.ext <;> simp only [
    convert_xmlName, convert_xmlns, convert_jsonSchema, convert_bomFormat, convert_specVersion,
    convert_serialNumber, convert_version, convert_metadata, convert_components, convert_services,
    convert_externalReferences, convert_dependencies, convert_compositions, convert_properties,
    convert_vulnerabilities, convert_annotations, convert_formulation, convert_declarations,
    convert_definitions, convert_citations, convert_signature,
    ite_absorb h, psMap_absorb (recurseComponent_absorb h hs)]
  all_goals
    split_ifs <;> first
      | rfl
      | vomega
      | exact optMap_absorb (convertMetadata_absorb h hs) _
      | exact psMap_absorb (recurseService_absorb h) _
      | exact convertExternalReferences_absorb h _
      | exact psMap_absorb (convertComposition_absorb h) _
      | exact psMap_absorb (convertVulnerability_absorb h) _
      | exact convertAnnotations_absorb h _
      | (apply psMap_absorb; intro _; rfl)
      | (apply optMap_absorb; intro _; rfl)

theorem stepOK_self (v : Int) : StepOK v v := by
  by_cases h : v < SpecVersion1_5
  · exact .inr (.inr (.inl h))
  · refine .inr (.inl ?_); omega

end

end Verif
