import Verif.Proofs.Preserve

/-!
GENERATED by `tools/gen_canonfixed.py`; do not edit by hand.

Helper lemmas: the canonical form of a converted value is again a converted value
(`f v x = x → f v x.canonical = x.canonical`); no property statements here. -/

namespace Verif

section
variable {v : Int}

theorem PSlice.fix_iff {α : Type} {f : α → α} {p : PSlice α} : p.map f = p ↔ ∀ x ∈ p.elems, f x = x := by
  cases p with
  | nil => simp [PSlice.map, PSlice.elems]
  | nilSlice => simp [PSlice.map, PSlice.elems]
  | list xs =>
    simp only [PSlice.map, PSlice.elems, PSlice.list.injEq]
    induction xs with
    | nil => simp
    | cons x xs ih => simp [ih]

theorem PSlice.fix_compact {α : Type} {f : α → α} {p : PSlice α} (h : p.map f = p) :
    p.compact.map f = p.compact := by
  cases p <;> simp_all [PSlice.map, PSlice.compact]

theorem PSlice.fix_compactWith {α : Type} {f g : α → α} {p : PSlice α}
    (hg : ∀ x ∈ p.elems, f x = x → f (g x) = g x) (h : p.map f = p) :
    (p.compactWith g).map f = p.compactWith g := by
  rw [PSlice.fix_iff] at h
  cases p with
  | nil => rfl
  | nilSlice => rfl
  | list xs =>
    simp only [PSlice.compactWith, PSlice.map, List.map_map, PSlice.list.injEq]
    exact List.map_congr_left fun x hx => hg x hx (h x hx)

theorem Option.fix_map {α : Type} {f g : α → α} {o : Option α} (hg : ∀ x ∈ o, f x = x → f (g x) = g x)
    (h : o.map f = o) : (o.map g).map f = o.map g := by
  cases o <;> simp_all

theorem PSlice.map_eq_nil {α β : Type} {f : α → β} {p : PSlice α} : p.map f = .nil ↔ p = .nil := by
  cases p <;> simp [PSlice.map]

theorem PSlice.compact_nil {α : Type} : (PSlice.nil : PSlice α).compact = .nil := rfl
theorem PSlice.compactWith_nil {α : Type} {f : α → α} : (PSlice.nil : PSlice α).compactWith f = .nil := rfl

/-- A removed list. -/
theorem fix_gate {α : Type} {p : Prop} [Decidable p] {d x : α} {g : α → α} (hd : g d = d)
    (h : (if p then d else x) = x) : (if p then d else g x) = g x := by
  split_ifs at h ⊢
  · rw [← h, hd]
  · rfl

/-- A replaced enumeration value. -/
theorem fix_gate' {α : Type} {p : Prop} [Decidable p] {x y : α} {f g : α → α} (hf : f x = x → f (g x) = g x)
    (h : (if p then y else f x) = x) (hd : p → g y = y) : (if p then y else f (g x)) = g x := by
  split_ifs at h ⊢ with hp
  · rw [← h, hd hp]
  · exact hf h

/-- A value converted below some version. -/
theorem fix_gate2 {α : Type} {p : Prop} [Decidable p] {x : α} {e f g : α → α} (hf : f x = x → f (g x) = g x)
    (he : e x = x → e (g x) = g x) (h : (if p then e x else f x) = x) :
    (if p then e (g x) else f (g x)) = g x := by
  split_ifs at h ⊢
  · exact he h
  · exact hf h

theorem orgEntity_fix {x : OrganizationalEntity} (h : convertOrganizationalEntity v x = x) : convertOrganizationalEntity v x.canonical = x.canonical := by
  apply OrganizationalEntity.ext
  · have h := congrArg OrganizationalEntity.bomRef h
    simp only [convertOrganizationalEntity_bomRef] at h ⊢
    exact h
  · simp only [convertOrganizationalEntity_name]
  · have h := congrArg OrganizationalEntity.address h
    simp only [convertOrganizationalEntity_address] at h ⊢
    exact h
  · simp only [convertOrganizationalEntity_url]
  · have h := congrArg OrganizationalEntity.contact h
    simp only [convertOrganizationalEntity_contact] at h ⊢
    exact fix_gate2 (g := PSlice.compact) (f := fun y => y) (fun _ => rfl) PSlice.fix_compact h

theorem composition_fix {x : Composition} (h : convertComposition v x = x) : convertComposition v x.canonical = x.canonical := by
  apply Composition.ext
  · have h := congrArg Composition.bomRef h
    simp only [convertComposition_bomRef] at h ⊢
    exact h
  · have h := congrArg Composition.aggregate h
    simp only [convertComposition_aggregate] at h ⊢
    exact h
  · simp only [convertComposition_assemblies]
  · simp only [convertComposition_dependencies]
  · have h := congrArg Composition.vulnerabilities h
    simp only [convertComposition_vulnerabilities] at h ⊢
    exact fix_gate (g := PSlice.compact) rfl h
  · simp only [convertComposition_signature]

theorem extRef_fix {x : ExternalReference} (h : convertExternalReference v x = x) : convertExternalReference v x.canonical = x.canonical := by
  apply ExternalReference.ext
  · simp only [convertExternalReference_url]
  · simp only [convertExternalReference_comment]
  · have h := congrArg ExternalReference.hashes h
    simp only [convertExternalReference_hashes] at h ⊢
    exact fix_gate (g := PSlice.compact) rfl h
  · have h := congrArg ExternalReference.type h
    simp only [convertExternalReference_type] at h ⊢
    exact h
  · have h := congrArg ExternalReference.properties h
    simp only [convertExternalReference_properties] at h ⊢
    exact fix_gate (g := PSlice.compact) rfl h

theorem hashes_fix {x : PSlice Hash} (h : convertHashes v x = x) : convertHashes v x.compact = x.compact := by
  cases x <;> first | rfl | exact h

theorem extRefs_fix {x : PSlice ExternalReference} (h : convertExternalReferences v x = x) :
    convertExternalReferences v (x.compactWith ExternalReference.canonical) =
      x.compactWith ExternalReference.canonical :=
  PSlice.fix_compactWith (fun _ _ => extRef_fix) h

theorem algProps_fix {x : CryptoAlgorithmProperties} (h : convertAlgorithmProperties v x = x) : convertAlgorithmProperties v x.canonical = x.canonical := by
  apply CryptoAlgorithmProperties.ext
  · have h := congrArg CryptoAlgorithmProperties.primitive h
    simp only [convertAlgorithmProperties_primitive] at h ⊢
    exact h
  · simp only [convertAlgorithmProperties_parameterSetIdentifier]
  · have h := congrArg CryptoAlgorithmProperties.algorithmFamily h
    simp only [convertAlgorithmProperties_algorithmFamily] at h ⊢
    exact h
  · simp only [convertAlgorithmProperties_curve]
  · have h := congrArg CryptoAlgorithmProperties.ellipticCurve h
    simp only [convertAlgorithmProperties_ellipticCurve] at h ⊢
    exact h
  · simp only [convertAlgorithmProperties_executionEnvironment]
  · simp only [convertAlgorithmProperties_implementationPlatform]
  · simp only [convertAlgorithmProperties_certificationLevel]
  · simp only [convertAlgorithmProperties_mode]
  · simp only [convertAlgorithmProperties_padding]
  · simp only [convertAlgorithmProperties_cryptoFunctions]
  · simp only [convertAlgorithmProperties_classicalSecurityLevel]
  · simp only [convertAlgorithmProperties_nistQuantumSecurityLevel]

theorem certProps_fix {x : CertificateProperties} (h : convertCertificateProperties v x = x) : convertCertificateProperties v x.canonical = x.canonical := by
  apply CertificateProperties.ext
  · have h := congrArg CertificateProperties.serialNumber h
    simp only [convertCertificateProperties_serialNumber] at h ⊢
    exact h
  · simp only [convertCertificateProperties_subjectName]
  · simp only [convertCertificateProperties_issuerName]
  · simp only [convertCertificateProperties_notValidBefore]
  · simp only [convertCertificateProperties_notValidAfter]
  · simp only [convertCertificateProperties_signatureAlgorithmRef]
  · simp only [convertCertificateProperties_subjectPublicKeyRef]
  · simp only [convertCertificateProperties_certificateFormat]
  · simp only [convertCertificateProperties_certificateExtension]
  · have h := congrArg CertificateProperties.certificateFileExtension h
    simp only [convertCertificateProperties_certificateFileExtension] at h ⊢
    exact h
  · have h := congrArg CertificateProperties.fingerprint h
    simp only [convertCertificateProperties_fingerprint] at h ⊢
    exact h
  · have h := congrArg CertificateProperties.certificateState h
    simp only [convertCertificateProperties_certificateState] at h ⊢
    exact fix_gate (g := PSlice.compactWith _) rfl h
  · have h := congrArg CertificateProperties.certificateExtensions h
    simp only [convertCertificateProperties_certificateExtensions] at h ⊢
    exact fix_gate (g := PSlice.compactWith _) rfl h
  · have h := congrArg CertificateProperties.relatedCryptographicAssets h
    simp only [convertCertificateProperties_relatedCryptographicAssets] at h ⊢
    exact fix_gate (g := PSlice.compact) rfl h
  · have h := congrArg CertificateProperties.creationDate h
    simp only [convertCertificateProperties_creationDate] at h ⊢
    exact h
  · have h := congrArg CertificateProperties.activationDate h
    simp only [convertCertificateProperties_activationDate] at h ⊢
    exact h
  · have h := congrArg CertificateProperties.deactivationDate h
    simp only [convertCertificateProperties_deactivationDate] at h ⊢
    exact h
  · have h := congrArg CertificateProperties.revocationDate h
    simp only [convertCertificateProperties_revocationDate] at h ⊢
    exact h
  · have h := congrArg CertificateProperties.destructionDate h
    simp only [convertCertificateProperties_destructionDate] at h ⊢
    exact h

theorem relCrypto_fix {x : RelatedCryptoMaterialProperties} (h : convertRelatedCryptoMaterial v x = x) : convertRelatedCryptoMaterial v x.canonical = x.canonical := by
  apply RelatedCryptoMaterialProperties.ext
  · simp only [convertRelatedCryptoMaterial_type]
  · simp only [convertRelatedCryptoMaterial_id]
  · simp only [convertRelatedCryptoMaterial_state]
  · simp only [convertRelatedCryptoMaterial_algorithmRef]
  · simp only [convertRelatedCryptoMaterial_creationDate]
  · simp only [convertRelatedCryptoMaterial_activationDate]
  · simp only [convertRelatedCryptoMaterial_updateDate]
  · simp only [convertRelatedCryptoMaterial_expirationDate]
  · simp only [convertRelatedCryptoMaterial_value]
  · simp only [convertRelatedCryptoMaterial_size]
  · simp only [convertRelatedCryptoMaterial_format]
  · simp only [convertRelatedCryptoMaterial_securedBy]
  · have h := congrArg RelatedCryptoMaterialProperties.fingerprint h
    simp only [convertRelatedCryptoMaterial_fingerprint] at h ⊢
    exact h
  · have h := congrArg RelatedCryptoMaterialProperties.relatedCryptographicAssets h
    simp only [convertRelatedCryptoMaterial_relatedCryptographicAssets] at h ⊢
    exact fix_gate (g := PSlice.compact) rfl h

theorem cipherSuite_fix {x : CipherSuite}
    (h : (if v < SpecVersion1_7 then { x with tlsGroups := .nil, tlsSignatureSchemes := .nil } else x) = x) :
    (if v < SpecVersion1_7 then { x.canonical with tlsGroups := .nil, tlsSignatureSchemes := .nil } else x.canonical) =
      x.canonical := by
  split_ifs at h ⊢
  · rw [← h]; rfl
  · rfl

theorem protoProps_fix {x : CryptoProtocolProperties} (h : convertProtocolProperties v x = x) : convertProtocolProperties v x.canonical = x.canonical := by
  apply CryptoProtocolProperties.ext
  · have h := congrArg CryptoProtocolProperties.type h
    simp only [convertProtocolProperties_type] at h ⊢
    exact h
  · simp only [convertProtocolProperties_version]
  · have h := congrArg CryptoProtocolProperties.cipherSuites h
    simp only [convertProtocolProperties_cipherSuites] at h ⊢
    exact PSlice.fix_compactWith (fun _ _ => cipherSuite_fix) h
  · simp only [convertProtocolProperties_ikev2TransformTypes]
  · simp only [convertProtocolProperties_cryptoRefArray]
  · have h := congrArg CryptoProtocolProperties.relatedCryptographicAssets h
    simp only [convertProtocolProperties_relatedCryptographicAssets] at h ⊢
    exact fix_gate (g := PSlice.compact) rfl h

theorem tool_fix {x : Tool} (h : convertTool v x = x) : convertTool v x.canonical = x.canonical := by
  apply Tool.ext
  · simp only [convertTool_vendor]
  · simp only [convertTool_name]
  · simp only [convertTool_version]
  · have h := congrArg Tool.hashes h
    simp only [convertTool_hashes] at h ⊢
    exact hashes_fix h
  · have h := congrArg Tool.externalReferences h
    simp only [convertTool_externalReferences] at h ⊢
    exact fix_gate' (g := PSlice.compactWith _) (fun h => extRefs_fix h) h (fun _ => rfl)

theorem party_fix {x : OrganizationalEntityOrContact} (h : convertParty v x = x) :
    convertParty v x.canonical = x.canonical := by
  have h := congrArg OrganizationalEntityOrContact.organization h
  simp only [convertParty, OrganizationalEntityOrContact.canonical] at h ⊢
  rw [Option.fix_map (fun _ _ => orgEntity_fix) h]

theorem licensing_fix {x : Licensing} (h : convertLicensing v x = x) :
    convertLicensing v x.canonical = x.canonical := by
  have ha := congrArg Licensing.licensor h
  have hb := congrArg Licensing.licensee h
  have hc := congrArg Licensing.purchaser h
  simp only [convertLicensing, Licensing.canonical] at ha hb hc ⊢
  rw [Option.fix_map (fun _ _ => party_fix) ha, Option.fix_map (fun _ _ => party_fix) hb,
    Option.fix_map (fun _ _ => party_fix) hc]

theorem licenseOf_fix {x : License} (h : licenseOf v x = x) : licenseOf v x.canonical = x.canonical := by
  have ha := congrArg License.bomRef h
  have hb := congrArg License.licensing h
  have hc := congrArg License.properties h
  have hd := congrArg License.acknowledgement h
  simp only [licenseOf, License.canonical] at ha hb hc hd ⊢
  rw [ha, hd, fix_gate (g := PSlice.compact) rfl hc]
  have : (if v < SpecVersion1_5 then none else if v < SpecVersion1_6 then
      (x.licensing.map Licensing.canonical).map (convertLicensing v) else x.licensing.map Licensing.canonical) =
      x.licensing.map Licensing.canonical :=
    fix_gate' (g := Option.map _) (f := fun y => if v < SpecVersion1_6 then y.map (convertLicensing v) else y)
      (fun h => fix_gate2 (g := Option.map _) (f := fun y => y) (e := Option.map (convertLicensing v)) (fun _ => rfl)
        (fun h => Option.fix_map (fun _ _ => licensing_fix) h) h) hb (fun _ => rfl)
  rw [this]

theorem licenseChoice_fix {x : LicenseChoice} (h : licenseChoice v x = x) :
    licenseChoice v x.canonical = x.canonical := by
  rw [licenseChoice_eq] at h ⊢
  have ha := congrArg LicenseChoice.license h
  have hb := congrArg LicenseChoice.expressionDetails h
  have hc := congrArg LicenseChoice.licensing h
  have hd := congrArg LicenseChoice.properties h
  simp only [LicenseChoice.canonical] at ha hb hc hd ⊢
  rw [Option.fix_map (fun _ _ => licenseOf_fix) ha, fix_gate (g := PSlice.compact) rfl hb,
    fix_gate (g := Option.map _) rfl hc, fix_gate (g := PSlice.compact) rfl hd]

theorem licenses_fix (h2 : ¬ v < SpecVersion1_2) {x : PSlice LicenseChoice} (h : convertLicenses v x = x) :
    convertLicenses v (x.compactWith LicenseChoice.canonical) = x.compactWith LicenseChoice.canonical := by
  have h1 : ¬ v < SpecVersion1_1 := by simp only [SpecVersion1_1, SpecVersion1_2] at *; omega
  rw [convertLicenses_eq, if_neg h1] at h ⊢
  exact PSlice.fix_compactWith (fun _ _ => licenseChoice_fix) h

theorem identity_fix {x : Option EvidenceIdentityChoice} (h : clearConcludedValue (firstIdentity x) = x) :
    clearConcludedValue (firstIdentity (x.bind EvidenceIdentityChoice.canonicalOpt)) =
      x.bind EvidenceIdentityChoice.canonicalOpt := by
  rcases x with _ | ⟨_ | i, _ | _ | (_ | ⟨x, xs⟩)⟩ <;>
    simp_all [firstIdentity, clearConcludedValue, PSlice.elems, EvidenceIdentityChoice.canonicalOpt,
      EvidenceIdentityChoice.canonical, EvidenceIdentity.canonical]
  exact (congrArg EvidenceIdentity.concludedValue h).symm

theorem evidence_fix (h2 : ¬ v < SpecVersion1_2) {x : Option Evidence} (h : convertEvidence v x = x) :
    convertEvidence v (x.map Evidence.canonical) = x.map Evidence.canonical := by
  rcases x with _ | e
  · rfl
  · simp only [convertEvidence, Option.map_some, Evidence.canonical] at h ⊢
    split_ifs at h ⊢ with v3 v5 v6
    · simp only [Option.some.injEq] at h ⊢
      have ha := congrArg Evidence.identity h
      have hb := congrArg Evidence.occurrences h
      have hc := congrArg Evidence.callstack h
      simp only at ha hb hc
      rw [← ha, ← hb, ← hc]
      rfl
    · simp only [Option.some.injEq] at h ⊢
      have ha := congrArg Evidence.identity h
      have hb := congrArg Evidence.occurrences h
      have hc := congrArg Evidence.licenses h
      simp only at ha hb hc
      rw [identity_fix ha, PSlice.fix_compact hb, licenses_fix h2 hc]
    · simp only [Option.some.injEq] at h ⊢
      have hc := congrArg Evidence.licenses h
      simp only at hc
      rw [licenses_fix h2 hc]

theorem modelCard_fix {x : Option MLModelCard} (h : convertModelCard v x = x) :
    convertModelCard v (x.map MLModelCard.canonical) = x.map MLModelCard.canonical := by
  refine Option.fix_map (fun m _ h => ?_) h
  split_ifs at h ⊢
  · have h := congrArg MLModelCard.considerations h
    simp only [MLModelCard.canonical] at h ⊢
    rw [Option.fix_map (fun c _ h => ?_) h]
    have h := congrArg MLModelCardConsiderations.environmentalConsiderations h
    simp only [MLModelCardConsiderations.canonical] at h ⊢
    rw [← h]; rfl
  · rfl

theorem cryptoProperties_fix {x : Option CryptoProperties} (h : convertCryptoProperties v x = x) :
    convertCryptoProperties v (x.map CryptoProperties.canonical) = x.map CryptoProperties.canonical := by
  refine Option.fix_map (fun m _ h => ?_) h
  have ha := congrArg CryptoProperties.algorithmProperties h
  have hb := congrArg CryptoProperties.protocolProperties h
  have hc := congrArg CryptoProperties.certificateProperties h
  have hd := congrArg CryptoProperties.relatedCryptoMaterialProperties h
  simp only [CryptoProperties.canonical] at ha hb hc hd ⊢
  rw [Option.fix_map (fun _ _ => algProps_fix) ha, Option.fix_map (fun _ _ => protoProps_fix) hb,
    Option.fix_map (fun _ _ => certProps_fix) hc, Option.fix_map (fun _ _ => relCrypto_fix) hd]

theorem dataClassifications_fix {x : PSlice DataClassification} (h : convertDataClassifications v x = x) :
    convertDataClassifications v (x.compactWith DataClassification.canonical) =
      x.compactWith DataClassification.canonical := by
  unfold convertDataClassifications at *
  split_ifs at h ⊢
  · refine PSlice.fix_compactWith (fun d _ h => ?_) h
    rw [← h]; rfl
  · rfl

theorem components_fix {f : Component → Component} {x : PSlice Component}
    (hf : ∀ d ∈ x.elems, f d = d → f d.canonical = d.canonical) (h : x.map f = x) :
    (canonicalComponents x).map f = canonicalComponents x := by
  rw [canonicalComponents_eq]
  exact PSlice.fix_compactWith hf h

theorem services_fix {f : Service → Service} {x : PSlice Service}
    (hf : ∀ d ∈ x.elems, f d = d → f d.canonical = d.canonical) (h : x.map f = x) :
    (canonicalServices x).map f = canonicalServices x := by
  rw [canonicalServices_eq]
  exact PSlice.fix_compactWith hf h

theorem pedigree_fix {f : Component → Component} {x : Option (Pedigree Component)}
    (hf : ∀ p ∈ x, ∀ d ∈ p.relatives, f d = d → f d.canonical = d.canonical)
    (h : x.map (Pedigree.mapComponents f) = x) :
    (canonicalPedigreeOpt x).map (Pedigree.mapComponents f) = canonicalPedigreeOpt x := by
  rcases x with _ | ⟨a, d, w, cs, ps, n⟩
  · rfl
  · have hf := hf _ rfl
    simp only [pedigree_relatives_iff] at hf
    obtain ⟨h1, h2, h3⟩ := hf
    simp only [Option.map_some, Pedigree.mapComponents, Option.some.injEq, Pedigree.mk.injEq] at h
    simp only [canonicalPedigreeOpt, canonicalPedigree, Option.map_some, Pedigree.mapComponents,
      components_fix h1 h.1, components_fix h2 h.2.1, components_fix h3 h.2.2.1]

@[simp] theorem Component.canonical_bomRef (x : Component) : x.canonical.bomRef = x.bomRef := by cases x; simp only [Component.canonical]
@[simp] theorem Component.canonical_mimeType (x : Component) : x.canonical.mimeType = x.mimeType := by cases x; simp only [Component.canonical]
@[simp] theorem Component.canonical_type (x : Component) : x.canonical.type = x.type := by cases x; simp only [Component.canonical]
@[simp] theorem Component.canonical_supplier (x : Component) : x.canonical.supplier = x.supplier.map OrganizationalEntity.canonical := by cases x; simp only [Component.canonical]
@[simp] theorem Component.canonical_manufacturer (x : Component) : x.canonical.manufacturer = x.manufacturer.map OrganizationalEntity.canonical := by cases x; simp only [Component.canonical]
@[simp] theorem Component.canonical_author (x : Component) : x.canonical.author = x.author := by cases x; simp only [Component.canonical]
@[simp] theorem Component.canonical_authors (x : Component) : x.canonical.authors = x.authors.compact := by cases x; simp only [Component.canonical]
@[simp] theorem Component.canonical_publisher (x : Component) : x.canonical.publisher = x.publisher := by cases x; simp only [Component.canonical]
@[simp] theorem Component.canonical_group (x : Component) : x.canonical.group = x.group := by cases x; simp only [Component.canonical]
@[simp] theorem Component.canonical_name (x : Component) : x.canonical.name = x.name := by cases x; simp only [Component.canonical]
@[simp] theorem Component.canonical_version (x : Component) : x.canonical.version = x.version := by cases x; simp only [Component.canonical]
@[simp] theorem Component.canonical_description (x : Component) : x.canonical.description = x.description := by cases x; simp only [Component.canonical]
@[simp] theorem Component.canonical_scope (x : Component) : x.canonical.scope = x.scope := by cases x; simp only [Component.canonical]
@[simp] theorem Component.canonical_hashes (x : Component) : x.canonical.hashes = x.hashes.compact := by cases x; simp only [Component.canonical]
@[simp] theorem Component.canonical_licenses (x : Component) : x.canonical.licenses = x.licenses.compactWith LicenseChoice.canonical := by cases x; simp only [Component.canonical]
@[simp] theorem Component.canonical_copyright (x : Component) : x.canonical.copyright = x.copyright := by cases x; simp only [Component.canonical]
@[simp] theorem Component.canonical_cpe (x : Component) : x.canonical.cpe = x.cpe := by cases x; simp only [Component.canonical]
@[simp] theorem Component.canonical_packageURL (x : Component) : x.canonical.packageURL = x.packageURL := by cases x; simp only [Component.canonical]
@[simp] theorem Component.canonical_omniborID (x : Component) : x.canonical.omniborID = x.omniborID.compact := by cases x; simp only [Component.canonical]
@[simp] theorem Component.canonical_swhid (x : Component) : x.canonical.swhid = x.swhid.compact := by cases x; simp only [Component.canonical]
@[simp] theorem Component.canonical_swid (x : Component) : x.canonical.swid = x.swid := by cases x; simp only [Component.canonical]
@[simp] theorem Component.canonical_modified (x : Component) : x.canonical.modified = x.modified := by cases x; simp only [Component.canonical]
@[simp] theorem Component.canonical_pedigree (x : Component) : x.canonical.pedigree = canonicalPedigreeOpt x.pedigree := by cases x; simp only [Component.canonical]
@[simp] theorem Component.canonical_externalReferences (x : Component) : x.canonical.externalReferences = x.externalReferences.compactWith ExternalReference.canonical := by cases x; simp only [Component.canonical]
@[simp] theorem Component.canonical_properties (x : Component) : x.canonical.properties = x.properties.compact := by cases x; simp only [Component.canonical]
@[simp] theorem Component.canonical_components (x : Component) : x.canonical.components = canonicalComponents x.components := by cases x; simp only [Component.canonical]
@[simp] theorem Component.canonical_evidence (x : Component) : x.canonical.evidence = x.evidence.map Evidence.canonical := by cases x; simp only [Component.canonical]
@[simp] theorem Component.canonical_releaseNotes (x : Component) : x.canonical.releaseNotes = x.releaseNotes.map ReleaseNotes.canonical := by cases x; simp only [Component.canonical]
@[simp] theorem Component.canonical_modelCard (x : Component) : x.canonical.modelCard = x.modelCard.map MLModelCard.canonical := by cases x; simp only [Component.canonical]
@[simp] theorem Component.canonical_data (x : Component) : x.canonical.data = x.data.compactWith ComponentData.canonical := by cases x; simp only [Component.canonical]
@[simp] theorem Component.canonical_cryptoProperties (x : Component) : x.canonical.cryptoProperties = x.cryptoProperties.map CryptoProperties.canonical := by cases x; simp only [Component.canonical]
@[simp] theorem Component.canonical_tags (x : Component) : x.canonical.tags = x.tags.compact := by cases x; simp only [Component.canonical]
@[simp] theorem Component.canonical_isExternal (x : Component) : x.canonical.isExternal = x.isExternal := by cases x; simp only [Component.canonical]
@[simp] theorem Component.canonical_patentAssertions (x : Component) : x.canonical.patentAssertions = x.patentAssertions.compactWith PatentAssertion.canonical := by cases x; simp only [Component.canonical]
@[simp] theorem Component.canonical_versionRange (x : Component) : x.canonical.versionRange = x.versionRange := by cases x; simp only [Component.canonical]
@[simp] theorem Component.canonical_signature (x : Component) : x.canonical.signature = x.signature.map JSFSignature.canonical := by cases x; simp only [Component.canonical]

theorem component_fix (h2 : ¬ v < SpecVersion1_2) {x : Component} :
    recurseComponent (componentConverter v) x = x → recurseComponent (componentConverter v) x.canonical = x.canonical := by
  have h1 : ¬ v < SpecVersion1_1 := by simp only [SpecVersion1_1, SpecVersion1_2] at *; omega
  induction x using Component.induct with
  | h x ih =>
    intro h
    rw [recurseComponent_go'] at h ⊢
    apply Component.ext
    · have h := congrArg Component.bomRef h
      simp only [Component.mapChildren, componentConverter_bomRef, Component.canonical_bomRef] at h ⊢
      exact h
    · have h := congrArg Component.mimeType h
      simp only [Component.mapChildren, componentConverter_mimeType, Component.canonical_mimeType] at h ⊢
      exact h
    · have h := congrArg Component.type h
      simp only [Component.mapChildren, componentConverter_type, Component.canonical_type] at h ⊢
      exact h
    · have h := congrArg Component.supplier h
      simp only [Component.mapChildren, componentConverter_supplier, Component.canonical_supplier] at h ⊢
      exact fix_gate (g := Option.map _) rfl h
    · have h := congrArg Component.manufacturer h
      simp only [Component.mapChildren, componentConverter_manufacturer, Component.canonical_manufacturer] at h ⊢
      exact fix_gate (g := Option.map _) rfl h
    · have h := congrArg Component.author h
      simp only [Component.mapChildren, componentConverter_author, Component.canonical_author] at h ⊢
      exact h
    · have h := congrArg Component.authors h
      simp only [Component.mapChildren, componentConverter_authors, Component.canonical_authors] at h ⊢
      exact fix_gate (g := PSlice.compact) rfl h
    · simp only [Component.mapChildren, componentConverter_publisher]
    · simp only [Component.mapChildren, componentConverter_group]
    · simp only [Component.mapChildren, componentConverter_name]
    · have h := congrArg Component.version h
      simp only [Component.mapChildren, componentConverter_version, Component.canonical_version] at h ⊢
      exact h
    · simp only [Component.mapChildren, componentConverter_description]
    · have h := congrArg Component.scope h
      simp only [Component.mapChildren, componentConverter_scope, Component.canonical_scope] at h ⊢
      exact h
    · have h := congrArg Component.hashes h
      simp only [Component.mapChildren, componentConverter_hashes, Component.canonical_hashes] at h ⊢
      exact hashes_fix h
    · have h := congrArg Component.licenses h
      simp only [Component.mapChildren, componentConverter_licenses, Component.canonical_licenses] at h ⊢
      exact licenses_fix h2 h
    · simp only [Component.mapChildren, componentConverter_copyright]
    · simp only [Component.mapChildren, componentConverter_cpe]
    · simp only [Component.mapChildren, componentConverter_packageURL]
    · have h := congrArg Component.omniborID h
      simp only [Component.mapChildren, componentConverter_omniborID, Component.canonical_omniborID] at h ⊢
      exact fix_gate (g := PSlice.compact) rfl h
    · have h := congrArg Component.swhid h
      simp only [Component.mapChildren, componentConverter_swhid, Component.canonical_swhid] at h ⊢
      exact fix_gate (g := PSlice.compact) rfl h
    · have h := congrArg Component.swid h
      simp only [Component.mapChildren, componentConverter_swid, Component.canonical_swid] at h ⊢
      exact h
    · have h := congrArg Component.modified h
      simp only [Component.mapChildren, componentConverter_modified, Component.canonical_modified] at h ⊢
      exact h
    · have h := congrArg Component.pedigree h
      simp only [Component.mapChildren, componentConverter_pedigree, Component.canonical_pedigree, if_neg h1, if_neg h2] at h ⊢
      exact pedigree_fix (fun p hp d hd => ih d (by simp [Component.children, Option.mem_def.1 hp, hd])) h
    · have h := congrArg Component.externalReferences h
      simp only [Component.mapChildren, componentConverter_externalReferences, Component.canonical_externalReferences] at h ⊢
      exact fix_gate' (g := PSlice.compactWith _) (fun h => extRefs_fix h) h (fun _ => rfl)
    · have h := congrArg Component.properties h
      simp only [Component.mapChildren, componentConverter_properties, Component.canonical_properties] at h ⊢
      exact fix_gate (g := PSlice.compact) rfl h
    · have h := congrArg Component.components h
      simp only [Component.mapChildren, componentConverter_components, Component.canonical_components, if_neg h1, if_neg h2] at h ⊢
      exact components_fix (fun d hd => ih d (by simp [Component.children, hd])) h
    · have h := congrArg Component.evidence h
      simp only [Component.mapChildren, componentConverter_evidence, Component.canonical_evidence] at h ⊢
      exact evidence_fix h2 h
    · have h := congrArg Component.releaseNotes h
      simp only [Component.mapChildren, componentConverter_releaseNotes, Component.canonical_releaseNotes] at h ⊢
      exact fix_gate (g := Option.map _) rfl h
    · have h := congrArg Component.modelCard h
      simp only [Component.mapChildren, componentConverter_modelCard, Component.canonical_modelCard] at h ⊢
      exact fix_gate' (g := Option.map _) (fun h => modelCard_fix h) h (fun _ => rfl)
    · have h := congrArg Component.data h
      simp only [Component.mapChildren, componentConverter_data, Component.canonical_data] at h ⊢
      exact fix_gate (g := PSlice.compactWith _) rfl h
    · have h := congrArg Component.cryptoProperties h
      simp only [Component.mapChildren, componentConverter_cryptoProperties, Component.canonical_cryptoProperties] at h ⊢
      exact fix_gate' (g := Option.map _) (fun h => cryptoProperties_fix h) h (fun _ => rfl)
    · have h := congrArg Component.tags h
      simp only [Component.mapChildren, componentConverter_tags, Component.canonical_tags] at h ⊢
      exact fix_gate (g := PSlice.compact) rfl h
    · have h := congrArg Component.isExternal h
      simp only [Component.mapChildren, componentConverter_isExternal, Component.canonical_isExternal] at h ⊢
      exact h
    · have h := congrArg Component.patentAssertions h
      simp only [Component.mapChildren, componentConverter_patentAssertions, Component.canonical_patentAssertions] at h ⊢
      exact fix_gate (g := PSlice.compactWith _) rfl h
    · have h := congrArg Component.versionRange h
      simp only [Component.mapChildren, componentConverter_versionRange, Component.canonical_versionRange] at h ⊢
      exact h
    · simp only [Component.mapChildren, componentConverter_signature]

@[simp] theorem Service.canonical_bomRef (x : Service) : x.canonical.bomRef = x.bomRef := by cases x; simp only [Service.canonical]
@[simp] theorem Service.canonical_provider (x : Service) : x.canonical.provider = x.provider.map OrganizationalEntity.canonical := by cases x; simp only [Service.canonical]
@[simp] theorem Service.canonical_group (x : Service) : x.canonical.group = x.group := by cases x; simp only [Service.canonical]
@[simp] theorem Service.canonical_name (x : Service) : x.canonical.name = x.name := by cases x; simp only [Service.canonical]
@[simp] theorem Service.canonical_version (x : Service) : x.canonical.version = x.version := by cases x; simp only [Service.canonical]
@[simp] theorem Service.canonical_description (x : Service) : x.canonical.description = x.description := by cases x; simp only [Service.canonical]
@[simp] theorem Service.canonical_endpoints (x : Service) : x.canonical.endpoints = x.endpoints.compact := by cases x; simp only [Service.canonical]
@[simp] theorem Service.canonical_authenticated (x : Service) : x.canonical.authenticated = x.authenticated := by cases x; simp only [Service.canonical]
@[simp] theorem Service.canonical_crossesTrustBoundary (x : Service) : x.canonical.crossesTrustBoundary = x.crossesTrustBoundary := by cases x; simp only [Service.canonical]
@[simp] theorem Service.canonical_data (x : Service) : x.canonical.data = x.data.compactWith DataClassification.canonical := by cases x; simp only [Service.canonical]
@[simp] theorem Service.canonical_licenses (x : Service) : x.canonical.licenses = x.licenses.compactWith LicenseChoice.canonical := by cases x; simp only [Service.canonical]
@[simp] theorem Service.canonical_externalReferences (x : Service) : x.canonical.externalReferences = x.externalReferences.compactWith ExternalReference.canonical := by cases x; simp only [Service.canonical]
@[simp] theorem Service.canonical_properties (x : Service) : x.canonical.properties = x.properties.compact := by cases x; simp only [Service.canonical]
@[simp] theorem Service.canonical_services (x : Service) : x.canonical.services = canonicalServices x.services := by cases x; simp only [Service.canonical]
@[simp] theorem Service.canonical_releaseNotes (x : Service) : x.canonical.releaseNotes = x.releaseNotes.map ReleaseNotes.canonical := by cases x; simp only [Service.canonical]
@[simp] theorem Service.canonical_tags (x : Service) : x.canonical.tags = x.tags.compact := by cases x; simp only [Service.canonical]
@[simp] theorem Service.canonical_trustZone (x : Service) : x.canonical.trustZone = x.trustZone := by cases x; simp only [Service.canonical]
@[simp] theorem Service.canonical_patentAssertions (x : Service) : x.canonical.patentAssertions = x.patentAssertions.compactWith PatentAssertion.canonical := by cases x; simp only [Service.canonical]
@[simp] theorem Service.canonical_signature (x : Service) : x.canonical.signature = x.signature.map JSFSignature.canonical := by cases x; simp only [Service.canonical]

theorem service_fix (h2 : ¬ v < SpecVersion1_2) {x : Service} :
    recurseService (serviceConverter v) x = x → recurseService (serviceConverter v) x.canonical = x.canonical := by
  have h1 : ¬ v < SpecVersion1_1 := by simp only [SpecVersion1_1, SpecVersion1_2] at *; omega
  induction x using Service.induct with
  | h x ih =>
    intro h
    rw [recurseService_go'] at h ⊢
    apply Service.ext
    · simp only [Service.mapChildren, serviceConverter_bomRef]
    · have h := congrArg Service.provider h
      simp only [Service.mapChildren, serviceConverter_provider, Service.canonical_provider] at h ⊢
      exact Option.fix_map (fun _ _ => orgEntity_fix) h
    · simp only [Service.mapChildren, serviceConverter_group]
    · simp only [Service.mapChildren, serviceConverter_name]
    · simp only [Service.mapChildren, serviceConverter_version]
    · simp only [Service.mapChildren, serviceConverter_description]
    · simp only [Service.mapChildren, serviceConverter_endpoints]
    · simp only [Service.mapChildren, serviceConverter_authenticated]
    · simp only [Service.mapChildren, serviceConverter_crossesTrustBoundary]
    · have h := congrArg Service.data h
      simp only [Service.mapChildren, serviceConverter_data, Service.canonical_data] at h ⊢
      exact dataClassifications_fix h
    · simp only [Service.mapChildren, serviceConverter_licenses]
    · have h := congrArg Service.externalReferences h
      simp only [Service.mapChildren, serviceConverter_externalReferences, Service.canonical_externalReferences] at h ⊢
      exact extRefs_fix h
    · have h := congrArg Service.properties h
      simp only [Service.mapChildren, serviceConverter_properties, Service.canonical_properties] at h ⊢
      exact fix_gate (g := PSlice.compact) rfl h
    · have h := congrArg Service.services h
      simp only [Service.mapChildren, serviceConverter_services, Service.canonical_services, if_neg h1, if_neg h2] at h ⊢
      exact services_fix (fun d hd => ih d (by simp [Service.children, hd])) h
    · have h := congrArg Service.releaseNotes h
      simp only [Service.mapChildren, serviceConverter_releaseNotes, Service.canonical_releaseNotes] at h ⊢
      exact fix_gate (g := Option.map _) rfl h
    · simp only [Service.mapChildren, serviceConverter_tags]
    · have h := congrArg Service.trustZone h
      simp only [Service.mapChildren, serviceConverter_trustZone, Service.canonical_trustZone] at h ⊢
      exact h
    · have h := congrArg Service.patentAssertions h
      simp only [Service.mapChildren, serviceConverter_patentAssertions, Service.canonical_patentAssertions] at h ⊢
      exact fix_gate (g := PSlice.compactWith _) rfl h
    · simp only [Service.mapChildren, serviceConverter_signature]

theorem toolService_fix {x : Service} (h : toolService v x = x) : toolService v x.canonical = x.canonical := by
  have h := congrArg Service.provider h
  simp only [toolService] at h ⊢
  apply Service.ext <;> simp only [Service.canonical_provider]
  exact Option.fix_map (fun _ _ => orgEntity_fix) h

theorem toolsOpt_fix {x : Option ToolsChoice} (h : x.map (convertTools v) = x) :
    (x.bind ToolsChoice.canonicalOpt).map (convertTools v) = x.bind ToolsChoice.canonicalOpt := by
  rcases x with _ | ⟨t, c, s⟩
  · rfl
  · simp only [Option.map_some, Option.some.injEq] at h
    by_cases h5 : v < SpecVersion1_5
    · rw [convertTools_old h5] at h
      simp only [ToolsChoice.mk.injEq] at h
      obtain ⟨ht, hc, hs⟩ := h
      subst hc hs
      simp only [toolsToLegacy, PSlice.elems, List.map_nil, List.append_nil, List.isEmpty_nil, if_true] at ht
      cases t with
      | nil => simp [ToolsChoice.canonicalOpt, ToolsChoice.canonical, convertTools_old h5, toolsToLegacy,
          PSlice.compactWith, PSlice.elems]
      | nilSlice => simp [ToolsChoice.canonicalOpt]
      | list ts =>
        have := PSlice.fix_compactWith (fun _ _ => tool_fix) ht
        simp only [PSlice.compactWith] at this
        simp [ToolsChoice.canonicalOpt, ToolsChoice.canonical, convertTools_old h5, toolsToLegacy,
          PSlice.compactWith, PSlice.elems] at this ⊢
        exact this
    · rw [convertTools_new h5] at h
      simp only [ToolsChoice.mk.injEq] at h
      obtain ⟨ht, -, hs⟩ := h
      cases t with
      | nil =>
        simp only [ToolsChoice.canonicalOpt, ToolsChoice.canonical, Option.bind_some, Option.map_some,
          convertTools_new h5, PSlice.map_nil, PSlice.fix_compactWith (fun _ _ => toolService_fix) hs]
      | nilSlice => simp [ToolsChoice.canonicalOpt]
      | list ts =>
        simp only [ToolsChoice.canonicalOpt, ToolsChoice.canonical, Option.bind_some, Option.map_some,
          convertTools_new h5, PSlice.map_nil, PSlice.fix_compactWith (fun _ _ => tool_fix) ht]

theorem credits_fix {x : Credits}
    (h : { x with organizations := x.organizations.map (convertOrganizationalEntity v),
                  individuals := x.individuals.map (convertOrganizationalContact v) } = x) :
    { x.canonical with organizations := x.canonical.organizations.map (convertOrganizationalEntity v),
                       individuals := x.canonical.individuals.map (convertOrganizationalContact v) } =
      x.canonical := by
  have ha := congrArg Credits.organizations h
  have hb := congrArg Credits.individuals h
  simp only [Credits.canonical] at ha hb ⊢
  rw [PSlice.fix_compactWith (fun _ _ => orgEntity_fix) ha, PSlice.fix_compact hb]

theorem analysis_fix {x : VulnerabilityAnalysis}
    (h : { x with firstIssued := "", lastUpdated := "" } = x) :
    { x.canonical with firstIssued := "", lastUpdated := "" } = x.canonical := by
  rw [← h]; rfl

theorem vulnerability_fix (h2 : ¬ v < SpecVersion1_2) {x : Vulnerability} (h : convertVulnerability v x = x) : convertVulnerability v x.canonical = x.canonical := by
  apply Vulnerability.ext
  · simp only [convertVulnerability_bomRef]
  · simp only [convertVulnerability_id]
  · simp only [convertVulnerability_source]
  · simp only [convertVulnerability_references]
  · have h := congrArg Vulnerability.ratings h
    simp only [convertVulnerability_ratings] at h ⊢
    exact PSlice.fix_compact h
  · simp only [convertVulnerability_cwes]
  · simp only [convertVulnerability_description]
  · simp only [convertVulnerability_detail]
  · simp only [convertVulnerability_recommendation]
  · have h := congrArg Vulnerability.workaround h
    simp only [convertVulnerability_workaround] at h ⊢
    exact h
  · have h := congrArg Vulnerability.proofOfConcept h
    simp only [convertVulnerability_proofOfConcept] at h ⊢
    exact fix_gate (g := Option.map _) rfl h
  · simp only [convertVulnerability_advisories]
  · simp only [convertVulnerability_created]
  · simp only [convertVulnerability_published]
  · simp only [convertVulnerability_updated]
  · have h := congrArg Vulnerability.rejected h
    simp only [convertVulnerability_rejected] at h ⊢
    exact h
  · have h := congrArg Vulnerability.credits h
    simp only [convertVulnerability_credits] at h ⊢
    exact fix_gate2 (g := Option.map _) (f := fun y => y) (fun _ => rfl) (fun h => Option.fix_map (fun _ _ => credits_fix) h) h
  · have h := congrArg Vulnerability.tools h
    simp only [convertVulnerability_tools] at h ⊢
    exact toolsOpt_fix h
  · have h := congrArg Vulnerability.analysis h
    simp only [convertVulnerability_analysis] at h ⊢
    exact fix_gate2 (g := Option.map _) (f := fun y => y) (fun _ => rfl) (fun h => Option.fix_map (fun _ _ => analysis_fix) h) h
  · simp only [convertVulnerability_affects]
  · simp only [convertVulnerability_properties]

theorem metadata_fix (h2 : ¬ v < SpecVersion1_2) {x : Metadata} (h : convertMetadata v x = x) : convertMetadata v x.canonical = x.canonical := by
  apply Metadata.ext
  · simp only [convertMetadata_timestamp]
  · have h := congrArg Metadata.lifecycles h
    simp only [convertMetadata_lifecycles] at h ⊢
    exact fix_gate (g := PSlice.compact) rfl h
  · have h := congrArg Metadata.tools h
    simp only [convertMetadata_tools] at h ⊢
    exact toolsOpt_fix h
  · have h := congrArg Metadata.authors h
    simp only [convertMetadata_authors] at h ⊢
    exact PSlice.fix_compact h
  · have h := congrArg Metadata.component h
    simp only [convertMetadata_component] at h ⊢
    exact Option.fix_map (fun _ _ => component_fix h2) h
  · have h := congrArg Metadata.manufacture h
    simp only [convertMetadata_manufacture] at h ⊢
    exact Option.fix_map (fun _ _ => orgEntity_fix) h
  · have h := congrArg Metadata.manufacturer h
    simp only [convertMetadata_manufacturer] at h ⊢
    exact fix_gate (g := Option.map _) rfl h
  · have h := congrArg Metadata.supplier h
    simp only [convertMetadata_supplier] at h ⊢
    exact Option.fix_map (fun _ _ => orgEntity_fix) h
  · have h := congrArg Metadata.licenses h
    simp only [convertMetadata_licenses] at h ⊢
    exact fix_gate' (g := PSlice.compactWith _) (fun h => licenses_fix h2 h) h (fun _ => rfl)
  · have h := congrArg Metadata.properties h
    simp only [convertMetadata_properties] at h ⊢
    exact fix_gate (g := PSlice.compact) rfl h
  · have h := congrArg Metadata.distributionConstraints h
    simp only [convertMetadata_distributionConstraints] at h ⊢
    exact h

theorem annotator_fix (h2 : ¬ v < SpecVersion1_2) {x : Annotator} (h : convertAnnotator v x = x) :
    convertAnnotator v x.canonical = x.canonical := by
  have ha := congrArg Annotator.organization h
  have hb := congrArg Annotator.service h
  simp only [convertAnnotator, Annotator.canonical] at ha hb ⊢
  rw [Option.fix_map (fun _ _ => orgEntity_fix) ha, Option.fix_map (fun _ _ => service_fix h2) hb]

theorem annotations_fix (h2 : ¬ v < SpecVersion1_2) {x : PSlice Annotation} (h : convertAnnotations v x = x) :
    convertAnnotations v (x.compactWith Annotation.canonical) = x.compactWith Annotation.canonical := by
  unfold convertAnnotations at *
  split_ifs at h ⊢
  · refine PSlice.fix_compactWith (fun a _ h => ?_) h
    have h := congrArg Annotation.annotator h
    simp only [Annotation.canonical] at h ⊢
    rw [Option.fix_map (fun _ _ => annotator_fix h2) h]
  · rfl

theorem dependencies_fix {x : PSlice Dependency} (h : x.map (fun d => { d with provides := .nil }) = x) :
    (x.compactWith Dependency.canonical).map (fun d => { d with provides := .nil }) =
      x.compactWith Dependency.canonical := by
  refine PSlice.fix_compactWith (fun d _ h => ?_) h
  rw [← h]; rfl

theorem definitions_fix {x : Option Definitions} (h : x.map (fun d => { d with patents := .nil }) = x) :
    (x.map Definitions.canonical).map (fun d => { d with patents := .nil }) = x.map Definitions.canonical := by
  refine Option.fix_map (fun d _ h => ?_) h
  rw [← h]; rfl

/-- The canonical form of a converted document is a converted document, up to the XML namespace that it
does not have. -/
theorem bom_fix (h2 : ¬ v < SpecVersion1_2) {x : BOM} (h : convert v x = x) :
    convert v x.canonical = { x.canonical with xmlns := mapGet xmlNamespaces v } := by
  have h1 : ¬ v < SpecVersion1_1 := by simp only [SpecVersion1_1, SpecVersion1_2] at *; omega
  apply BOM.ext
  · simp only [convert_xmlName]
  · simp only [convert_xmlns]
  · have h := congrArg BOM.jsonSchema h
    simp only [convert_jsonSchema] at h ⊢
    exact h
  · simp only [convert_bomFormat]
  · have h := congrArg BOM.specVersion h
    simp only [convert_specVersion] at h ⊢
    exact h
  · simp only [convert_serialNumber, if_neg h1]
  · simp only [convert_version]
  · have h := congrArg BOM.metadata h
    simp only [convert_metadata, if_neg h2] at h ⊢
    exact Option.fix_map (fun _ _ => metadata_fix h2) h
  · have h := congrArg BOM.components h
    simp only [convert_components] at h ⊢
    exact PSlice.fix_compactWith (fun _ _ => component_fix h2) h
  · have h := congrArg BOM.services h
    simp only [convert_services, if_neg h2] at h ⊢
    exact PSlice.fix_compactWith (fun _ _ => service_fix h2) h
  · have h := congrArg BOM.externalReferences h
    simp only [convert_externalReferences, if_neg h1] at h ⊢
    exact extRefs_fix h
  · have h := congrArg BOM.dependencies h
    simp only [convert_dependencies, if_neg h2] at h ⊢
    exact fix_gate2 (g := PSlice.compactWith _) (f := fun y => y) (fun _ => rfl) dependencies_fix h
  · have h := congrArg BOM.compositions h
    simp only [convert_compositions] at h ⊢
    exact fix_gate' (g := PSlice.compactWith _) (f := fun y => convertCompositions v y)
      (PSlice.fix_compactWith (fun _ _ => composition_fix)) h (fun _ => rfl)
  · simp only [convert_properties]
  · have h := congrArg BOM.vulnerabilities h
    simp only [convert_vulnerabilities] at h ⊢
    exact fix_gate' (g := PSlice.compactWith _) (f := fun y => convertVulnerabilities v y)
      (PSlice.fix_compactWith (fun _ _ => vulnerability_fix h2)) h (fun _ => rfl)
  · have h := congrArg BOM.annotations h
    simp only [convert_annotations] at h ⊢
    exact fix_gate' (g := PSlice.compactWith _) (f := fun y => convertAnnotations v y)
      (annotations_fix h2) h (fun _ => rfl)
  · have h := congrArg BOM.formulation h
    simp only [convert_formulation] at h ⊢
    exact fix_gate (g := PSlice.compactWith _) rfl h
  · have h := congrArg BOM.declarations h
    simp only [convert_declarations] at h ⊢
    exact fix_gate (g := Option.map _) rfl h
  · have h := congrArg BOM.definitions h
    simp only [convert_definitions] at h ⊢
    exact fix_gate' (g := Option.map _)
      (f := fun y => if v < SpecVersion1_7 then y.map (fun d : Definitions => { d with patents := .nil }) else y)
      (fun h => fix_gate2 (g := Option.map _) (f := fun y => y)
        (e := Option.map (fun d : Definitions => { d with patents := .nil })) (fun _ => rfl) definitions_fix h) h (fun _ => rfl)
  · have h := congrArg BOM.citations h
    simp only [convert_citations] at h ⊢
    exact fix_gate (g := PSlice.compactWith _) rfl h
  · simp only [convert_signature]

end

end Verif

