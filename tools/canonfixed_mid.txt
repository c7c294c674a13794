theorem party_fix {x : OrganizationalEntityOrContact} (h : convertParty v x = x) :
    convertParty v x.canonical = x.canonical := by
  have h := congrArg OrganizationalEntityOrContact.organization h
  simp only [convertParty, OrganizationalEntityOrContact.canonical] at h ⊢
  rw [Option.fix_map (fun _ _ => orgEntity_fix) h]

theorem licensing_fix {x : Licensing} (h : convertLicensing v x = x) :
    convertLicensing v x.canonical = x.canonical := by
  have ha := congrArg Licensing.licensor h
  have hb := congrArg Licensing.licensee h
  have hc := congrArg Licensing.purchaser h
  simp only [convertLicensing, Licensing.canonical] at ha hb hc ⊢
  rw [Option.fix_map (fun _ _ => party_fix) ha, Option.fix_map (fun _ _ => party_fix) hb,
    Option.fix_map (fun _ _ => party_fix) hc]

theorem licenseOf_fix {x : License} (h : licenseOf v x = x) : licenseOf v x.canonical = x.canonical := by
  have ha := congrArg License.bomRef h
  have hb := congrArg License.licensing h
  have hc := congrArg License.properties h
  have hd := congrArg License.acknowledgement h
  simp only [licenseOf, License.canonical] at ha hb hc hd ⊢
  rw [ha, hd, fix_gate (g := PSlice.compact) rfl hc]
  have : (if v < SpecVersion1_5 then none else if v < SpecVersion1_6 then
      (x.licensing.map Licensing.canonical).map (convertLicensing v) else x.licensing.map Licensing.canonical) =
      x.licensing.map Licensing.canonical :=
    fix_gate' (g := Option.map _) (f := fun y => if v < SpecVersion1_6 then y.map (convertLicensing v) else y)
      (fun h => fix_gate2 (g := Option.map _) (f := fun y => y) (e := Option.map (convertLicensing v)) (fun _ => rfl)
        (fun h => Option.fix_map (fun _ _ => licensing_fix) h) h) hb (fun _ => rfl)
  rw [this]

theorem licenseChoice_fix {x : LicenseChoice} (h : licenseChoice v x = x) :
    licenseChoice v x.canonical = x.canonical := by
  rw [licenseChoice_eq] at h ⊢
  have ha := congrArg LicenseChoice.license h
  have hb := congrArg LicenseChoice.expressionDetails h
  have hc := congrArg LicenseChoice.licensing h
  have hd := congrArg LicenseChoice.properties h
  simp only [LicenseChoice.canonical] at ha hb hc hd ⊢
  rw [Option.fix_map (fun _ _ => licenseOf_fix) ha, fix_gate (g := PSlice.compact) rfl hb,
    fix_gate (g := Option.map _) rfl hc, fix_gate (g := PSlice.compact) rfl hd]

theorem licenses_fix (h2 : ¬ v < SpecVersion1_2) {x : PSlice LicenseChoice} (h : convertLicenses v x = x) :
    convertLicenses v (x.compactWith LicenseChoice.canonical) = x.compactWith LicenseChoice.canonical := by
  have h1 : ¬ v < SpecVersion1_1 := by simp only [SpecVersion1_1, SpecVersion1_2] at *; omega
  rw [convertLicenses_eq, if_neg h1] at h ⊢
  exact PSlice.fix_compactWith (fun _ _ => licenseChoice_fix) h

theorem identity_fix {x : Option EvidenceIdentityChoice} (h : clearConcludedValue (firstIdentity x) = x) :
    clearConcludedValue (firstIdentity (x.bind EvidenceIdentityChoice.canonicalOpt)) =
      x.bind EvidenceIdentityChoice.canonicalOpt := by
  rcases x with _ | ⟨_ | i, _ | _ | (_ | ⟨x, xs⟩)⟩ <;>
    simp_all [firstIdentity, clearConcludedValue, PSlice.elems, EvidenceIdentityChoice.canonicalOpt,
      EvidenceIdentityChoice.canonical, EvidenceIdentity.canonical]
  exact (congrArg EvidenceIdentity.concludedValue h).symm

theorem evidence_fix (h2 : ¬ v < SpecVersion1_2) {x : Option Evidence} (h : convertEvidence v x = x) :
    convertEvidence v (x.map Evidence.canonical) = x.map Evidence.canonical := by
  rcases x with _ | e
  · rfl
  · simp only [convertEvidence, Option.map_some, Evidence.canonical] at h ⊢
    split_ifs at h ⊢ with v3 v5 v6
    · simp only [Option.some.injEq] at h ⊢
      have ha := congrArg Evidence.identity h
      have hb := congrArg Evidence.occurrences h
      have hc := congrArg Evidence.callstack h
      simp only at ha hb hc
      rw [← ha, ← hb, ← hc]
      rfl
    · simp only [Option.some.injEq] at h ⊢
      have ha := congrArg Evidence.identity h
      have hb := congrArg Evidence.occurrences h
      have hc := congrArg Evidence.licenses h
      simp only at ha hb hc
      rw [identity_fix ha, PSlice.fix_compact hb, licenses_fix h2 hc]
    · simp only [Option.some.injEq] at h ⊢
      have hc := congrArg Evidence.licenses h
      simp only at hc
      rw [licenses_fix h2 hc]

theorem modelCard_fix {x : Option MLModelCard} (h : convertModelCard v x = x) :
    convertModelCard v (x.map MLModelCard.canonical) = x.map MLModelCard.canonical := by
  refine Option.fix_map (fun m _ h => ?_) h
  split_ifs at h ⊢
  · have h := congrArg MLModelCard.considerations h
    simp only [MLModelCard.canonical] at h ⊢
    rw [Option.fix_map (fun c _ h => ?_) h]
    have h := congrArg MLModelCardConsiderations.environmentalConsiderations h
    simp only [MLModelCardConsiderations.canonical] at h ⊢
    rw [← h]; rfl
  · rfl

theorem cryptoProperties_fix {x : Option CryptoProperties} (h : convertCryptoProperties v x = x) :
    convertCryptoProperties v (x.map CryptoProperties.canonical) = x.map CryptoProperties.canonical := by
  refine Option.fix_map (fun m _ h => ?_) h
  have ha := congrArg CryptoProperties.algorithmProperties h
  have hb := congrArg CryptoProperties.protocolProperties h
  have hc := congrArg CryptoProperties.certificateProperties h
  have hd := congrArg CryptoProperties.relatedCryptoMaterialProperties h
  simp only [CryptoProperties.canonical] at ha hb hc hd ⊢
  rw [Option.fix_map (fun _ _ => algProps_fix) ha, Option.fix_map (fun _ _ => protoProps_fix) hb,
    Option.fix_map (fun _ _ => certProps_fix) hc, Option.fix_map (fun _ _ => relCrypto_fix) hd]

theorem dataClassifications_fix {x : PSlice DataClassification} (h : convertDataClassifications v x = x) :
    convertDataClassifications v (x.compactWith DataClassification.canonical) =
      x.compactWith DataClassification.canonical := by
  unfold convertDataClassifications at *
  split_ifs at h ⊢
  · refine PSlice.fix_compactWith (fun d _ h => ?_) h
    rw [← h]; rfl
  · rfl

theorem components_fix {f : Component → Component} {x : PSlice Component}
    (hf : ∀ d ∈ x.elems, f d = d → f d.canonical = d.canonical) (h : x.map f = x) :
    (canonicalComponents x).map f = canonicalComponents x := by
  rw [canonicalComponents_eq]
  exact PSlice.fix_compactWith hf h

theorem services_fix {f : Service → Service} {x : PSlice Service}
    (hf : ∀ d ∈ x.elems, f d = d → f d.canonical = d.canonical) (h : x.map f = x) :
    (canonicalServices x).map f = canonicalServices x := by
  rw [canonicalServices_eq]
  exact PSlice.fix_compactWith hf h

theorem pedigree_fix {f : Component → Component} {x : Option (Pedigree Component)}
    (hf : ∀ p ∈ x, ∀ d ∈ p.relatives, f d = d → f d.canonical = d.canonical)
    (h : x.map (Pedigree.mapComponents f) = x) :
    (canonicalPedigreeOpt x).map (Pedigree.mapComponents f) = canonicalPedigreeOpt x := by
  rcases x with _ | ⟨a, d, w, cs, ps, n⟩
  · rfl
  · have hf := hf _ rfl
    simp only [pedigree_relatives_iff] at hf
    obtain ⟨h1, h2, h3⟩ := hf
    simp only [Option.map_some, Pedigree.mapComponents, Option.some.injEq, Pedigree.mk.injEq] at h
    simp only [canonicalPedigreeOpt, canonicalPedigree, Option.map_some, Pedigree.mapComponents,
      components_fix h1 h.1, components_fix h2 h.2.1, components_fix h3 h.2.2.1]
