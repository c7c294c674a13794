SAFE['BOMReference'] = '''instance : XFieldsSafe X.bomReferenceFields := by unfold X.bomReferenceFields; infer_instance
instance : XSafe X.bomReference :=
  safe_empty (fresh_safe (xstruct_safe X.bomReferenceFields _ _ (show (["ref"] : List String).Nodup by decide +kernel) List.nodup_nil (.inl rfl))) _
instance : XSafe X.dependencyRef := xstruct_safe X.bomReferenceFields _ _ (show (["ref"] : List String).Nodup by decide +kernel) List.nodup_nil (.inl rfl)
'''
SAFE['CertificateState'] = '''instance : XSafe X.predefinedCertificateState := by
  unfold X.predefinedCertificateState
  exact xstruct_safe _ _ _ List.nodup_nil (show (["state", "reason"] : List String).Nodup by decide +kernel) (.inl rfl)
instance : XSafe X.customCertificateState := by
  unfold X.customCertificateState
  exact xstruct_safe _ _ _ List.nodup_nil (show (["name", "description", "reason"] : List String).Nodup by decide +kernel) (.inl rfl)

instance : XSafe X.certificateState where
  safe n cs x h y hy old := by
    have ht : ∀ k ∈ x.kids, HoldsText k := by
      obtain ⟨_ | p, _ | c⟩ := cs
      · simp [X.certificateState] at h
      · simp only [X.certificateState, X.customCertificateState, XCodec.struct, Option.map_eq_some_iff, Option.some.injEq] at h
        obtain ⟨ks, hk, rfl⟩ := h
        obtain ⟨k₁, k₂, h₁, g₂, rfl⟩ := encKids_elem hk
        obtain ⟨k₂, k₃, h₂, g₃, rfl⟩ := encKids_elem g₂
        obtain ⟨k₃, k₄, h₃, g₄, rfl⟩ := encKids_elem g₃
        simp only [XFields.encKids, Option.some.injEq] at g₄; subst g₄
        exact holdsText_append (plain_holdsText h₁) (holdsText_append (plain_holdsText h₂)
          (holdsText_append (plain_holdsText h₃) (by simp)))
      · simp only [X.certificateState, X.predefinedCertificateState, XCodec.struct, Option.map_eq_some_iff, Option.some.injEq] at h
        obtain ⟨ks, hk, rfl⟩ := h
        obtain ⟨k₁, k₂, h₁, g₂, rfl⟩ := encKids_elem hk
        obtain ⟨k₂, k₃, h₂, g₃, rfl⟩ := encKids_elem g₂
        simp only [XFields.encKids, Option.some.injEq] at g₃; subst g₃
        exact holdsText_append (plain_holdsText h₁) (holdsText_append (plain_holdsText h₂) (by simp))
      · simp [X.certificateState] at h
    simp only [X.certificateState, dec_holdsText X.certificateStateRaw rfl hy ht]
  tidy n cs x hn h := by
    obtain ⟨_ | p, _ | c⟩ := cs
    · simp [X.certificateState] at h
    · exact XSafe.tidy (c := X.customCertificateState) n c x hn h
    · exact XSafe.tidy (c := X.predefinedCertificateState) n p x hn h
    · simp [X.certificateState] at h
'''
SAFE['CertificateExtension'] = '''instance : XSafe X.commonCertificateExtension := by
  unfold X.commonCertificateExtension
  exact xstruct_safe _ _ _ List.nodup_nil (show (["commonExtensionName", "commonExtensionValue"] : List String).Nodup by decide +kernel) (.inl rfl)
instance : XSafe X.customCertificateExtension := by
  unfold X.customCertificateExtension
  exact xstruct_safe _ _ _ List.nodup_nil (show (["customExtensionName", "customExtensionValue"] : List String).Nodup by decide +kernel) (.inl rfl)

instance : XSafe X.certificateExtension where
  safe n ce x h y hy old := by
    have ht : ∀ k ∈ x.kids, HoldsText k := by
      obtain ⟨_ | p, _ | c⟩ := ce
      · simp [X.certificateExtension] at h
      · simp only [X.certificateExtension, X.customCertificateExtension, XCodec.struct, Option.map_eq_some_iff, Option.some.injEq] at h
        obtain ⟨ks, hk, rfl⟩ := h
        obtain ⟨k₁, k₂, h₁, g₂, rfl⟩ := encKids_elem hk
        obtain ⟨k₂, k₃, h₂, g₃, rfl⟩ := encKids_elem g₂
        simp only [XFields.encKids, Option.some.injEq] at g₃; subst g₃
        exact holdsText_append (plain_holdsText h₁) (holdsText_append (plain_holdsText h₂) (by simp))
      · simp only [X.certificateExtension, X.commonCertificateExtension, XCodec.struct, Option.map_eq_some_iff, Option.some.injEq] at h
        obtain ⟨ks, hk, rfl⟩ := h
        obtain ⟨k₁, k₂, h₁, g₂, rfl⟩ := encKids_elem hk
        obtain ⟨k₂, k₃, h₂, g₃, rfl⟩ := encKids_elem g₂
        simp only [XFields.encKids, Option.some.injEq] at g₃; subst g₃
        exact holdsText_append (plain_holdsText h₁) (holdsText_append (plain_holdsText h₂) (by simp))
      · simp [X.certificateExtension] at h
    simp only [X.certificateExtension, dec_holdsText X.certificateExtensionRaw rfl hy ht]
  tidy n ce x hn h := by
    obtain ⟨_ | p, _ | c⟩ := ce
    · simp [X.certificateExtension] at h
    · exact XSafe.tidy (c := X.customCertificateExtension) n c x hn h
    · exact XSafe.tidy (c := X.commonCertificateExtension) n p x hn h
    · simp [X.certificateExtension] at h
'''
SAFE['Copyright'] = '''instance : XSafe X.copyright where
  safe n a x h y hy old := by simp only [X.copyright, XSafe.safe (c := X.string) n a.text x h y hy]
  tidy n a x hn h := XSafe.tidy (c := X.string) n a.text x hn h
'''
SAFE['LicenseChoice'] = '''instance : XFieldsSafe X.licenseExpressionDetailFields := by unfold X.licenseExpressionDetailFields; infer_instance
instance : XSafe X.licenseExpressionDetail :=
  xstruct_safe X.licenseExpressionDetailFields _ _ (by simp [X.licenseExpressionDetailFields, XFields.attrNames]) (show (["text", "url"] : List String).Nodup by decide +kernel) (.inl rfl)
instance : XFieldsSafe X.licenseExpressionFields := by unfold X.licenseExpressionFields; infer_instance
instance : XFieldsSafe X.licenseExpressionDetailedFields := by unfold X.licenseExpressionDetailedFields; infer_instance

theorem licenseExpression_safe : XSafe (XCodec.struct X.licenseExpressionFields id id) :=
  xstruct_safe X.licenseExpressionFields _ _ (show (["acknowledgement", "bom-ref"] : List String).Nodup by decide +kernel) List.nodup_nil (.inr ⟨rfl, Nat.le_refl 1⟩)

theorem licenseExpressionDetailed_safe : XSafe (XCodec.struct X.licenseExpressionDetailedFields id id) :=
  xstruct_safe X.licenseExpressionDetailedFields _ _ (show (["expression", "acknowledgement", "bom-ref"] : List String).Nodup by decide +kernel)
    (show (["details"] : List String).Nodup by decide +kernel) (.inl rfl)

theorem licenseChoice_safe {c : LicenseChoice} {ks : List Xml} (h : X.licenseChoiceEnc c = some ks) :
    ∀ k ∈ ks, (∃ n as ls, k = .elem n as ls) ∧ k.Tidy ∧ ∀ l, Spaced k l → X.licenseChoiceDec l = X.licenseChoiceDec k := by
  intro k hk
  simp only [X.licenseChoiceEnc] at h
  split at h
  · rename_i l hl
    split at h
    · cases h
    · have e := XField.enc_mem h k hk
      have hn := XLawful.named "license" l k e
      obtain ⟨as, js, rfl⟩ := Xml.isElem_elim hn
      refine ⟨⟨_, _, _, rfl⟩, XSafe.tidy "license" l _ inferInstance e, fun y hy => ?_⟩
      have hd := XSafe.safe "license" l _ e y hy
      obtain ⟨js', rfl, -⟩ := spaced_elem.1 hy
      have e0 : X.license.rename "license" = "license" := rfl
      rw [e0] at hd ⊢
      simp [X.licenseChoiceDec, hd]
  · split at h
    · split at h
      · have e := XField.enc_mem h k hk
        have hn := licenseExpression_lawful.named "expression" _ k e
        obtain ⟨as, js, rfl⟩ := Xml.isElem_elim hn
        refine ⟨⟨_, _, _, rfl⟩, licenseExpression_safe.tidy "expression" _ _ inferInstance e, fun y hy => ?_⟩
        have hd := licenseExpression_safe.safe "expression" _ _ e y hy X.licenseExpressionFields.zero
        obtain ⟨js', rfl, -⟩ := spaced_elem.1 hy
        have e0 : (XCodec.struct X.licenseExpressionFields id id).rename "expression" = "expression" := rfl
        rw [e0] at hd ⊢
        have hd' : X.licenseExpressionFields.dec (.elem "expression" as js') X.licenseExpressionFields.zero =
            X.licenseExpressionFields.dec (.elem "expression" as js) X.licenseExpressionFields.zero := by
          simpa [XCodec.struct] using hd
        simp [X.licenseChoiceDec, hd']
      · have e := XField.enc_mem h k hk
        have hn := licenseExpressionDetailed_lawful.named "expression-detailed" _ k e
        obtain ⟨as, js, rfl⟩ := Xml.isElem_elim hn
        refine ⟨⟨_, _, _, rfl⟩, licenseExpressionDetailed_safe.tidy "expression-detailed" _ _ inferInstance e,
          fun y hy => ?_⟩
        have hd := licenseExpressionDetailed_safe.safe "expression-detailed" _ _ e y hy X.licenseExpressionDetailedFields.zero
        obtain ⟨js', rfl, -⟩ := spaced_elem.1 hy
        have e0 : (XCodec.struct X.licenseExpressionDetailedFields id id).rename "expression-detailed" =
          "expression-detailed" := rfl
        rw [e0] at hd ⊢
        have hd' : X.licenseExpressionDetailedFields.dec (.elem "expression-detailed" as js')
              X.licenseExpressionDetailedFields.zero =
            X.licenseExpressionDetailedFields.dec (.elem "expression-detailed" as js)
              X.licenseExpressionDetailedFields.zero := by
          simpa [XCodec.struct] using hd
        simp [X.licenseChoiceDec, hd']
    · simp only [Option.some.injEq] at h; subst h; simp at hk

instance : XSafe X.licenses where
  safe n ls x h y hy old := by
    cases ls with
    | nil => simp [X.licenses] at h
    | cons l ls =>
      simp only [X.licenses, Option.map_eq_some_iff, Option.some.injEq] at h
      obtain ⟨ks, hk, rfl⟩ := h
      refine decEach_spaced (fun _ => rfl) (spaced_kids hy) fun k hkm => ?_
      obtain ⟨a, -, js, hj, hkj⟩ := encEach_mem hk k hkm
      exact (licenseChoice_safe hj k hkj).2.2
  tidy n ls x hn h := by
    cases ls with
    | nil => simp [X.licenses] at h
    | cons l ls =>
      simp only [X.licenses, Option.map_eq_some_iff, Option.some.injEq] at h
      obtain ⟨ks, hk, rfl⟩ := h
      refine tidy_elem hn (by simp) (.inl fun k hkm => ?_) fun k hkm => ?_ <;>
      obtain ⟨a, -, js, hj, hkj⟩ := encEach_mem hk k hkm
      · exact (licenseChoice_safe hj k hkj).1
      · exact (licenseChoice_safe hj k hkj).2.1
'''
SAFE['EnvironmentVariableChoice'] = '''theorem environmentVariable_safe {c : EnvironmentVariableChoice} {ks : List Xml} (h : X.environmentVariableEnc c = some ks) :
    ∀ k ∈ ks, (∃ n as ls, k = .elem n as ls) ∧ k.Tidy ∧
      ∀ l, Spaced k l → X.environmentVariableDec l = X.environmentVariableDec k := by
  intro k hk
  simp only [X.environmentVariableEnc] at h
  split at h
  · rename_i p hp
    split at h
    · cases h
    · have e := XField.enc_mem h k hk
      have hn := XLawful.named "environmentVar" p k e
      obtain ⟨as, js, rfl⟩ := Xml.isElem_elim hn
      refine ⟨⟨_, _, _, rfl⟩, XSafe.tidy "environmentVar" p _ inferInstance e, fun y hy => ?_⟩
      have hd := XSafe.safe "environmentVar" p _ e y hy
      obtain ⟨js', rfl, -⟩ := spaced_elem.1 hy
      have e0 : X.property.rename "environmentVar" = "environmentVar" := rfl
      rw [e0] at hd ⊢
      simp [X.environmentVariableDec, hd]
  · split at h
    · have e := XField.enc_mem h k hk
      refine ⟨tidy_isElem (XLawful.named "value" _ k e), XSafe.tidy "value" _ _ inferInstance e, fun y hy => ?_⟩
      simp only [XCodec.simple, Option.some.injEq] at e; subst e
      rw [spaced_textKids hy]
    · simp only [Option.some.injEq] at h; subst h; simp at hk

instance : XSafe X.environmentVariables where
  safe n ls x h y hy old := by
    cases ls with
    | nil => simp [X.environmentVariables] at h
    | cons l ls =>
      simp only [X.environmentVariables, Option.map_eq_some_iff, Option.some.injEq] at h
      obtain ⟨ks, hk, rfl⟩ := h
      refine decEach_spaced (fun _ => rfl) (spaced_kids hy) fun k hkm => ?_
      obtain ⟨a, -, js, hj, hkj⟩ := encEach_mem hk k hkm
      exact (environmentVariable_safe hj k hkj).2.2
  tidy n ls x hn h := by
    cases ls with
    | nil => simp [X.environmentVariables] at h
    | cons l ls =>
      simp only [X.environmentVariables, Option.map_eq_some_iff, Option.some.injEq] at h
      obtain ⟨ks, hk, rfl⟩ := h
      refine tidy_elem hn (by simp) (.inl fun k hkm => ?_) fun k hkm => ?_ <;>
      obtain ⟨a, -, js, hj, hkj⟩ := encEach_mem hk k hkm
      · exact (environmentVariable_safe hj k hkj).1
      · exact (environmentVariable_safe hj k hkj).2.1
'''
SAFE['MLDatasetChoice'] = '''instance : XSafe X.mlDatasetChoiceRef := by
  unfold X.mlDatasetChoiceRef
  exact xstruct_safe _ _ _ List.nodup_nil (show (["ref"] : List String).Nodup by decide +kernel) (.inl rfl)

instance : XSafe X.mlDatasetChoice where
  safe n dc x h y hy old := by
    have hd : ∀ b, X.mlDatasetChoiceFields.dec y b = X.mlDatasetChoiceFields.dec x b := by
      simp only [X.mlDatasetChoice] at h
      split at h
      · simp only [X.mlDatasetChoiceRef, XCodec.struct, Option.map_eq_some_iff, Option.some.injEq] at h
        obtain ⟨ks, hk, rfl⟩ := h
        obtain ⟨k₁, k₂, h₁, g₂, rfl⟩ := encKids_elem hk
        simp only [XFields.encKids, Option.some.injEq] at g₂; subst g₂
        exact dec_holdsText X.mlDatasetChoiceFields rfl hy (holdsText_append (plain_holdsText h₁) (by simp))
      · split at h
        · rename_i d hd
          simp only [X.componentData, XCodec.struct, Option.map_eq_some_iff, Option.some.injEq] at h
          obtain ⟨ks, hk, rfl⟩ := h
          refine dec_spaced X.mlDatasetChoiceFields rfl hy fun k hkm l hl b => ?_
          have hr := componentDataFields_noref _ _ hk k hkm
          have hs := XFieldsSafe.safe (F := X.componentDataFields) @NODUP@ _ ks hk k hkm l hl
          unfold X.mlDatasetChoiceFields
          have hr' : k.isElem (XField.plain "ref" false X.string).name = false := hr
          simp [XFields.setKid, spaced_isElem hl, hr', hs]
        · cases h
    simp only [X.mlDatasetChoice, hd]
  tidy n dc x hn h := by
    simp only [X.mlDatasetChoice] at h
    split at h
    · exact XSafe.tidy (c := X.mlDatasetChoiceRef) n _ x hn h
    · split at h
      · exact XSafe.tidy (c := X.componentData) n _ x hn h
      · cases h
'''
SAFE['AsserterChoice'] = '''instance : XFieldsLawful X.asserterChoiceRaw := by unfold X.asserterChoiceRaw; infer_instance
instance : XFieldsSafe X.asserterChoiceRaw := by unfold X.asserterChoiceRaw; infer_instance

theorem asserterChoiceRaw_nodup : X.asserterChoiceRaw.elemNames.Nodup :=
  show (["organization", "contact", "ref"] : List String).Nodup by decide +kernel

/-- What is written is what would be written by the struct it is read into. -/
theorem asserterChoice_raw {n : String} {ac : AsserterChoice} {x : Xml} (h : X.asserterChoice.enc n ac = some (some x)) :
    ∃ b ks, X.asserterChoiceRaw.encKids b = some ks ∧ x = .elem n [] ks := by
  obtain ⟨o, i, r⟩ := ac
  cases o with
  | some o =>
    cases i with
    | some i => simp [X.asserterChoice] at h
    | none =>
      simp only [X.asserterChoice, XCodec.struct, Option.map_eq_some_iff, Option.some.injEq] at h
      obtain ⟨ks, hk, rfl⟩ := h
      obtain ⟨k₁, k₂, h₁, g₂, rfl⟩ := encKids_elem hk
      simp only [XFields.encKids, Option.some.injEq] at g₂; subst g₂
      refine ⟨(some o, none, none, ()), _, ?_, rfl⟩
      simp only [X.asserterChoiceRaw, XFields.encKids]
      rw [show (XField.ptr "organization" X.organizationalEntity).enc (some o) = some k₁ from h₁]
      rfl
  | none =>
    cases i with
    | some i =>
      simp only [X.asserterChoice, XCodec.struct, Option.map_eq_some_iff, Option.some.injEq] at h
      obtain ⟨ks, hk, rfl⟩ := h
      obtain ⟨k₁, k₂, h₁, g₂, rfl⟩ := encKids_elem hk
      simp only [XFields.encKids, Option.some.injEq] at g₂; subst g₂
      refine ⟨(none, some i, none, ()), _, ?_, rfl⟩
      simp only [X.asserterChoiceRaw, XFields.encKids]
      rw [show (XField.ptr "contact" X.organizationalContact).enc (some i) = some k₁ from h₁]
      rfl
    | none =>
      cases r with
      | none => simp [X.asserterChoice] at h
      | some r =>
        simp only [X.asserterChoice, XCodec.struct, Option.map_eq_some_iff, Option.some.injEq] at h
        obtain ⟨ks, hk, rfl⟩ := h
        obtain ⟨k₁, k₂, h₁, g₂, rfl⟩ := encKids_elem hk
        simp only [XFields.encKids, Option.some.injEq] at g₂; subst g₂
        refine ⟨(none, none, some r, ()), _, ?_, rfl⟩
        simp only [X.asserterChoiceRaw, XFields.encKids]
        rw [show (XField.ptr "ref" X.bomReference).enc (some r) = some k₁ from h₁]
        rfl

instance : XSafe X.asserterChoice where
  safe n ac x h y hy old := by
    obtain ⟨b, ks, hk, rfl⟩ := asserterChoice_raw h
    simp only [X.asserterChoice, dec_spaced X.asserterChoiceRaw rfl hy
      (fun k hkm l hl b => XFieldsSafe.safe asserterChoiceRaw_nodup _ ks hk k hkm l hl b)]
  tidy n ac x hn h := by
    obtain ⟨b, ks, hk, rfl⟩ := asserterChoice_raw h
    exact tidy_elem hn (by simp) (.inl (XFieldsSafe.elems rfl _ ks hk)) (XFieldsSafe.tidy _ ks hk)
'''
SAFE['Evidence'] = '''instance : XFieldsSafe X.evidenceFields := by unfold X.evidenceFields; infer_instance
instance : XFieldsLawful X.evidenceRaw := by unfold X.evidenceRaw; infer_instance
instance : XFieldsSafe X.evidenceRaw := by unfold X.evidenceRaw; infer_instance

theorem evidenceRaw_nodup : X.evidenceRaw.elemNames.Nodup :=
  show (["occurrence", "text"] : List String).Nodup by decide +kernel

theorem evidenceStep_safe {b : PSlice EvidenceIdentity × PSlice EvidenceOccurrence × Option Callstack ×
    PSlice LicenseChoice × PSlice Copyright × Unit} {ks : List Xml} (h : X.evidenceFields.encKids b = some ks) :
    ∀ k ∈ ks, ∀ l, Spaced k l → ∀ st, X.evidenceStep l st = X.evidenceStep k st := by
  intro k hk y hy st
  obtain ⟨k₁, k₂, h₁, g₂, rfl⟩ := encKids_elem h
  obtain ⟨k₂, k₃, h₂, g₃, rfl⟩ := encKids_elem g₂
  obtain ⟨k₃, k₄, h₃, g₄, rfl⟩ := encKids_elem g₃
  obtain ⟨k₄, k₅, h₄, g₅, rfl⟩ := encKids_elem g₄
  obtain ⟨k₅, k₆, h₅, g₆, rfl⟩ := encKids_elem g₅
  simp only [XFields.encKids, Option.some.injEq] at g₆; subst g₆
  simp only [List.append_nil, List.mem_append] at hk
  rcases hk with hk | hk | hk | hk | hk
  · obtain ⟨as, js, rfl⟩ := Xml.isElem_elim (XFieldLawful.named _ k₁ h₁ k hk)
    obtain ⟨a, -, e⟩ := XField.encList_mem h₁ _ hk
    have hd := XSafe.safe _ a _ e y hy
    obtain ⟨js', rfl, -⟩ := spaced_elem.1 hy
    change ∀ old, X.evidenceIdentity.dec (.elem "identity" as js') old = X.evidenceIdentity.dec (.elem "identity" as js) old at hd
    show X.evidenceStep (.elem "identity" as js') st = X.evidenceStep (.elem "identity" as js) st
    simp [X.evidenceStep, hd]
  · obtain ⟨js, rfl, hj⟩ := XField.nlist_enc_mem h₂ k hk
    have hr : X.evidenceRaw.encKids (b.2.1, .nil, ()) = some (js ++ ([] ++ [])) := by
      simp only [X.evidenceRaw, XFields.encKids]
      rw [show (XField.list "occurrence" true X.evidenceOccurrence).enc b.2.1 = some js from hj]
      rfl
    have hd := dec_spaced X.evidenceRaw rfl hy (fun k hkm l hl b =>
      XFieldsSafe.safe evidenceRaw_nodup _ _ hr k (by simpa [Xml.kids] using hkm) l hl b)
    obtain ⟨js', rfl, -⟩ := spaced_elem.1 hy
    simp [X.evidenceStep, hd]
  · cases hb : b.2.2.1 with
    | none => rw [hb] at h₃; simp only [XField.ptr, Option.some.injEq] at h₃; subst h₃; simp at hk
    | some c =>
      rw [hb] at h₃
      obtain ⟨as, js, rfl⟩ := Xml.isElem_elim (XFieldLawful.named _ k₃ h₃ k hk)
      have e := XField.enc_mem h₃ _ hk
      have hd := XSafe.safe _ _ _ e y hy
      obtain ⟨js', rfl, -⟩ := spaced_elem.1 hy
      change ∀ old, X.callstack.dec (.elem "callstack" as js') old = X.callstack.dec (.elem "callstack" as js) old at hd
      show X.evidenceStep (.elem "callstack" as js') st = X.evidenceStep (.elem "callstack" as js) st
      simp [X.evidenceStep, hd]
  · have e := XField.slice_enc_mem h₄ k hk
    obtain ⟨as, js, rfl⟩ := Xml.isElem_elim (XFieldLawful.named _ k₄ h₄ k hk)
    have hd := XSafe.safe _ _ _ e y hy
    obtain ⟨js', rfl, -⟩ := spaced_elem.1 hy
    change ∀ old, X.licenses.dec (.elem "licenses" as js') old = X.licenses.dec (.elem "licenses" as js) old at hd
    show X.evidenceStep (.elem "licenses" as js') st = X.evidenceStep (.elem "licenses" as js) st
    simp [X.evidenceStep, hd]
  · obtain ⟨js, rfl, hj⟩ := XField.nlist_enc_mem h₅ k hk
    have hr : X.evidenceRaw.encKids (.nil, b.2.2.2.2.1, ()) = some ([] ++ (js ++ [])) := by
      simp only [X.evidenceRaw, XFields.encKids]
      rw [show (XField.list "text" true X.copyright).enc b.2.2.2.2.1 = some js from hj]
      rfl
    have hd := dec_spaced X.evidenceRaw rfl hy (fun k hkm l hl b =>
      XFieldsSafe.safe evidenceRaw_nodup _ _ hr k (by simpa [Xml.kids] using hkm) l hl b)
    obtain ⟨js', rfl, -⟩ := spaced_elem.1 hy
    simp [X.evidenceStep, hd]

instance : XSafe X.evidence where
  safe n ev x h y hy old := by
    simp only [X.evidence] at h ⊢
    split at h
    · cases h
    · simp only [XCodec.struct, Option.map_eq_some_iff, Option.some.injEq] at h
      obtain ⟨ks, hk, rfl⟩ := h
      rw [decAll_spaced (fun _ _ => rfl) (spaced_kids hy) (evidenceStep_safe hk)]
  tidy n ev x hn h := by
    simp only [X.evidence] at h
    split at h
    · cases h
    · simp only [XCodec.struct, Option.map_eq_some_iff, Option.some.injEq] at h
      obtain ⟨ks, hk, rfl⟩ := h
      exact tidy_elem hn ⟨XFieldsSafe.attrs _, encAttrs_nodup X.evidenceFields List.nodup_nil _⟩ (.inl (XFieldsSafe.elems rfl _ ks hk)) (XFieldsSafe.tidy _ ks hk)
'''
SAFE['ToolsChoice'] = '''instance : XFieldsSafe X.toolsChoiceFields := by unfold X.toolsChoiceFields; infer_instance
instance : XFieldsLawful X.toolsChoiceRaw := by unfold X.toolsChoiceRaw; infer_instance
instance : XFieldsSafe X.toolsChoiceRaw := by unfold X.toolsChoiceRaw; infer_instance

theorem toolsChoiceRaw_nodup : X.toolsChoiceRaw.elemNames.Nodup :=
  show (["component", "service"] : List String).Nodup by decide +kernel

theorem toolsChoiceStep_safe {b : PSlice Tool × PSlice Component × PSlice Service × Unit} {ks : List Xml}
    (h : X.toolsChoiceFields.encKids b = some ks) :
    ∀ k ∈ ks, ∀ l, Spaced k l → ∀ st, X.toolsChoiceStep l st = X.toolsChoiceStep k st := by
  intro k hk y hy st
  obtain ⟨k₁, k₂, h₁, g₂, rfl⟩ := encKids_elem h
  obtain ⟨k₂, k₃, h₂, g₃, rfl⟩ := encKids_elem g₂
  obtain ⟨k₃, k₄, h₃, g₄, rfl⟩ := encKids_elem g₃
  simp only [XFields.encKids, Option.some.injEq] at g₄; subst g₄
  simp only [List.append_nil, List.mem_append] at hk
  rcases hk with hk | hk | hk
  · obtain ⟨as, js, rfl⟩ := Xml.isElem_elim (XFieldLawful.named _ k₁ h₁ k hk)
    obtain ⟨a, -, e⟩ := XField.encList_mem h₁ _ hk
    have hd := XSafe.safe _ a _ e y hy
    obtain ⟨js', rfl, -⟩ := spaced_elem.1 hy
    change ∀ old, X.tool.dec (.elem "tool" as js') old = X.tool.dec (.elem "tool" as js) old at hd
    show X.toolsChoiceStep (.elem "tool" as js') st = X.toolsChoiceStep (.elem "tool" as js) st
    simp [X.toolsChoiceStep, hd]
  · obtain ⟨js, rfl, hj⟩ := XField.nlist_enc_mem h₂ k hk
    have hr : X.toolsChoiceRaw.encKids (b.2.1, .nil, ()) = some (js ++ ([] ++ [])) := by
      simp only [X.toolsChoiceRaw, XFields.encKids]
      rw [show (XField.list "component" true X.component).enc b.2.1 = some js from hj]
      rfl
    have hd := dec_spaced X.toolsChoiceRaw rfl hy (fun k hkm l hl b =>
      XFieldsSafe.safe toolsChoiceRaw_nodup _ _ hr k (by simpa [Xml.kids] using hkm) l hl b)
    obtain ⟨js', rfl, -⟩ := spaced_elem.1 hy
    simp [X.toolsChoiceStep, hd]
  · obtain ⟨js, rfl, hj⟩ := XField.nlist_enc_mem h₃ k hk
    have hr : X.toolsChoiceRaw.encKids (.nil, b.2.2.1, ()) = some ([] ++ (js ++ [])) := by
      simp only [X.toolsChoiceRaw, XFields.encKids]
      rw [show (XField.list "service" true X.service).enc b.2.2.1 = some js from hj]
      rfl
    have hd := dec_spaced X.toolsChoiceRaw rfl hy (fun k hkm l hl b =>
      XFieldsSafe.safe toolsChoiceRaw_nodup _ _ hr k (by simpa [Xml.kids] using hkm) l hl b)
    obtain ⟨js', rfl, -⟩ := spaced_elem.1 hy
    simp [X.toolsChoiceStep, hd]

/-- What is written are the fields of the choice. -/
theorem toolsChoice_fields {n : String} {tc : ToolsChoice} {x : Xml} (h : X.toolsChoice.enc n tc = some (some x)) :
    ∃ b ks, X.toolsChoiceFields.encKids b = some ks ∧ x = .elem n [] ks := by
  simp only [X.toolsChoice] at h
  split at h
  · cases h
  · split at h
    · simp only [XCodec.struct, Option.map_eq_some_iff, Option.some.injEq] at h
      obtain ⟨ks, hk, rfl⟩ := h
      exact ⟨_, ks, hk, rfl⟩
    · split at h
      · simp only [XCodec.struct, Option.map_eq_some_iff, Option.some.injEq] at h
        obtain ⟨ks, hk, rfl⟩ := h
        exact ⟨_, ks, hk, rfl⟩
      · cases h

instance : XSafe X.toolsChoice where
  safe n tc x h y hy old := by
    obtain ⟨b, ks, hk, rfl⟩ := toolsChoice_fields h
    simp only [X.toolsChoice]
    rw [decAll_spaced (fun _ _ => rfl) (spaced_kids hy) (toolsChoiceStep_safe hk)]
  tidy n tc x hn h := by
    obtain ⟨b, ks, hk, rfl⟩ := toolsChoice_fields h
    exact tidy_elem hn (by simp) (.inl (XFieldsSafe.elems rfl _ ks hk)) (XFieldsSafe.tidy _ ks hk)
'''
SAFE['Dependency'] = '''instance : XFieldsSafe X.dependencyFields := by unfold X.dependencyFields; infer_instance
instance : XSafe X.dependency :=
  fresh_safe (xstruct_safe X.dependencyFields _ _ (by simp [X.dependencyFields, XFields.attrNames])
     (by simp [X.dependencyFields, XFields.elemNames, XField.list])
    (.inl rfl))
'''
SAFE['Definitions'] = '''theorem enclosed_mem {α : Type} {n : String} {f : α → Option (List Xml)} {as : PSlice α} {xs : List Xml}
    (h : X.enclosed n f as = some xs) : ∀ x ∈ xs, ∃ ks, x = .elem n [] ks ∧ X.encEach f as.elems = some ks := by
  intro x hx
  cases as with
  | nil => simp only [X.enclosed, Option.some.injEq] at h; subst h; simp at hx
  | nilSlice =>
    simp only [X.enclosed] at h
    obtain ⟨ks, hk, rfl⟩ := Option.map_eq_some_iff.1 h
    simp only [List.mem_singleton] at hx
    exact ⟨ks, hx, hk⟩
  | list as =>
    simp only [X.enclosed] at h
    obtain ⟨ks, hk, rfl⟩ := Option.map_eq_some_iff.1 h
    simp only [List.mem_singleton] at hx
    exact ⟨ks, hx, hk⟩

theorem standard_safe {s : StandardDefinition} {ks : List Xml}
    (h : (X.standardDefinition.enc "standard" s).map (·.toList) = some ks) :
    ∀ k ∈ ks, (∃ n as ls, k = .elem n as ls) ∧ k.Tidy ∧ ∀ l, Spaced k l → X.standardDec l = X.standardDec k := by
  intro k hk
  have e := XField.enc_mem h k hk
  have hn := XLawful.named "standard" s k e
  obtain ⟨as, js, rfl⟩ := Xml.isElem_elim hn
  refine ⟨⟨_, _, _, rfl⟩, XSafe.tidy "standard" s _ inferInstance e, fun y hy => ?_⟩
  have hd := XSafe.safe "standard" s _ e y hy
  obtain ⟨js', rfl, -⟩ := spaced_elem.1 hy
  have e0 : X.standardDefinition.rename "standard" = "standard" := rfl
  rw [e0] at hd ⊢
  simp [X.standardDec, hd]

theorem patentChoice_safe {c : PatentChoice} {ks : List Xml} (h : X.patentChoiceEnc c = some ks) :
    ∀ k ∈ ks, (∃ n as ls, k = .elem n as ls) ∧ k.Tidy ∧ ∀ l, Spaced k l → X.patentChoiceDec l = X.patentChoiceDec k := by
  intro k hk
  simp only [X.patentChoiceEnc] at h
  split at h
  · rename_i p _ _
    have e := XField.enc_mem h k hk
    have hn := XLawful.named "patent" _ k e
    obtain ⟨as, js, rfl⟩ := Xml.isElem_elim hn
    refine ⟨⟨_, _, _, rfl⟩, XSafe.tidy "patent" _ _ inferInstance e, fun y hy => ?_⟩
    have hd := XSafe.safe "patent" _ _ e y hy
    obtain ⟨js', rfl, -⟩ := spaced_elem.1 hy
    have e0 : X.patent.rename "patent" = "patent" := rfl
    rw [e0] at hd ⊢
    simp [X.patentChoiceDec, hd]
  · have e := XField.enc_mem h k hk
    have hn := XLawful.named "patentFamily" _ k e
    obtain ⟨as, js, rfl⟩ := Xml.isElem_elim hn
    refine ⟨⟨_, _, _, rfl⟩, XSafe.tidy "patentFamily" _ _ inferInstance e, fun y hy => ?_⟩
    have hd := XSafe.safe "patentFamily" _ _ e y hy
    obtain ⟨js', rfl, -⟩ := spaced_elem.1 hy
    have e0 : X.patentFamily.rename "patentFamily" = "patentFamily" := rfl
    rw [e0] at hd ⊢
    simp [X.patentChoiceDec, hd]
  · simp only [Option.some.injEq] at h; subst h; simp at hk

theorem definitions_parts {n : String} {d : Definitions} {x : Xml} (h : X.definitions.enc n d = some (some x)) :
    ∃ ss ps, X.enclosed "standards" (fun s => (X.standardDefinition.enc "standard" s).map (·.toList)) d.standards =
      some ss ∧ X.enclosed "patents" X.patentChoiceEnc d.patents = some ps ∧ x = .elem n [] (ss ++ ps) := by
  simp only [X.definitions] at h
  split at h
  · rename_i ss ps hs hp
    simp only [Option.some.injEq] at h
    exact ⟨ss, ps, hs, hp, h.symm⟩
  · cases h

instance : XSafe X.definitions where
  safe n d x h y hy old := by
    obtain ⟨ss, ps, hs, hp, rfl⟩ := definitions_parts h
    simp only [X.definitions]
    refine decAll_spaced (fun _ _ => rfl) (spaced_kids hy) (fun k hkm l hl a => ?_) old
    simp only [Xml.kids, List.mem_append] at hkm
    rcases hkm with hkm | hkm
    · obtain ⟨ks, rfl, hk⟩ := enclosed_mem hs k hkm
      obtain ⟨ls, rfl, hls⟩ := spaced_elem.1 hl
      have : X.decEach X.standardDec ls = X.decEach X.standardDec ks :=
        decEach_spaced (fun _ => rfl) hls fun k hkm => by
          obtain ⟨a, -, js, hj, hkj⟩ := encEach_mem hk k hkm
          exact (standard_safe hj k hkj).2.2
      simp [X.definitionsStep, this]
    · obtain ⟨ks, rfl, hk⟩ := enclosed_mem hp k hkm
      obtain ⟨ls, rfl, hls⟩ := spaced_elem.1 hl
      have : X.decEach X.patentChoiceDec ls = X.decEach X.patentChoiceDec ks :=
        decEach_spaced (fun _ => rfl) hls fun k hkm => by
          obtain ⟨a, -, js, hj, hkj⟩ := encEach_mem hk k hkm
          exact (patentChoice_safe hj k hkj).2.2
      simp [X.definitionsStep, this]
  tidy n d x hn h := by
    obtain ⟨ss, ps, hs, hp, rfl⟩ := definitions_parts h
    refine tidy_elem hn (by simp) (.inl fun k hkm => ?_) fun k hkm => ?_ <;>
    rcases List.mem_append.1 hkm with hkm | hkm
    · obtain ⟨ks, rfl, hk⟩ := enclosed_mem hs k hkm; exact ⟨_, _, _, rfl⟩
    · obtain ⟨ks, rfl, hk⟩ := enclosed_mem hp k hkm; exact ⟨_, _, _, rfl⟩
    · obtain ⟨ks, rfl, hk⟩ := enclosed_mem hs k hkm
      refine tidy_elem inferInstance (by simp) (.inl fun k hkm => ?_) fun k hkm => ?_ <;>
      obtain ⟨a, -, js, hj, hkj⟩ := encEach_mem hk k hkm
      · exact (standard_safe hj k hkj).1
      · exact (standard_safe hj k hkj).2.1
    · obtain ⟨ks, rfl, hk⟩ := enclosed_mem hp k hkm
      refine tidy_elem inferInstance (by simp) (.inl fun k hkm => ?_) fun k hkm => ?_ <;>
      obtain ⟨a, -, js, hj, hkj⟩ := encEach_mem hk k hkm
      · exact (patentChoice_safe hj k hkj).1
      · exact (patentChoice_safe hj k hkj).2.1
'''
SAFE['DataClassification'] = '''theorem spliced_spacedL {known : List String} {stop : String} : ∀ {ks ls : List Xml}, SpacedL ks ls →
    (∀ x ∈ ks, ∃ n ∈ known, x.isElem n = true) →
    ∃ ls', X.spliced known stop ls = some ls' ∧ SpacedL ks ls' ∧ (∀ l ∈ ls', ∃ k ∈ ks, Spaced k l) ∧
      ((∀ k ∈ ks, ∀ l, Spaced k l → l = k) → ls' = ks) := by
  intro ks
  have blank : ∀ {bs : List Xml}, (∀ b ∈ bs, IsBlank b) → X.spliced known stop bs = some [] := by
    intro bs
    induction bs with
    | nil => intro _; simp [X.spliced]
    | cons b bs ih =>
      intro h
      obtain ⟨s, rfl, -⟩ := h b (by simp)
      simp only [X.spliced, X.spliceOne, ih fun b hb => h b (by simp [hb])]
      rfl
  induction ks with
  | nil =>
    intro ls h _
    exact ⟨[], blank (by simpa only [SpacedL] using h), by simp [SpacedL], by simp, fun _ => rfl⟩
  | cons k ks ih =>
    intro ls h hk
    simp only [SpacedL] at h
    obtain ⟨bs, l, ls', rfl, hb, hl, hr⟩ := h
    obtain ⟨ls'', e, hs, hm, hall⟩ := ih hr fun x hx => hk x (by simp [hx])
    obtain ⟨n, hn, hx⟩ := hk k (by simp)
    have hx' := hx
    rw [← spaced_isElem hl] at hx'
    obtain ⟨as, js, rfl⟩ := Xml.isElem_elim hx'
    refine ⟨.elem n as js :: ls'', ?_, ?_, ?_, ?_⟩
    · rw [spliced_append, blank hb]
      simp only [X.spliced, X.spliceOne, hn, if_true, e]
      rfl
    · simp only [SpacedL]
      exact ⟨[], _, ls'', rfl, by simp, hl, hs⟩
    · intro l hl'
      rcases List.mem_cons.1 hl' with rfl | hl'
      · exact ⟨k, by simp, hl⟩
      · obtain ⟨k', hk', hkl⟩ := hm l hl'
        exact ⟨k', by simp [hk'], hkl⟩
    · intro h
      rw [h k (by simp) _ hl, hall fun k' hk' => h k' (by simp [hk'])]

theorem spliced_spacedK {known : List String} {stop : String} {ks ls : List Xml} (h : SpacedK ks ls)
    (hk : ∀ x ∈ ks, ∃ n ∈ known, x.isElem n = true) :
    ∃ ls', X.spliced known stop ls = some ls' ∧ SpacedK ks ls' ∧
      ((∀ k ∈ ks, ∀ l, Spaced k l → l = k) → ls' = ks) := by
  rcases h with rfl | ⟨hne, ha, h⟩
  · exact ⟨ls, spliced_known ls hk, .inl rfl, fun _ => rfl⟩
  · obtain ⟨ls', e, hs, -, hall⟩ := spliced_spacedL (stop := stop) h hk
    exact ⟨ls', e, .inr ⟨hne, ha, hs⟩, hall⟩

theorem urls_spaced {name : String} {us : List String} {ls : List Xml}
    (h : SpacedK (us.map fun u => .elem "url" [] (textKids (sanitize u))) ls) :
    X.urls name ls = X.urls name (us.map fun u => .elem "url" [] (textKids (sanitize u))) := by
  have hk : ∀ x ∈ us.map (fun u => Xml.elem "url" [] (textKids (sanitize u))), ∃ n ∈ ["url"], x.isElem n = true := by
    intro x hx
    obtain ⟨u, -, rfl⟩ := List.mem_map.1 hx
    exact ⟨"url", by simp, by simp [Xml.isElem]⟩
  obtain ⟨ls', e, -, hall⟩ := spliced_spacedK (stop := name) h hk
  unfold X.urls
  rw [e, spliced_known _ hk, hall]
  intro k hkm l hl
  obtain ⟨u, -, rfl⟩ := List.mem_map.1 hkm
  exact spaced_textKids hl

theorem attrUnlessEmpty_ok (n s : String) [N : OKName n] : ∀ kv ∈ X.attrUnlessEmpty n s, OKName kv.1 ∧ Allowed kv.2 := by
  intro kv h
  unfold X.attrUnlessEmpty at h
  split at h
  · simp only [List.mem_singleton] at h; subst h; exact ⟨N, allowed_sanitize s⟩
  · simp at h

theorem attrUnlessEmpty_nodup (n s : String) : ((X.attrUnlessEmpty n s).map Prod.fst).Nodup := by
  unfold X.attrUnlessEmpty
  split <;> simp

theorem attrs2_nodup (s t : String) :
    ((X.attrUnlessEmpty "name" s ++ X.attrUnlessEmpty "description" t).map Prod.fst).Nodup := by
  unfold X.attrUnlessEmpty
  split <;> split <;> simp

theorem urlsElem_mem {n : String} {us : PSlice String} : ∀ k ∈ X.urlsElem n us,
    k = .elem n [] (us.elems.map fun u => .elem "url" [] (textKids (sanitize u))) := by
  intro k hk
  unfold X.urlsElem at hk
  split at hk
  · simp at hk
  · simpa using hk

theorem urlsElem_tidy {n : String} [N : OKName n] {us : PSlice String} : ∀ k ∈ X.urlsElem n us, k.Tidy := by
  intro k hk
  rw [urlsElem_mem k hk]
  refine tidy_elem N (by simp) (.inl fun x hx => ?_) fun x hx => ?_ <;>
  obtain ⟨u, -, rfl⟩ := List.mem_map.1 hx
  · exact ⟨_, _, _, rfl⟩
  · exact tidy_elem inferInstance (by simp) (textKids_shape _) (tidy_textKids (allowed_sanitize _))

/-- What is written for a data flow, part by part. -/
theorem dataClassification_parts {n : String} {dc : DataClassification} {x : Xml}
    (h : X.dataClassification.enc n dc = some (some x)) :
    ∃ cs gs, x = .elem "dataflow" (X.attrUnlessEmpty "name" dc.name ++ X.attrUnlessEmpty "description" dc.description)
        (cs ++ gs ++ X.urlsElem "source" dc.source ++ X.urlsElem "destination" dc.destination) ∧
      (∀ k ∈ cs, k = .elem "classification" (X.attrUnlessEmpty "flow" dc.flow) (textKids (sanitize dc.classification))) ∧
      (XField.ptr "governance" X.dataGovernance).enc dc.governance = some gs := by
  simp only [X.dataClassification] at h
  split at h
  · cases h
  · rename_i gs hg
    simp only [Option.some.injEq] at h; subst h
    refine ⟨_, gs, rfl, fun k hk => ?_, hg⟩
    split at hk
    · simpa using hk
    · simp at hk

instance : XSafe X.dataClassification where
  safe n dc x h y hy old := by
    obtain ⟨cs, gs, rfl, hc, hg⟩ := dataClassification_parts h
    have hgn := XFieldLawful.named (f := XField.ptr "governance" X.dataGovernance) dc.governance gs hg
    have hknown : ∀ x ∈ cs ++ gs ++ X.urlsElem "source" dc.source ++ X.urlsElem "destination" dc.destination,
        ∃ n ∈ ["classification", "governance", "source", "destination"], x.isElem n = true := by
      intro x hx
      simp only [List.mem_append] at hx
      rcases hx with ((hx | hx) | hx) | hx
      · rw [hc x hx]; exact ⟨"classification", by simp, by simp [Xml.isElem]⟩
      · exact ⟨"governance", by simp, hgn x hx⟩
      · rw [urlsElem_mem x hx]; exact ⟨"source", by simp, by simp [Xml.isElem]⟩
      · rw [urlsElem_mem x hx]; exact ⟨"destination", by simp, by simp [Xml.isElem]⟩
    obtain ⟨ls, rfl, hl⟩ := spaced_elem.1 hy
    obtain ⟨ls', e, hs, -⟩ := spliced_spacedK (stop := "dataflow") hl hknown
    simp only [X.dataClassification, Xml.name, Xml.kids, Xml.attrs, e, spliced_known _ hknown]
    rw [decAll_spaced (fun _ _ => rfl) hs]
    intro k hkm l hkl a
    simp only [List.mem_append] at hkm
    rcases hkm with ((hkm | hkm) | hkm) | hkm
    · have e := hc k hkm
      subst e
      rw [spaced_textKids hkl]
    · cases hb : dc.governance with
      | none => rw [hb] at hg; simp only [XField.ptr, Option.some.injEq] at hg; subst hg; simp at hkm
      | some g =>
        rw [hb] at hg
        obtain ⟨as, js, rfl⟩ := Xml.isElem_elim (hgn k hkm)
        have e := XField.enc_mem hg _ hkm
        have hd := XSafe.safe _ _ _ e l hkl
        obtain ⟨js', rfl, -⟩ := spaced_elem.1 hkl
        change ∀ old, X.dataGovernance.dec (.elem "governance" as js') old =
          X.dataGovernance.dec (.elem "governance" as js) old at hd
        show X.dataClassificationStep (.elem "governance" as js') a = X.dataClassificationStep (.elem "governance" as js) a
        simp [X.dataClassificationStep, hd]
    · have e := urlsElem_mem k hkm
      subst e
      obtain ⟨js, rfl, hj⟩ := spaced_elem.1 hkl
      simp [X.dataClassificationStep, urls_spaced hj]
    · have e := urlsElem_mem k hkm
      subst e
      obtain ⟨js, rfl, hj⟩ := spaced_elem.1 hkl
      simp [X.dataClassificationStep, urls_spaced hj]
  tidy n dc x hn h := by
    obtain ⟨cs, gs, rfl, hc, hg⟩ := dataClassification_parts h
    have hgn := XFieldLawful.named (f := XField.ptr "governance" X.dataGovernance) dc.governance gs hg
    refine tidy_elem inferInstance ⟨fun kv hkv => ?_, attrs2_nodup _ _⟩ (.inl fun k hk => ?_) fun k hk => ?_
    · rcases List.mem_append.1 hkv with hkv | hkv
      · exact attrUnlessEmpty_ok _ _ kv hkv
      · exact attrUnlessEmpty_ok _ _ kv hkv
    · simp only [List.mem_append] at hk
      rcases hk with ((hk | hk) | hk) | hk
      · rw [hc k hk]; exact ⟨_, _, _, rfl⟩
      · exact tidy_isElem (hgn k hk)
      · rw [urlsElem_mem k hk]; exact ⟨_, _, _, rfl⟩
      · rw [urlsElem_mem k hk]; exact ⟨_, _, _, rfl⟩
    · simp only [List.mem_append] at hk
      rcases hk with ((hk | hk) | hk) | hk
      · rw [hc k hk]
        exact tidy_elem inferInstance ⟨attrUnlessEmpty_ok _ _, attrUnlessEmpty_nodup _ _⟩ (textKids_shape _) (tidy_textKids (allowed_sanitize _))
      · exact XFieldSafe.tidy _ gs hg k hk
      · exact urlsElem_tidy k hk
      · exact urlsElem_tidy k hk
'''
