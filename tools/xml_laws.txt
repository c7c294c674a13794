LAWS['BOMReference'] = '''instance : XFieldsLawful X.bomReferenceFields := by unfold X.bomReferenceFields; infer_instance
instance : XLawful X.bomReference :=
  lawful_empty (fresh_lawful (xstruct_lawful X.bomReferenceFields _ _ (fun _ => rfl) (by simp [X.bomReferenceFields, XFields.attrNames])
    (by simp [X.bomReferenceFields, XFields.elemNames]) (by simp [X.bomReferenceFields, XFields.texts]))) _
instance : XNamed X.bomReference := ⟨fun _ => rfl⟩
instance : XLawful X.dependencyRef :=
  xstruct_lawful X.bomReferenceFields _ _ (fun _ => rfl) (by simp [X.bomReferenceFields, XFields.attrNames])
    (by simp [X.bomReferenceFields, XFields.elemNames]) (by simp [X.bomReferenceFields, XFields.texts])
instance : XNamed X.dependencyRef := ⟨fun _ => rfl⟩
'''
LAWS['CertificateState'] = '''instance : XLawful X.certificateState where
  round n cs x g h := by
    obtain ⟨p, c⟩ := cs
    cases p with
    | some p =>
      cases c with
      | some c => simp [X.certificateState] at h
      | none =>
        obtain ⟨state, reason⟩ := p
        have hs : (state = "") = (sanitize state = "") := by rw [sanitize_eq_empty]
        by_cases hr : reason = "" <;> by_cases he : state = "" <;>
        · simp [X.certificateState, X.predefinedCertificateState, XCodec.struct, XFields.encKids, XFields.encAttrs,
            XField.plain, XCodec.simple, XText.string, PredefinedCertificateState.toP, hr, he] at h
          subst h
          simp [X.certificateState, X.certificateStateRaw, XFields.dec, XFields.decAttrs, XFields.zero, XFields.setKid,
            XFields.setText, XField.plain, XCodec.simple, XText.string, XField.decAll, Xml.attrs, Xml.kids, Xml.isElem, hr, he,
            sanitize_eq_empty, textKids, textOf]
    | none =>
      cases c with
      | none => simp [X.certificateState] at h
      | some c =>
        obtain ⟨name, description, reason⟩ := c
        by_cases hd : description = "" <;> by_cases hr : reason = "" <;>
        · simp [X.certificateState, X.customCertificateState, XCodec.struct, XFields.encKids, XFields.encAttrs,
            XField.plain, XCodec.simple, XText.string, CustomCertificateState.toP, hr, hd] at h
          subst h
          simp [X.certificateState, X.certificateStateRaw, XFields.dec, XFields.decAttrs, XFields.zero, XFields.setKid,
            XFields.setText, XField.plain, XCodec.simple, XText.string, XField.decAll, Xml.attrs, Xml.kids, Xml.isElem, hr, hd,
            sanitize_eq_empty]
  named n cs x h := by
    obtain ⟨_ | p, _ | c⟩ := cs <;>
    simp only [X.certificateState, X.predefinedCertificateState, X.customCertificateState, XCodec.struct, reduceCtorEq,
      Option.map_eq_some_iff, Option.some.injEq] at h <;>
    · obtain ⟨ks, -, rfl⟩ := h
      simp [Xml.isElem, X.certificateState]
  writes n cs o h := by
    obtain ⟨_ | p, _ | c⟩ := cs <;>
    simp only [X.certificateState, X.predefinedCertificateState, X.customCertificateState, XCodec.struct, reduceCtorEq,
      Option.map_eq_some_iff, Option.some.injEq] at h <;>
    first
    | (subst h; rfl)
    | (obtain ⟨ks, -, rfl⟩ := h; rfl)
instance : XNamed X.certificateState := ⟨fun _ => rfl⟩
'''
LAWS['CertificateExtension'] = '''instance : XLawful X.certificateExtension where
  round n ce x g h := by
    obtain ⟨p, c⟩ := ce
    cases p with
    | some p =>
      cases c with
      | some c => simp [X.certificateExtension] at h
      | none =>
        obtain ⟨name, value⟩ := p
        by_cases hr : value = "" <;> by_cases he : name = "" <;>
        · simp [X.certificateExtension, X.commonCertificateExtension, XCodec.struct, XFields.encKids, XFields.encAttrs,
            XField.plain, XCodec.simple, XText.string, CommonCertificateExtension.toP, hr, he] at h
          subst h
          simp [X.certificateExtension, X.certificateExtensionRaw, XFields.dec, XFields.decAttrs, XFields.zero, XFields.setKid,
            XFields.setText, XField.plain, XCodec.simple, XText.string, XField.decAll, Xml.attrs, Xml.kids, Xml.isElem, hr, he,
            sanitize_eq_empty, textKids, textOf]
    | none =>
      cases c with
      | none => simp [X.certificateExtension] at h
      | some c =>
        obtain ⟨name, value⟩ := c
        by_cases hr : value = "" <;>
        · simp [X.certificateExtension, X.customCertificateExtension, XCodec.struct, XFields.encKids, XFields.encAttrs,
            XField.plain, XCodec.simple, XText.string, CustomCertificateExtension.toP, hr] at h
          subst h
          simp [X.certificateExtension, X.certificateExtensionRaw, XFields.dec, XFields.decAttrs, XFields.zero, XFields.setKid,
            XFields.setText, XField.plain, XCodec.simple, XText.string, XField.decAll, Xml.attrs, Xml.kids, Xml.isElem, hr,
            sanitize_eq_empty]
  named n ce x h := by
    obtain ⟨_ | p, _ | c⟩ := ce <;>
    simp only [X.certificateExtension, X.commonCertificateExtension, X.customCertificateExtension, XCodec.struct,
      reduceCtorEq, Option.map_eq_some_iff, Option.some.injEq] at h <;>
    · obtain ⟨ks, -, rfl⟩ := h
      simp [Xml.isElem, X.certificateExtension]
  writes n ce o h := by
    obtain ⟨_ | p, _ | c⟩ := ce <;>
    simp only [X.certificateExtension, X.commonCertificateExtension, X.customCertificateExtension, XCodec.struct,
      reduceCtorEq, Option.map_eq_some_iff, Option.some.injEq] at h <;>
    first
    | (subst h; rfl)
    | (obtain ⟨ks, -, rfl⟩ := h; rfl)
instance : XNamed X.certificateExtension := ⟨fun _ => rfl⟩
'''
LAWS['Copyright'] = '''instance : XLawful X.copyright where
  round n a x g h := by
    simp only [X.copyright, XCodec.simple, Option.some.injEq] at h
    subst h
    simp [X.copyright, XCodec.simple, XText.string, Xml.kids]
  named n a x h := by
    simp only [X.copyright, XCodec.simple, Option.some.injEq] at h
    subst h
    simp [Xml.isElem, X.copyright]
  writes n a o h := by
    simp only [X.copyright, XCodec.simple, Option.some.injEq] at h
    subst h; rfl
instance : XNamed X.copyright := ⟨fun _ => rfl⟩
'''
LAWS['LicenseChoice'] = '''instance : XFieldsLawful X.licenseExpressionDetailFields := by unfold X.licenseExpressionDetailFields; infer_instance
instance : XLawful X.licenseExpressionDetail :=
  xstruct_lawful X.licenseExpressionDetailFields _ _ (fun _ => rfl)
    (by simp [X.licenseExpressionDetailFields, XFields.attrNames])
    (by simp [X.licenseExpressionDetailFields, XFields.elemNames, XField.ptr, XField.plain])
    (by simp [X.licenseExpressionDetailFields, XFields.texts])
instance : XNamed X.licenseExpressionDetail := ⟨fun _ => rfl⟩
instance : XFieldsLawful X.licenseExpressionFields := by unfold X.licenseExpressionFields; infer_instance
instance : XFieldsLawful X.licenseExpressionDetailedFields := by unfold X.licenseExpressionDetailedFields; infer_instance

theorem licenseExpression_lawful : XLawful (XCodec.struct X.licenseExpressionFields id id) :=
  xstruct_lawful X.licenseExpressionFields _ _ (fun _ => rfl)
    (by simp [X.licenseExpressionFields, XFields.attrNames]) (by simp [X.licenseExpressionFields, XFields.elemNames])
    (by simp [X.licenseExpressionFields, XFields.texts])

theorem licenseExpressionDetailed_lawful : XLawful (XCodec.struct X.licenseExpressionDetailedFields id id) :=
  xstruct_lawful X.licenseExpressionDetailedFields _ _ (fun _ => rfl)
    (by simp [X.licenseExpressionDetailedFields, XFields.attrNames])
    (by simp [X.licenseExpressionDetailedFields, XFields.elemNames, XField.list])
    (by simp [X.licenseExpressionDetailedFields, XFields.texts])

/-- The values of the text of a license whose codec is lawful are all good. -/
theorem licenseExpressionDetail_good (d : LicenseExpressionDetail) : X.licenseExpressionDetail.good d := by
  simp [X.licenseExpressionDetail, XCodec.struct, X.licenseExpressionDetailFields, XFields.good, XText.string, XField.ptr,
    XField.plain, XCodec.simple, X.attachedText, X.attachedTextFields]

theorem licenseChoice_round (c : LicenseChoice) (ks : List Xml) (g : ∀ m ∈ c.license, X.license.good m)
    (h : X.licenseChoiceEnc c = some ks) : X.decEach X.licenseChoiceDec ks = some (X.licenseChoiceNorm c) := by
  cases hl : c.license with
  | some l =>
    simp only [X.licenseChoiceEnc, hl] at h
    split at h
    · cases h
    · obtain ⟨o, ho, rfl⟩ := Option.map_eq_some_iff.1 h
      rcases XField.enc_cases ho with ⟨hw, -⟩ | ⟨-, x, rfl, hx⟩
      · simp [X.license, X.licenseAlias, XCodec.struct] at hw
      · have hr := XLawful.round "license" l x (g l hl) ho
        obtain ⟨as, ks, rfl⟩ := Xml.isElem_elim hx
        simp only [Option.toList_some, decEach_single, X.licenseChoiceNorm, hl]
        have hn : X.license.rename "license" = "license" := rfl
        rw [hn] at hr ⊢
        simp [X.licenseChoiceDec, hr]
  | none =>
    simp only [X.licenseChoiceEnc, X.licenseChoiceNorm, hl] at h ⊢
    by_cases he : c.expression = ""
    · simp [he] at h; subst h; simp [he, X.decEach]
    · simp only [he, ne_eq, not_false_iff, if_true] at h ⊢
      cases hd : c.expressionDetails.isNil with
      | true =>
        simp only [hd, if_true] at h
        have hnil : c.expressionDetails = .nil := by
          cases hx : c.expressionDetails <;> simp_all [PSlice.isNil]
        obtain ⟨o, ho, rfl⟩ := Option.map_eq_some_iff.1 h
        rcases @XField.enc_cases _ _ licenseExpression_lawful _ _ _ ho with ⟨hw, -⟩ | ⟨-, x, rfl, hx⟩
        · simp [XCodec.struct] at hw
        · have hr := licenseExpression_lawful.round "expression" _ x (by
            simp [XCodec.struct, X.licenseExpressionFields, XFields.good, XText.string]) ho
          have hn : (XCodec.struct X.licenseExpressionFields id id).rename "expression" = "expression" := rfl
          rw [hn] at hx
          obtain ⟨as, ks, rfl⟩ := Xml.isElem_elim hx
          simp only [XCodec.struct, id, Option.map_eq_some_iff] at hr
          obtain ⟨p, hp, rfl⟩ := hr
          simp only [Option.toList_some, decEach_single]
          simp only [X.licenseChoiceDec, if_true, hp, Option.map_some, hnil]
          simp only [X.licenseExpressionFields, XFields.norm, xplain_string_norm]
          rfl
      | false =>
        simp only [hd, Bool.false_eq_true, if_false] at h
        obtain ⟨o, ho, rfl⟩ := Option.map_eq_some_iff.1 h
        rcases @XField.enc_cases _ _ licenseExpressionDetailed_lawful _ _ _ ho with ⟨hw, -⟩ | ⟨-, x, rfl, hx⟩
        · simp [XCodec.struct] at hw
        · have hr := licenseExpressionDetailed_lawful.round "expression-detailed" _ x (by
            simp only [XCodec.struct, X.licenseExpressionDetailedFields, XFields.good, XText.string, XField.list, true_and,
              and_true, id]
            exact fun d _ => licenseExpressionDetail_good d) ho
          have hn : (XCodec.struct X.licenseExpressionDetailedFields id id).rename "expression-detailed" =
            "expression-detailed" := rfl
          rw [hn] at hx
          obtain ⟨as, ks, rfl⟩ := Xml.isElem_elim hx
          simp only [XCodec.struct, id, Option.map_eq_some_iff] at hr
          obtain ⟨p, hp, rfl⟩ := hr
          have h1 : ("expression-detailed" : String) ≠ "expression" := by decide
          simp only [Option.toList_some, decEach_single]
          simp only [X.licenseChoiceDec, if_neg h1, if_true, hp, Option.map_some]
          simp only [X.licenseExpressionDetailedFields, XFields.norm, xplain_string_norm]
          rfl

instance : XSliceLawful X.licenses where
  round n ls x g h := by
    cases ls with
    | nil => simp [X.licenses] at h
    | cons l ls =>
      simp only [X.licenses, Option.map_eq_some_iff, Option.some.injEq] at h
      obtain ⟨ks, hk, rfl⟩ := h
      exact each_round licenseChoice_round (l :: ls) ks g hk
  named n ls x h := by
    cases ls with
    | nil => simp [X.licenses] at h
    | cons l ls =>
      simp only [X.licenses, Option.map_eq_some_iff, Option.some.injEq] at h
      obtain ⟨ks, hk, rfl⟩ := h
      simp [Xml.isElem, X.licenses]
  writes n ls o h := by
    cases ls with
    | nil => simp only [X.licenses, Option.some.injEq] at h; subst h; rfl
    | cons l ls =>
      simp only [X.licenses, Option.map_eq_some_iff] at h
      obtain ⟨ks, hk, rfl⟩ := h
      rfl
  rename _ := rfl
  zero := rfl
'''
LAWS['EnvironmentVariableChoice'] = '''theorem environmentVariable_round (c : EnvironmentVariableChoice) (ks : List Xml)
    (h : X.environmentVariableEnc c = some ks) :
    X.decEach X.environmentVariableDec ks = some (X.environmentVariableNorm c) := by
  cases hp : c.property with
  | some p =>
    simp only [X.environmentVariableEnc, hp] at h
    split at h
    · cases h
    · obtain ⟨o, ho, rfl⟩ := Option.map_eq_some_iff.1 h
      rcases XField.enc_cases ho with ⟨hw, -⟩ | ⟨-, x, rfl, hx⟩
      · simp [X.property, XCodec.struct] at hw
      · have hr := XLawful.round "environmentVar" p x (by
          simp [X.property, XCodec.struct, X.propertyFields, XFields.good, XText.string]) ho
        have hn : X.property.rename "environmentVar" = "environmentVar" := rfl
        rw [hn] at hx
        obtain ⟨as, ks, rfl⟩ := Xml.isElem_elim hx
        simp only [Option.toList_some, decEach_single, X.environmentVariableNorm, hp]
        simp [X.environmentVariableDec, hr]
  | none =>
    by_cases hv : c.value = ""
    · simp [X.environmentVariableEnc, hp, hv] at h
      subst h
      simp [X.environmentVariableNorm, hp, hv, X.decEach]
    · simp [X.environmentVariableEnc, hp, hv, XCodec.simple] at h
      subst h
      simp [X.environmentVariableNorm, hp, hv, decEach_single, X.environmentVariableDec, XCodec.simple, XText.string, Xml.kids]

instance : XSliceLawful X.environmentVariables where
  round n ls x g h := by
    cases ls with
    | nil => simp [X.environmentVariables] at h
    | cons l ls =>
      simp only [X.environmentVariables, Option.map_eq_some_iff, Option.some.injEq] at h
      obtain ⟨ks, hk, rfl⟩ := h
      exact each_round (good := fun _ => True) (fun a ks _ => environmentVariable_round a ks) (l :: ls) ks
        (fun _ _ => trivial) hk
  named n ls x h := by
    cases ls with
    | nil => simp [X.environmentVariables] at h
    | cons l ls =>
      simp only [X.environmentVariables, Option.map_eq_some_iff, Option.some.injEq] at h
      obtain ⟨ks, hk, rfl⟩ := h
      simp [Xml.isElem, X.environmentVariables]
  writes n ls o h := by
    cases ls with
    | nil => simp only [X.environmentVariables, Option.some.injEq] at h; subst h; rfl
    | cons l ls =>
      simp only [X.environmentVariables, Option.map_eq_some_iff] at h
      obtain ⟨ks, hk, rfl⟩ := h
      rfl
  rename _ := rfl
  zero := rfl
'''
LAWS['MLDatasetChoice'] = '''theorem componentDataFields_noref (b : ComponentData.P) (ks : List Xml) (h : X.componentDataFields.encKids b = some ks) :
    ∀ y ∈ ks, y.isElem "ref" = false := by
  intro y hy
  rcases XFieldsLawful.kids b ks h y hy with ⟨n, hn, he⟩ | ⟨s, rfl⟩
  · refine XField.isElem_ne he fun e => ?_
    subst e
    simp [X.componentDataFields, XFields.elemNames, XField.plain, XField.ptr, XField.list, XField.nlist] at hn
  · rfl

instance : XLawful X.mlDatasetChoice where
  round n dc x g h := by
    by_cases hr : dc.ref = ""
    · cases hc : dc.componentData with
      | none => simp [X.mlDatasetChoice, hr, hc] at h
      | some d =>
        simp only [X.mlDatasetChoice, hr, hc, ne_eq, not_true, if_false] at h g ⊢
        have hd := XLawful.round n d x (g trivial d rfl) h
        have h' := h
        simp only [X.componentData, XCodec.struct] at h'
        obtain ⟨ks, hk, e⟩ := Option.map_eq_some_iff.1 h'
        simp only [Option.some.injEq] at e; subst e
        have hz : X.mlDatasetChoiceFields.zero = ("", X.componentDataFields.zero) := rfl
        rw [hz]
        unfold X.mlDatasetChoiceFields
        rw [dec_others]
        case h => exact componentDataFields_noref _ _ hk
        simp only [X.componentData, XCodec.struct] at hd
        obtain ⟨p, hp, hpe⟩ := Option.map_eq_some_iff.1 hd
        have hz' : ComponentData.toP (ComponentData.ofP X.componentDataFields.zero) = X.componentDataFields.zero := rfl
        rw [hz'] at hp
        rw [hp]
        simp only [Option.map_some, hpe]
        simp only [X.componentData, XCodec.struct]
        by_cases hz : (ComponentData.ofP (X.componentDataFields.norm (ComponentData.toP d))).isZero = true <;> simp [hz]
    · simp only [X.mlDatasetChoice, hr, ne_eq, not_false_iff, if_true, X.mlDatasetChoiceRef, XCodec.struct,
        XFields.encAttrs] at h ⊢
      obtain ⟨ks, hk, e⟩ := Option.map_eq_some_iff.1 h
      simp only [Option.some.injEq] at e; subst e
      simp [XFields.encKids, XField.plain, XCodec.simple, XText.string] at hk
      subst hk
      have hz : X.mlDatasetChoiceFields.zero = ("", X.componentDataFields.zero) := rfl
      rw [hz]
      unfold X.mlDatasetChoiceFields
      rw [dec_own _ _ _ _ _ _ (by simp [X.componentDataFields, XFields.texts]) (by simp [Xml.isElem, XField.plain])]
      simp [XField.decAll, XField.plain, XCodec.simple, XText.string, Xml.kids, sanitize_eq_empty, hr]
  named n dc x h := by
    simp only [X.mlDatasetChoice] at h ⊢
    split at h
    · simp only [X.mlDatasetChoiceRef, XCodec.struct, Option.map_eq_some_iff, Option.some.injEq] at h
      obtain ⟨ks, -, rfl⟩ := h; simp [Xml.isElem]
    · split at h
      · exact XLawful.named n _ x h
      · cases h
  writes n dc o h := by
    simp only [X.mlDatasetChoice] at h ⊢
    split at h
    · rename_i hr
      simp only [X.mlDatasetChoiceRef, XCodec.struct, Option.map_eq_some_iff] at h
      obtain ⟨ks, -, rfl⟩ := h; simp [hr]
    · rename_i hr
      split at h
      · rename_i d hd
        have := XLawful.writes n _ o h
        rw [this, hd]
        simp [X.componentData, XCodec.struct]
      · rename_i hd
        simp only [Option.some.injEq] at h; subst h
        have hr : dc.ref = "" := by simpa using hr
        simp [hr, hd]
instance : XNamed X.mlDatasetChoice := ⟨fun _ => rfl⟩
'''
LAWS['AsserterChoice'] = '''instance : XLawful X.asserterChoice where
  round n ac x g h := by
    have hz : X.asserterChoiceRaw.zero = (none, none, none, ()) := rfl
    obtain ⟨o, i, r⟩ := ac
    cases o with
    | some o =>
      cases i with
      | some i => simp [X.asserterChoice] at h
      | none =>
        simp only [X.asserterChoice, XCodec.struct, Option.map_eq_some_iff, Option.some.injEq] at h
        obtain ⟨ks, hk, rfl⟩ := h
        obtain ⟨k₁, k₂, h₁, h₂, rfl⟩ := encKids_elem hk
        simp only [XFields.encKids, Option.some.injEq] at h₂; subst h₂
        simp only [List.append_nil, XFields.encAttrs]
        have hn := XFieldLawful.named (f := XField.ptr "organization" X.organizationalEntity) (some o) k₁ h₁
        have hr := XFieldLawful.round (f := XField.ptr "organization" X.organizationalEntity) (some o) k₁
          (fun a ha => g.1 a ha) h₁
        simp only [X.asserterChoice, hz]
        unfold X.asserterChoiceRaw
        rw [dec_own _ _ _ _ _ _ (by simp [XFields.texts]) hn]
        have hr : XField.decAll (XField.ptr "organization" X.organizationalEntity).dec k₁ none = _ := hr
        rw [hr]
        simp [XField.ptr, X.organizationalEntity, XCodec.struct]
    | none =>
      cases i with
      | some i =>
        simp only [X.asserterChoice, XCodec.struct, Option.map_eq_some_iff, Option.some.injEq] at h
        obtain ⟨ks, hk, rfl⟩ := h
        obtain ⟨k₁, k₂, h₁, h₂, rfl⟩ := encKids_elem hk
        simp only [XFields.encKids, Option.some.injEq] at h₂; subst h₂
        simp only [List.append_nil, XFields.encAttrs]
        have hn := XFieldLawful.named (f := XField.ptr "contact" X.organizationalContact) (some i) k₁ h₁
        have hr := XFieldLawful.round (f := XField.ptr "contact" X.organizationalContact) (some i) k₁
          (fun a ha => g.2 a ha) h₁
        simp only [X.asserterChoice, hz]
        unfold X.asserterChoiceRaw
        rw [dec_others]
        case h => exact fun y hy => XField.isElem_ne (hn y hy) (by simp [XField.ptr])
        rw [dec_own _ _ _ _ _ _ (by simp [XFields.texts]) hn]
        have hr : XField.decAll (XField.ptr "contact" X.organizationalContact).dec k₁ none = _ := hr
        rw [hr]
        simp [XField.ptr, X.organizationalContact, XCodec.struct]
      | none =>
        cases r with
        | none => simp [X.asserterChoice] at h
        | some r =>
          simp only [X.asserterChoice, XCodec.struct, Option.map_eq_some_iff, Option.some.injEq] at h
          obtain ⟨ks, hk, rfl⟩ := h
          obtain ⟨k₁, k₂, h₁, h₂, rfl⟩ := encKids_elem hk
          simp only [XFields.encKids, Option.some.injEq] at h₂; subst h₂
          simp only [List.append_nil, XFields.encAttrs]
          have hn := XFieldLawful.named (f := XField.ptr "ref" X.bomReference) (some r) k₁ h₁
          have hr := XFieldLawful.round (f := XField.ptr "ref" X.bomReference) (some r) k₁
            (fun a ha => by simp [X.bomReference, X.fresh, XCodec.struct, X.bomReferenceFields, XFields.good, XText.string]) h₁
          simp only [X.asserterChoice, hz]
          unfold X.asserterChoiceRaw
          rw [dec_others]
          case h => exact fun y hy => XField.isElem_ne (hn y hy) (by simp [XField.ptr])
          rw [dec_others]
          case h => exact fun y hy => XField.isElem_ne (hn y hy) (by simp [XField.ptr])
          rw [dec_own _ _ _ _ _ _ (by simp [XFields.texts]) hn]
          have hr : XField.decAll (XField.ptr "ref" X.bomReference).dec k₁ none = _ := hr
          rw [hr]
          simp [XField.ptr, X.bomReference, X.fresh, XCodec.struct]
  named n ac x h := by
    obtain ⟨_ | o, _ | i, _ | r⟩ := ac <;>
    simp only [X.asserterChoice, XCodec.struct, reduceCtorEq, Option.map_eq_some_iff, Option.some.injEq] at h <;>
    · obtain ⟨ks, -, rfl⟩ := h
      simp [Xml.isElem, X.asserterChoice]
  writes n ac o h := by
    obtain ⟨_ | o, _ | i, _ | r⟩ := ac <;>
    simp only [X.asserterChoice, XCodec.struct, reduceCtorEq, Option.map_eq_some_iff, Option.some.injEq] at h <;>
    first
    | (subst h; rfl)
    | (obtain ⟨ks, -, rfl⟩ := h; rfl)
instance : XNamed X.asserterChoice := ⟨fun _ => rfl⟩
'''
LAWS['Dependency'] = '''instance : XFieldsLawful X.dependencyFields := by unfold X.dependencyFields; infer_instance
instance : XLawful X.dependency :=
  fresh_lawful (xstruct_lawful X.dependencyFields _ _ (fun _ => rfl) (by simp [X.dependencyFields, XFields.attrNames])
    (by simp [X.dependencyFields, XFields.elemNames, XField.list]) (by simp [X.dependencyFields, XFields.texts]))
instance : XNamed X.dependency := ⟨fun _ => rfl⟩
'''
LAWS['Definitions'] = '''theorem patentChoice_round (c : PatentChoice) (ks : List Xml)
    (g : (∀ p ∈ c.patent, X.patent.good p) ∧ (∀ f ∈ c.patentFamily, X.patentFamily.good f))
    (h : X.patentChoiceEnc c = some ks) : X.decEach X.patentChoiceDec ks = some (X.patentChoiceNorm c) := by
  obtain ⟨p, f⟩ := c
  cases p with
  | some p =>
    simp only [X.patentChoiceEnc] at h
    obtain ⟨o, ho, rfl⟩ := Option.map_eq_some_iff.1 h
    rcases XField.enc_cases ho with ⟨hw, -⟩ | ⟨-, x, rfl, hx⟩
    · simp [X.patent, XCodec.struct] at hw
    · have hr := XLawful.round "patent" p x (g.1 p rfl) ho
      have hn : X.patent.rename "patent" = "patent" := rfl
      rw [hn] at hx
      obtain ⟨as, ks, rfl⟩ := Xml.isElem_elim hx
      simp only [Option.toList_some, decEach_single, X.patentChoiceNorm]
      simp [X.patentChoiceDec, hr]
  | none =>
    cases f with
    | none =>
      simp only [X.patentChoiceEnc, Option.some.injEq] at h; subst h; rfl
    | some f =>
      simp only [X.patentChoiceEnc] at h
      obtain ⟨o, ho, rfl⟩ := Option.map_eq_some_iff.1 h
      rcases XField.enc_cases ho with ⟨hw, -⟩ | ⟨-, x, rfl, hx⟩
      · simp [X.patentFamily, XCodec.struct] at hw
      · have hr := XLawful.round "patentFamily" f x (g.2 f rfl) ho
        have hn : X.patentFamily.rename "patentFamily" = "patentFamily" := rfl
        rw [hn] at hx
        obtain ⟨as, ks, rfl⟩ := Xml.isElem_elim hx
        simp only [Option.toList_some, decEach_single, X.patentChoiceNorm]
        have h1 : ("patentFamily" : String) ≠ "patent" := by decide
        simp [X.patentChoiceDec, hr]

theorem standard_round (s : StandardDefinition) (ks : List Xml) (g : X.standardDefinition.good s)
    (h : (X.standardDefinition.enc "standard" s).map (·.toList) = some ks) :
    X.decEach X.standardDec ks = some [X.standardDefinition.norm s] := by
  obtain ⟨o, ho, rfl⟩ := Option.map_eq_some_iff.1 h
  rcases XField.enc_cases ho with ⟨hw, -⟩ | ⟨-, x, rfl, hx⟩
  · simp [X.standardDefinition, XCodec.struct] at hw
  · have hr := XLawful.round "standard" s x g ho
    have hn : X.standardDefinition.rename "standard" = "standard" := rfl
    rw [hn] at hx
    obtain ⟨as, ks, rfl⟩ := Xml.isElem_elim hx
    simp only [Option.toList_some, decEach_single]
    simp [X.standardDec, hr]

theorem enclosed_cases {α : Type} {name : String} {f : α → Option (List Xml)} {as : PSlice α} {ks : List Xml}
    (h : X.enclosed name f as = some ks) :
    (as = .nil ∧ ks = []) ∨ ∃ ks', X.encEach f as.elems = some ks' ∧ ks = [.elem name [] ks'] := by
  cases as <;> simp only [X.enclosed, Option.some.injEq, Option.map_eq_some_iff] at h
  · exact .inl ⟨rfl, h.symm⟩
  · obtain ⟨ks', hk, rfl⟩ := h; exact .inr ⟨ks', hk, rfl⟩
  · obtain ⟨ks', hk, rfl⟩ := h; exact .inr ⟨ks', hk, rfl⟩

theorem standards_step {as : PSlice StandardDefinition} {ks : List Xml} (d : Definitions) (hd : d.standards = .nil)
    (g : ∀ s ∈ as.elems, X.standardDefinition.good s)
    (h : X.enclosed "standards" (fun s => (X.standardDefinition.enc "standard" s).map (·.toList)) as = some ks) :
    XField.decAll X.definitionsStep ks d =
      some { d with standards := XField.ofList (as.elems.map X.standardDefinition.norm) } := by
  rcases enclosed_cases h with ⟨rfl, rfl⟩ | ⟨ks', hk, rfl⟩
  · simp only [PSlice.elems, XField.decAll, List.map_nil, XField.ofList, ← hd]
  · have := each_round standard_round as.elems ks' g hk
    simp only [XField.decAll_single, X.definitionsStep, if_true, this, Option.map_some, Option.some.injEq,
      ← List.map_eq_flatMap]
    cases as.elems.map X.standardDefinition.norm with
    | nil => simp [XField.ofList, ← hd]
    | cons a as => simp [XField.ofList]

theorem patents_step {as : PSlice PatentChoice} {ks : List Xml} (d : Definitions) (hd : d.patents = .nil)
    (g : ∀ c ∈ as.elems, (∀ p ∈ c.patent, X.patent.good p) ∧ (∀ f ∈ c.patentFamily, X.patentFamily.good f))
    (h : X.enclosed "patents" X.patentChoiceEnc as = some ks) :
    XField.decAll X.definitionsStep ks d =
      some { d with patents := XField.ofList (as.elems.flatMap X.patentChoiceNorm) } := by
  rcases enclosed_cases h with ⟨rfl, rfl⟩ | ⟨ks', hk, rfl⟩
  · simp only [PSlice.elems, XField.decAll, List.flatMap_nil, XField.ofList, ← hd]
  · have := each_round patentChoice_round as.elems ks' g hk
    have h1 : ("patents" : String) ≠ "standards" := by decide
    simp only [XField.decAll_single, X.definitionsStep, if_neg h1, if_true, this, Option.map_some, Option.some.injEq]
    cases as.elems.flatMap X.patentChoiceNorm with
    | nil => simp [XField.ofList, ← hd]
    | cons a as => simp [XField.ofList]

instance : XLawful X.definitions where
  round n d x g h := by
    simp only [X.definitions] at h g ⊢
    split at h
    · rename_i ss ps hs hp
      simp only [Option.some.injEq] at h; subst h
      simp only [Xml.kids]
      rw [XField.decAll_append, standards_step {} rfl g.1 hs]
      simp only [Option.bind_some]
      rw [patents_step _ rfl g.2 hp]
    · cases h
  named n d x h := by
    simp only [X.definitions] at h ⊢
    split at h
    · simp only [Option.some.injEq] at h; subst h; simp [Xml.isElem]
    · cases h
  writes n d o h := by
    simp only [X.definitions] at h ⊢
    split at h
    · simp only [Option.some.injEq] at h; subst h; rfl
    · cases h
instance : XNamed X.definitions := ⟨fun _ => rfl⟩
'''
LAWS['DataClassification'] = '''theorem urlsElem_step {n : String} {us : PSlice String} {step : Xml → DataClassification → Option DataClassification}
    {set : DataClassification → PSlice String → DataClassification} (dc : DataClassification)
    (hs : ∀ ks vs, X.urls n ks = some vs → step (.elem n [] ks) dc = some (if vs ≠ [] then set dc (.list vs) else dc))
    (hz : set dc .nil = dc) :
    XField.decAll step (X.urlsElem n us) dc = some (set dc (XField.ofList (us.elems.map sanitize))) := by
  cases hu : us.elems with
  | nil => simp [X.urlsElem, hu, XField.decAll, XField.ofList, hz]
  | cons u vs =>
    have := hs _ _ (urls_round n (u :: vs))
    simp only [X.urlsElem, hu, XField.decAll_single, this]
    simp [XField.ofList]

instance : XLawful X.dataClassification where
  round n dc x g h := by
    simp only [X.dataClassification] at h g ⊢
    split at h
    · cases h
    · rename_i gs hgs
      simp only [Option.some.injEq] at h; subst h
      simp only [Xml.name, Xml.kids, Xml.attrs, ne_eq, not_true, if_false]
      have hgn := XFieldLawful.named (f := XField.ptr "governance" X.dataGovernance) dc.governance gs hgs
      have hgr := XFieldLawful.round (f := XField.ptr "governance" X.dataGovernance) dc.governance gs g hgs
      rw [spliced_known]
      · simp only
        have ha1 : X.lastAttr "name" (X.attrUnlessEmpty "name" dc.name ++ X.attrUnlessEmpty "description" dc.description) "" =
            sanitize dc.name := by
          by_cases h1 : dc.name = "" <;> by_cases h2 : dc.description = "" <;>
            simp [X.attrUnlessEmpty, X.lastAttr, h1, h2]
        have ha2 : X.lastAttr "description" (X.attrUnlessEmpty "name" dc.name ++ X.attrUnlessEmpty "description" dc.description) "" =
            sanitize dc.description := by
          by_cases h1 : dc.name = "" <;> by_cases h2 : dc.description = "" <;>
            simp [X.attrUnlessEmpty, X.lastAttr, h1, h2]
        rw [ha1, ha2]
        rw [XField.decAll_append, XField.decAll_append, XField.decAll_append]
        have hc : XField.decAll X.dataClassificationStep
            (if dc.classification ≠ "" ∨ dc.flow ≠ "" then
              [.elem "classification" (X.attrUnlessEmpty "flow" dc.flow) (textKids (sanitize dc.classification))]
            else []) { name := sanitize dc.name, description := sanitize dc.description } =
            some { name := sanitize dc.name, description := sanitize dc.description,
                   flow := sanitize dc.flow, classification := sanitize dc.classification } := by
          split
          · have : X.lastAttr "flow" (X.attrUnlessEmpty "flow" dc.flow) "" = sanitize dc.flow := lastAttr_unlessEmpty _ _
            simp only [XField.decAll_single, X.dataClassificationStep, if_true, this, textOf_textKids]
          · rename_i hne
            simp only [ne_eq, not_or, Classical.not_not] at hne
            simp [XField.decAll, hne.1, hne.2]
        simp only [ne_eq] at hc
        rw [hc]
        simp only [Option.bind_some]
        have hg : ∀ (d : DataClassification), d.governance = none →
            XField.decAll X.dataClassificationStep gs d = some { d with governance := dc.governance.map X.dataGovernance.norm } := by
          intro d hd
          cases hdg : dc.governance with
          | none =>
            rw [hdg] at hgs
            simp only [XField.ptr, Option.some.injEq] at hgs; subst hgs
            simp only [XField.decAll, Option.map_none]
            rw [← hd]
          | some gv =>
            rw [hdg] at hgs
            simp only [XField.ptr] at hgs
            obtain ⟨o, ho, rfl⟩ := Option.map_eq_some_iff.1 hgs
            rcases XField.enc_cases ho with ⟨hw, -⟩ | ⟨-, x, rfl, hx⟩
            · simp [X.dataGovernance, XCodec.struct] at hw
            · have hr := XLawful.round "governance" gv x (g gv hdg) ho
              have hn : X.dataGovernance.rename "governance" = "governance" := rfl
              rw [hn] at hx
              obtain ⟨as, ks, rfl⟩ := Xml.isElem_elim hx
              have h1 : ("governance" : String) ≠ "classification" := by decide
              simp only [Option.toList_some, XField.decAll_single, X.dataClassificationStep, if_neg h1, if_true, hr,
                Option.map_some]
        rw [hg _ rfl]
        simp only [Option.bind_some]
        rw [urlsElem_step (set := fun d us => { d with source := us }) _ (fun ks vs hv => by
          have h1 : ("source" : String) ≠ "classification" := by decide
          have h2 : ("source" : String) ≠ "governance" := by decide
          simp only [X.dataClassificationStep, if_neg h1, if_neg h2, if_true, hv, Option.map_some]) rfl]
        simp only [Option.bind_some]
        rw [urlsElem_step (set := fun d us => { d with destination := us }) _ (fun ks vs hv => by
          have h1 : ("destination" : String) ≠ "classification" := by decide
          have h2 : ("destination" : String) ≠ "governance" := by decide
          have h3 : ("destination" : String) ≠ "source" := by decide
          simp only [X.dataClassificationStep, if_neg h1, if_neg h2, if_neg h3, if_true, hv, Option.map_some]) rfl]
      · intro y hy
        have hurl : ∀ m us, y ∈ X.urlsElem m us → y.isElem m = true := by
          intro m us hm
          unfold X.urlsElem at hm
          split at hm
          · simp at hm
          · simp at hm; subst hm; simp [Xml.isElem]
        simp only [List.mem_append] at hy
        rcases hy with ((hy | hy) | hy) | hy
        · split at hy
          · simp at hy; subst hy; exact ⟨"classification", by simp, by simp [Xml.isElem]⟩
          · simp at hy
        · exact ⟨"governance", by simp, hgn y hy⟩
        · exact ⟨"source", by simp, hurl _ _ hy⟩
        · exact ⟨"destination", by simp, hurl _ _ hy⟩
  named n dc x h := by
    simp only [X.dataClassification] at h ⊢
    split at h
    · cases h
    · simp only [Option.some.injEq] at h; subst h; simp [Xml.isElem]
  writes n dc o h := by
    simp only [X.dataClassification] at h ⊢
    split at h
    · cases h
    · simp only [Option.some.injEq] at h; subst h; rfl
'''
LAWS['ToolsChoice'] = '''instance : XFieldsLawful X.toolsChoiceFields := by unfold X.toolsChoiceFields; infer_instance

theorem toolsFold (ts us : List Tool) (cs : List Component) (ss : List Service) :
    ts.foldl (fun (st : List Tool × List Component × List Service) t => (st.1 ++ [t], st.2.1, st.2.2)) (us, cs, ss) =
      (us ++ ts, cs, ss) := by
  induction ts generalizing us with
  | nil => simp
  | cons t ts ih => simp [ih]

theorem tools_step {as : PSlice Tool} {ks : List Xml} (cs : List Component) (ss : List Service)
    (g : ∀ t ∈ as.elems, X.tool.good t) (h : (XField.list "tool" true X.tool).enc as = some ks) :
    XField.decAll X.toolsChoiceStep ks ([], cs, ss) = some (XField.normList true X.tool as.elems, cs, ss) := by
  rw [XField.encList_foldl (c := X.tool) (n := "tool") (oe := true)
    (app := fun (st : List Tool × List Component × List Service) t => (st.1 ++ [t], st.2.1, st.2.2)) ?_ _ g h, toolsFold]
  · rfl
  · intro x s hx
    obtain ⟨as, ks, rfl⟩ := Xml.isElem_elim hx
    have hn : X.tool.rename "tool" = "tool" := rfl
    simp only [X.toolsChoiceStep, hn, if_true]

theorem components_step {as : PSlice Component} {ks : List Xml} (ts : List Tool) (ss : List Service)
    (g : ∀ t ∈ as.elems, X.component.good t)
    (h : (XField.nlist "components" "component" true X.component).enc as = some ks) :
    XField.decAll X.toolsChoiceStep ks (ts, [], ss) = some (ts, XField.normList true X.component as.elems, ss) := by
  by_cases e : as = .nil
  · subst e
    simp only [XField.nlist, Option.some.injEq] at h; subst h; rfl
  · rw [XField.nlist_enc_ne_nil e] at h
    obtain ⟨ks', hk, rfl⟩ := Option.map_eq_some_iff.1 h
    have hd := dec_list_first (m := "components") (F := .elem (.list "service" true X.service) .nil)
      (by simp [XFields.texts]) g hk
    have h1 : ("components" : String) ≠ "tool" := by decide
    simp only [XField.decAll_single, X.toolsChoiceStep, if_neg h1, if_true]
    unfold X.toolsChoiceRaw
    rw [hd]
    simp only [Option.map_some, Option.some.injEq, ofList_elems, ofList_isNil]
    cases XField.normList true X.component as.elems <;> simp

theorem services_step {as : PSlice Service} {ks : List Xml} (ts : List Tool) (cs : List Component)
    (g : ∀ t ∈ as.elems, X.service.good t)
    (h : (XField.nlist "services" "service" true X.service).enc as = some ks) :
    XField.decAll X.toolsChoiceStep ks (ts, cs, []) = some (ts, cs, XField.normList true X.service as.elems) := by
  by_cases e : as = .nil
  · subst e
    simp only [XField.nlist, Option.some.injEq] at h; subst h; rfl
  · rw [XField.nlist_enc_ne_nil e] at h
    obtain ⟨ks', hk, rfl⟩ := Option.map_eq_some_iff.1 h
    have hd := dec_list_second (m := "services") (f := .list "component" true X.component) (F := .nil)
      (by simp [XFields.texts]) (by simp [XField.list]) g hk
    have h1 : ("services" : String) ≠ "tool" := by decide
    have h2 : ("services" : String) ≠ "components" := by decide
    simp only [XField.decAll_single, X.toolsChoiceStep, if_neg h1, if_neg h2, if_true]
    unfold X.toolsChoiceRaw
    rw [hd]
    simp only [Option.map_some, Option.some.injEq, ofList_elems, ofList_isNil]
    cases XField.normList true X.service as.elems <;> simp

theorem toolsChoice_dec {ts : PSlice Tool} {cs : PSlice Component} {ss : PSlice Service} {n : String} {o : Option Xml}
    (hor : ts.elems = [] ∨ (cs.elems = [] ∧ ss.elems = []))
    (g : X.toolsChoiceFields.good (ts, cs, ss, ()))
    (h : (XCodec.struct X.toolsChoiceFields id id).enc n (ts, cs, ss, ()) = some o) :
    ∃ x, o = some x ∧ x.isElem n = true ∧ X.toolsChoice.dec x {} = some
      { tools := XField.ofList (XField.normList true X.tool ts.elems),
        components := XField.ofList (XField.normList true X.component cs.elems),
        services := XField.ofList (XField.normList true X.service ss.elems) } := by
  simp only [XCodec.struct, id] at h
  obtain ⟨ks, hk, rfl⟩ := Option.map_eq_some_iff.1 h
  refine ⟨_, rfl, by simp [Xml.isElem], ?_⟩
  unfold X.toolsChoiceFields at hk
  obtain ⟨k₁, ks₁, h₁, hk₁, rfl⟩ := encKids_elem hk
  obtain ⟨k₂, ks₂, h₂, hk₂, rfl⟩ := encKids_elem hk₁
  obtain ⟨k₃, ks₃, h₃, hk₃, rfl⟩ := encKids_elem hk₂
  simp only [XFields.encKids, Option.some.injEq] at hk₃; subst hk₃
  simp only [X.toolsChoice, Xml.kids, List.append_nil]
  rw [XField.decAll_append, tools_step _ _ g.1 h₁]
  simp only [Option.bind_some]
  rw [XField.decAll_append, components_step _ _ g.2.1 h₂]
  simp only [Option.bind_some]
  rw [services_step _ _ g.2.2.1 h₃]
  simp only
  have hnot : ¬ (XField.normList true X.tool ts.elems ≠ [] ∧
      (XField.normList true X.component cs.elems ≠ [] ∨ XField.normList true X.service ss.elems ≠ [])) := by
    rcases hor with h | ⟨h, h'⟩
    · simp [h, XField.normList]
    · simp [h, h', XField.normList]
  rw [if_neg hnot]
  split
  · rfl
  · rename_i hn
    simp only [ne_eq, not_or, Classical.not_not] at hn
    rw [hn.1, hn.2.1, hn.2.2]; rfl

theorem toolsChoice_enc {tc : ToolsChoice} {n : String} {o : Option Xml} (h : X.toolsChoice.enc n tc = some o) :
    (o = none ∧ tc = {}) ∨ (X.toolsChoice.writes tc = true ∧ (tc.tools.elems = [] ∨ (tc.components.elems = [] ∧ tc.services.elems = [])) ∧
      (XCodec.struct X.toolsChoiceFields id id).enc n (tc.tools, tc.components, tc.services, ()) = some o) := by
  obtain ⟨ts, cs, ss⟩ := tc
  simp only [X.toolsChoice] at h ⊢
  split at h
  · cases h
  · rename_i hn
    split at h
    · rename_i ht
      simp only [Bool.not_eq_true, not_and, not_or, Bool.not_eq_false] at hn ht
      obtain ⟨hc, hs⟩ := hn ht
      have hc : cs = .nil := by cases cs <;> simp_all [PSlice.isNil]
      have hs : ss = .nil := by cases ss <;> simp_all [PSlice.isNil]
      subst hc; subst hs
      exact .inr ⟨by simp [ht], .inr ⟨rfl, rfl⟩, h⟩
    · rename_i ht
      have ht : ts = .nil := by cases ts <;> simp_all [PSlice.isNil]
      subst ht
      split at h
      · rename_i hcs
        refine .inr ⟨?_, .inl rfl, h⟩
        cases cs <;> cases ss <;> simp_all [PSlice.isNil]
      · rename_i hcs
        simp only [Option.some.injEq] at h
        refine .inl ⟨h.symm, ?_⟩
        cases cs <;> cases ss <;> simp_all [PSlice.isNil]

instance : XLawful X.toolsChoice where
  round n tc x g h := by
    rcases toolsChoice_enc h with ⟨h, -⟩ | ⟨-, hor, h⟩
    · cases h
    · obtain ⟨y, hy, -, hd⟩ := toolsChoice_dec hor g h
      simp only [Option.some.injEq] at hy; subst hy
      exact hd
  named n tc x h := by
    rcases toolsChoice_enc h with ⟨h, -⟩ | ⟨-, hor, h⟩
    · cases h
    · simp only [XCodec.struct, Option.map_eq_some_iff, Option.some.injEq] at h
      obtain ⟨ks, -, rfl⟩ := h
      simp [Xml.isElem, X.toolsChoice]
  writes n tc o h := by
    rcases toolsChoice_enc h with ⟨rfl, rfl⟩ | ⟨hw, hor, h⟩
    · rfl
    · simp only [XCodec.struct, Option.map_eq_some_iff] at h
      obtain ⟨ks, -, rfl⟩ := h
      exact hw.symm
instance : XNamed X.toolsChoice := ⟨fun _ => rfl⟩
'''
LAWS['Evidence'] = '''instance : XFieldsLawful X.evidenceFields := by unfold X.evidenceFields; infer_instance

theorem identityFold (is js : List EvidenceIdentity) (ev : Evidence) :
    is.foldl (fun (st : List EvidenceIdentity × Evidence) i => (st.1 ++ [i], st.2)) (js, ev) = (js ++ is, ev) := by
  induction is generalizing js with
  | nil => simp
  | cons t ts ih => simp [ih]

theorem evidenceIdentity_step {as : PSlice EvidenceIdentity} {ks : List Xml} (ev : Evidence)
    (g : ∀ t ∈ as.elems, X.evidenceIdentity.good t) (h : (XField.list "identity" true X.evidenceIdentity).enc as = some ks) :
    XField.decAll X.evidenceStep ks ([], ev) = some (XField.normList true X.evidenceIdentity as.elems, ev) := by
  rw [XField.encList_foldl (c := X.evidenceIdentity) (n := "identity") (oe := true)
    (app := fun (st : List EvidenceIdentity × Evidence) i => (st.1 ++ [i], st.2)) ?_ _ g h, identityFold]
  · rfl
  · intro x s hx
    obtain ⟨as, ks, rfl⟩ := Xml.isElem_elim hx
    have hn : X.evidenceIdentity.rename "identity" = "identity" := rfl
    simp only [X.evidenceStep, hn, if_true]

theorem evidenceOccurrences_step {as : PSlice EvidenceOccurrence} {ks : List Xml} (is : List EvidenceIdentity)
    (ev : Evidence) (he : ev.occurrences = .nil) (g : ∀ t ∈ as.elems, X.evidenceOccurrence.good t)
    (h : (XField.nlist "occurrences" "occurrence" true X.evidenceOccurrence).enc as = some ks) :
    XField.decAll X.evidenceStep ks (is, ev) =
      some (is, { ev with occurrences := XField.ofList (XField.normList true X.evidenceOccurrence as.elems) }) := by
  by_cases e : as = .nil
  · subst e
    simp only [XField.nlist, Option.some.injEq] at h; subst h
    simp only [XField.decAll, PSlice.elems, XField.normList, List.filter_nil, List.map_nil, XField.ofList, ← he]
  · rw [XField.nlist_enc_ne_nil e] at h
    obtain ⟨ks', hk, rfl⟩ := Option.map_eq_some_iff.1 h
    have hd := dec_list_first (m := "occurrences") (F := .elem (.list "text" true X.copyright) .nil)
      (by simp [XFields.texts]) g hk
    have h1 : ("occurrences" : String) ≠ "identity" := by decide
    simp only [XField.decAll_single, X.evidenceStep, if_neg h1, if_true]
    unfold X.evidenceRaw
    rw [hd]
    simp only [Option.map_some, Option.some.injEq, ofList_isNil]
    cases XField.normList true X.evidenceOccurrence as.elems <;> simp [XField.ofList, ← he]

theorem evidenceCallstack_step {c : Option Callstack} {ks : List Xml} (is : List EvidenceIdentity)
    (ev : Evidence) (he : ev.callstack = none) (g : ∀ t ∈ c, X.callstack.good t)
    (h : (XField.ptr "callstack" X.callstack).enc c = some ks) :
    XField.decAll X.evidenceStep ks (is, ev) =
      some (is, { ev with callstack := X.callstackNorm c }) := by
  cases c with
  | none =>
    simp only [XField.ptr, Option.some.injEq] at h; subst h
    simp only [XField.decAll, X.callstackNorm, ← he]
  | some c =>
    simp only [XField.ptr] at h
    obtain ⟨o, ho, rfl⟩ := Option.map_eq_some_iff.1 h
    rcases XField.enc_cases ho with ⟨hw, -⟩ | ⟨-, x, rfl, hx⟩
    · simp [X.callstack, XCodec.struct] at hw
    · have hr := XLawful.round "callstack" c x (g c rfl) ho
      have hn : X.callstack.rename "callstack" = "callstack" := rfl
      rw [hn] at hx
      obtain ⟨as, ks, rfl⟩ := Xml.isElem_elim hx
      have h1 : ("callstack" : String) ≠ "identity" := by decide
      have h2 : ("callstack" : String) ≠ "occurrences" := by decide
      simp only [Option.toList_some, XField.decAll_single, X.evidenceStep, if_neg h1, if_neg h2, if_true, hr,
        Option.map_some, Option.some.injEq, X.callstackNorm]
      split
      · rfl
      · simp only [← he]

theorem evidenceLicenses_step {as : PSlice LicenseChoice} {ks : List Xml} (is : List EvidenceIdentity)
    (ev : Evidence) (he : ev.licenses = .nil) (g : X.licenses.good as.elems)
    (h : (XField.slice "licenses" X.licenses).enc as = some ks) :
    XField.decAll X.evidenceStep ks (is, ev) =
      some (is, { ev with licenses := XField.ofList (X.licenses.norm as.elems) }) := by
  by_cases e : as = .nil
  · subst e
    simp only [XField.slice, Option.some.injEq] at h; subst h
    simp only [XField.decAll, PSlice.elems, X.licenses, List.flatMap_nil, XField.ofList, ← he]
  · rw [XField.slice_enc_ne_nil e] at h
    obtain ⟨o, ho, rfl⟩ := Option.map_eq_some_iff.1 h
    rcases XField.enc_cases ho with ⟨hw, rfl⟩ | ⟨-, x, rfl, hx⟩
    · have : as.elems = [] := by simpa [X.licenses] using hw
      rw [this]
      simp only [Option.toList_none, XField.decAll, X.licenses, List.flatMap_nil, XField.ofList, ← he]
    · have hr := XLawful.round "licenses" as.elems x g ho
      have hn : X.licenses.rename "licenses" = "licenses" := rfl
      rw [hn] at hx
      obtain ⟨bs, ks, rfl⟩ := Xml.isElem_elim hx
      have h1 : ("licenses" : String) ≠ "identity" := by decide
      have h2 : ("licenses" : String) ≠ "occurrences" := by decide
      have h3 : ("licenses" : String) ≠ "callstack" := by decide
      simp only [Option.toList_some, XField.decAll_single, X.evidenceStep, if_neg h1, if_neg h2, if_neg h3, if_true, hr,
        Option.map_some, Option.some.injEq]
      cases X.licenses.norm as.elems <;> simp [XField.ofList, ← he]

theorem evidenceCopyright_step {as : PSlice Copyright} {ks : List Xml} (is : List EvidenceIdentity)
    (ev : Evidence) (he : ev.copyright = .nil) (g : ∀ t ∈ as.elems, X.copyright.good t)
    (h : (XField.nlist "copyright" "text" true X.copyright).enc as = some ks) :
    XField.decAll X.evidenceStep ks (is, ev) =
      some (is, { ev with copyright := XField.ofList (XField.normList true X.copyright as.elems) }) := by
  by_cases e : as = .nil
  · subst e
    simp only [XField.nlist, Option.some.injEq] at h; subst h
    simp only [XField.decAll, PSlice.elems, XField.normList, List.filter_nil, List.map_nil, XField.ofList, ← he]
  · rw [XField.nlist_enc_ne_nil e] at h
    obtain ⟨ks', hk, rfl⟩ := Option.map_eq_some_iff.1 h
    have hd := dec_list_second (m := "copyright") (f := .list "occurrence" true X.evidenceOccurrence) (F := .nil)
      (by simp [XFields.texts]) (by simp [XField.list]) g hk
    have h1 : ("copyright" : String) ≠ "identity" := by decide
    have h2 : ("copyright" : String) ≠ "occurrences" := by decide
    have h3 : ("copyright" : String) ≠ "callstack" := by decide
    have h4 : ("copyright" : String) ≠ "licenses" := by decide
    simp only [XField.decAll_single, X.evidenceStep, if_neg h1, if_neg h2, if_neg h3, if_neg h4, if_true]
    unfold X.evidenceRaw
    rw [hd]
    simp only [Option.map_some, Option.some.injEq, ofList_isNil]
    cases XField.normList true X.copyright as.elems <;> simp [XField.ofList, ← he]

instance : XLawful X.evidence where
  round n ev x g h := by
    simp only [X.evidence] at h
    split at h
    · cases h
    · simp only [XCodec.struct, id, Option.map_eq_some_iff, Option.some.injEq] at h
      obtain ⟨ks, hk, rfl⟩ := h
      have g : X.evidenceFields.good _ := g
      unfold X.evidenceFields at hk g
      obtain ⟨k₁, ks₁, h₁, hk₁, rfl⟩ := encKids_elem hk
      obtain ⟨k₂, ks₂, h₂, hk₂, rfl⟩ := encKids_elem hk₁
      obtain ⟨k₃, ks₃, h₃, hk₃, rfl⟩ := encKids_elem hk₂
      obtain ⟨k₄, ks₄, h₄, hk₄, rfl⟩ := encKids_elem hk₃
      obtain ⟨k₅, ks₅, h₅, hk₅, rfl⟩ := encKids_elem hk₄
      simp only [XFields.encKids, Option.some.injEq] at hk₅; subst hk₅
      obtain ⟨g₁, g₂, g₃, g₄, g₅, -⟩ := g
      simp only [X.evidence, Xml.kids, List.append_nil]
      rw [XField.decAll_append, evidenceIdentity_step _ g₁ h₁]
      simp only [Option.bind_some]
      rw [XField.decAll_append, evidenceOccurrences_step _ _ rfl g₂ h₂]
      simp only [Option.bind_some]
      rw [XField.decAll_append, evidenceCallstack_step _ _ rfl g₃ h₃]
      simp only [Option.bind_some]
      rw [XField.decAll_append, evidenceLicenses_step _ _ rfl g₄ h₄]
      simp only [Option.bind_some]
      rw [evidenceCopyright_step _ _ rfl g₅ h₅]
      simp only [Option.map_some, Option.some.injEq]
      cases XField.normList true X.evidenceIdentity (X.evidenceIdentities ev).elems <;> simp
  named n ev x h := by
    simp only [X.evidence] at h ⊢
    split at h
    · cases h
    · simp only [XCodec.struct, Option.map_eq_some_iff, Option.some.injEq] at h
      obtain ⟨ks, -, rfl⟩ := h; simp [Xml.isElem]
  writes n ev o h := by
    simp only [X.evidence] at h ⊢
    split at h
    · rename_i he
      simp only [Option.some.injEq] at h; subst h
      simp [he.1, he.2.1, he.2.2.1, he.2.2.2.1, he.2.2.2.2]
    · rename_i he
      simp only [XCodec.struct, Option.map_eq_some_iff] at h
      obtain ⟨ks, -, rfl⟩ := h
      simp only [Option.isSome_some]
      symm
      rw [Bool.not_eq_true', ← Bool.not_eq_true]
      simpa [and_assoc] using he
instance : XNamed X.evidence := ⟨fun _ => rfl⟩
'''
