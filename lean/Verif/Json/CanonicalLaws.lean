import Verif.Spec.Canonical
import Verif.Json.StructLaws
import Verif.Model.Recurse

/-!
# What a value becomes in JSON

GENERATED by `tools/gen_canon.py`; do not edit by hand.  `norm_t`: the form in which the codec of `T` reads a value
back is `T.canonical`.  `good_t`: regular values are read back.
-/

namespace Verif

set_option linter.unusedSectionVars false
set_option linter.unusedSimpArgs false
set_option linter.unusedVariables false

variable [FloatIO]

theorem norm_option {α : Type} {c : JCodec α} {f : α → α} (hn : ∀ a, c.nullish a = false)
    (hf : ∀ a, c.norm a = f a) (o : Option α) : (JCodec.option c).norm o = o.map f := by
  cases o <;> simp [JCodec.option, hn, hf]
theorem norm_option_id {α : Type} {c : JCodec α} (hn : ∀ a, c.nullish a = false)
    (hf : ∀ a, c.norm a = a) (o : Option α) : (JCodec.option c).norm o = o := by
  cases o <;> simp [JCodec.option, hn, hf]
theorem norm_pslice {α : Type} {c : JCodec α} {f : α → α} (hf : ∀ a, c.norm a = f a) (p : PSlice α) :
    (JCodec.pslice c).norm p = p.compactWith f := by
  have : c.norm = f := funext hf
  cases p <;> simp [JCodec.pslice, PSlice.compactWith, this]
theorem norm_pslice_id {α : Type} {c : JCodec α} (hf : ∀ a, c.norm a = a) (p : PSlice α) :
    (JCodec.pslice c).norm p = p.compact := by
  have : c.norm = id := funext hf
  cases p <;> simp [JCodec.pslice, PSlice.compact, this]
theorem norm_bindOpt {α : Type} {c : JCodec α} {f : α → Option α}
    (hf : ∀ a, (if c.nullish a then none else some (c.norm a)) = f a) (o : Option α) :
    (JCodec.option c).norm o = o.bind f := by
  cases o <;> simp [JCodec.option, ← hf]

theorem norm_string (s : String) : JCodec.string.norm s = s := rfl
theorem norm_bool (s : Bool) : JCodec.bool.norm s = s := rfl
theorem norm_int (s : Int) : JCodec.int.norm s = s := rfl
theorem norm_f32 (s : F32) : JCodec.f32.norm s = s := rfl
theorem norm_f64 (s : F64) : JCodec.f64.norm s = s := rfl
theorem norm_bomReference (s : BOMReference) : J.bomReference.norm s = s := rfl
theorem norm_specVersion (s : Int) : J.specVersionStrict.norm s = s := rfl

theorem good_string (s : String) : JCodec.string.good s := trivial
theorem good_bool (s : Bool) : JCodec.bool.good s := trivial
theorem good_int {s : Int} (h : InInt64 s) : JCodec.int.good s := h
theorem good_f32 (s : F32) : JCodec.f32.good s := trivial
theorem good_f64 (s : F64) : JCodec.f64.good s := trivial
theorem good_bomReference (s : BOMReference) : J.bomReference.good s := trivial

theorem good_option {α : Type} {c : JCodec α} {o : Option α} (h : ∀ a ∈ o, c.good a) :
    (JCodec.option c).good o := by
  cases o with
  | none => trivial
  | some a => exact h a rfl
theorem good_pslice {α : Type} {c : JCodec α} {p : PSlice α} (h : ∀ a ∈ p.elems, c.good a) :
    (JCodec.pslice c).good p := h
theorem goodF_nil {b : Unit} : JFields.nil.good b := trivial
theorem goodF_skip {α β : Type} {z : α} {F : JFields β} {b : α × β} (h : F.good b.2) :
    (JFields.skip z F).good b := h
theorem goodF_field {α β : Type} {n : String} {oe : Bool} {c : JCodec α} {F : JFields β} {b : α × β}
    (hc : c.good b.1) (h : F.good b.2) : (JFields.field n oe c F).good b := ⟨hc, h⟩

theorem norm_advisory (x : Advisory) : J.advisory.norm x = x := by
  show Advisory.ofP (J.advisoryFields.norm x.toP) = _
  simp only [J.advisoryFields, JFields.norm, Advisory.toP, Advisory.ofP, norm_string]
theorem good_advisory (x : Advisory) : J.advisory.good x :=
  ((goodF_field (good_string _) (goodF_field (good_string _) goodF_nil)) : J.advisoryFields.good x.toP)

theorem norm_affectedVersions (x : AffectedVersions) : J.affectedVersions.norm x = x := by
  show AffectedVersions.ofP (J.affectedVersionsFields.norm x.toP) = _
  simp only [J.affectedVersionsFields, JFields.norm, AffectedVersions.toP, AffectedVersions.ofP, norm_string]
theorem good_affectedVersions (x : AffectedVersions) : J.affectedVersions.good x :=
  ((goodF_field (good_string _) (goodF_field (good_string _) (goodF_field (good_string _) goodF_nil))) : J.affectedVersionsFields.good x.toP)

theorem norm_affects (x : Affects) : J.affects.norm x = x.canonical := by
  show Affects.ofP (J.affectsFields.norm x.toP) = _
  simp only [J.affectsFields, JFields.norm, Affects.toP, Affects.ofP, Affects.canonical, norm_pslice_id norm_affectedVersions, norm_string]
theorem good_affects (x : Affects) : J.affects.good x :=
  ((goodF_field (good_string _) (goodF_field (good_pslice fun y _ => good_affectedVersions y) goodF_nil)) : J.affectsFields.good x.toP)

theorem norm_attachedText (x : AttachedText) : J.attachedText.norm x = x := by
  show AttachedText.ofP (J.attachedTextFields.norm x.toP) = _
  simp only [J.attachedTextFields, JFields.norm, AttachedText.toP, AttachedText.ofP, norm_string]
theorem good_attachedText (x : AttachedText) : J.attachedText.good x :=
  ((goodF_field (good_string _) (goodF_field (good_string _) (goodF_field (good_string _) goodF_nil))) : J.attachedTextFields.good x.toP)

theorem norm_property (x : Property) : J.property.norm x = x := by
  show Property.ofP (J.propertyFields.norm x.toP) = _
  simp only [J.propertyFields, JFields.norm, Property.toP, Property.ofP, norm_string]
theorem good_property (x : Property) : J.property.good x :=
  ((goodF_field (good_string _) (goodF_field (good_string _) goodF_nil)) : J.propertyFields.good x.toP)

theorem norm_componentDataContents (x : ComponentDataContents) : J.componentDataContents.norm x = x.canonical := by
  show ComponentDataContents.ofP (J.componentDataContentsFields.norm x.toP) = _
  simp only [J.componentDataContentsFields, JFields.norm, ComponentDataContents.toP, ComponentDataContents.ofP, ComponentDataContents.canonical, norm_option_id (c := J.attachedText) (fun _ => rfl) norm_attachedText, norm_pslice_id norm_property, norm_string]
theorem good_componentDataContents (x : ComponentDataContents) : J.componentDataContents.good x :=
  ((goodF_field (good_option fun y _ => good_attachedText y) (goodF_field (good_string _) (goodF_field (good_pslice fun y _ => good_property y) goodF_nil))) : J.componentDataContentsFields.good x.toP)

theorem norm_componentDataGraphic (x : ComponentDataGraphic) : J.componentDataGraphic.norm x = x := by
  show ComponentDataGraphic.ofP (J.componentDataGraphicFields.norm x.toP) = _
  simp only [J.componentDataGraphicFields, JFields.norm, ComponentDataGraphic.toP, ComponentDataGraphic.ofP, norm_option_id (c := J.attachedText) (fun _ => rfl) norm_attachedText, norm_string]
theorem good_componentDataGraphic (x : ComponentDataGraphic) : J.componentDataGraphic.good x :=
  ((goodF_field (good_string _) (goodF_field (good_option fun y _ => good_attachedText y) goodF_nil)) : J.componentDataGraphicFields.good x.toP)

theorem norm_componentDataGraphics (x : ComponentDataGraphics) : J.componentDataGraphics.norm x = x.canonical := by
  show ComponentDataGraphics.ofP (J.componentDataGraphicsFields.norm x.toP) = _
  simp only [J.componentDataGraphicsFields, JFields.norm, ComponentDataGraphics.toP, ComponentDataGraphics.ofP, ComponentDataGraphics.canonical, norm_pslice_id norm_componentDataGraphic, norm_string]
theorem good_componentDataGraphics (x : ComponentDataGraphics) : J.componentDataGraphics.good x :=
  ((goodF_field (good_string _) (goodF_field (good_pslice fun y _ => good_componentDataGraphic y) goodF_nil)) : J.componentDataGraphicsFields.good x.toP)

theorem norm_organizationalContact (x : OrganizationalContact) : J.organizationalContact.norm x = x := by
  show OrganizationalContact.ofP (J.organizationalContactFields.norm x.toP) = _
  simp only [J.organizationalContactFields, JFields.norm, OrganizationalContact.toP, OrganizationalContact.ofP, norm_string]
theorem good_organizationalContact (x : OrganizationalContact) : J.organizationalContact.good x :=
  ((goodF_field (good_string _) (goodF_field (good_string _) (goodF_field (good_string _) (goodF_field (good_string _) goodF_nil)))) : J.organizationalContactFields.good x.toP)

theorem norm_postalAddress (x : PostalAddress) : J.postalAddress.norm x = x := by
  show PostalAddress.ofP (J.postalAddressFields.norm x.toP) = _
  simp only [J.postalAddressFields, JFields.norm, PostalAddress.toP, PostalAddress.ofP, norm_string]
theorem good_postalAddress (x : PostalAddress) : J.postalAddress.good x :=
  ((goodF_field (good_string _) (goodF_field (good_string _) (goodF_field (good_string _) (goodF_field (good_string _) (goodF_field (good_string _) (goodF_field (good_string _) (goodF_field (good_string _) goodF_nil))))))) : J.postalAddressFields.good x.toP)

theorem norm_organizationalEntity (x : OrganizationalEntity) : J.organizationalEntity.norm x = x.canonical := by
  show OrganizationalEntity.ofP (J.organizationalEntityFields.norm x.toP) = _
  simp only [J.organizationalEntityFields, JFields.norm, OrganizationalEntity.toP, OrganizationalEntity.ofP, OrganizationalEntity.canonical, norm_option_id (c := J.postalAddress) (fun _ => rfl) norm_postalAddress, norm_pslice_id norm_organizationalContact, norm_pslice_id norm_string, norm_string]
theorem good_organizationalEntity (x : OrganizationalEntity) : J.organizationalEntity.good x :=
  ((goodF_field (good_string _) (goodF_field (good_string _) (goodF_field (good_option fun y _ => good_postalAddress y) (goodF_field (good_pslice fun y _ => good_string y) (goodF_field (good_pslice fun y _ => good_organizationalContact y) goodF_nil))))) : J.organizationalEntityFields.good x.toP)

theorem norm_componentDataGovernanceResponsibleParty (x : ComponentDataGovernanceResponsibleParty) : J.componentDataGovernanceResponsibleParty.norm x = x.canonical := by
  show ComponentDataGovernanceResponsibleParty.ofP (J.componentDataGovernanceResponsiblePartyFields.norm x.toP) = _
  simp only [J.componentDataGovernanceResponsiblePartyFields, JFields.norm, ComponentDataGovernanceResponsibleParty.toP, ComponentDataGovernanceResponsibleParty.ofP, ComponentDataGovernanceResponsibleParty.canonical, norm_option (c := J.organizationalEntity) (fun _ => rfl) norm_organizationalEntity, norm_option_id (c := J.organizationalContact) (fun _ => rfl) norm_organizationalContact]
theorem good_componentDataGovernanceResponsibleParty (x : ComponentDataGovernanceResponsibleParty) : J.componentDataGovernanceResponsibleParty.good x :=
  ((goodF_field (good_option fun y _ => good_organizationalEntity y) (goodF_field (good_option fun y _ => good_organizationalContact y) goodF_nil)) : J.componentDataGovernanceResponsiblePartyFields.good x.toP)

theorem norm_dataGovernance (x : DataGovernance) : J.dataGovernance.norm x = x.canonical := by
  show DataGovernance.ofP (J.dataGovernanceFields.norm x.toP) = _
  simp only [J.dataGovernanceFields, JFields.norm, DataGovernance.toP, DataGovernance.ofP, DataGovernance.canonical, norm_pslice norm_componentDataGovernanceResponsibleParty]
theorem good_dataGovernance (x : DataGovernance) : J.dataGovernance.good x :=
  ((goodF_field (good_pslice fun y _ => good_componentDataGovernanceResponsibleParty y) (goodF_field (good_pslice fun y _ => good_componentDataGovernanceResponsibleParty y) (goodF_field (good_pslice fun y _ => good_componentDataGovernanceResponsibleParty y) goodF_nil))) : J.dataGovernanceFields.good x.toP)

theorem norm_componentData (x : ComponentData) : J.componentData.norm x = x.canonical := by
  show ComponentData.ofP (J.componentDataFields.norm x.toP) = _
  simp only [J.componentDataFields, JFields.norm, ComponentData.toP, ComponentData.ofP, ComponentData.canonical, norm_option (c := J.componentDataContents) (fun _ => rfl) norm_componentDataContents, norm_option (c := J.componentDataGraphics) (fun _ => rfl) norm_componentDataGraphics, norm_option (c := J.dataGovernance) (fun _ => rfl) norm_dataGovernance, norm_pslice_id norm_string, norm_string]
theorem good_componentData (x : ComponentData) : J.componentData.good x :=
  ((goodF_field (good_string _) (goodF_field (good_string _) (goodF_field (good_string _) (goodF_field (good_option fun y _ => good_componentDataContents y) (goodF_field (good_string _) (goodF_field (good_pslice fun y _ => good_string y) (goodF_field (good_option fun y _ => good_componentDataGraphics y) (goodF_field (good_string _) (goodF_field (good_option fun y _ => good_dataGovernance y) goodF_nil))))))))) : J.componentDataFields.good x.toP)

theorem norm_hash (x : Hash) : J.hash.norm x = x := by
  show Hash.ofP (J.hashFields.norm x.toP) = _
  simp only [J.hashFields, JFields.norm, Hash.toP, Hash.ofP, norm_string]
theorem good_hash (x : Hash) : J.hash.good x :=
  ((goodF_field (good_string _) (goodF_field (good_string _) goodF_nil)) : J.hashFields.good x.toP)

theorem norm_relatedCryptographicAsset (x : RelatedCryptographicAsset) : J.relatedCryptographicAsset.norm x = x := by
  show RelatedCryptographicAsset.ofP (J.relatedCryptographicAssetFields.norm x.toP) = _
  simp only [J.relatedCryptographicAssetFields, JFields.norm, RelatedCryptographicAsset.toP, RelatedCryptographicAsset.ofP, norm_string]
theorem good_relatedCryptographicAsset (x : RelatedCryptographicAsset) : J.relatedCryptographicAsset.good x :=
  ((goodF_field (good_string _) (goodF_field (good_string _) goodF_nil)) : J.relatedCryptographicAssetFields.good x.toP)

theorem norm_predefinedCertificateState (x : PredefinedCertificateState) : J.predefinedCertificateState.norm x = x := by
  show PredefinedCertificateState.ofP (J.predefinedCertificateStateFields.norm x.toP) = _
  simp only [J.predefinedCertificateStateFields, JFields.norm, PredefinedCertificateState.toP, PredefinedCertificateState.ofP, norm_string]
theorem good_predefinedCertificateState (x : PredefinedCertificateState) : J.predefinedCertificateState.good x :=
  ((goodF_field (good_string _) (goodF_field (good_string _) goodF_nil)) : J.predefinedCertificateStateFields.good x.toP)

theorem norm_customCertificateState (x : CustomCertificateState) : J.customCertificateState.norm x = x := by
  show CustomCertificateState.ofP (J.customCertificateStateFields.norm x.toP) = _
  simp only [J.customCertificateStateFields, JFields.norm, CustomCertificateState.toP, CustomCertificateState.ofP, norm_string]
theorem good_customCertificateState (x : CustomCertificateState) : J.customCertificateState.good x :=
  ((goodF_field (good_string _) (goodF_field (good_string _) (goodF_field (good_string _) goodF_nil))) : J.customCertificateStateFields.good x.toP)

theorem norm_certificateState (x : CertificateState) : J.certificateState.norm x = x.canonical := by
  obtain ⟨p, q⟩ := x
  cases p <;> cases q <;> simp [J.certificateState, CertificateState.canonical, norm_predefinedCertificateState, norm_customCertificateState]
theorem good_certificateState {x : CertificateState} (h : x.Regular) : J.certificateState.good x := by
  obtain ⟨p, q⟩ := x
  cases p with
  | none => cases q <;> simp [J.certificateState, good_customCertificateState]
  | some p => simpa [J.certificateState, good_predefinedCertificateState] using h p rfl

theorem norm_commonCertificateExtension (x : CommonCertificateExtension) : J.commonCertificateExtension.norm x = x := by
  show CommonCertificateExtension.ofP (J.commonCertificateExtensionFields.norm x.toP) = _
  simp only [J.commonCertificateExtensionFields, JFields.norm, CommonCertificateExtension.toP, CommonCertificateExtension.ofP, norm_string]
theorem good_commonCertificateExtension (x : CommonCertificateExtension) : J.commonCertificateExtension.good x :=
  ((goodF_field (good_string _) (goodF_field (good_string _) goodF_nil)) : J.commonCertificateExtensionFields.good x.toP)

theorem norm_customCertificateExtension (x : CustomCertificateExtension) : J.customCertificateExtension.norm x = x := by
  show CustomCertificateExtension.ofP (J.customCertificateExtensionFields.norm x.toP) = _
  simp only [J.customCertificateExtensionFields, JFields.norm, CustomCertificateExtension.toP, CustomCertificateExtension.ofP, norm_string]
theorem good_customCertificateExtension (x : CustomCertificateExtension) : J.customCertificateExtension.good x :=
  ((goodF_field (good_string _) (goodF_field (good_string _) goodF_nil)) : J.customCertificateExtensionFields.good x.toP)

theorem norm_certificateExtension (x : CertificateExtension) : J.certificateExtension.norm x = x.canonical := by
  obtain ⟨p, q⟩ := x
  cases p <;> cases q <;> simp [J.certificateExtension, CertificateExtension.canonical, norm_commonCertificateExtension, norm_customCertificateExtension]
theorem good_certificateExtension {x : CertificateExtension} (h : x.Regular) : J.certificateExtension.good x := by
  obtain ⟨p, q⟩ := x
  cases p with
  | none => cases q <;> simp [J.certificateExtension, good_customCertificateExtension]
  | some p => simpa [J.certificateExtension, good_commonCertificateExtension] using h p rfl

theorem norm_certificateProperties (x : CertificateProperties) : J.certificateProperties.norm x = x.canonical := by
  show CertificateProperties.ofP (J.certificatePropertiesFields.norm x.toP) = _
  simp only [J.certificatePropertiesFields, JFields.norm, CertificateProperties.toP, CertificateProperties.ofP, CertificateProperties.canonical, norm_bomReference, norm_option_id (c := J.hash) (fun _ => rfl) norm_hash, norm_pslice norm_certificateExtension, norm_pslice norm_certificateState, norm_pslice_id norm_relatedCryptographicAsset, norm_string]
theorem good_certificateProperties {x : CertificateProperties} (h : x.Regular) : J.certificateProperties.good x :=
  ((goodF_field (good_string _) (goodF_field (good_string _) (goodF_field (good_string _) (goodF_field (good_string _) (goodF_field (good_string _) (goodF_field (good_bomReference _) (goodF_field (good_bomReference _) (goodF_field (good_string _) (goodF_field (good_string _) (goodF_field (good_string _) (goodF_field (good_option fun y _ => good_hash y) (goodF_field (good_pslice fun y hy => good_certificateState (h.1 y hy)) (goodF_field (good_pslice fun y hy => good_certificateExtension (h.2 y hy)) (goodF_field (good_pslice fun y _ => good_relatedCryptographicAsset y) (goodF_field (good_string _) (goodF_field (good_string _) (goodF_field (good_string _) (goodF_field (good_string _) (goodF_field (good_string _) goodF_nil))))))))))))))))))) : J.certificatePropertiesFields.good x.toP)

theorem norm_cryptoAlgorithmProperties (x : CryptoAlgorithmProperties) : J.cryptoAlgorithmProperties.norm x = x.canonical := by
  show CryptoAlgorithmProperties.ofP (J.cryptoAlgorithmPropertiesFields.norm x.toP) = _
  simp only [J.cryptoAlgorithmPropertiesFields, JFields.norm, CryptoAlgorithmProperties.toP, CryptoAlgorithmProperties.ofP, CryptoAlgorithmProperties.canonical, norm_option_id (c := JCodec.int) (fun _ => rfl) norm_int, norm_pslice_id norm_string, norm_string]
theorem good_cryptoAlgorithmProperties {x : CryptoAlgorithmProperties} (h : x.Regular) : J.cryptoAlgorithmProperties.good x :=
  ((goodF_field (good_string _) (goodF_field (good_string _) (goodF_field (good_string _) (goodF_field (good_string _) (goodF_field (good_string _) (goodF_field (good_string _) (goodF_field (good_string _) (goodF_field (good_pslice fun y _ => good_string y) (goodF_field (good_string _) (goodF_field (good_string _) (goodF_field (good_pslice fun y _ => good_string y) (goodF_field (good_option fun y hy => good_int (h.1 y hy)) (goodF_field (good_option fun y hy => good_int (h.2 y hy)) goodF_nil))))))))))))) : J.cryptoAlgorithmPropertiesFields.good x.toP)

theorem norm_cipherSuite (x : CipherSuite) : J.cipherSuite.norm x = x.canonical := by
  show CipherSuite.ofP (J.cipherSuiteFields.norm x.toP) = _
  simp only [J.cipherSuiteFields, JFields.norm, CipherSuite.toP, CipherSuite.ofP, CipherSuite.canonical, norm_pslice_id norm_bomReference, norm_pslice_id norm_string, norm_string]
theorem good_cipherSuite (x : CipherSuite) : J.cipherSuite.good x :=
  ((goodF_field (good_string _) (goodF_field (good_pslice fun y _ => good_bomReference y) (goodF_field (good_pslice fun y _ => good_string y) (goodF_field (good_pslice fun y _ => good_string y) (goodF_field (good_pslice fun y _ => good_string y) goodF_nil))))) : J.cipherSuiteFields.good x.toP)

theorem norm_ikev2Auth (x : IKEv2Auth) : J.ikev2Auth.norm x = x.canonical := by
  simp only [J.ikev2Auth, J.ikev2, IKEv2Auth.canonical]
  split
  · rfl
  · rename_i h
    have : x.bomRef = ⟨""⟩ := by
      cases hx : x.bomRef
      simpa [hx] using h
    cases x
    simp only at this
    subst this
    show IKEv2Auth.ofP (J.ikev2AuthFields.norm (IKEv2Auth.toP _)) = _
    simp only [J.ikev2AuthFields, JFields.norm, IKEv2Auth.toP, IKEv2Auth.ofP, norm_string]
theorem good_ikev2Auth (x : IKEv2Auth) : J.ikev2Auth.good x :=
  fun _ => ((goodF_skip (goodF_field (good_string _) (goodF_field (good_string _) goodF_nil))) : J.ikev2AuthFields.good x.toP)

theorem norm_ikev2Enc (x : IKEv2Enc) : J.ikev2Enc.norm x = x.canonical := by
  simp only [J.ikev2Enc, J.ikev2, IKEv2Enc.canonical]
  split
  · rfl
  · rename_i h
    have : x.bomRef = ⟨""⟩ := by
      cases hx : x.bomRef
      simpa [hx] using h
    cases x
    simp only at this
    subst this
    show IKEv2Enc.ofP (J.ikev2EncFields.norm (IKEv2Enc.toP _)) = _
    simp only [J.ikev2EncFields, JFields.norm, IKEv2Enc.toP, IKEv2Enc.ofP, norm_option_id (c := JCodec.int) (fun _ => rfl) norm_int, norm_string]
theorem good_ikev2Enc {x : IKEv2Enc} (h : x.Regular) : J.ikev2Enc.good x :=
  fun _ => ((goodF_skip (goodF_field (good_string _) (goodF_field (good_option fun y hy => good_int (h y hy)) (goodF_field (good_string _) goodF_nil)))) : J.ikev2EncFields.good x.toP)

theorem norm_ikev2Integ (x : IKEv2Integ) : J.ikev2Integ.norm x = x.canonical := by
  simp only [J.ikev2Integ, J.ikev2, IKEv2Integ.canonical]
  split
  · rfl
  · rename_i h
    have : x.bomRef = ⟨""⟩ := by
      cases hx : x.bomRef
      simpa [hx] using h
    cases x
    simp only at this
    subst this
    show IKEv2Integ.ofP (J.ikev2IntegFields.norm (IKEv2Integ.toP _)) = _
    simp only [J.ikev2IntegFields, JFields.norm, IKEv2Integ.toP, IKEv2Integ.ofP, norm_string]
theorem good_ikev2Integ (x : IKEv2Integ) : J.ikev2Integ.good x :=
  fun _ => ((goodF_skip (goodF_field (good_string _) (goodF_field (good_string _) goodF_nil))) : J.ikev2IntegFields.good x.toP)

theorem norm_ikev2Ke (x : IKEv2Ke) : J.ikev2Ke.norm x = x.canonical := by
  simp only [J.ikev2Ke, J.ikev2, IKEv2Ke.canonical]
  split
  · rfl
  · rename_i h
    have : x.bomRef = ⟨""⟩ := by
      cases hx : x.bomRef
      simpa [hx] using h
    cases x
    simp only at this
    subst this
    show IKEv2Ke.ofP (J.ikev2KeFields.norm (IKEv2Ke.toP _)) = _
    simp only [J.ikev2KeFields, JFields.norm, IKEv2Ke.toP, IKEv2Ke.ofP, norm_option_id (c := JCodec.int) (fun _ => rfl) norm_int, norm_string]
theorem good_ikev2Ke {x : IKEv2Ke} (h : x.Regular) : J.ikev2Ke.good x :=
  fun _ => ((goodF_skip (goodF_field (good_option fun y hy => good_int (h y hy)) (goodF_field (good_string _) goodF_nil))) : J.ikev2KeFields.good x.toP)

theorem norm_ikev2Prf (x : IKEv2Prf) : J.ikev2Prf.norm x = x.canonical := by
  simp only [J.ikev2Prf, J.ikev2, IKEv2Prf.canonical]
  split
  · rfl
  · rename_i h
    have : x.bomRef = ⟨""⟩ := by
      cases hx : x.bomRef
      simpa [hx] using h
    cases x
    simp only at this
    subst this
    show IKEv2Prf.ofP (J.ikev2PrfFields.norm (IKEv2Prf.toP _)) = _
    simp only [J.ikev2PrfFields, JFields.norm, IKEv2Prf.toP, IKEv2Prf.ofP, norm_string]
theorem good_ikev2Prf (x : IKEv2Prf) : J.ikev2Prf.good x :=
  fun _ => ((goodF_skip (goodF_field (good_string _) (goodF_field (good_string _) goodF_nil))) : J.ikev2PrfFields.good x.toP)

theorem norm_ikev2TransformTypes (x : IKEv2TransformTypes) : J.ikev2TransformTypes.norm x = x.canonical := by
  show IKEv2TransformTypes.ofP (J.ikev2TransformTypesFields.norm x.toP) = _
  simp only [J.ikev2TransformTypesFields, JFields.norm, IKEv2TransformTypes.toP, IKEv2TransformTypes.ofP, IKEv2TransformTypes.canonical, norm_bool, norm_pslice norm_ikev2Auth, norm_pslice norm_ikev2Enc, norm_pslice norm_ikev2Integ, norm_pslice norm_ikev2Ke, norm_pslice norm_ikev2Prf]
theorem good_ikev2TransformTypes {x : IKEv2TransformTypes} (h : x.Regular) : J.ikev2TransformTypes.good x :=
  ((goodF_field (good_pslice fun y hy => good_ikev2Enc (h.1 y hy)) (goodF_field (good_pslice fun y _ => good_ikev2Prf y) (goodF_field (good_pslice fun y _ => good_ikev2Integ y) (goodF_field (good_pslice fun y hy => good_ikev2Ke (h.2 y hy)) (goodF_field (good_bool _) (goodF_field (good_pslice fun y _ => good_ikev2Auth y) goodF_nil)))))) : J.ikev2TransformTypesFields.good x.toP)

theorem norm_cryptoProtocolProperties (x : CryptoProtocolProperties) : J.cryptoProtocolProperties.norm x = x.canonical := by
  show CryptoProtocolProperties.ofP (J.cryptoProtocolPropertiesFields.norm x.toP) = _
  simp only [J.cryptoProtocolPropertiesFields, JFields.norm, CryptoProtocolProperties.toP, CryptoProtocolProperties.ofP, CryptoProtocolProperties.canonical, norm_option (c := J.ikev2TransformTypes) (fun _ => rfl) norm_ikev2TransformTypes, norm_pslice norm_cipherSuite, norm_pslice_id norm_bomReference, norm_pslice_id norm_relatedCryptographicAsset, norm_string]
theorem good_cryptoProtocolProperties {x : CryptoProtocolProperties} (h : x.Regular) : J.cryptoProtocolProperties.good x :=
  ((goodF_field (good_string _) (goodF_field (good_string _) (goodF_field (good_pslice fun y _ => good_cipherSuite y) (goodF_field (good_option fun y hy => good_ikev2TransformTypes (h y hy)) (goodF_field (good_pslice fun y _ => good_bomReference y) (goodF_field (good_pslice fun y _ => good_relatedCryptographicAsset y) goodF_nil)))))) : J.cryptoProtocolPropertiesFields.good x.toP)

theorem norm_securedBy (x : SecuredBy) : J.securedBy.norm x = x := by
  show SecuredBy.ofP (J.securedByFields.norm x.toP) = _
  simp only [J.securedByFields, JFields.norm, SecuredBy.toP, SecuredBy.ofP, norm_bomReference, norm_string]
theorem good_securedBy (x : SecuredBy) : J.securedBy.good x :=
  ((goodF_field (good_string _) (goodF_field (good_bomReference _) goodF_nil)) : J.securedByFields.good x.toP)

theorem norm_relatedCryptoMaterialProperties (x : RelatedCryptoMaterialProperties) : J.relatedCryptoMaterialProperties.norm x = x.canonical := by
  show RelatedCryptoMaterialProperties.ofP (J.relatedCryptoMaterialPropertiesFields.norm x.toP) = _
  simp only [J.relatedCryptoMaterialPropertiesFields, JFields.norm, RelatedCryptoMaterialProperties.toP, RelatedCryptoMaterialProperties.ofP, RelatedCryptoMaterialProperties.canonical, norm_bomReference, norm_option_id (c := J.hash) (fun _ => rfl) norm_hash, norm_option_id (c := J.securedBy) (fun _ => rfl) norm_securedBy, norm_option_id (c := JCodec.int) (fun _ => rfl) norm_int, norm_pslice_id norm_relatedCryptographicAsset, norm_string]
theorem good_relatedCryptoMaterialProperties {x : RelatedCryptoMaterialProperties} (h : x.Regular) : J.relatedCryptoMaterialProperties.good x :=
  ((goodF_field (good_string _) (goodF_field (good_string _) (goodF_field (good_string _) (goodF_field (good_bomReference _) (goodF_field (good_string _) (goodF_field (good_string _) (goodF_field (good_string _) (goodF_field (good_string _) (goodF_field (good_string _) (goodF_field (good_option fun y hy => good_int (h y hy)) (goodF_field (good_string _) (goodF_field (good_option fun y _ => good_securedBy y) (goodF_field (good_option fun y _ => good_hash y) (goodF_field (good_pslice fun y _ => good_relatedCryptographicAsset y) goodF_nil)))))))))))))) : J.relatedCryptoMaterialPropertiesFields.good x.toP)

theorem norm_cryptoProperties (x : CryptoProperties) : J.cryptoProperties.norm x = x.canonical := by
  show CryptoProperties.ofP (J.cryptoPropertiesFields.norm x.toP) = _
  simp only [J.cryptoPropertiesFields, JFields.norm, CryptoProperties.toP, CryptoProperties.ofP, CryptoProperties.canonical, norm_option (c := J.certificateProperties) (fun _ => rfl) norm_certificateProperties, norm_option (c := J.cryptoAlgorithmProperties) (fun _ => rfl) norm_cryptoAlgorithmProperties, norm_option (c := J.cryptoProtocolProperties) (fun _ => rfl) norm_cryptoProtocolProperties, norm_option (c := J.relatedCryptoMaterialProperties) (fun _ => rfl) norm_relatedCryptoMaterialProperties, norm_string]
theorem good_cryptoProperties {x : CryptoProperties} (h : x.Regular) : J.cryptoProperties.good x :=
  ((goodF_field (good_string _) (goodF_field (good_option fun y hy => good_cryptoAlgorithmProperties (h.1 y hy)) (goodF_field (good_option fun y hy => good_certificateProperties (h.2.1 y hy)) (goodF_field (good_option fun y hy => good_relatedCryptoMaterialProperties (h.2.2.1 y hy)) (goodF_field (good_option fun y hy => good_cryptoProtocolProperties (h.2.2.2 y hy)) (goodF_field (good_string _) goodF_nil)))))) : J.cryptoPropertiesFields.good x.toP)

theorem norm_callstackFrame (x : CallstackFrame) : J.callstackFrame.norm x = x.canonical := by
  show CallstackFrame.ofP (J.callstackFrameFields.norm x.toP) = _
  simp only [J.callstackFrameFields, JFields.norm, CallstackFrame.toP, CallstackFrame.ofP, CallstackFrame.canonical, norm_option_id (c := JCodec.int) (fun _ => rfl) norm_int, norm_pslice_id norm_string, norm_string]
theorem good_callstackFrame {x : CallstackFrame} (h : x.Regular) : J.callstackFrame.good x :=
  ((goodF_field (good_string _) (goodF_field (good_string _) (goodF_field (good_string _) (goodF_field (good_pslice fun y _ => good_string y) (goodF_field (good_option fun y hy => good_int (h.1 y hy)) (goodF_field (good_option fun y hy => good_int (h.2 y hy)) (goodF_field (good_string _) goodF_nil))))))) : J.callstackFrameFields.good x.toP)

theorem norm_callstack (x : Callstack) : J.callstack.norm x = x.canonical := by
  show Callstack.ofP (J.callstackFields.norm x.toP) = _
  simp only [J.callstackFields, JFields.norm, Callstack.toP, Callstack.ofP, Callstack.canonical, norm_pslice norm_callstackFrame]
theorem good_callstack {x : Callstack} (h : x.Regular) : J.callstack.good x :=
  ((goodF_field (good_pslice fun y hy => good_callstackFrame (h y hy)) goodF_nil) : J.callstackFields.good x.toP)

theorem norm_copyright (x : Copyright) : J.copyright.norm x = x := by
  show Copyright.ofP (J.copyrightFields.norm x.toP) = _
  simp only [J.copyrightFields, JFields.norm, Copyright.toP, Copyright.ofP, norm_string]
theorem good_copyright (x : Copyright) : J.copyright.good x :=
  ((goodF_field (good_string _) goodF_nil) : J.copyrightFields.good x.toP)

theorem norm_evidenceIdentityMethod (x : EvidenceIdentityMethod) : J.evidenceIdentityMethod.norm x = x := by
  show EvidenceIdentityMethod.ofP (J.evidenceIdentityMethodFields.norm x.toP) = _
  simp only [J.evidenceIdentityMethodFields, JFields.norm, EvidenceIdentityMethod.toP, EvidenceIdentityMethod.ofP, norm_option_id (c := JCodec.f32) (fun _ => rfl) norm_f32, norm_string]
theorem good_evidenceIdentityMethod (x : EvidenceIdentityMethod) : J.evidenceIdentityMethod.good x :=
  ((goodF_field (good_string _) (goodF_field (good_option fun y _ => good_f32 y) (goodF_field (good_string _) goodF_nil))) : J.evidenceIdentityMethodFields.good x.toP)

theorem norm_evidenceIdentity (x : EvidenceIdentity) : J.evidenceIdentity.norm x = x.canonical := by
  show EvidenceIdentity.ofP (J.evidenceIdentityFields.norm x.toP) = _
  simp only [J.evidenceIdentityFields, JFields.norm, EvidenceIdentity.toP, EvidenceIdentity.ofP, EvidenceIdentity.canonical, norm_option_id (c := JCodec.f32) (fun _ => rfl) norm_f32, norm_pslice_id norm_bomReference, norm_pslice_id norm_evidenceIdentityMethod, norm_string]
theorem good_evidenceIdentity (x : EvidenceIdentity) : J.evidenceIdentity.good x :=
  ((goodF_field (good_string _) (goodF_field (good_option fun y _ => good_f32 y) (goodF_field (good_string _) (goodF_field (good_pslice fun y _ => good_evidenceIdentityMethod y) (goodF_field (good_pslice fun y _ => good_bomReference y) goodF_nil))))) : J.evidenceIdentityFields.good x.toP)

theorem norm_evidenceIdentityChoice (x : EvidenceIdentityChoice) :
    J.evidenceIdentityChoice.norm x = x.canonical := by
  obtain ⟨i, l⟩ := x
  have : J.evidenceIdentity.norm = EvidenceIdentity.canonical := funext norm_evidenceIdentity
  cases i <;> cases l <;> simp [J.evidenceIdentityChoice, EvidenceIdentityChoice.canonical, this]
theorem norm_evidenceIdentityChoiceOpt (x : EvidenceIdentityChoice) :
    (if J.evidenceIdentityChoice.nullish x then none else some (J.evidenceIdentityChoice.norm x)) =
      x.canonicalOpt := by
  rw [norm_evidenceIdentityChoice]
  obtain ⟨i, l⟩ := x
  cases i <;> cases l <;> simp [J.evidenceIdentityChoice, EvidenceIdentityChoice.canonicalOpt, JCodec.pslice]
theorem good_evidenceIdentityChoice (x : EvidenceIdentityChoice) : J.evidenceIdentityChoice.good x :=
  ⟨fun i _ => good_evidenceIdentity i, good_pslice fun i _ => good_evidenceIdentity i⟩

theorem norm_evidenceOccurrence (x : EvidenceOccurrence) : J.evidenceOccurrence.norm x = x := by
  show EvidenceOccurrence.ofP (J.evidenceOccurrenceFields.norm x.toP) = _
  simp only [J.evidenceOccurrenceFields, JFields.norm, EvidenceOccurrence.toP, EvidenceOccurrence.ofP, norm_option_id (c := JCodec.int) (fun _ => rfl) norm_int, norm_string]
theorem good_evidenceOccurrence {x : EvidenceOccurrence} (h : x.Regular) : J.evidenceOccurrence.good x :=
  ((goodF_field (good_string _) (goodF_field (good_string _) (goodF_field (good_option fun y hy => good_int (h.1 y hy)) (goodF_field (good_option fun y hy => good_int (h.2 y hy)) (goodF_field (good_string _) (goodF_field (good_string _) goodF_nil)))))) : J.evidenceOccurrenceFields.good x.toP)

theorem norm_organizationalEntityOrContact (x : OrganizationalEntityOrContact) : J.organizationalEntityOrContact.norm x = x.canonical := by
  show OrganizationalEntityOrContact.ofP (J.organizationalEntityOrContactFields.norm x.toP) = _
  simp only [J.organizationalEntityOrContactFields, JFields.norm, OrganizationalEntityOrContact.toP, OrganizationalEntityOrContact.ofP, OrganizationalEntityOrContact.canonical, norm_option (c := J.organizationalEntity) (fun _ => rfl) norm_organizationalEntity, norm_option_id (c := J.organizationalContact) (fun _ => rfl) norm_organizationalContact]
theorem good_organizationalEntityOrContact (x : OrganizationalEntityOrContact) : J.organizationalEntityOrContact.good x :=
  ((goodF_field (good_option fun y _ => good_organizationalEntity y) (goodF_field (good_option fun y _ => good_organizationalContact y) goodF_nil)) : J.organizationalEntityOrContactFields.good x.toP)

theorem norm_licensing (x : Licensing) : J.licensing.norm x = x.canonical := by
  show Licensing.ofP (J.licensingFields.norm x.toP) = _
  simp only [J.licensingFields, JFields.norm, Licensing.toP, Licensing.ofP, Licensing.canonical, norm_option (c := J.organizationalEntityOrContact) (fun _ => rfl) norm_organizationalEntityOrContact, norm_pslice_id norm_string, norm_string]
theorem good_licensing (x : Licensing) : J.licensing.good x :=
  ((goodF_field (good_pslice fun y _ => good_string y) (goodF_field (good_option fun y _ => good_organizationalEntityOrContact y) (goodF_field (good_option fun y _ => good_organizationalEntityOrContact y) (goodF_field (good_option fun y _ => good_organizationalEntityOrContact y) (goodF_field (good_string _) (goodF_field (good_pslice fun y _ => good_string y) (goodF_field (good_string _) (goodF_field (good_string _) goodF_nil)))))))) : J.licensingFields.good x.toP)

theorem norm_license (x : License) : J.license.norm x = x.canonical := by
  show License.ofP (J.licenseFields.norm x.toP) = _
  simp only [J.licenseFields, JFields.norm, License.toP, License.ofP, License.canonical, norm_option (c := J.licensing) (fun _ => rfl) norm_licensing, norm_option_id (c := J.attachedText) (fun _ => rfl) norm_attachedText, norm_pslice_id norm_property, norm_string]
theorem good_license (x : License) : J.license.good x :=
  ((goodF_field (good_string _) (goodF_field (good_string _) (goodF_field (good_string _) (goodF_field (good_string _) (goodF_field (good_option fun y _ => good_attachedText y) (goodF_field (good_string _) (goodF_field (good_option fun y _ => good_licensing y) (goodF_field (good_pslice fun y _ => good_property y) goodF_nil)))))))) : J.licenseFields.good x.toP)

theorem norm_licenseExpressionDetail (x : LicenseExpressionDetail) : J.licenseExpressionDetail.norm x = x := by
  show LicenseExpressionDetail.ofP (J.licenseExpressionDetailFields.norm x.toP) = _
  simp only [J.licenseExpressionDetailFields, JFields.norm, LicenseExpressionDetail.toP, LicenseExpressionDetail.ofP, norm_option_id (c := J.attachedText) (fun _ => rfl) norm_attachedText, norm_string]
theorem good_licenseExpressionDetail (x : LicenseExpressionDetail) : J.licenseExpressionDetail.good x :=
  ((goodF_field (good_string _) (goodF_field (good_string _) (goodF_field (good_option fun y _ => good_attachedText y) (goodF_field (good_string _) goodF_nil)))) : J.licenseExpressionDetailFields.good x.toP)

theorem norm_licenseChoice (x : LicenseChoice) : J.licenseChoice.norm x = x.canonical := by
  show LicenseChoice.ofP (J.licenseChoiceFields.norm x.toP) = _
  simp only [J.licenseChoiceFields, JFields.norm, LicenseChoice.toP, LicenseChoice.ofP, LicenseChoice.canonical, norm_option (c := J.license) (fun _ => rfl) norm_license, norm_option (c := J.licensing) (fun _ => rfl) norm_licensing, norm_option_id (c := JCodec.string) (fun _ => rfl) norm_string, norm_pslice_id norm_licenseExpressionDetail, norm_pslice_id norm_property, norm_string]
theorem good_licenseChoice (x : LicenseChoice) : J.licenseChoice.good x :=
  ((goodF_field (good_option fun y _ => good_license y) (goodF_field (good_string _) (goodF_field (good_pslice fun y _ => good_licenseExpressionDetail y) (goodF_field (good_option fun y _ => good_string y) (goodF_field (good_string _) (goodF_field (good_option fun y _ => good_licensing y) (goodF_field (good_pslice fun y _ => good_property y) goodF_nil))))))) : J.licenseChoiceFields.good x.toP)

theorem norm_evidence (x : Evidence) : J.evidence.norm x = x.canonical := by
  show Evidence.ofP (J.evidenceFields.norm x.toP) = _
  simp only [J.evidenceFields, JFields.norm, Evidence.toP, Evidence.ofP, Evidence.canonical, norm_bindOpt norm_evidenceIdentityChoiceOpt, norm_option (c := J.callstack) (fun _ => rfl) norm_callstack, norm_pslice norm_licenseChoice, norm_pslice_id norm_copyright, norm_pslice_id norm_evidenceOccurrence]
theorem good_evidence {x : Evidence} (h : x.Regular) : J.evidence.good x :=
  ((goodF_field (good_option fun y _ => good_evidenceIdentityChoice y) (goodF_field (good_pslice fun y hy => good_evidenceOccurrence (h.1 y hy)) (goodF_field (good_option fun y hy => good_callstack (h.2 y hy)) (goodF_field (good_pslice fun y _ => good_licenseChoice y) (goodF_field (good_pslice fun y _ => good_copyright y) goodF_nil))))) : J.evidenceFields.good x.toP)

theorem norm_externalReference (x : ExternalReference) : J.externalReference.norm x = x.canonical := by
  show ExternalReference.ofP (J.externalReferenceFields.norm x.toP) = _
  simp only [J.externalReferenceFields, JFields.norm, ExternalReference.toP, ExternalReference.ofP, ExternalReference.canonical, norm_pslice_id norm_hash, norm_pslice_id norm_property, norm_string]
theorem good_externalReference (x : ExternalReference) : J.externalReference.good x :=
  ((goodF_field (good_string _) (goodF_field (good_string _) (goodF_field (good_pslice fun y _ => good_hash y) (goodF_field (good_string _) (goodF_field (good_pslice fun y _ => good_property y) goodF_nil))))) : J.externalReferenceFields.good x.toP)

theorem norm_jsfPublicKey (x : JSFPublicKey) : J.jsfPublicKey.norm x = x := by
  show JSFPublicKey.ofP (J.jsfPublicKeyFields.norm x.toP) = _
  simp only [J.jsfPublicKeyFields, JFields.norm, JSFPublicKey.toP, JSFPublicKey.ofP, norm_string]
theorem good_jsfPublicKey (x : JSFPublicKey) : J.jsfPublicKey.good x :=
  ((goodF_field (good_string _) (goodF_field (good_string _) (goodF_field (good_string _) (goodF_field (good_string _) (goodF_field (good_string _) (goodF_field (good_string _) goodF_nil)))))) : J.jsfPublicKeyFields.good x.toP)

theorem norm_jsfSigner (x : JSFSigner) : J.jsfSigner.norm x = x.canonical := by
  show JSFSigner.ofP (J.jsfSignerFields.norm x.toP) = _
  simp only [J.jsfSignerFields, JFields.norm, JSFSigner.toP, JSFSigner.ofP, JSFSigner.canonical, norm_jsfPublicKey, norm_pslice_id norm_string, norm_string]
theorem good_jsfSigner (x : JSFSigner) : J.jsfSigner.good x :=
  ((goodF_field (good_string _) (goodF_field (good_string _) (goodF_field (good_jsfPublicKey _) (goodF_field (good_pslice fun y _ => good_string y) (goodF_field (good_pslice fun y _ => good_string y) (goodF_field (good_string _) goodF_nil)))))) : J.jsfSignerFields.good x.toP)

theorem norm_jsfSignature (x : JSFSignature) : J.jsfSignature.norm x = x.canonical := by
  show JSFSignature.ofP (J.jsfSignatureFields.norm x.toP) = _
  simp only [J.jsfSignatureFields, JFields.norm, JSFSignature.toP, JSFSignature.ofP, JSFSignature.canonical, norm_pslice norm_jsfSigner]
theorem good_jsfSignature (x : JSFSignature) : J.jsfSignature.good x :=
  ((goodF_skip (goodF_field (good_pslice fun y _ => good_jsfSigner y) (goodF_field (good_pslice fun y _ => good_jsfSigner y) goodF_nil))) : J.jsfSignatureFields.good x.toP)

theorem norm_mlModelCO2Measure (x : MLModelCO2Measure) : J.mlModelCO2Measure.norm x = x := by
  show MLModelCO2Measure.ofP (J.mlModelCO2MeasureFields.norm x.toP) = _
  simp only [J.mlModelCO2MeasureFields, JFields.norm, MLModelCO2Measure.toP, MLModelCO2Measure.ofP, norm_f32, norm_string]
theorem good_mlModelCO2Measure (x : MLModelCO2Measure) : J.mlModelCO2Measure.good x :=
  ((goodF_field (good_f32 _) (goodF_field (good_string _) goodF_nil)) : J.mlModelCO2MeasureFields.good x.toP)

theorem norm_mlModelEnergyMeasure (x : MLModelEnergyMeasure) : J.mlModelEnergyMeasure.norm x = x := by
  show MLModelEnergyMeasure.ofP (J.mlModelEnergyMeasureFields.norm x.toP) = _
  simp only [J.mlModelEnergyMeasureFields, JFields.norm, MLModelEnergyMeasure.toP, MLModelEnergyMeasure.ofP, norm_f32, norm_string]
theorem good_mlModelEnergyMeasure (x : MLModelEnergyMeasure) : J.mlModelEnergyMeasure.good x :=
  ((goodF_field (good_f32 _) (goodF_field (good_string _) goodF_nil)) : J.mlModelEnergyMeasureFields.good x.toP)

theorem norm_mlModelEnergyProvider (x : MLModelEnergyProvider) : J.mlModelEnergyProvider.norm x = x.canonical := by
  show MLModelEnergyProvider.ofP (J.mlModelEnergyProviderFields.norm x.toP) = _
  simp only [J.mlModelEnergyProviderFields, JFields.norm, MLModelEnergyProvider.toP, MLModelEnergyProvider.ofP, MLModelEnergyProvider.canonical, norm_option (c := J.organizationalEntity) (fun _ => rfl) norm_organizationalEntity, norm_option_id (c := J.mlModelEnergyMeasure) (fun _ => rfl) norm_mlModelEnergyMeasure, norm_pslice norm_externalReference, norm_string]
theorem good_mlModelEnergyProvider (x : MLModelEnergyProvider) : J.mlModelEnergyProvider.good x :=
  ((goodF_field (good_string _) (goodF_field (good_string _) (goodF_field (good_option fun y _ => good_organizationalEntity y) (goodF_field (good_string _) (goodF_field (good_option fun y _ => good_mlModelEnergyMeasure y) (goodF_field (good_pslice fun y _ => good_externalReference y) goodF_nil)))))) : J.mlModelEnergyProviderFields.good x.toP)

theorem norm_mlModelEnergyConsumption (x : MLModelEnergyConsumption) : J.mlModelEnergyConsumption.norm x = x.canonical := by
  show MLModelEnergyConsumption.ofP (J.mlModelEnergyConsumptionFields.norm x.toP) = _
  simp only [J.mlModelEnergyConsumptionFields, JFields.norm, MLModelEnergyConsumption.toP, MLModelEnergyConsumption.ofP, MLModelEnergyConsumption.canonical, norm_mlModelEnergyMeasure, norm_option_id (c := J.mlModelCO2Measure) (fun _ => rfl) norm_mlModelCO2Measure, norm_pslice norm_mlModelEnergyProvider, norm_pslice_id norm_property, norm_string]
theorem good_mlModelEnergyConsumption (x : MLModelEnergyConsumption) : J.mlModelEnergyConsumption.good x :=
  ((goodF_field (good_string _) (goodF_field (good_pslice fun y _ => good_mlModelEnergyProvider y) (goodF_field (good_mlModelEnergyMeasure _) (goodF_field (good_option fun y _ => good_mlModelCO2Measure y) (goodF_field (good_option fun y _ => good_mlModelCO2Measure y) (goodF_field (good_pslice fun y _ => good_property y) goodF_nil)))))) : J.mlModelEnergyConsumptionFields.good x.toP)

theorem norm_mlModelCardEnvironmentalConsiderations (x : MLModelCardEnvironmentalConsiderations) : J.mlModelCardEnvironmentalConsiderations.norm x = x.canonical := by
  show MLModelCardEnvironmentalConsiderations.ofP (J.mlModelCardEnvironmentalConsiderationsFields.norm x.toP) = _
  simp only [J.mlModelCardEnvironmentalConsiderationsFields, JFields.norm, MLModelCardEnvironmentalConsiderations.toP, MLModelCardEnvironmentalConsiderations.ofP, MLModelCardEnvironmentalConsiderations.canonical, norm_pslice norm_mlModelEnergyConsumption, norm_pslice_id norm_property]
theorem good_mlModelCardEnvironmentalConsiderations (x : MLModelCardEnvironmentalConsiderations) : J.mlModelCardEnvironmentalConsiderations.good x :=
  ((goodF_field (good_pslice fun y _ => good_mlModelEnergyConsumption y) (goodF_field (good_pslice fun y _ => good_property y) goodF_nil)) : J.mlModelCardEnvironmentalConsiderationsFields.good x.toP)

theorem norm_mlModelCardEthicalConsideration (x : MLModelCardEthicalConsideration) : J.mlModelCardEthicalConsideration.norm x = x := by
  show MLModelCardEthicalConsideration.ofP (J.mlModelCardEthicalConsiderationFields.norm x.toP) = _
  simp only [J.mlModelCardEthicalConsiderationFields, JFields.norm, MLModelCardEthicalConsideration.toP, MLModelCardEthicalConsideration.ofP, norm_string]
theorem good_mlModelCardEthicalConsideration (x : MLModelCardEthicalConsideration) : J.mlModelCardEthicalConsideration.good x :=
  ((goodF_field (good_string _) (goodF_field (good_string _) goodF_nil)) : J.mlModelCardEthicalConsiderationFields.good x.toP)

theorem norm_mlModelCardFairnessAssessment (x : MLModelCardFairnessAssessment) : J.mlModelCardFairnessAssessment.norm x = x := by
  show MLModelCardFairnessAssessment.ofP (J.mlModelCardFairnessAssessmentFields.norm x.toP) = _
  simp only [J.mlModelCardFairnessAssessmentFields, JFields.norm, MLModelCardFairnessAssessment.toP, MLModelCardFairnessAssessment.ofP, norm_string]
theorem good_mlModelCardFairnessAssessment (x : MLModelCardFairnessAssessment) : J.mlModelCardFairnessAssessment.good x :=
  ((goodF_field (good_string _) (goodF_field (good_string _) (goodF_field (good_string _) (goodF_field (good_string _) goodF_nil)))) : J.mlModelCardFairnessAssessmentFields.good x.toP)

theorem norm_mlModelCardConsiderations (x : MLModelCardConsiderations) : J.mlModelCardConsiderations.norm x = x.canonical := by
  show MLModelCardConsiderations.ofP (J.mlModelCardConsiderationsFields.norm x.toP) = _
  simp only [J.mlModelCardConsiderationsFields, JFields.norm, MLModelCardConsiderations.toP, MLModelCardConsiderations.ofP, MLModelCardConsiderations.canonical, norm_option (c := J.mlModelCardEnvironmentalConsiderations) (fun _ => rfl) norm_mlModelCardEnvironmentalConsiderations, norm_pslice_id norm_mlModelCardEthicalConsideration, norm_pslice_id norm_mlModelCardFairnessAssessment, norm_pslice_id norm_string]
theorem good_mlModelCardConsiderations (x : MLModelCardConsiderations) : J.mlModelCardConsiderations.good x :=
  ((goodF_field (good_pslice fun y _ => good_string y) (goodF_field (good_pslice fun y _ => good_string y) (goodF_field (good_pslice fun y _ => good_string y) (goodF_field (good_pslice fun y _ => good_string y) (goodF_field (good_pslice fun y _ => good_mlModelCardEthicalConsideration y) (goodF_field (good_option fun y _ => good_mlModelCardEnvironmentalConsiderations y) (goodF_field (good_pslice fun y _ => good_mlModelCardFairnessAssessment y) goodF_nil))))))) : J.mlModelCardConsiderationsFields.good x.toP)

theorem norm_mlDatasetChoice (x : MLDatasetChoice) : J.mlDatasetChoice.norm x = x.canonical := by
  simp only [J.mlDatasetChoice, MLDatasetChoice.canonical, ComponentData.isZero, norm_componentData]
  by_cases hr : x.ref = ""
  · simp only [hr, ne_eq, not_true_eq_false, if_false]
    cases x.componentData with
    | none => rfl
    | some d => simp only [decide_eq_true_eq, ite_not]
  · simp [hr]
theorem good_mlDatasetChoice (x : MLDatasetChoice) : J.mlDatasetChoice.good x :=
  fun _ d _ => good_componentData d

theorem norm_mlInputOutputParameters (x : MLInputOutputParameters) : J.mlInputOutputParameters.norm x = x := by
  show MLInputOutputParameters.ofP (J.mlInputOutputParametersFields.norm x.toP) = _
  simp only [J.mlInputOutputParametersFields, JFields.norm, MLInputOutputParameters.toP, MLInputOutputParameters.ofP, norm_string]
theorem good_mlInputOutputParameters (x : MLInputOutputParameters) : J.mlInputOutputParameters.good x :=
  ((goodF_field (good_string _) goodF_nil) : J.mlInputOutputParametersFields.good x.toP)

theorem norm_mlModelParametersApproach (x : MLModelParametersApproach) : J.mlModelParametersApproach.norm x = x := by
  show MLModelParametersApproach.ofP (J.mlModelParametersApproachFields.norm x.toP) = _
  simp only [J.mlModelParametersApproachFields, JFields.norm, MLModelParametersApproach.toP, MLModelParametersApproach.ofP, norm_string]
theorem good_mlModelParametersApproach (x : MLModelParametersApproach) : J.mlModelParametersApproach.good x :=
  ((goodF_field (good_string _) goodF_nil) : J.mlModelParametersApproachFields.good x.toP)

theorem norm_mlModelParameters (x : MLModelParameters) : J.mlModelParameters.norm x = x.canonical := by
  show MLModelParameters.ofP (J.mlModelParametersFields.norm x.toP) = _
  simp only [J.mlModelParametersFields, JFields.norm, MLModelParameters.toP, MLModelParameters.ofP, MLModelParameters.canonical, norm_option_id (c := J.mlModelParametersApproach) (fun _ => rfl) norm_mlModelParametersApproach, norm_pslice norm_mlDatasetChoice, norm_pslice_id norm_mlInputOutputParameters, norm_string]
theorem good_mlModelParameters (x : MLModelParameters) : J.mlModelParameters.good x :=
  ((goodF_field (good_option fun y _ => good_mlModelParametersApproach y) (goodF_field (good_string _) (goodF_field (good_string _) (goodF_field (good_string _) (goodF_field (good_pslice fun y _ => good_mlDatasetChoice y) (goodF_field (good_pslice fun y _ => good_mlInputOutputParameters y) (goodF_field (good_pslice fun y _ => good_mlInputOutputParameters y) goodF_nil))))))) : J.mlModelParametersFields.good x.toP)

theorem norm_mlPerformanceMetricConfidenceInterval (x : MLPerformanceMetricConfidenceInterval) : J.mlPerformanceMetricConfidenceInterval.norm x = x := by
  show MLPerformanceMetricConfidenceInterval.ofP (J.mlPerformanceMetricConfidenceIntervalFields.norm x.toP) = _
  simp only [J.mlPerformanceMetricConfidenceIntervalFields, JFields.norm, MLPerformanceMetricConfidenceInterval.toP, MLPerformanceMetricConfidenceInterval.ofP, norm_string]
theorem good_mlPerformanceMetricConfidenceInterval (x : MLPerformanceMetricConfidenceInterval) : J.mlPerformanceMetricConfidenceInterval.good x :=
  ((goodF_field (good_string _) (goodF_field (good_string _) goodF_nil)) : J.mlPerformanceMetricConfidenceIntervalFields.good x.toP)

theorem norm_mlPerformanceMetric (x : MLPerformanceMetric) : J.mlPerformanceMetric.norm x = x := by
  show MLPerformanceMetric.ofP (J.mlPerformanceMetricFields.norm x.toP) = _
  simp only [J.mlPerformanceMetricFields, JFields.norm, MLPerformanceMetric.toP, MLPerformanceMetric.ofP, norm_option_id (c := J.mlPerformanceMetricConfidenceInterval) (fun _ => rfl) norm_mlPerformanceMetricConfidenceInterval, norm_string]
theorem good_mlPerformanceMetric (x : MLPerformanceMetric) : J.mlPerformanceMetric.good x :=
  ((goodF_field (good_string _) (goodF_field (good_string _) (goodF_field (good_string _) (goodF_field (good_option fun y _ => good_mlPerformanceMetricConfidenceInterval y) goodF_nil)))) : J.mlPerformanceMetricFields.good x.toP)

theorem norm_mlQuantitativeAnalysis (x : MLQuantitativeAnalysis) : J.mlQuantitativeAnalysis.norm x = x.canonical := by
  show MLQuantitativeAnalysis.ofP (J.mlQuantitativeAnalysisFields.norm x.toP) = _
  simp only [J.mlQuantitativeAnalysisFields, JFields.norm, MLQuantitativeAnalysis.toP, MLQuantitativeAnalysis.ofP, MLQuantitativeAnalysis.canonical, norm_option (c := J.componentDataGraphics) (fun _ => rfl) norm_componentDataGraphics, norm_pslice_id norm_mlPerformanceMetric]
theorem good_mlQuantitativeAnalysis (x : MLQuantitativeAnalysis) : J.mlQuantitativeAnalysis.good x :=
  ((goodF_field (good_pslice fun y _ => good_mlPerformanceMetric y) (goodF_field (good_option fun y _ => good_componentDataGraphics y) goodF_nil)) : J.mlQuantitativeAnalysisFields.good x.toP)

theorem norm_mlModelCard (x : MLModelCard) : J.mlModelCard.norm x = x.canonical := by
  show MLModelCard.ofP (J.mlModelCardFields.norm x.toP) = _
  simp only [J.mlModelCardFields, JFields.norm, MLModelCard.toP, MLModelCard.ofP, MLModelCard.canonical, norm_option (c := J.mlModelCardConsiderations) (fun _ => rfl) norm_mlModelCardConsiderations, norm_option (c := J.mlModelParameters) (fun _ => rfl) norm_mlModelParameters, norm_option (c := J.mlQuantitativeAnalysis) (fun _ => rfl) norm_mlQuantitativeAnalysis, norm_string]
theorem good_mlModelCard (x : MLModelCard) : J.mlModelCard.good x :=
  ((goodF_field (good_string _) (goodF_field (good_option fun y _ => good_mlModelParameters y) (goodF_field (good_option fun y _ => good_mlQuantitativeAnalysis y) (goodF_field (good_option fun y _ => good_mlModelCardConsiderations y) goodF_nil)))) : J.mlModelCardFields.good x.toP)

theorem norm_identifiableAction (x : IdentifiableAction) : J.identifiableAction.norm x = x := by
  show IdentifiableAction.ofP (J.identifiableActionFields.norm x.toP) = _
  simp only [J.identifiableActionFields, JFields.norm, IdentifiableAction.toP, IdentifiableAction.ofP, norm_string]
theorem good_identifiableAction (x : IdentifiableAction) : J.identifiableAction.good x :=
  ((goodF_field (good_string _) (goodF_field (good_string _) (goodF_field (good_string _) goodF_nil))) : J.identifiableActionFields.good x.toP)

theorem norm_commit (x : Commit) : J.commit.norm x = x := by
  show Commit.ofP (J.commitFields.norm x.toP) = _
  simp only [J.commitFields, JFields.norm, Commit.toP, Commit.ofP, norm_option_id (c := J.identifiableAction) (fun _ => rfl) norm_identifiableAction, norm_string]
theorem good_commit (x : Commit) : J.commit.good x :=
  ((goodF_field (good_string _) (goodF_field (good_string _) (goodF_field (good_option fun y _ => good_identifiableAction y) (goodF_field (good_option fun y _ => good_identifiableAction y) (goodF_field (good_string _) goodF_nil))))) : J.commitFields.good x.toP)

theorem norm_diff (x : Diff) : J.diff.norm x = x := by
  show Diff.ofP (J.diffFields.norm x.toP) = _
  simp only [J.diffFields, JFields.norm, Diff.toP, Diff.ofP, norm_option_id (c := J.attachedText) (fun _ => rfl) norm_attachedText, norm_string]
theorem good_diff (x : Diff) : J.diff.good x :=
  ((goodF_field (good_option fun y _ => good_attachedText y) (goodF_field (good_string _) goodF_nil)) : J.diffFields.good x.toP)

theorem norm_source (x : Source) : J.source.norm x = x := by
  show Source.ofP (J.sourceFields.norm x.toP) = _
  simp only [J.sourceFields, JFields.norm, Source.toP, Source.ofP, norm_string]
theorem good_source (x : Source) : J.source.good x :=
  ((goodF_field (good_string _) (goodF_field (good_string _) goodF_nil)) : J.sourceFields.good x.toP)

theorem norm_issue (x : Issue) : J.issue.norm x = x.canonical := by
  show Issue.ofP (J.issueFields.norm x.toP) = _
  simp only [J.issueFields, JFields.norm, Issue.toP, Issue.ofP, Issue.canonical, norm_option_id (c := J.source) (fun _ => rfl) norm_source, norm_pslice_id norm_string, norm_string]
theorem good_issue (x : Issue) : J.issue.good x :=
  ((goodF_field (good_string _) (goodF_field (good_string _) (goodF_field (good_string _) (goodF_field (good_option fun y _ => good_source y) (goodF_field (good_pslice fun y _ => good_string y) (goodF_field (good_string _) goodF_nil)))))) : J.issueFields.good x.toP)

theorem norm_patch (x : Patch) : J.patch.norm x = x.canonical := by
  show Patch.ofP (J.patchFields.norm x.toP) = _
  simp only [J.patchFields, JFields.norm, Patch.toP, Patch.ofP, Patch.canonical, norm_option_id (c := J.diff) (fun _ => rfl) norm_diff, norm_pslice norm_issue, norm_string]
theorem good_patch (x : Patch) : J.patch.good x :=
  ((goodF_field (good_option fun y _ => good_diff y) (goodF_field (good_pslice fun y _ => good_issue y) (goodF_field (good_string _) goodF_nil))) : J.patchFields.good x.toP)

theorem norm_pedigreeWith (C : JCodec Component) (x : Pedigree Component)
    (hancestors : (JCodec.pslice C).norm x.ancestors = canonicalComponents x.ancestors)
    (hdescendants : (JCodec.pslice C).norm x.descendants = canonicalComponents x.descendants)
    (hvariants : (JCodec.pslice C).norm x.variants = canonicalComponents x.variants) :
    (J.pedigree C).norm x = canonicalPedigree x := by
  show Pedigree.ofP ((J.pedigreeFields C).norm x.toP) = _
  simp only [J.pedigreeFields, JFields.norm, Pedigree.toP, Pedigree.ofP, hancestors, hdescendants, hvariants, norm_pslice norm_patch, norm_pslice_id norm_commit, norm_string]
  cases x
  rfl

theorem good_pedigreeWith (C : JCodec Component) (x : Pedigree Component)
    (hancestors : (JCodec.pslice C).good x.ancestors)
    (hdescendants : (JCodec.pslice C).good x.descendants)
    (hvariants : (JCodec.pslice C).good x.variants) : (J.pedigree C).good x :=
  ((goodF_field hancestors (goodF_field hdescendants (goodF_field hvariants (goodF_field (good_pslice fun y _ => good_commit y) (goodF_field (good_pslice fun y _ => good_patch y) (goodF_field (good_string _) goodF_nil)))))) : (J.pedigreeFields C).good x.toP)

theorem norm_note (x : Note) : J.note.norm x = x := by
  show Note.ofP (J.noteFields.norm x.toP) = _
  simp only [J.noteFields, JFields.norm, Note.toP, Note.ofP, norm_attachedText, norm_string]
theorem good_note (x : Note) : J.note.good x :=
  ((goodF_field (good_string _) (goodF_field (good_attachedText _) goodF_nil)) : J.noteFields.good x.toP)

theorem norm_releaseNotes (x : ReleaseNotes) : J.releaseNotes.norm x = x.canonical := by
  show ReleaseNotes.ofP (J.releaseNotesFields.norm x.toP) = _
  simp only [J.releaseNotesFields, JFields.norm, ReleaseNotes.toP, ReleaseNotes.ofP, ReleaseNotes.canonical, norm_pslice norm_issue, norm_pslice_id norm_note, norm_pslice_id norm_property, norm_pslice_id norm_string, norm_string]
theorem good_releaseNotes (x : ReleaseNotes) : J.releaseNotes.good x :=
  ((goodF_field (good_string _) (goodF_field (good_string _) (goodF_field (good_string _) (goodF_field (good_string _) (goodF_field (good_string _) (goodF_field (good_string _) (goodF_field (good_pslice fun y _ => good_string y) (goodF_field (good_pslice fun y _ => good_string y) (goodF_field (good_pslice fun y _ => good_issue y) (goodF_field (good_pslice fun y _ => good_note y) (goodF_field (good_pslice fun y _ => good_property y) goodF_nil))))))))))) : J.releaseNotesFields.good x.toP)

theorem norm_swid (x : SWID) : J.swid.norm x = x := by
  show SWID.ofP (J.swidFields.norm x.toP) = _
  simp only [J.swidFields, JFields.norm, SWID.toP, SWID.ofP, norm_option_id (c := J.attachedText) (fun _ => rfl) norm_attachedText, norm_option_id (c := JCodec.bool) (fun _ => rfl) norm_bool, norm_option_id (c := JCodec.int) (fun _ => rfl) norm_int, norm_string]
theorem good_swid {x : SWID} (h : x.Regular) : J.swid.good x :=
  ((goodF_field (good_option fun y _ => good_attachedText y) (goodF_field (good_string _) (goodF_field (good_string _) (goodF_field (good_string _) (goodF_field (good_string _) (goodF_field (good_option fun y hy => good_int (h y hy)) (goodF_field (good_option fun y _ => good_bool y) goodF_nil))))))) : J.swidFields.good x.toP)

theorem norm_asserterChoice (x : AsserterChoice) : J.asserterChoice.norm x = x.canonical := by
  obtain ⟨r, o, i⟩ := x
  cases o <;> cases i <;> cases r <;>
    simp [J.asserterChoice, AsserterChoice.canonical, norm_organizationalEntity, norm_organizationalContact]
theorem good_asserterChoice (x : AsserterChoice) : J.asserterChoice.good x := by
  obtain ⟨r, o, i⟩ := x
  cases o <;> cases i <;> cases r <;> simp [J.asserterChoice, good_organizationalEntity, good_organizationalContact]

theorem norm_patentAssertion (x : PatentAssertion) : J.patentAssertion.norm x = x.canonical := by
  show PatentAssertion.ofP (J.patentAssertionFields.norm x.toP) = _
  simp only [J.patentAssertionFields, JFields.norm, PatentAssertion.toP, PatentAssertion.ofP, PatentAssertion.canonical, norm_option (c := J.asserterChoice) (fun _ => rfl) norm_asserterChoice, norm_pslice_id norm_bomReference, norm_string]
theorem good_patentAssertion (x : PatentAssertion) : J.patentAssertion.good x :=
  ((goodF_field (good_string _) (goodF_field (good_pslice fun y _ => good_bomReference y) (goodF_field (good_string _) (goodF_field (good_option fun y _ => good_asserterChoice y) (goodF_field (good_string _) goodF_nil))))) : J.patentAssertionFields.good x.toP)

omit [FloatIO] in
theorem canonicalComponentList_eq (xs : List Component) :
    canonicalComponentList xs = xs.map Component.canonical := by
  induction xs with
  | nil => rfl
  | cons x xs ih => simp [canonicalComponentList, ih]

omit [FloatIO] in
theorem canonicalComponents_eq (p : PSlice Component) :
    canonicalComponents p = p.compactWith Component.canonical := by
  cases p <;> simp [canonicalComponents, PSlice.compactWith, canonicalComponentList_eq]

omit [FloatIO] in
theorem regularComponentList_iff (xs : List Component) :
    RegularComponentList xs ↔ ∀ c ∈ xs, c.Regular := by
  induction xs with
  | nil => simp [RegularComponentList]
  | cons x xs ih => simp [RegularComponentList, ih]

omit [FloatIO] in
theorem regularComponents_iff (p : PSlice Component) : RegularComponents p ↔ ∀ c ∈ p.elems, c.Regular := by
  cases p <;> simp [RegularComponents, PSlice.elems, regularComponentList_iff]

theorem norm_componentWith (C : JCodec Component) (x : Component)
    (h1 : (JCodec.pslice C).norm x.components = canonicalComponents x.components)
    (h2 : ∀ p ∈ x.pedigree, (J.pedigree C).norm p = canonicalPedigree p) :
    (J.componentWith C).norm x = x.canonical := by
  have h3 : (JCodec.option (J.pedigree C)).norm x.pedigree = canonicalPedigreeOpt x.pedigree := by
    cases hp : x.pedigree with
    | none => simp [JCodec.option, canonicalPedigreeOpt]
    | some p =>
      have := h2 p hp
      simp only [JCodec.option, canonicalPedigreeOpt, this]
      rfl
  show Component.ofP ((J.componentFields C).norm x.toP) = _
  simp only [J.componentFields, JFields.norm, Component.toP, Component.ofP, h1, h3, norm_option (c := J.cryptoProperties) (fun _ => rfl) norm_cryptoProperties, norm_option (c := J.evidence) (fun _ => rfl) norm_evidence, norm_option (c := J.jsfSignature) (fun _ => rfl) norm_jsfSignature, norm_option (c := J.mlModelCard) (fun _ => rfl) norm_mlModelCard, norm_option (c := J.organizationalEntity) (fun _ => rfl) norm_organizationalEntity, norm_option (c := J.releaseNotes) (fun _ => rfl) norm_releaseNotes, norm_option_id (c := J.swid) (fun _ => rfl) norm_swid, norm_option_id (c := JCodec.bool) (fun _ => rfl) norm_bool, norm_pslice norm_componentData, norm_pslice norm_externalReference, norm_pslice norm_licenseChoice, norm_pslice norm_patentAssertion, norm_pslice_id norm_hash, norm_pslice_id norm_organizationalContact, norm_pslice_id norm_property, norm_pslice_id norm_string, norm_string]
  cases x
  simp only [Component.canonical]

theorem good_componentWith (C : JCodec Component) (x : Component) (h : x.Regular)
    (h1 : RegularComponents x.components → (JCodec.pslice C).good x.components)
    (h3 : RegularPedigreeOpt x.pedigree → (JCodec.option (J.pedigree C)).good x.pedigree) :
    (J.componentWith C).good x := by
  show (J.componentFields C).good x.toP
  cases x
  simp only [Component.Regular] at h h1 h3
  obtain ⟨r0, r1, r2, r3, r4⟩ := h
  exact (goodF_field (good_string _) (goodF_field (good_string _) (goodF_field (good_string _) (goodF_field (good_option fun y _ => good_organizationalEntity y) (goodF_field (good_option fun y _ => good_organizationalEntity y) (goodF_field (good_string _) (goodF_field (good_pslice fun y _ => good_organizationalContact y) (goodF_field (good_string _) (goodF_field (good_string _) (goodF_field (good_string _) (goodF_field (good_string _) (goodF_field (good_string _) (goodF_field (good_string _) (goodF_field (good_pslice fun y _ => good_hash y) (goodF_field (good_pslice fun y _ => good_licenseChoice y) (goodF_field (good_string _) (goodF_field (good_string _) (goodF_field (good_string _) (goodF_field (good_pslice fun y _ => good_string y) (goodF_field (good_pslice fun y _ => good_string y) (goodF_field (good_option fun y hy => good_swid (r0 y hy)) (goodF_field (good_option fun y _ => good_bool y) (goodF_field (h3 r1) (goodF_field (good_pslice fun y _ => good_externalReference y) (goodF_field (good_pslice fun y _ => good_property y) (goodF_field (h1 r2) (goodF_field (good_option fun y hy => good_evidence (r3 y hy)) (goodF_field (good_option fun y _ => good_releaseNotes y) (goodF_field (good_option fun y _ => good_mlModelCard y) (goodF_field (good_pslice fun y _ => good_componentData y) (goodF_field (good_option fun y hy => good_cryptoProperties (r4 y hy)) (goodF_field (good_pslice fun y _ => good_string y) (goodF_field (good_option fun y _ => good_bool y) (goodF_field (good_pslice fun y _ => good_patentAssertion y) (goodF_field (good_string _) (goodF_field (good_option fun y _ => good_jsfSignature y) goodF_nil))))))))))))))))))))))))))))))))))))

theorem norm_component (x : Component) : J.component.norm x = x.canonical := by
  induction x using Component.induct with
  | h x ih =>
    rw [(component_sameAt_self x).norm]
    have hl : ∀ p : PSlice Component, (∀ c ∈ p.elems, J.component.norm c = c.canonical) →
        (JCodec.pslice J.component).norm p = canonicalComponents p := by
      intro p hp
      rw [canonicalComponents_eq]
      cases p with
      | list xs =>
        simp only [JCodec.pslice, PSlice.compactWith, PSlice.list.injEq]
        exact List.map_congr_left hp
      | _ => rfl
    refine norm_componentWith _ x (hl _ fun c hc => ih c (by simp [Component.children, hc])) ?_
    intro p hp
    have hp : x.pedigree = some p := hp
    have ih' : ∀ d ∈ p.relatives, J.component.norm d = d.canonical :=
      fun d hd => ih d (by simp [Component.children, hp, hd])
    exact norm_pedigreeWith _ p (hl _ fun c hc => ih' c (by simp [Pedigree.relatives, hc]))
      (hl _ fun c hc => ih' c (by simp [Pedigree.relatives, hc]))
      (hl _ fun c hc => ih' c (by simp [Pedigree.relatives, hc]))

theorem good_component {x : Component} : x.Regular → J.component.good x := by
  induction x using Component.induct with
  | h x ih =>
    intro h
    rw [(component_sameAt_self x).good]
    have hl : ∀ p : PSlice Component, (∀ c ∈ p.elems, c.Regular → J.component.good c) →
        RegularComponents p → (JCodec.pslice J.component).good p := by
      intro p hp hr
      rw [regularComponents_iff] at hr
      exact good_pslice fun c hc => hp c hc (hr c hc)
    refine good_componentWith _ x h (hl _ fun c hc => ih c (by simp [Component.children, hc])) ?_
    intro hr
    refine good_option fun p hp => ?_
    have hp : x.pedigree = some p := hp
    have ih' : ∀ d ∈ p.relatives, d.Regular → J.component.good d :=
      fun d hd => ih d (by simp [Component.children, hp, hd])
    rw [hp] at hr
    have hr : RegularPedigree p := hr
    have hr' : RegularComponents p.ancestors ∧ RegularComponents p.descendants ∧ RegularComponents p.variants := by
      cases p; exact hr
    exact good_pedigreeWith _ p (hl _ (fun c hc => ih' c (by simp [Pedigree.relatives, hc])) hr'.1)
      (hl _ (fun c hc => ih' c (by simp [Pedigree.relatives, hc])) hr'.2.1)
      (hl _ (fun c hc => ih' c (by simp [Pedigree.relatives, hc])) hr'.2.2)

theorem norm_dataClassification (x : DataClassification) : J.dataClassification.norm x = x.canonical := by
  show DataClassification.ofP (J.dataClassificationFields.norm x.toP) = _
  simp only [J.dataClassificationFields, JFields.norm, DataClassification.toP, DataClassification.ofP, DataClassification.canonical, norm_option (c := J.dataGovernance) (fun _ => rfl) norm_dataGovernance, norm_pslice_id norm_string, norm_string]
theorem good_dataClassification (x : DataClassification) : J.dataClassification.good x :=
  ((goodF_field (good_string _) (goodF_field (good_string _) (goodF_field (good_string _) (goodF_field (good_string _) (goodF_field (good_option fun y _ => good_dataGovernance y) (goodF_field (good_pslice fun y _ => good_string y) (goodF_field (good_pslice fun y _ => good_string y) goodF_nil))))))) : J.dataClassificationFields.good x.toP)

omit [FloatIO] in
theorem canonicalServiceList_eq (xs : List Service) :
    canonicalServiceList xs = xs.map Service.canonical := by
  induction xs with
  | nil => rfl
  | cons x xs ih => simp [canonicalServiceList, ih]

omit [FloatIO] in
theorem canonicalServices_eq (p : PSlice Service) :
    canonicalServices p = p.compactWith Service.canonical := by
  cases p <;> simp [canonicalServices, PSlice.compactWith, canonicalServiceList_eq]

omit [FloatIO] in
theorem regularServiceList_iff (xs : List Service) :
    RegularServiceList xs ↔ ∀ c ∈ xs, c.Regular := by
  induction xs with
  | nil => simp [RegularServiceList]
  | cons x xs ih => simp [RegularServiceList, ih]

omit [FloatIO] in
theorem regularServices_iff (p : PSlice Service) : RegularServices p ↔ ∀ c ∈ p.elems, c.Regular := by
  cases p <;> simp [RegularServices, PSlice.elems, regularServiceList_iff]

theorem norm_serviceWith (C : JCodec Service) (x : Service)
    (h1 : (JCodec.pslice C).norm x.services = canonicalServices x.services) :
    (J.serviceWith C).norm x = x.canonical := by
  show Service.ofP ((J.serviceFields C).norm x.toP) = _
  simp only [J.serviceFields, JFields.norm, Service.toP, Service.ofP, h1, norm_option (c := J.jsfSignature) (fun _ => rfl) norm_jsfSignature, norm_option (c := J.organizationalEntity) (fun _ => rfl) norm_organizationalEntity, norm_option (c := J.releaseNotes) (fun _ => rfl) norm_releaseNotes, norm_option_id (c := JCodec.bool) (fun _ => rfl) norm_bool, norm_pslice norm_dataClassification, norm_pslice norm_externalReference, norm_pslice norm_licenseChoice, norm_pslice norm_patentAssertion, norm_pslice_id norm_property, norm_pslice_id norm_string, norm_string]
  cases x
  simp only [Service.canonical]

theorem good_serviceWith (C : JCodec Service) (x : Service) (h : x.Regular)
    (h1 : RegularServices x.services → (JCodec.pslice C).good x.services) :
    (J.serviceWith C).good x := by
  show (J.serviceFields C).good x.toP
  cases x
  simp only [Service.Regular] at h h1
  exact (goodF_field (good_string _) (goodF_field (good_option fun y _ => good_organizationalEntity y) (goodF_field (good_string _) (goodF_field (good_string _) (goodF_field (good_string _) (goodF_field (good_string _) (goodF_field (good_pslice fun y _ => good_string y) (goodF_field (good_option fun y _ => good_bool y) (goodF_field (good_option fun y _ => good_bool y) (goodF_field (good_pslice fun y _ => good_dataClassification y) (goodF_field (good_pslice fun y _ => good_licenseChoice y) (goodF_field (good_pslice fun y _ => good_externalReference y) (goodF_field (good_pslice fun y _ => good_property y) (goodF_field (h1 h) (goodF_field (good_option fun y _ => good_releaseNotes y) (goodF_field (good_pslice fun y _ => good_string y) (goodF_field (good_string _) (goodF_field (good_pslice fun y _ => good_patentAssertion y) (goodF_field (good_option fun y _ => good_jsfSignature y) goodF_nil)))))))))))))))))))

theorem norm_service (x : Service) : J.service.norm x = x.canonical := by
  induction x using Service.induct with
  | h x ih =>
    rw [(service_sameAt_self x).norm]
    refine norm_serviceWith _ x ?_
    rw [canonicalServices_eq]
    have ih' : ∀ c ∈ x.services.elems, J.service.norm c = c.canonical :=
      fun c hc => ih c (by simp [Service.children, hc])
    cases hx : x.services with
    | list xs =>
      rw [hx] at ih'
      simp only [JCodec.pslice, PSlice.compactWith, PSlice.list.injEq]
      exact List.map_congr_left ih'
    | _ => rfl

theorem good_service {x : Service} : x.Regular → J.service.good x := by
  induction x using Service.induct with
  | h x ih =>
    intro h
    rw [(service_sameAt_self x).good]
    refine good_serviceWith _ x h fun hr => ?_
    rw [regularServices_iff] at hr
    exact good_pslice fun c hc => ih c (by simp [Service.children, hc]) (hr c hc)

theorem norm_annotator (x : Annotator) : J.annotator.norm x = x.canonical := by
  show Annotator.ofP (J.annotatorFields.norm x.toP) = _
  simp only [J.annotatorFields, JFields.norm, Annotator.toP, Annotator.ofP, Annotator.canonical, norm_option (c := J.component) (fun _ => rfl) norm_component, norm_option (c := J.organizationalEntity) (fun _ => rfl) norm_organizationalEntity, norm_option (c := J.service) (fun _ => rfl) norm_service, norm_option_id (c := J.organizationalContact) (fun _ => rfl) norm_organizationalContact]
theorem good_annotator {x : Annotator} (h : x.Regular) : J.annotator.good x :=
  ((goodF_field (good_option fun y _ => good_organizationalEntity y) (goodF_field (good_option fun y _ => good_organizationalContact y) (goodF_field (good_option fun y hy => good_component (h.1 y hy)) (goodF_field (good_option fun y hy => good_service (h.2 y hy)) goodF_nil)))) : J.annotatorFields.good x.toP)

theorem norm_annotation (x : Annotation) : J.annotation.norm x = x.canonical := by
  show Annotation.ofP (J.annotationFields.norm x.toP) = _
  simp only [J.annotationFields, JFields.norm, Annotation.toP, Annotation.ofP, Annotation.canonical, norm_option (c := J.annotator) (fun _ => rfl) norm_annotator, norm_option (c := J.jsfSignature) (fun _ => rfl) norm_jsfSignature, norm_pslice_id norm_bomReference, norm_string]
theorem good_annotation {x : Annotation} (h : x.Regular) : J.annotation.good x :=
  ((goodF_field (good_string _) (goodF_field (good_pslice fun y _ => good_bomReference y) (goodF_field (good_option fun y hy => good_annotator (h y hy)) (goodF_field (good_string _) (goodF_field (good_string _) (goodF_field (good_option fun y _ => good_jsfSignature y) goodF_nil)))))) : J.annotationFields.good x.toP)

theorem norm_assessor (x : Assessor) : J.assessor.norm x = x.canonical := by
  show Assessor.ofP (J.assessorFields.norm x.toP) = _
  simp only [J.assessorFields, JFields.norm, Assessor.toP, Assessor.ofP, Assessor.canonical, norm_bomReference, norm_bool, norm_option (c := J.organizationalEntity) (fun _ => rfl) norm_organizationalEntity]
theorem good_assessor (x : Assessor) : J.assessor.good x :=
  ((goodF_field (good_bomReference _) (goodF_field (good_bool _) (goodF_field (good_option fun y _ => good_organizationalEntity y) goodF_nil))) : J.assessorFields.good x.toP)

theorem norm_attestationConformance (x : AttestationConformance) : J.attestationConformance.norm x = x.canonical := by
  show AttestationConformance.ofP (J.attestationConformanceFields.norm x.toP) = _
  simp only [J.attestationConformanceFields, JFields.norm, AttestationConformance.toP, AttestationConformance.ofP, AttestationConformance.canonical, norm_option_id (c := JCodec.f64) (fun _ => rfl) norm_f64, norm_pslice_id norm_bomReference, norm_string]
theorem good_attestationConformance (x : AttestationConformance) : J.attestationConformance.good x :=
  ((goodF_field (good_option fun y _ => good_f64 y) (goodF_field (good_string _) (goodF_field (good_pslice fun y _ => good_bomReference y) goodF_nil))) : J.attestationConformanceFields.good x.toP)

theorem norm_attestationConfidence (x : AttestationConfidence) : J.attestationConfidence.norm x = x := by
  show AttestationConfidence.ofP (J.attestationConfidenceFields.norm x.toP) = _
  simp only [J.attestationConfidenceFields, JFields.norm, AttestationConfidence.toP, AttestationConfidence.ofP, norm_option_id (c := JCodec.f64) (fun _ => rfl) norm_f64, norm_string]
theorem good_attestationConfidence (x : AttestationConfidence) : J.attestationConfidence.good x :=
  ((goodF_field (good_option fun y _ => good_f64 y) (goodF_field (good_string _) goodF_nil)) : J.attestationConfidenceFields.good x.toP)

theorem norm_attestationMap (x : AttestationMap) : J.attestationMap.norm x = x.canonical := by
  show AttestationMap.ofP (J.attestationMapFields.norm x.toP) = _
  simp only [J.attestationMapFields, JFields.norm, AttestationMap.toP, AttestationMap.ofP, AttestationMap.canonical, norm_option (c := J.attestationConformance) (fun _ => rfl) norm_attestationConformance, norm_option_id (c := J.attestationConfidence) (fun _ => rfl) norm_attestationConfidence, norm_pslice_id norm_bomReference, norm_string]
theorem good_attestationMap (x : AttestationMap) : J.attestationMap.good x :=
  ((goodF_field (good_string _) (goodF_field (good_pslice fun y _ => good_bomReference y) (goodF_field (good_pslice fun y _ => good_bomReference y) (goodF_field (good_option fun y _ => good_attestationConformance y) (goodF_field (good_option fun y _ => good_attestationConfidence y) goodF_nil))))) : J.attestationMapFields.good x.toP)

theorem norm_attestation (x : Attestation) : J.attestation.norm x = x.canonical := by
  show Attestation.ofP (J.attestationFields.norm x.toP) = _
  simp only [J.attestationFields, JFields.norm, Attestation.toP, Attestation.ofP, Attestation.canonical, norm_bomReference, norm_option (c := J.jsfSignature) (fun _ => rfl) norm_jsfSignature, norm_pslice norm_attestationMap, norm_string]
theorem good_attestation (x : Attestation) : J.attestation.good x :=
  ((goodF_field (good_string _) (goodF_field (good_bomReference _) (goodF_field (good_pslice fun y _ => good_attestationMap y) (goodF_field (good_option fun y _ => good_jsfSignature y) goodF_nil)))) : J.attestationFields.good x.toP)

theorem norm_composition (x : Composition) : J.composition.norm x = x.canonical := by
  show Composition.ofP (J.compositionFields.norm x.toP) = _
  simp only [J.compositionFields, JFields.norm, Composition.toP, Composition.ofP, Composition.canonical, norm_option (c := J.jsfSignature) (fun _ => rfl) norm_jsfSignature, norm_pslice_id norm_bomReference, norm_string]
theorem good_composition (x : Composition) : J.composition.good x :=
  ((goodF_field (good_string _) (goodF_field (good_string _) (goodF_field (good_pslice fun y _ => good_bomReference y) (goodF_field (good_pslice fun y _ => good_bomReference y) (goodF_field (good_pslice fun y _ => good_bomReference y) (goodF_field (good_option fun y _ => good_jsfSignature y) goodF_nil)))))) : J.compositionFields.good x.toP)

theorem norm_claim (x : Claim) : J.claim.norm x = x.canonical := by
  show Claim.ofP (J.claimFields.norm x.toP) = _
  simp only [J.claimFields, JFields.norm, Claim.toP, Claim.ofP, Claim.canonical, norm_bomReference, norm_option (c := J.jsfSignature) (fun _ => rfl) norm_jsfSignature, norm_pslice norm_externalReference, norm_pslice_id norm_bomReference, norm_string]
theorem good_claim (x : Claim) : J.claim.good x :=
  ((goodF_field (good_string _) (goodF_field (good_bomReference _) (goodF_field (good_string _) (goodF_field (good_pslice fun y _ => good_bomReference y) (goodF_field (good_string _) (goodF_field (good_pslice fun y _ => good_bomReference y) (goodF_field (good_pslice fun y _ => good_bomReference y) (goodF_field (good_pslice fun y _ => good_externalReference y) (goodF_field (good_option fun y _ => good_jsfSignature y) goodF_nil))))))))) : J.claimFields.good x.toP)

theorem norm_evidenceDataContents (x : EvidenceDataContents) : J.evidenceDataContents.norm x = x := by
  show EvidenceDataContents.ofP (J.evidenceDataContentsFields.norm x.toP) = _
  simp only [J.evidenceDataContentsFields, JFields.norm, EvidenceDataContents.toP, EvidenceDataContents.ofP, norm_option_id (c := J.attachedText) (fun _ => rfl) norm_attachedText, norm_string]
theorem good_evidenceDataContents (x : EvidenceDataContents) : J.evidenceDataContents.good x :=
  ((goodF_field (good_option fun y _ => good_attachedText y) (goodF_field (good_string _) goodF_nil)) : J.evidenceDataContentsFields.good x.toP)

theorem norm_evidenceData (x : EvidenceData) : J.evidenceData.norm x = x.canonical := by
  show EvidenceData.ofP (J.evidenceDataFields.norm x.toP) = _
  simp only [J.evidenceDataFields, JFields.norm, EvidenceData.toP, EvidenceData.ofP, EvidenceData.canonical, norm_option (c := J.dataClassification) (fun _ => rfl) norm_dataClassification, norm_option (c := J.dataGovernance) (fun _ => rfl) norm_dataGovernance, norm_option_id (c := J.evidenceDataContents) (fun _ => rfl) norm_evidenceDataContents, norm_pslice_id norm_string, norm_string]
theorem good_evidenceData (x : EvidenceData) : J.evidenceData.good x :=
  ((goodF_field (good_string _) (goodF_field (good_option fun y _ => good_evidenceDataContents y) (goodF_field (good_option fun y _ => good_dataClassification y) (goodF_field (good_pslice fun y _ => good_string y) (goodF_field (good_option fun y _ => good_dataGovernance y) goodF_nil))))) : J.evidenceDataFields.good x.toP)

theorem norm_declarationEvidence (x : DeclarationEvidence) : J.declarationEvidence.norm x = x.canonical := by
  show DeclarationEvidence.ofP (J.declarationEvidenceFields.norm x.toP) = _
  simp only [J.declarationEvidenceFields, JFields.norm, DeclarationEvidence.toP, DeclarationEvidence.ofP, DeclarationEvidence.canonical, norm_option (c := J.jsfSignature) (fun _ => rfl) norm_jsfSignature, norm_option_id (c := J.organizationalContact) (fun _ => rfl) norm_organizationalContact, norm_pslice norm_evidenceData, norm_string]
theorem good_declarationEvidence (x : DeclarationEvidence) : J.declarationEvidence.good x :=
  ((goodF_field (good_string _) (goodF_field (good_string _) (goodF_field (good_string _) (goodF_field (good_pslice fun y _ => good_evidenceData y) (goodF_field (good_string _) (goodF_field (good_string _) (goodF_field (good_option fun y _ => good_organizationalContact y) (goodF_field (good_option fun y _ => good_organizationalContact y) (goodF_field (good_option fun y _ => good_jsfSignature y) goodF_nil))))))))) : J.declarationEvidenceFields.good x.toP)

theorem norm_targets (x : Targets) : J.targets.norm x = x.canonical := by
  show Targets.ofP (J.targetsFields.norm x.toP) = _
  simp only [J.targetsFields, JFields.norm, Targets.toP, Targets.ofP, Targets.canonical, norm_pslice norm_component, norm_pslice norm_organizationalEntity, norm_pslice norm_service]
theorem good_targets {x : Targets} (h : x.Regular) : J.targets.good x :=
  ((goodF_field (good_pslice fun y _ => good_organizationalEntity y) (goodF_field (good_pslice fun y hy => good_component (h.1 y hy)) (goodF_field (good_pslice fun y hy => good_service (h.2 y hy)) goodF_nil))) : J.targetsFields.good x.toP)

theorem norm_signatory (x : Signatory) : J.signatory.norm x = x.canonical := by
  show Signatory.ofP (J.signatoryFields.norm x.toP) = _
  simp only [J.signatoryFields, JFields.norm, Signatory.toP, Signatory.ofP, Signatory.canonical, norm_option (c := J.externalReference) (fun _ => rfl) norm_externalReference, norm_option (c := J.jsfSignature) (fun _ => rfl) norm_jsfSignature, norm_option (c := J.organizationalEntity) (fun _ => rfl) norm_organizationalEntity, norm_string]
theorem good_signatory (x : Signatory) : J.signatory.good x :=
  ((goodF_field (good_string _) (goodF_field (good_string _) (goodF_field (good_option fun y _ => good_jsfSignature y) (goodF_field (good_option fun y _ => good_organizationalEntity y) (goodF_field (good_option fun y _ => good_externalReference y) goodF_nil))))) : J.signatoryFields.good x.toP)

theorem norm_affirmation (x : Affirmation) : J.affirmation.norm x = x.canonical := by
  show Affirmation.ofP (J.affirmationFields.norm x.toP) = _
  simp only [J.affirmationFields, JFields.norm, Affirmation.toP, Affirmation.ofP, Affirmation.canonical, norm_option (c := J.jsfSignature) (fun _ => rfl) norm_jsfSignature, norm_pslice norm_signatory, norm_string]
theorem good_affirmation (x : Affirmation) : J.affirmation.good x :=
  ((goodF_field (good_string _) (goodF_field (good_pslice fun y _ => good_signatory y) (goodF_field (good_option fun y _ => good_jsfSignature y) goodF_nil))) : J.affirmationFields.good x.toP)

theorem norm_declarations (x : Declarations) : J.declarations.norm x = x.canonical := by
  show Declarations.ofP (J.declarationsFields.norm x.toP) = _
  simp only [J.declarationsFields, JFields.norm, Declarations.toP, Declarations.ofP, Declarations.canonical, norm_option (c := J.affirmation) (fun _ => rfl) norm_affirmation, norm_option (c := J.jsfSignature) (fun _ => rfl) norm_jsfSignature, norm_option (c := J.targets) (fun _ => rfl) norm_targets, norm_pslice norm_assessor, norm_pslice norm_attestation, norm_pslice norm_claim, norm_pslice norm_declarationEvidence]
theorem good_declarations {x : Declarations} (h : x.Regular) : J.declarations.good x :=
  ((goodF_field (good_pslice fun y _ => good_assessor y) (goodF_field (good_pslice fun y _ => good_attestation y) (goodF_field (good_pslice fun y _ => good_claim y) (goodF_field (good_pslice fun y _ => good_declarationEvidence y) (goodF_field (good_option fun y hy => good_targets (h y hy)) (goodF_field (good_option fun y _ => good_affirmation y) (goodF_field (good_option fun y _ => good_jsfSignature y) goodF_nil))))))) : J.declarationsFields.good x.toP)

theorem norm_priorityApplication (x : PriorityApplication) : J.priorityApplication.norm x = x := by
  show PriorityApplication.ofP (J.priorityApplicationFields.norm x.toP) = _
  simp only [J.priorityApplicationFields, JFields.norm, PriorityApplication.toP, PriorityApplication.ofP, norm_string]
theorem good_priorityApplication (x : PriorityApplication) : J.priorityApplication.good x :=
  ((goodF_field (good_string _) (goodF_field (good_string _) (goodF_field (good_string _) goodF_nil))) : J.priorityApplicationFields.good x.toP)

theorem norm_patent (x : Patent) : J.patent.norm x = x.canonical := by
  show Patent.ofP (J.patentFields.norm x.toP) = _
  simp only [J.patentFields, JFields.norm, Patent.toP, Patent.ofP, Patent.canonical, norm_option_id (c := J.priorityApplication) (fun _ => rfl) norm_priorityApplication, norm_pslice norm_externalReference, norm_pslice norm_organizationalEntityOrContact, norm_string]
theorem good_patent (x : Patent) : J.patent.good x :=
  ((goodF_field (good_string _) (goodF_field (good_string _) (goodF_field (good_string _) (goodF_field (good_string _) (goodF_field (good_option fun y _ => good_priorityApplication y) (goodF_field (good_string _) (goodF_field (good_string _) (goodF_field (good_string _) (goodF_field (good_string _) (goodF_field (good_string _) (goodF_field (good_string _) (goodF_field (good_string _) (goodF_field (good_pslice fun y _ => good_organizationalEntityOrContact y) (goodF_field (good_pslice fun y _ => good_externalReference y) goodF_nil)))))))))))))) : J.patentFields.good x.toP)

theorem norm_patentFamily (x : PatentFamily) : J.patentFamily.norm x = x.canonical := by
  show PatentFamily.ofP (J.patentFamilyFields.norm x.toP) = _
  simp only [J.patentFamilyFields, JFields.norm, PatentFamily.toP, PatentFamily.ofP, PatentFamily.canonical, norm_option_id (c := J.priorityApplication) (fun _ => rfl) norm_priorityApplication, norm_pslice norm_externalReference, norm_pslice_id norm_bomReference, norm_string]
theorem good_patentFamily (x : PatentFamily) : J.patentFamily.good x :=
  ((goodF_field (good_string _) (goodF_field (good_string _) (goodF_field (good_option fun y _ => good_priorityApplication y) (goodF_field (good_pslice fun y _ => good_bomReference y) (goodF_field (good_pslice fun y _ => good_externalReference y) goodF_nil))))) : J.patentFamilyFields.good x.toP)

theorem norm_patentChoice (x : PatentChoice) : J.patentChoice.norm x = x.canonical := by
  obtain ⟨p, q⟩ := x
  cases p <;> cases q <;> simp [J.patentChoice, PatentChoice.canonical, norm_patent, norm_patentFamily]
theorem good_patentChoice {x : PatentChoice} (h : x.Regular) : J.patentChoice.good x := by
  obtain ⟨p, q⟩ := x
  cases p with
  | some p => simp [J.patentChoice, good_patent]
  | none =>
    cases q with
    | none => simp [J.patentChoice]
    | some q => simpa [J.patentChoice, good_patentFamily] using h q rfl

theorem norm_standardRequirement (x : StandardRequirement) : J.standardRequirement.norm x = x.canonical := by
  show StandardRequirement.ofP (J.standardRequirementFields.norm x.toP) = _
  simp only [J.standardRequirementFields, JFields.norm, StandardRequirement.toP, StandardRequirement.ofP, StandardRequirement.canonical, norm_pslice norm_externalReference, norm_pslice_id norm_property, norm_pslice_id norm_string, norm_string]
theorem good_standardRequirement (x : StandardRequirement) : J.standardRequirement.good x :=
  ((goodF_field (good_string _) (goodF_field (good_string _) (goodF_field (good_string _) (goodF_field (good_string _) (goodF_field (good_pslice fun y _ => good_string y) (goodF_field (good_pslice fun y _ => good_string y) (goodF_field (good_string _) (goodF_field (good_pslice fun y _ => good_property y) (goodF_field (good_pslice fun y _ => good_externalReference y) goodF_nil))))))))) : J.standardRequirementFields.good x.toP)

theorem norm_standardLevel (x : StandardLevel) : J.standardLevel.norm x = x.canonical := by
  show StandardLevel.ofP (J.standardLevelFields.norm x.toP) = _
  simp only [J.standardLevelFields, JFields.norm, StandardLevel.toP, StandardLevel.ofP, StandardLevel.canonical, norm_pslice_id norm_string, norm_string]
theorem good_standardLevel (x : StandardLevel) : J.standardLevel.good x :=
  ((goodF_field (good_string _) (goodF_field (good_string _) (goodF_field (good_string _) (goodF_field (good_string _) (goodF_field (good_pslice fun y _ => good_string y) goodF_nil))))) : J.standardLevelFields.good x.toP)

theorem norm_standardDefinition (x : StandardDefinition) : J.standardDefinition.norm x = x.canonical := by
  show StandardDefinition.ofP (J.standardDefinitionFields.norm x.toP) = _
  simp only [J.standardDefinitionFields, JFields.norm, StandardDefinition.toP, StandardDefinition.ofP, StandardDefinition.canonical, norm_option (c := J.jsfSignature) (fun _ => rfl) norm_jsfSignature, norm_pslice norm_externalReference, norm_pslice norm_standardLevel, norm_pslice norm_standardRequirement, norm_string]
theorem good_standardDefinition (x : StandardDefinition) : J.standardDefinition.good x :=
  ((goodF_field (good_string _) (goodF_field (good_string _) (goodF_field (good_string _) (goodF_field (good_string _) (goodF_field (good_string _) (goodF_field (good_pslice fun y _ => good_standardRequirement y) (goodF_field (good_pslice fun y _ => good_standardLevel y) (goodF_field (good_pslice fun y _ => good_externalReference y) (goodF_field (good_option fun y _ => good_jsfSignature y) goodF_nil))))))))) : J.standardDefinitionFields.good x.toP)

theorem norm_definitions (x : Definitions) : J.definitions.norm x = x.canonical := by
  show Definitions.ofP (J.definitionsFields.norm x.toP) = _
  simp only [J.definitionsFields, JFields.norm, Definitions.toP, Definitions.ofP, Definitions.canonical, norm_pslice norm_patentChoice, norm_pslice norm_standardDefinition]
theorem good_definitions {x : Definitions} (h : x.Regular) : J.definitions.good x :=
  ((goodF_field (good_pslice fun y _ => good_standardDefinition y) (goodF_field (good_pslice fun y hy => good_patentChoice (h y hy)) goodF_nil)) : J.definitionsFields.good x.toP)

theorem norm_dependency (x : Dependency) : J.dependency.norm x = x.canonical := by
  show Dependency.ofP (J.dependencyFields.norm x.toP) = _
  simp only [J.dependencyFields, JFields.norm, Dependency.toP, Dependency.ofP, Dependency.canonical, norm_pslice_id norm_string, norm_string]
theorem good_dependency (x : Dependency) : J.dependency.good x :=
  ((goodF_field (good_string _) (goodF_field (good_pslice fun y _ => good_string y) (goodF_field (good_pslice fun y _ => good_string y) goodF_nil))) : J.dependencyFields.good x.toP)

theorem norm_resourceReferenceChoice (x : ResourceReferenceChoice) : J.resourceReferenceChoice.norm x = x.canonical := by
  show ResourceReferenceChoice.ofP (J.resourceReferenceChoiceFields.norm x.toP) = _
  simp only [J.resourceReferenceChoiceFields, JFields.norm, ResourceReferenceChoice.toP, ResourceReferenceChoice.ofP, ResourceReferenceChoice.canonical, norm_option (c := J.externalReference) (fun _ => rfl) norm_externalReference, norm_string]
theorem good_resourceReferenceChoice (x : ResourceReferenceChoice) : J.resourceReferenceChoice.good x :=
  ((goodF_field (good_string _) (goodF_field (good_option fun y _ => good_externalReference y) goodF_nil)) : J.resourceReferenceChoiceFields.good x.toP)

theorem norm_environmentVariableChoice (x : EnvironmentVariableChoice) :
    J.environmentVariableChoice.norm x = x.canonical := by
  simp only [J.environmentVariableChoice, EnvironmentVariableChoice.canonical, Property.isZero]
  cases x.property with
  | none => rfl
  | some p => by_cases h : p.name = "" ∧ p.value = "" <;> simp [h]
theorem good_environmentVariableChoice (x : EnvironmentVariableChoice) :
    J.environmentVariableChoice.good x := trivial

theorem norm_parameter (x : Parameter) : J.parameter.norm x = x := by
  show Parameter.ofP (J.parameterFields.norm x.toP) = _
  simp only [J.parameterFields, JFields.norm, Parameter.toP, Parameter.ofP, norm_string]
theorem good_parameter (x : Parameter) : J.parameter.good x :=
  ((goodF_field (good_string _) (goodF_field (good_string _) (goodF_field (good_string _) goodF_nil))) : J.parameterFields.good x.toP)

theorem norm_taskInput (x : TaskInput) : J.taskInput.norm x = x.canonical := by
  show TaskInput.ofP (J.taskInputFields.norm x.toP) = _
  simp only [J.taskInputFields, JFields.norm, TaskInput.toP, TaskInput.ofP, TaskInput.canonical, norm_option (c := J.resourceReferenceChoice) (fun _ => rfl) norm_resourceReferenceChoice, norm_option_id (c := J.attachedText) (fun _ => rfl) norm_attachedText, norm_pslice norm_environmentVariableChoice, norm_pslice_id norm_parameter, norm_pslice_id norm_property]
theorem good_taskInput (x : TaskInput) : J.taskInput.good x :=
  ((goodF_field (good_option fun y _ => good_resourceReferenceChoice y) (goodF_field (good_pslice fun y _ => good_parameter y) (goodF_field (good_pslice fun y _ => good_environmentVariableChoice y) (goodF_field (good_option fun y _ => good_attachedText y) (goodF_field (good_option fun y _ => good_resourceReferenceChoice y) (goodF_field (good_option fun y _ => good_resourceReferenceChoice y) (goodF_field (good_pslice fun y _ => good_property y) goodF_nil))))))) : J.taskInputFields.good x.toP)

theorem norm_taskOutput (x : TaskOutput) : J.taskOutput.norm x = x.canonical := by
  show TaskOutput.ofP (J.taskOutputFields.norm x.toP) = _
  simp only [J.taskOutputFields, JFields.norm, TaskOutput.toP, TaskOutput.ofP, TaskOutput.canonical, norm_option (c := J.resourceReferenceChoice) (fun _ => rfl) norm_resourceReferenceChoice, norm_option_id (c := J.attachedText) (fun _ => rfl) norm_attachedText, norm_pslice norm_environmentVariableChoice, norm_pslice_id norm_parameter, norm_pslice_id norm_property, norm_string]
theorem good_taskOutput (x : TaskOutput) : J.taskOutput.good x :=
  ((goodF_field (good_option fun y _ => good_resourceReferenceChoice y) (goodF_field (good_pslice fun y _ => good_parameter y) (goodF_field (good_pslice fun y _ => good_environmentVariableChoice y) (goodF_field (good_option fun y _ => good_attachedText y) (goodF_field (good_string _) (goodF_field (good_option fun y _ => good_resourceReferenceChoice y) (goodF_field (good_option fun y _ => good_resourceReferenceChoice y) (goodF_field (good_pslice fun y _ => good_property y) goodF_nil)))))))) : J.taskOutputFields.good x.toP)

theorem norm_taskCommand (x : TaskCommand) : J.taskCommand.norm x = x.canonical := by
  show TaskCommand.ofP (J.taskCommandFields.norm x.toP) = _
  simp only [J.taskCommandFields, JFields.norm, TaskCommand.toP, TaskCommand.ofP, TaskCommand.canonical, norm_pslice_id norm_property, norm_string]
theorem good_taskCommand (x : TaskCommand) : J.taskCommand.good x :=
  ((goodF_field (good_string _) (goodF_field (good_pslice fun y _ => good_property y) goodF_nil)) : J.taskCommandFields.good x.toP)

theorem norm_taskStep (x : TaskStep) : J.taskStep.norm x = x.canonical := by
  show TaskStep.ofP (J.taskStepFields.norm x.toP) = _
  simp only [J.taskStepFields, JFields.norm, TaskStep.toP, TaskStep.ofP, TaskStep.canonical, norm_pslice norm_taskCommand, norm_pslice_id norm_property, norm_string]
theorem good_taskStep (x : TaskStep) : J.taskStep.good x :=
  ((goodF_field (good_string _) (goodF_field (good_string _) (goodF_field (good_pslice fun y _ => good_taskCommand y) (goodF_field (good_pslice fun y _ => good_property y) goodF_nil)))) : J.taskStepFields.good x.toP)

theorem norm_event (x : Event) : J.event.norm x = x.canonical := by
  show Event.ofP (J.eventFields.norm x.toP) = _
  simp only [J.eventFields, JFields.norm, Event.toP, Event.ofP, Event.canonical, norm_option (c := J.resourceReferenceChoice) (fun _ => rfl) norm_resourceReferenceChoice, norm_option_id (c := J.attachedText) (fun _ => rfl) norm_attachedText, norm_pslice_id norm_property, norm_string]
theorem good_event (x : Event) : J.event.good x :=
  ((goodF_field (good_string _) (goodF_field (good_string _) (goodF_field (good_string _) (goodF_field (good_option fun y _ => good_attachedText y) (goodF_field (good_option fun y _ => good_resourceReferenceChoice y) (goodF_field (good_option fun y _ => good_resourceReferenceChoice y) (goodF_field (good_pslice fun y _ => good_property y) goodF_nil))))))) : J.eventFields.good x.toP)

theorem norm_taskTriggerCondition (x : TaskTriggerCondition) : J.taskTriggerCondition.norm x = x.canonical := by
  show TaskTriggerCondition.ofP (J.taskTriggerConditionFields.norm x.toP) = _
  simp only [J.taskTriggerConditionFields, JFields.norm, TaskTriggerCondition.toP, TaskTriggerCondition.ofP, TaskTriggerCondition.canonical, norm_pslice_id norm_property, norm_string]
theorem good_taskTriggerCondition (x : TaskTriggerCondition) : J.taskTriggerCondition.good x :=
  ((goodF_field (good_string _) (goodF_field (good_string _) (goodF_field (good_pslice fun y _ => good_property y) goodF_nil))) : J.taskTriggerConditionFields.good x.toP)

theorem norm_taskTrigger (x : TaskTrigger) : J.taskTrigger.norm x = x.canonical := by
  show TaskTrigger.ofP (J.taskTriggerFields.norm x.toP) = _
  simp only [J.taskTriggerFields, JFields.norm, TaskTrigger.toP, TaskTrigger.ofP, TaskTrigger.canonical, norm_option (c := J.event) (fun _ => rfl) norm_event, norm_pslice norm_resourceReferenceChoice, norm_pslice norm_taskInput, norm_pslice norm_taskOutput, norm_pslice norm_taskTriggerCondition, norm_pslice_id norm_property, norm_string]
theorem good_taskTrigger (x : TaskTrigger) : J.taskTrigger.good x :=
  ((goodF_field (good_string _) (goodF_field (good_string _) (goodF_field (good_string _) (goodF_field (good_string _) (goodF_field (good_pslice fun y _ => good_resourceReferenceChoice y) (goodF_field (good_string _) (goodF_field (good_option fun y _ => good_event y) (goodF_field (good_pslice fun y _ => good_taskTriggerCondition y) (goodF_field (good_string _) (goodF_field (good_pslice fun y _ => good_taskInput y) (goodF_field (good_pslice fun y _ => good_taskOutput y) (goodF_field (good_pslice fun y _ => good_property y) goodF_nil)))))))))))) : J.taskTriggerFields.good x.toP)

theorem norm_volume (x : Volume) : J.volume.norm x = x.canonical := by
  show Volume.ofP (J.volumeFields.norm x.toP) = _
  simp only [J.volumeFields, JFields.norm, Volume.toP, Volume.ofP, Volume.canonical, norm_option_id (c := JCodec.bool) (fun _ => rfl) norm_bool, norm_pslice_id norm_property, norm_string]
theorem good_volume (x : Volume) : J.volume.good x :=
  ((goodF_field (good_string _) (goodF_field (good_string _) (goodF_field (good_string _) (goodF_field (good_string _) (goodF_field (good_string _) (goodF_field (good_option fun y _ => good_bool y) (goodF_field (good_option fun y _ => good_bool y) (goodF_field (good_pslice fun y _ => good_property y) goodF_nil)))))))) : J.volumeFields.good x.toP)

theorem norm_taskWorkspace (x : TaskWorkspace) : J.taskWorkspace.norm x = x.canonical := by
  show TaskWorkspace.ofP (J.taskWorkspaceFields.norm x.toP) = _
  simp only [J.taskWorkspaceFields, JFields.norm, TaskWorkspace.toP, TaskWorkspace.ofP, TaskWorkspace.canonical, norm_option (c := J.volume) (fun _ => rfl) norm_volume, norm_pslice norm_resourceReferenceChoice, norm_pslice_id norm_property, norm_pslice_id norm_string, norm_string]
theorem good_taskWorkspace (x : TaskWorkspace) : J.taskWorkspace.good x :=
  ((goodF_field (good_string _) (goodF_field (good_string _) (goodF_field (good_string _) (goodF_field (good_pslice fun y _ => good_string y) (goodF_field (good_string _) (goodF_field (good_pslice fun y _ => good_resourceReferenceChoice y) (goodF_field (good_string _) (goodF_field (good_string _) (goodF_field (good_string _) (goodF_field (good_string _) (goodF_field (good_option fun y _ => good_volume y) (goodF_field (good_pslice fun y _ => good_property y) goodF_nil)))))))))))) : J.taskWorkspaceFields.good x.toP)

theorem norm_task (x : Task) : J.task.norm x = x.canonical := by
  show Task.ofP (J.taskFields.norm x.toP) = _
  simp only [J.taskFields, JFields.norm, Task.toP, Task.ofP, Task.canonical, norm_option (c := J.taskTrigger) (fun _ => rfl) norm_taskTrigger, norm_pslice norm_dependency, norm_pslice norm_resourceReferenceChoice, norm_pslice norm_taskInput, norm_pslice norm_taskOutput, norm_pslice norm_taskStep, norm_pslice norm_taskWorkspace, norm_pslice_id norm_property, norm_pslice_id norm_string, norm_string]
theorem good_task (x : Task) : J.task.good x :=
  ((goodF_field (good_string _) (goodF_field (good_string _) (goodF_field (good_string _) (goodF_field (good_string _) (goodF_field (good_pslice fun y _ => good_property y) (goodF_field (good_pslice fun y _ => good_resourceReferenceChoice y) (goodF_field (good_pslice fun y _ => good_string y) (goodF_field (good_option fun y _ => good_taskTrigger y) (goodF_field (good_pslice fun y _ => good_taskStep y) (goodF_field (good_pslice fun y _ => good_taskInput y) (goodF_field (good_pslice fun y _ => good_taskOutput y) (goodF_field (good_string _) (goodF_field (good_string _) (goodF_field (good_pslice fun y _ => good_taskWorkspace y) (goodF_field (good_pslice fun y _ => good_dependency y) goodF_nil))))))))))))))) : J.taskFields.good x.toP)

theorem norm_workflow (x : Workflow) : J.workflow.norm x = x.canonical := by
  show Workflow.ofP (J.workflowFields.norm x.toP) = _
  simp only [J.workflowFields, JFields.norm, Workflow.toP, Workflow.ofP, Workflow.canonical, norm_option (c := J.taskTrigger) (fun _ => rfl) norm_taskTrigger, norm_pslice norm_dependency, norm_pslice norm_resourceReferenceChoice, norm_pslice norm_task, norm_pslice norm_taskInput, norm_pslice norm_taskOutput, norm_pslice norm_taskStep, norm_pslice norm_taskWorkspace, norm_pslice_id norm_property, norm_pslice_id norm_string, norm_string]
theorem good_workflow (x : Workflow) : J.workflow.good x :=
  ((goodF_field (good_string _) (goodF_field (good_string _) (goodF_field (good_string _) (goodF_field (good_string _) (goodF_field (good_pslice fun y _ => good_resourceReferenceChoice y) (goodF_field (good_pslice fun y _ => good_task y) (goodF_field (good_pslice fun y _ => good_dependency y) (goodF_field (good_pslice fun y _ => good_string y) (goodF_field (good_option fun y _ => good_taskTrigger y) (goodF_field (good_pslice fun y _ => good_taskStep y) (goodF_field (good_pslice fun y _ => good_taskInput y) (goodF_field (good_pslice fun y _ => good_taskOutput y) (goodF_field (good_string _) (goodF_field (good_string _) (goodF_field (good_pslice fun y _ => good_taskWorkspace y) (goodF_field (good_pslice fun y _ => good_dependency y) (goodF_field (good_pslice fun y _ => good_property y) goodF_nil))))))))))))))))) : J.workflowFields.good x.toP)

theorem norm_formula (x : Formula) : J.formula.norm x = x.canonical := by
  show Formula.ofP (J.formulaFields.norm x.toP) = _
  simp only [J.formulaFields, JFields.norm, Formula.toP, Formula.ofP, Formula.canonical, norm_pslice norm_component, norm_pslice norm_service, norm_pslice norm_workflow, norm_pslice_id norm_property, norm_string]
theorem good_formula {x : Formula} (h : x.Regular) : J.formula.good x :=
  ((goodF_field (good_string _) (goodF_field (good_pslice fun y hy => good_component (h.1 y hy)) (goodF_field (good_pslice fun y hy => good_service (h.2 y hy)) (goodF_field (good_pslice fun y _ => good_workflow y) (goodF_field (good_pslice fun y _ => good_property y) goodF_nil))))) : J.formulaFields.good x.toP)

theorem norm_lifecycle (x : Lifecycle) : J.lifecycle.norm x = x := by
  show Lifecycle.ofP (J.lifecycleFields.norm x.toP) = _
  simp only [J.lifecycleFields, JFields.norm, Lifecycle.toP, Lifecycle.ofP, norm_string]
theorem good_lifecycle (x : Lifecycle) : J.lifecycle.good x :=
  ((goodF_field (good_string _) (goodF_field (good_string _) (goodF_field (good_string _) goodF_nil))) : J.lifecycleFields.good x.toP)

theorem norm_tool (x : Tool) : J.tool.norm x = x.canonical := by
  show Tool.ofP (J.toolFields.norm x.toP) = _
  simp only [J.toolFields, JFields.norm, Tool.toP, Tool.ofP, Tool.canonical, norm_pslice norm_externalReference, norm_pslice_id norm_hash, norm_string]
theorem good_tool (x : Tool) : J.tool.good x :=
  ((goodF_field (good_string _) (goodF_field (good_string _) (goodF_field (good_string _) (goodF_field (good_pslice fun y _ => good_hash y) (goodF_field (good_pslice fun y _ => good_externalReference y) goodF_nil))))) : J.toolFields.good x.toP)

theorem norm_toolsChoice (x : ToolsChoice) : J.toolsChoice.norm x = x.canonical := by
  simp only [J.toolsChoice, ToolsChoice.canonical, norm_pslice norm_tool, norm_pslice norm_component,
    norm_pslice norm_service]
  cases x.tools <;> simp [PSlice.isNil]
theorem norm_toolsChoiceOpt (x : ToolsChoice) :
    (if J.toolsChoice.nullish x then none else some (J.toolsChoice.norm x)) = x.canonicalOpt := by
  rw [norm_toolsChoice]
  unfold ToolsChoice.canonicalOpt
  cases h : x.tools <;> simp [J.toolsChoice, JCodec.pslice, PSlice.isNil, h]
theorem good_toolsChoice {x : ToolsChoice} (h : x.Regular) : J.toolsChoice.good x :=
  ⟨good_pslice fun y _ => good_tool y, good_pslice fun y hy => good_component (h.1 y hy),
    good_pslice fun y hy => good_service (h.2 y hy)⟩

theorem norm_distributionConstraints (x : DistributionConstraints) : J.distributionConstraints.norm x = x := by
  show DistributionConstraints.ofP (J.distributionConstraintsFields.norm x.toP) = _
  simp only [J.distributionConstraintsFields, JFields.norm, DistributionConstraints.toP, DistributionConstraints.ofP, norm_string]
theorem good_distributionConstraints (x : DistributionConstraints) : J.distributionConstraints.good x :=
  ((goodF_field (good_string _) goodF_nil) : J.distributionConstraintsFields.good x.toP)

theorem norm_metadata (x : Metadata) : J.metadata.norm x = x.canonical := by
  show Metadata.ofP (J.metadataFields.norm x.toP) = _
  simp only [J.metadataFields, JFields.norm, Metadata.toP, Metadata.ofP, Metadata.canonical, norm_bindOpt norm_toolsChoiceOpt, norm_option (c := J.component) (fun _ => rfl) norm_component, norm_option (c := J.organizationalEntity) (fun _ => rfl) norm_organizationalEntity, norm_option_id (c := J.distributionConstraints) (fun _ => rfl) norm_distributionConstraints, norm_pslice norm_licenseChoice, norm_pslice_id norm_lifecycle, norm_pslice_id norm_organizationalContact, norm_pslice_id norm_property, norm_string]
theorem good_metadata {x : Metadata} (h : x.Regular) : J.metadata.good x :=
  ((goodF_field (good_string _) (goodF_field (good_pslice fun y _ => good_lifecycle y) (goodF_field (good_option fun y hy => good_toolsChoice (h.1 y hy)) (goodF_field (good_pslice fun y _ => good_organizationalContact y) (goodF_field (good_option fun y hy => good_component (h.2 y hy)) (goodF_field (good_option fun y _ => good_organizationalEntity y) (goodF_field (good_option fun y _ => good_organizationalEntity y) (goodF_field (good_option fun y _ => good_organizationalEntity y) (goodF_field (good_pslice fun y _ => good_licenseChoice y) (goodF_field (good_pslice fun y _ => good_property y) (goodF_field (good_option fun y _ => good_distributionConstraints y) goodF_nil))))))))))) : J.metadataFields.good x.toP)

theorem norm_credits (x : Credits) : J.credits.norm x = x.canonical := by
  show Credits.ofP (J.creditsFields.norm x.toP) = _
  simp only [J.creditsFields, JFields.norm, Credits.toP, Credits.ofP, Credits.canonical, norm_pslice norm_organizationalEntity, norm_pslice_id norm_organizationalContact]
theorem good_credits (x : Credits) : J.credits.good x :=
  ((goodF_field (good_pslice fun y _ => good_organizationalEntity y) (goodF_field (good_pslice fun y _ => good_organizationalContact y) goodF_nil)) : J.creditsFields.good x.toP)

theorem norm_proofOfConcept (x : ProofOfConcept) : J.proofOfConcept.norm x = x.canonical := by
  show ProofOfConcept.ofP (J.proofOfConceptFields.norm x.toP) = _
  simp only [J.proofOfConceptFields, JFields.norm, ProofOfConcept.toP, ProofOfConcept.ofP, ProofOfConcept.canonical, norm_pslice_id norm_attachedText, norm_string]
theorem good_proofOfConcept (x : ProofOfConcept) : J.proofOfConcept.good x :=
  ((goodF_field (good_string _) (goodF_field (good_string _) (goodF_field (good_pslice fun y _ => good_attachedText y) goodF_nil))) : J.proofOfConceptFields.good x.toP)

theorem norm_vulnerabilityAnalysis (x : VulnerabilityAnalysis) : J.vulnerabilityAnalysis.norm x = x.canonical := by
  show VulnerabilityAnalysis.ofP (J.vulnerabilityAnalysisFields.norm x.toP) = _
  simp only [J.vulnerabilityAnalysisFields, JFields.norm, VulnerabilityAnalysis.toP, VulnerabilityAnalysis.ofP, VulnerabilityAnalysis.canonical, norm_pslice_id norm_string, norm_string]
theorem good_vulnerabilityAnalysis (x : VulnerabilityAnalysis) : J.vulnerabilityAnalysis.good x :=
  ((goodF_field (good_string _) (goodF_field (good_string _) (goodF_field (good_pslice fun y _ => good_string y) (goodF_field (good_string _) (goodF_field (good_string _) (goodF_field (good_string _) goodF_nil)))))) : J.vulnerabilityAnalysisFields.good x.toP)

theorem norm_vulnerabilityRating (x : VulnerabilityRating) : J.vulnerabilityRating.norm x = x := by
  show VulnerabilityRating.ofP (J.vulnerabilityRatingFields.norm x.toP) = _
  simp only [J.vulnerabilityRatingFields, JFields.norm, VulnerabilityRating.toP, VulnerabilityRating.ofP, norm_option_id (c := J.source) (fun _ => rfl) norm_source, norm_option_id (c := JCodec.f64) (fun _ => rfl) norm_f64, norm_string]
theorem good_vulnerabilityRating (x : VulnerabilityRating) : J.vulnerabilityRating.good x :=
  ((goodF_field (good_option fun y _ => good_source y) (goodF_field (good_option fun y _ => good_f64 y) (goodF_field (good_string _) (goodF_field (good_string _) (goodF_field (good_string _) (goodF_field (good_string _) goodF_nil)))))) : J.vulnerabilityRatingFields.good x.toP)

theorem norm_vulnerabilityReference (x : VulnerabilityReference) : J.vulnerabilityReference.norm x = x := by
  show VulnerabilityReference.ofP (J.vulnerabilityReferenceFields.norm x.toP) = _
  simp only [J.vulnerabilityReferenceFields, JFields.norm, VulnerabilityReference.toP, VulnerabilityReference.ofP, norm_option_id (c := J.source) (fun _ => rfl) norm_source, norm_string]
theorem good_vulnerabilityReference (x : VulnerabilityReference) : J.vulnerabilityReference.good x :=
  ((goodF_field (good_string _) (goodF_field (good_option fun y _ => good_source y) goodF_nil)) : J.vulnerabilityReferenceFields.good x.toP)

theorem norm_vulnerability (x : Vulnerability) : J.vulnerability.norm x = x.canonical := by
  show Vulnerability.ofP (J.vulnerabilityFields.norm x.toP) = _
  simp only [J.vulnerabilityFields, JFields.norm, Vulnerability.toP, Vulnerability.ofP, Vulnerability.canonical, norm_bindOpt norm_toolsChoiceOpt, norm_option (c := J.credits) (fun _ => rfl) norm_credits, norm_option (c := J.proofOfConcept) (fun _ => rfl) norm_proofOfConcept, norm_option (c := J.vulnerabilityAnalysis) (fun _ => rfl) norm_vulnerabilityAnalysis, norm_option_id (c := J.source) (fun _ => rfl) norm_source, norm_pslice norm_affects, norm_pslice_id norm_advisory, norm_pslice_id norm_int, norm_pslice_id norm_property, norm_pslice_id norm_vulnerabilityRating, norm_pslice_id norm_vulnerabilityReference, norm_string]
theorem good_vulnerability {x : Vulnerability} (h : x.Regular) : J.vulnerability.good x :=
  ((goodF_field (good_string _) (goodF_field (good_string _) (goodF_field (good_option fun y _ => good_source y) (goodF_field (good_pslice fun y _ => good_vulnerabilityReference y) (goodF_field (good_pslice fun y _ => good_vulnerabilityRating y) (goodF_field (good_pslice fun y hy => good_int (h.1 y hy)) (goodF_field (good_string _) (goodF_field (good_string _) (goodF_field (good_string _) (goodF_field (good_string _) (goodF_field (good_option fun y _ => good_proofOfConcept y) (goodF_field (good_pslice fun y _ => good_advisory y) (goodF_field (good_string _) (goodF_field (good_string _) (goodF_field (good_string _) (goodF_field (good_string _) (goodF_field (good_option fun y _ => good_credits y) (goodF_field (good_option fun y hy => good_toolsChoice (h.2 y hy)) (goodF_field (good_option fun y _ => good_vulnerabilityAnalysis y) (goodF_field (good_pslice fun y _ => good_affects y) (goodF_field (good_pslice fun y _ => good_property y) goodF_nil))))))))))))))))))))) : J.vulnerabilityFields.good x.toP)

theorem norm_citation (x : Citation) : J.citation.norm x = x.canonical := by
  show Citation.ofP (J.citationFields.norm x.toP) = _
  simp only [J.citationFields, JFields.norm, Citation.toP, Citation.ofP, Citation.canonical, norm_option (c := J.jsfSignature) (fun _ => rfl) norm_jsfSignature, norm_option_id (c := J.bomReference) (fun _ => rfl) norm_bomReference, norm_pslice_id norm_string, norm_string]
theorem good_citation (x : Citation) : J.citation.good x :=
  ((goodF_field (good_string _) (goodF_field (good_pslice fun y _ => good_string y) (goodF_field (good_pslice fun y _ => good_string y) (goodF_field (good_string _) (goodF_field (good_option fun y _ => good_bomReference y) (goodF_field (good_string _) (goodF_field (good_string _) (goodF_field (good_option fun y _ => good_jsfSignature y) goodF_nil)))))))) : J.citationFields.good x.toP)

theorem norm_bom (x : BOM) : (J.bomWith J.specVersionStrict).norm x = x.canonical := by
  show BOM.ofP ((J.bomFields J.specVersionStrict).norm x.toP) = _
  simp only [J.bomFields, JFields.norm, BOM.toP, BOM.ofP, BOM.canonical, norm_int, norm_option (c := J.declarations) (fun _ => rfl) norm_declarations, norm_option (c := J.definitions) (fun _ => rfl) norm_definitions, norm_option (c := J.jsfSignature) (fun _ => rfl) norm_jsfSignature, norm_option (c := J.metadata) (fun _ => rfl) norm_metadata, norm_pslice norm_annotation, norm_pslice norm_citation, norm_pslice norm_component, norm_pslice norm_composition, norm_pslice norm_dependency, norm_pslice norm_externalReference, norm_pslice norm_formula, norm_pslice norm_service, norm_pslice norm_vulnerability, norm_pslice_id norm_property, norm_specVersion, norm_string]
theorem good_bom {x : BOM} (h : x.Regular) (hv : J.specVersionStrict.good x.specVersion) : (J.bomWith J.specVersionStrict).good x :=
  ((goodF_skip (goodF_skip (goodF_field (good_string _) (goodF_field (good_string _) (goodF_field hv (goodF_field (good_string _) (goodF_field (good_int h.1) (goodF_field (good_option fun y hy => good_metadata (h.2.1 y hy)) (goodF_field (good_pslice fun y hy => good_component (h.2.2.1 y hy)) (goodF_field (good_pslice fun y hy => good_service (h.2.2.2.1 y hy)) (goodF_field (good_pslice fun y _ => good_externalReference y) (goodF_field (good_pslice fun y _ => good_dependency y) (goodF_field (good_pslice fun y _ => good_composition y) (goodF_field (good_pslice fun y _ => good_property y) (goodF_field (good_pslice fun y hy => good_vulnerability (h.2.2.2.2.1 y hy)) (goodF_field (good_pslice fun y hy => good_annotation (h.2.2.2.2.2.1 y hy)) (goodF_field (good_pslice fun y hy => good_formula (h.2.2.2.2.2.2.1 y hy)) (goodF_field (good_option fun y hy => good_declarations (h.2.2.2.2.2.2.2.1 y hy)) (goodF_field (good_option fun y hy => good_definitions (h.2.2.2.2.2.2.2.2 y hy)) (goodF_field (good_pslice fun y _ => good_citation y) (goodF_field (good_option fun y _ => good_jsfSignature y) goodF_nil))))))))))))))))))))) : (J.bomFields J.specVersionStrict).good x.toP)

end Verif
