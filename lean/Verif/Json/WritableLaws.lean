import Verif.Spec.Writable
import Verif.Json.StructLaws

/-!
# Which values can be written as JSON

GENERATED by `tools/gen_writable.py`; do not edit by hand.  `J.W c x`: the codec `c` writes `x`.  For every
type this is `T.Writable`.
-/

namespace Verif

set_option linter.unusedSectionVars false
set_option linter.unusedSimpArgs false

variable [FloatIO]

/-- Encoding the value succeeds. -/
def J.W {α : Type} (c : JCodec α) (a : α) : Prop := (c.enc a).isSome = true

/-- Encoding the fields of a struct succeeds. -/
def J.WF {β : Type} (F : JFields β) (b : β) : Prop := (F.enc b).isSome = true

/-- What `omitempty` drops could have been written. -/
class JEW {α : Type} (c : JCodec α) : Prop where
  ew : ∀ a, c.empty a = true → J.W c a

theorem w_string (s : String) : J.W JCodec.string s ↔ True := by simp [J.W, JCodec.string]
theorem w_bool (s : Bool) : J.W JCodec.bool s ↔ True := by simp [J.W, JCodec.bool]
theorem w_int (i : Int) : J.W JCodec.int i ↔ True := by simp [J.W, JCodec.int]
theorem w_f32 (x : F32) : J.W JCodec.f32 x ↔ F32.Finite x := by
  simp [J.W, JCodec.f32, ← FloatIO.fmt32_isSome]
theorem w_f64 (x : F64) : J.W JCodec.f64 x ↔ F64.Finite x := by
  simp [J.W, JCodec.f64, ← FloatIO.fmt64_isSome]
theorem w_bomReference (s : BOMReference) : J.W J.bomReference s ↔ True := by simp [J.W, J.bomReference]
theorem w_specVersion (v : Int) : J.W J.specVersion v ↔ True := by simp [J.W, J.specVersion]

instance : JEW JCodec.string := ⟨fun _ _ => rfl⟩
instance : JEW JCodec.bool := ⟨fun _ _ => rfl⟩
instance : JEW JCodec.int := ⟨fun _ _ => rfl⟩
instance : JEW J.bomReference := ⟨fun _ _ => rfl⟩
instance : JEW J.specVersion := ⟨fun _ _ => rfl⟩
instance : JEW JCodec.f32 := ⟨fun a h => by
  rw [w_f32]
  simp only [JCodec.f32, decide_eq_true_eq] at h
  rcases h with h | h <;> (unfold F32.Finite; rw [h]; decide)⟩
instance : JEW JCodec.f64 := ⟨fun a h => by
  rw [w_f64]
  simp only [JCodec.f64, decide_eq_true_eq] at h
  rcases h with h | h <;> (unfold F64.Finite; rw [h]; decide)⟩
instance {α : Type} (c : JCodec α) : JEW (JCodec.option c) := ⟨fun a h => by
  cases a with
  | none => rfl
  | some a => simp [JCodec.option] at h⟩
instance {α : Type} (c : JCodec α) : JEW (JCodec.pslice c) := ⟨fun a h => by
  cases a with
  | list xs => simp [JCodec.pslice, PSlice.isNil] at h
  | _ => rfl⟩

theorem w_option {α : Type} (c : JCodec α) (o : Option α) : J.W (JCodec.option c) o ↔ ∀ a ∈ o, J.W c a := by
  cases o <;> simp [J.W, JCodec.option]

theorem w_pslice {α : Type} (c : JCodec α) (p : PSlice α) :
    J.W (JCodec.pslice c) p ↔ ∀ a ∈ p.elems, J.W c a := by
  cases p with
  | nil => simp [J.W, JCodec.pslice, PSlice.elems]
  | nilSlice => simp [J.W, JCodec.pslice, PSlice.elems]
  | list xs =>
    simp only [J.W, JCodec.pslice, PSlice.elems, Option.isSome_map]
    induction xs with
    | nil => simp [JCodec.encList]
    | cons x xs ih =>
      cases hx : c.enc x with
      | none => simp [JCodec.encList, hx]
      | some j => simp [JCodec.encList, hx, ih]

theorem wF_nil (b : Unit) : J.WF .nil b ↔ True := by simp [J.WF, JFields.enc]
theorem wF_skip {α β : Type} (z : α) (F : JFields β) (b : α × β) : J.WF (.skip z F) b ↔ J.WF F b.2 := Iff.rfl
theorem wF_field {α β : Type} (n : String) (oe : Bool) (c : JCodec α) [N : JEW c] (F : JFields β) (b : α × β) :
    J.WF (.field n oe c F) b ↔ J.W c b.1 ∧ J.WF F b.2 := by
  simp only [J.WF, J.W, JFields.enc]
  by_cases h : oe && c.empty b.1
  · rw [if_pos h]
    have : J.W c b.1 := N.ew _ (by simp at h; exact h.2)
    simp only [J.W] at this
    simp [this]
  · rw [if_neg h]
    cases c.enc b.1 <;> simp

theorem w_struct {σ β : Type} (F : JFields β) (toP : σ → β) (ofP : β → σ) (s : σ) :
    J.W (JCodec.struct F toP ofP) s ↔ J.WF F (toP s) := by simp [J.W, J.WF, JCodec.struct]

theorem SameAt.w {α : Type} {C D : JCodec α} {a : α} (h : SameAt C D a) : J.W C a ↔ J.W D a := by
  simp only [J.W, h.enc]

theorem PSlice.isNil_iff {α : Type} (p : PSlice α) : p.isNil = true ↔ p = .nil := by
  cases p <;> simp [PSlice.isNil]

theorem w_advisory (x : Advisory) : J.W J.advisory x ↔ True := by
  rw [J.advisory, w_struct]
  simp only [J.advisoryFields, Advisory.toP, wF_field, wF_skip, wF_nil, w_option, w_pslice, w_string, and_true, true_and, implies_true]

instance : JEW J.advisory := ⟨fun _ h => by simp [J.advisory, JCodec.struct] at h⟩

theorem w_affectedVersions (x : AffectedVersions) : J.W J.affectedVersions x ↔ True := by
  rw [J.affectedVersions, w_struct]
  simp only [J.affectedVersionsFields, AffectedVersions.toP, wF_field, wF_skip, wF_nil, w_option, w_pslice, w_string, and_true, true_and, implies_true]

instance : JEW J.affectedVersions := ⟨fun _ h => by simp [J.affectedVersions, JCodec.struct] at h⟩

theorem w_affects (x : Affects) : J.W J.affects x ↔ True := by
  rw [J.affects, w_struct]
  simp only [J.affectsFields, Affects.toP, wF_field, wF_skip, wF_nil, w_option, w_pslice, w_affectedVersions, w_string, and_true, true_and, implies_true]

instance : JEW J.affects := ⟨fun _ h => by simp [J.affects, JCodec.struct] at h⟩

theorem w_attachedText (x : AttachedText) : J.W J.attachedText x ↔ True := by
  rw [J.attachedText, w_struct]
  simp only [J.attachedTextFields, AttachedText.toP, wF_field, wF_skip, wF_nil, w_option, w_pslice, w_string, and_true, true_and, implies_true]

instance : JEW J.attachedText := ⟨fun _ h => by simp [J.attachedText, JCodec.struct] at h⟩

theorem w_property (x : Property) : J.W J.property x ↔ True := by
  rw [J.property, w_struct]
  simp only [J.propertyFields, Property.toP, wF_field, wF_skip, wF_nil, w_option, w_pslice, w_string, and_true, true_and, implies_true]

instance : JEW J.property := ⟨fun _ h => by simp [J.property, JCodec.struct] at h⟩

theorem w_componentDataContents (x : ComponentDataContents) : J.W J.componentDataContents x ↔ True := by
  rw [J.componentDataContents, w_struct]
  simp only [J.componentDataContentsFields, ComponentDataContents.toP, wF_field, wF_skip, wF_nil, w_option, w_pslice, w_attachedText, w_property, w_string, and_true, true_and, implies_true]

instance : JEW J.componentDataContents := ⟨fun _ h => by simp [J.componentDataContents, JCodec.struct] at h⟩

theorem w_componentDataGraphic (x : ComponentDataGraphic) : J.W J.componentDataGraphic x ↔ True := by
  rw [J.componentDataGraphic, w_struct]
  simp only [J.componentDataGraphicFields, ComponentDataGraphic.toP, wF_field, wF_skip, wF_nil, w_option, w_pslice, w_attachedText, w_string, and_true, true_and, implies_true]

instance : JEW J.componentDataGraphic := ⟨fun _ h => by simp [J.componentDataGraphic, JCodec.struct] at h⟩

theorem w_componentDataGraphics (x : ComponentDataGraphics) : J.W J.componentDataGraphics x ↔ True := by
  rw [J.componentDataGraphics, w_struct]
  simp only [J.componentDataGraphicsFields, ComponentDataGraphics.toP, wF_field, wF_skip, wF_nil, w_option, w_pslice, w_componentDataGraphic, w_string, and_true, true_and, implies_true]

instance : JEW J.componentDataGraphics := ⟨fun _ h => by simp [J.componentDataGraphics, JCodec.struct] at h⟩

theorem w_organizationalContact (x : OrganizationalContact) : J.W J.organizationalContact x ↔ True := by
  rw [J.organizationalContact, w_struct]
  simp only [J.organizationalContactFields, OrganizationalContact.toP, wF_field, wF_skip, wF_nil, w_option, w_pslice, w_string, and_true, true_and, implies_true]

instance : JEW J.organizationalContact := ⟨fun _ h => by simp [J.organizationalContact, JCodec.struct] at h⟩

theorem w_postalAddress (x : PostalAddress) : J.W J.postalAddress x ↔ True := by
  rw [J.postalAddress, w_struct]
  simp only [J.postalAddressFields, PostalAddress.toP, wF_field, wF_skip, wF_nil, w_option, w_pslice, w_string, and_true, true_and, implies_true]

instance : JEW J.postalAddress := ⟨fun _ h => by simp [J.postalAddress, JCodec.struct] at h⟩

theorem w_organizationalEntity (x : OrganizationalEntity) : J.W J.organizationalEntity x ↔ True := by
  rw [J.organizationalEntity, w_struct]
  simp only [J.organizationalEntityFields, OrganizationalEntity.toP, wF_field, wF_skip, wF_nil, w_option, w_pslice, w_organizationalContact, w_postalAddress, w_string, and_true, true_and, implies_true]

instance : JEW J.organizationalEntity := ⟨fun _ h => by simp [J.organizationalEntity, JCodec.struct] at h⟩

theorem w_componentDataGovernanceResponsibleParty (x : ComponentDataGovernanceResponsibleParty) : J.W J.componentDataGovernanceResponsibleParty x ↔ True := by
  rw [J.componentDataGovernanceResponsibleParty, w_struct]
  simp only [J.componentDataGovernanceResponsiblePartyFields, ComponentDataGovernanceResponsibleParty.toP, wF_field, wF_skip, wF_nil, w_option, w_pslice, w_organizationalContact, w_organizationalEntity, and_true, true_and, implies_true]

instance : JEW J.componentDataGovernanceResponsibleParty := ⟨fun _ h => by simp [J.componentDataGovernanceResponsibleParty, JCodec.struct] at h⟩

theorem w_dataGovernance (x : DataGovernance) : J.W J.dataGovernance x ↔ True := by
  rw [J.dataGovernance, w_struct]
  simp only [J.dataGovernanceFields, DataGovernance.toP, wF_field, wF_skip, wF_nil, w_option, w_pslice, w_componentDataGovernanceResponsibleParty, and_true, true_and, implies_true]

instance : JEW J.dataGovernance := ⟨fun _ h => by simp [J.dataGovernance, JCodec.struct] at h⟩

theorem w_componentData (x : ComponentData) : J.W J.componentData x ↔ True := by
  rw [J.componentData, w_struct]
  simp only [J.componentDataFields, ComponentData.toP, wF_field, wF_skip, wF_nil, w_option, w_pslice, w_componentDataContents, w_componentDataGraphics, w_dataGovernance, w_string, and_true, true_and, implies_true]

instance : JEW J.componentData := ⟨fun _ h => by simp [J.componentData, JCodec.struct] at h⟩

theorem w_hash (x : Hash) : J.W J.hash x ↔ True := by
  rw [J.hash, w_struct]
  simp only [J.hashFields, Hash.toP, wF_field, wF_skip, wF_nil, w_option, w_pslice, w_string, and_true, true_and, implies_true]

instance : JEW J.hash := ⟨fun _ h => by simp [J.hash, JCodec.struct] at h⟩

theorem w_relatedCryptographicAsset (x : RelatedCryptographicAsset) : J.W J.relatedCryptographicAsset x ↔ True := by
  rw [J.relatedCryptographicAsset, w_struct]
  simp only [J.relatedCryptographicAssetFields, RelatedCryptographicAsset.toP, wF_field, wF_skip, wF_nil, w_option, w_pslice, w_string, and_true, true_and, implies_true]

instance : JEW J.relatedCryptographicAsset := ⟨fun _ h => by simp [J.relatedCryptographicAsset, JCodec.struct] at h⟩

theorem w_predefinedCertificateState (x : PredefinedCertificateState) : J.W J.predefinedCertificateState x ↔ True := by
  rw [J.predefinedCertificateState, w_struct]
  simp only [J.predefinedCertificateStateFields, PredefinedCertificateState.toP, wF_field, wF_skip, wF_nil, w_option, w_pslice, w_string, and_true, true_and, implies_true]

instance : JEW J.predefinedCertificateState := ⟨fun _ h => by simp [J.predefinedCertificateState, JCodec.struct] at h⟩

theorem w_customCertificateState (x : CustomCertificateState) : J.W J.customCertificateState x ↔ True := by
  rw [J.customCertificateState, w_struct]
  simp only [J.customCertificateStateFields, CustomCertificateState.toP, wF_field, wF_skip, wF_nil, w_option, w_pslice, w_string, and_true, true_and, implies_true]

instance : JEW J.customCertificateState := ⟨fun _ h => by simp [J.customCertificateState, JCodec.struct] at h⟩

theorem w_certificateState (x : CertificateState) : J.W J.certificateState x ↔ x.Writable := by
  have h1 := fun p => (w_predefinedCertificateState p).2 trivial
  have h2 := fun p => (w_customCertificateState p).2 trivial
  simp only [J.W] at h1 h2 ⊢
  obtain ⟨p, q⟩ := x
  cases p <;> cases q <;> simp [J.certificateState, CertificateState.Writable, h1, h2]

instance : JEW J.certificateState := ⟨fun _ h => by simp [J.certificateState] at h⟩

theorem w_commonCertificateExtension (x : CommonCertificateExtension) : J.W J.commonCertificateExtension x ↔ True := by
  rw [J.commonCertificateExtension, w_struct]
  simp only [J.commonCertificateExtensionFields, CommonCertificateExtension.toP, wF_field, wF_skip, wF_nil, w_option, w_pslice, w_string, and_true, true_and, implies_true]

instance : JEW J.commonCertificateExtension := ⟨fun _ h => by simp [J.commonCertificateExtension, JCodec.struct] at h⟩

theorem w_customCertificateExtension (x : CustomCertificateExtension) : J.W J.customCertificateExtension x ↔ True := by
  rw [J.customCertificateExtension, w_struct]
  simp only [J.customCertificateExtensionFields, CustomCertificateExtension.toP, wF_field, wF_skip, wF_nil, w_option, w_pslice, w_string, and_true, true_and, implies_true]

instance : JEW J.customCertificateExtension := ⟨fun _ h => by simp [J.customCertificateExtension, JCodec.struct] at h⟩

theorem w_certificateExtension (x : CertificateExtension) : J.W J.certificateExtension x ↔ x.Writable := by
  have h1 := fun p => (w_commonCertificateExtension p).2 trivial
  have h2 := fun p => (w_customCertificateExtension p).2 trivial
  simp only [J.W] at h1 h2 ⊢
  obtain ⟨p, q⟩ := x
  cases p <;> cases q <;> simp [J.certificateExtension, CertificateExtension.Writable, h1, h2]

instance : JEW J.certificateExtension := ⟨fun _ h => by simp [J.certificateExtension] at h⟩

theorem w_certificateProperties (x : CertificateProperties) : J.W J.certificateProperties x ↔ x.Writable := by
  rw [J.certificateProperties, w_struct]
  simp only [J.certificatePropertiesFields, CertificateProperties.toP, CertificateProperties.Writable, wF_field, wF_skip, wF_nil, w_option, w_pslice, w_bomReference, w_certificateExtension, w_certificateState, w_hash, w_relatedCryptographicAsset, w_string, and_true, true_and, implies_true]

instance : JEW J.certificateProperties := ⟨fun _ h => by simp [J.certificateProperties, JCodec.struct] at h⟩

theorem w_cryptoAlgorithmProperties (x : CryptoAlgorithmProperties) : J.W J.cryptoAlgorithmProperties x ↔ True := by
  rw [J.cryptoAlgorithmProperties, w_struct]
  simp only [J.cryptoAlgorithmPropertiesFields, CryptoAlgorithmProperties.toP, wF_field, wF_skip, wF_nil, w_option, w_pslice, w_int, w_string, and_true, true_and, implies_true]

instance : JEW J.cryptoAlgorithmProperties := ⟨fun _ h => by simp [J.cryptoAlgorithmProperties, JCodec.struct] at h⟩

theorem w_cipherSuite (x : CipherSuite) : J.W J.cipherSuite x ↔ True := by
  rw [J.cipherSuite, w_struct]
  simp only [J.cipherSuiteFields, CipherSuite.toP, wF_field, wF_skip, wF_nil, w_option, w_pslice, w_bomReference, w_string, and_true, true_and, implies_true]

instance : JEW J.cipherSuite := ⟨fun _ h => by simp [J.cipherSuite, JCodec.struct] at h⟩

theorem w_ikev2Auth (x : IKEv2Auth) : J.W J.ikev2Auth x ↔ True := by
  have h : J.W (JCodec.struct J.ikev2AuthFields IKEv2Auth.toP IKEv2Auth.ofP) x := by
    rw [w_struct]
    simp only [J.ikev2AuthFields, IKEv2Auth.toP, wF_field, wF_skip, wF_nil, w_option, w_pslice, w_string, and_true, true_and, implies_true]
  simp only [J.W] at h ⊢
  simp only [J.ikev2Auth, J.ikev2, iff_true]
  split <;> simp_all [J.bomReference]

instance : JEW J.ikev2Auth := ⟨fun _ h => by simp [J.ikev2Auth, J.ikev2, JCodec.struct] at h⟩

theorem w_ikev2Enc (x : IKEv2Enc) : J.W J.ikev2Enc x ↔ True := by
  have h : J.W (JCodec.struct J.ikev2EncFields IKEv2Enc.toP IKEv2Enc.ofP) x := by
    rw [w_struct]
    simp only [J.ikev2EncFields, IKEv2Enc.toP, wF_field, wF_skip, wF_nil, w_option, w_pslice, w_int, w_string, and_true, true_and, implies_true]
  simp only [J.W] at h ⊢
  simp only [J.ikev2Enc, J.ikev2, iff_true]
  split <;> simp_all [J.bomReference]

instance : JEW J.ikev2Enc := ⟨fun _ h => by simp [J.ikev2Enc, J.ikev2, JCodec.struct] at h⟩

theorem w_ikev2Integ (x : IKEv2Integ) : J.W J.ikev2Integ x ↔ True := by
  have h : J.W (JCodec.struct J.ikev2IntegFields IKEv2Integ.toP IKEv2Integ.ofP) x := by
    rw [w_struct]
    simp only [J.ikev2IntegFields, IKEv2Integ.toP, wF_field, wF_skip, wF_nil, w_option, w_pslice, w_string, and_true, true_and, implies_true]
  simp only [J.W] at h ⊢
  simp only [J.ikev2Integ, J.ikev2, iff_true]
  split <;> simp_all [J.bomReference]

instance : JEW J.ikev2Integ := ⟨fun _ h => by simp [J.ikev2Integ, J.ikev2, JCodec.struct] at h⟩

theorem w_ikev2Ke (x : IKEv2Ke) : J.W J.ikev2Ke x ↔ True := by
  have h : J.W (JCodec.struct J.ikev2KeFields IKEv2Ke.toP IKEv2Ke.ofP) x := by
    rw [w_struct]
    simp only [J.ikev2KeFields, IKEv2Ke.toP, wF_field, wF_skip, wF_nil, w_option, w_pslice, w_int, w_string, and_true, true_and, implies_true]
  simp only [J.W] at h ⊢
  simp only [J.ikev2Ke, J.ikev2, iff_true]
  split <;> simp_all [J.bomReference]

instance : JEW J.ikev2Ke := ⟨fun _ h => by simp [J.ikev2Ke, J.ikev2, JCodec.struct] at h⟩

theorem w_ikev2Prf (x : IKEv2Prf) : J.W J.ikev2Prf x ↔ True := by
  have h : J.W (JCodec.struct J.ikev2PrfFields IKEv2Prf.toP IKEv2Prf.ofP) x := by
    rw [w_struct]
    simp only [J.ikev2PrfFields, IKEv2Prf.toP, wF_field, wF_skip, wF_nil, w_option, w_pslice, w_string, and_true, true_and, implies_true]
  simp only [J.W] at h ⊢
  simp only [J.ikev2Prf, J.ikev2, iff_true]
  split <;> simp_all [J.bomReference]

instance : JEW J.ikev2Prf := ⟨fun _ h => by simp [J.ikev2Prf, J.ikev2, JCodec.struct] at h⟩

theorem w_ikev2TransformTypes (x : IKEv2TransformTypes) : J.W J.ikev2TransformTypes x ↔ True := by
  rw [J.ikev2TransformTypes, w_struct]
  simp only [J.ikev2TransformTypesFields, IKEv2TransformTypes.toP, wF_field, wF_skip, wF_nil, w_option, w_pslice, w_bool, w_ikev2Auth, w_ikev2Enc, w_ikev2Integ, w_ikev2Ke, w_ikev2Prf, and_true, true_and, implies_true]

instance : JEW J.ikev2TransformTypes := ⟨fun _ h => by simp [J.ikev2TransformTypes, JCodec.struct] at h⟩

theorem w_cryptoProtocolProperties (x : CryptoProtocolProperties) : J.W J.cryptoProtocolProperties x ↔ True := by
  rw [J.cryptoProtocolProperties, w_struct]
  simp only [J.cryptoProtocolPropertiesFields, CryptoProtocolProperties.toP, wF_field, wF_skip, wF_nil, w_option, w_pslice, w_bomReference, w_cipherSuite, w_ikev2TransformTypes, w_relatedCryptographicAsset, w_string, and_true, true_and, implies_true]

instance : JEW J.cryptoProtocolProperties := ⟨fun _ h => by simp [J.cryptoProtocolProperties, JCodec.struct] at h⟩

theorem w_securedBy (x : SecuredBy) : J.W J.securedBy x ↔ True := by
  rw [J.securedBy, w_struct]
  simp only [J.securedByFields, SecuredBy.toP, wF_field, wF_skip, wF_nil, w_option, w_pslice, w_bomReference, w_string, and_true, true_and, implies_true]

instance : JEW J.securedBy := ⟨fun _ h => by simp [J.securedBy, JCodec.struct] at h⟩

theorem w_relatedCryptoMaterialProperties (x : RelatedCryptoMaterialProperties) : J.W J.relatedCryptoMaterialProperties x ↔ True := by
  rw [J.relatedCryptoMaterialProperties, w_struct]
  simp only [J.relatedCryptoMaterialPropertiesFields, RelatedCryptoMaterialProperties.toP, wF_field, wF_skip, wF_nil, w_option, w_pslice, w_bomReference, w_hash, w_int, w_relatedCryptographicAsset, w_securedBy, w_string, and_true, true_and, implies_true]

instance : JEW J.relatedCryptoMaterialProperties := ⟨fun _ h => by simp [J.relatedCryptoMaterialProperties, JCodec.struct] at h⟩

theorem w_cryptoProperties (x : CryptoProperties) : J.W J.cryptoProperties x ↔ x.Writable := by
  rw [J.cryptoProperties, w_struct]
  simp only [J.cryptoPropertiesFields, CryptoProperties.toP, CryptoProperties.Writable, wF_field, wF_skip, wF_nil, w_option, w_pslice, w_certificateProperties, w_cryptoAlgorithmProperties, w_cryptoProtocolProperties, w_relatedCryptoMaterialProperties, w_string, and_true, true_and, implies_true]

instance : JEW J.cryptoProperties := ⟨fun _ h => by simp [J.cryptoProperties, JCodec.struct] at h⟩

theorem w_callstackFrame (x : CallstackFrame) : J.W J.callstackFrame x ↔ True := by
  rw [J.callstackFrame, w_struct]
  simp only [J.callstackFrameFields, CallstackFrame.toP, wF_field, wF_skip, wF_nil, w_option, w_pslice, w_int, w_string, and_true, true_and, implies_true]

instance : JEW J.callstackFrame := ⟨fun _ h => by simp [J.callstackFrame, JCodec.struct] at h⟩

theorem w_callstack (x : Callstack) : J.W J.callstack x ↔ True := by
  rw [J.callstack, w_struct]
  simp only [J.callstackFields, Callstack.toP, wF_field, wF_skip, wF_nil, w_option, w_pslice, w_callstackFrame, and_true, true_and, implies_true]

instance : JEW J.callstack := ⟨fun _ h => by simp [J.callstack, JCodec.struct] at h⟩

theorem w_copyright (x : Copyright) : J.W J.copyright x ↔ True := by
  rw [J.copyright, w_struct]
  simp only [J.copyrightFields, Copyright.toP, wF_field, wF_skip, wF_nil, w_option, w_pslice, w_string, and_true, true_and, implies_true]

instance : JEW J.copyright := ⟨fun _ h => by simp [J.copyright, JCodec.struct] at h⟩

theorem w_evidenceIdentityMethod (x : EvidenceIdentityMethod) : J.W J.evidenceIdentityMethod x ↔ x.Writable := by
  rw [J.evidenceIdentityMethod, w_struct]
  simp only [J.evidenceIdentityMethodFields, EvidenceIdentityMethod.toP, EvidenceIdentityMethod.Writable, wF_field, wF_skip, wF_nil, w_option, w_pslice, w_f32, w_string, and_true, true_and, implies_true]

instance : JEW J.evidenceIdentityMethod := ⟨fun _ h => by simp [J.evidenceIdentityMethod, JCodec.struct] at h⟩

theorem w_evidenceIdentity (x : EvidenceIdentity) : J.W J.evidenceIdentity x ↔ x.Writable := by
  rw [J.evidenceIdentity, w_struct]
  simp only [J.evidenceIdentityFields, EvidenceIdentity.toP, EvidenceIdentity.Writable, wF_field, wF_skip, wF_nil, w_option, w_pslice, w_bomReference, w_evidenceIdentityMethod, w_f32, w_string, and_true, true_and, implies_true]

instance : JEW J.evidenceIdentity := ⟨fun _ h => by simp [J.evidenceIdentity, JCodec.struct] at h⟩

theorem w_evidenceIdentityChoice (x : EvidenceIdentityChoice) :
    J.W J.evidenceIdentityChoice x ↔ x.Writable := by
  have h2 := (w_pslice J.evidenceIdentity x.identities)
  simp only [w_evidenceIdentity] at h2
  rw [EvidenceIdentityChoice.Writable, ← h2]
  obtain ⟨i, l⟩ := x
  cases i with
  | some i =>
    have h1 := w_evidenceIdentity i
    simp only [J.W] at h1 ⊢
    cases l <;> simp [J.evidenceIdentityChoice, PSlice.isNil, JCodec.pslice, h1]
  | none => cases l <;> simp [J.W, J.evidenceIdentityChoice, PSlice.isNil, JCodec.pslice]

instance : JEW J.evidenceIdentityChoice := ⟨fun _ h => by simp [J.evidenceIdentityChoice] at h⟩

theorem w_evidenceOccurrence (x : EvidenceOccurrence) : J.W J.evidenceOccurrence x ↔ True := by
  rw [J.evidenceOccurrence, w_struct]
  simp only [J.evidenceOccurrenceFields, EvidenceOccurrence.toP, wF_field, wF_skip, wF_nil, w_option, w_pslice, w_int, w_string, and_true, true_and, implies_true]

instance : JEW J.evidenceOccurrence := ⟨fun _ h => by simp [J.evidenceOccurrence, JCodec.struct] at h⟩

theorem w_organizationalEntityOrContact (x : OrganizationalEntityOrContact) : J.W J.organizationalEntityOrContact x ↔ True := by
  rw [J.organizationalEntityOrContact, w_struct]
  simp only [J.organizationalEntityOrContactFields, OrganizationalEntityOrContact.toP, wF_field, wF_skip, wF_nil, w_option, w_pslice, w_organizationalContact, w_organizationalEntity, and_true, true_and, implies_true]

instance : JEW J.organizationalEntityOrContact := ⟨fun _ h => by simp [J.organizationalEntityOrContact, JCodec.struct] at h⟩

theorem w_licensing (x : Licensing) : J.W J.licensing x ↔ True := by
  rw [J.licensing, w_struct]
  simp only [J.licensingFields, Licensing.toP, wF_field, wF_skip, wF_nil, w_option, w_pslice, w_organizationalEntityOrContact, w_string, and_true, true_and, implies_true]

instance : JEW J.licensing := ⟨fun _ h => by simp [J.licensing, JCodec.struct] at h⟩

theorem w_licenseAlias (x : License) : J.W J.licenseAlias x ↔ True := by
  rw [J.licenseAlias, w_struct]
  simp only [J.licenseFields, License.toP, wF_field, wF_skip, wF_nil, w_option, w_pslice, w_attachedText, w_licensing, w_property, w_string, and_true, true_and, implies_true]

theorem w_license (x : License) : J.W J.license x ↔ x.Writable := by
  have h := (w_licenseAlias x).2 trivial
  simp only [J.W] at h ⊢
  simp only [J.license, License.Writable]
  by_cases h1 : x.id = "" <;> by_cases h2 : x.name = "" <;> simp [h1, h2, h]

instance : JEW J.license := ⟨fun _ h => by simp [J.license, J.licenseAlias, JCodec.struct] at h⟩

theorem w_licenseExpressionDetail (x : LicenseExpressionDetail) : J.W J.licenseExpressionDetail x ↔ True := by
  rw [J.licenseExpressionDetail, w_struct]
  simp only [J.licenseExpressionDetailFields, LicenseExpressionDetail.toP, wF_field, wF_skip, wF_nil, w_option, w_pslice, w_attachedText, w_string, and_true, true_and, implies_true]

instance : JEW J.licenseExpressionDetail := ⟨fun _ h => by simp [J.licenseExpressionDetail, JCodec.struct] at h⟩

theorem w_licenseChoice (x : LicenseChoice) : J.W J.licenseChoice x ↔ x.Writable := by
  rw [J.licenseChoice, w_struct]
  simp only [J.licenseChoiceFields, LicenseChoice.toP, LicenseChoice.Writable, wF_field, wF_skip, wF_nil, w_option, w_pslice, w_license, w_licenseExpressionDetail, w_licensing, w_property, w_string, and_true, true_and, implies_true]

instance : JEW J.licenseChoice := ⟨fun _ h => by simp [J.licenseChoice, JCodec.struct] at h⟩

theorem w_evidence (x : Evidence) : J.W J.evidence x ↔ x.Writable := by
  rw [J.evidence, w_struct]
  simp only [J.evidenceFields, Evidence.toP, Evidence.Writable, wF_field, wF_skip, wF_nil, w_option, w_pslice, w_callstack, w_copyright, w_evidenceIdentityChoice, w_evidenceOccurrence, w_licenseChoice, and_true, true_and, implies_true]

instance : JEW J.evidence := ⟨fun _ h => by simp [J.evidence, JCodec.struct] at h⟩

theorem w_externalReference (x : ExternalReference) : J.W J.externalReference x ↔ True := by
  rw [J.externalReference, w_struct]
  simp only [J.externalReferenceFields, ExternalReference.toP, wF_field, wF_skip, wF_nil, w_option, w_pslice, w_hash, w_property, w_string, and_true, true_and, implies_true]

instance : JEW J.externalReference := ⟨fun _ h => by simp [J.externalReference, JCodec.struct] at h⟩

theorem w_jsfPublicKey (x : JSFPublicKey) : J.W J.jsfPublicKey x ↔ True := by
  rw [J.jsfPublicKey, w_struct]
  simp only [J.jsfPublicKeyFields, JSFPublicKey.toP, wF_field, wF_skip, wF_nil, w_option, w_pslice, w_string, and_true, true_and, implies_true]

instance : JEW J.jsfPublicKey := ⟨fun _ h => by simp [J.jsfPublicKey, JCodec.struct] at h⟩

theorem w_jsfSigner (x : JSFSigner) : J.W J.jsfSigner x ↔ True := by
  rw [J.jsfSigner, w_struct]
  simp only [J.jsfSignerFields, JSFSigner.toP, wF_field, wF_skip, wF_nil, w_option, w_pslice, w_jsfPublicKey, w_string, and_true, true_and, implies_true]

instance : JEW J.jsfSigner := ⟨fun _ h => by simp [J.jsfSigner, JCodec.struct] at h⟩

theorem w_jsfSignature (x : JSFSignature) : J.W J.jsfSignature x ↔ True := by
  rw [J.jsfSignature, w_struct]
  simp only [J.jsfSignatureFields, JSFSignature.toP, wF_field, wF_skip, wF_nil, w_option, w_pslice, w_jsfSigner, and_true, true_and, implies_true]

instance : JEW J.jsfSignature := ⟨fun _ h => by simp [J.jsfSignature, JCodec.struct] at h⟩

theorem w_mlModelCO2Measure (x : MLModelCO2Measure) : J.W J.mlModelCO2Measure x ↔ x.Writable := by
  rw [J.mlModelCO2Measure, w_struct]
  simp only [J.mlModelCO2MeasureFields, MLModelCO2Measure.toP, MLModelCO2Measure.Writable, wF_field, wF_skip, wF_nil, w_option, w_pslice, w_f32, w_string, and_true, true_and, implies_true]

instance : JEW J.mlModelCO2Measure := ⟨fun _ h => by simp [J.mlModelCO2Measure, JCodec.struct] at h⟩

theorem w_mlModelEnergyMeasure (x : MLModelEnergyMeasure) : J.W J.mlModelEnergyMeasure x ↔ x.Writable := by
  rw [J.mlModelEnergyMeasure, w_struct]
  simp only [J.mlModelEnergyMeasureFields, MLModelEnergyMeasure.toP, MLModelEnergyMeasure.Writable, wF_field, wF_skip, wF_nil, w_option, w_pslice, w_f32, w_string, and_true, true_and, implies_true]

instance : JEW J.mlModelEnergyMeasure := ⟨fun _ h => by simp [J.mlModelEnergyMeasure, JCodec.struct] at h⟩

theorem w_mlModelEnergyProvider (x : MLModelEnergyProvider) : J.W J.mlModelEnergyProvider x ↔ x.Writable := by
  rw [J.mlModelEnergyProvider, w_struct]
  simp only [J.mlModelEnergyProviderFields, MLModelEnergyProvider.toP, MLModelEnergyProvider.Writable, wF_field, wF_skip, wF_nil, w_option, w_pslice, w_externalReference, w_mlModelEnergyMeasure, w_organizationalEntity, w_string, and_true, true_and, implies_true]

instance : JEW J.mlModelEnergyProvider := ⟨fun _ h => by simp [J.mlModelEnergyProvider, JCodec.struct] at h⟩

theorem w_mlModelEnergyConsumption (x : MLModelEnergyConsumption) : J.W J.mlModelEnergyConsumption x ↔ x.Writable := by
  rw [J.mlModelEnergyConsumption, w_struct]
  simp only [J.mlModelEnergyConsumptionFields, MLModelEnergyConsumption.toP, MLModelEnergyConsumption.Writable, wF_field, wF_skip, wF_nil, w_option, w_pslice, w_mlModelCO2Measure, w_mlModelEnergyMeasure, w_mlModelEnergyProvider, w_property, w_string, and_true, true_and, implies_true]

instance : JEW J.mlModelEnergyConsumption := ⟨fun _ h => by simp [J.mlModelEnergyConsumption, JCodec.struct] at h⟩

theorem w_mlModelCardEnvironmentalConsiderations (x : MLModelCardEnvironmentalConsiderations) : J.W J.mlModelCardEnvironmentalConsiderations x ↔ x.Writable := by
  rw [J.mlModelCardEnvironmentalConsiderations, w_struct]
  simp only [J.mlModelCardEnvironmentalConsiderationsFields, MLModelCardEnvironmentalConsiderations.toP, MLModelCardEnvironmentalConsiderations.Writable, wF_field, wF_skip, wF_nil, w_option, w_pslice, w_mlModelEnergyConsumption, w_property, and_true, true_and, implies_true]

instance : JEW J.mlModelCardEnvironmentalConsiderations := ⟨fun _ h => by simp [J.mlModelCardEnvironmentalConsiderations, JCodec.struct] at h⟩

theorem w_mlModelCardEthicalConsideration (x : MLModelCardEthicalConsideration) : J.W J.mlModelCardEthicalConsideration x ↔ True := by
  rw [J.mlModelCardEthicalConsideration, w_struct]
  simp only [J.mlModelCardEthicalConsiderationFields, MLModelCardEthicalConsideration.toP, wF_field, wF_skip, wF_nil, w_option, w_pslice, w_string, and_true, true_and, implies_true]

instance : JEW J.mlModelCardEthicalConsideration := ⟨fun _ h => by simp [J.mlModelCardEthicalConsideration, JCodec.struct] at h⟩

theorem w_mlModelCardFairnessAssessment (x : MLModelCardFairnessAssessment) : J.W J.mlModelCardFairnessAssessment x ↔ True := by
  rw [J.mlModelCardFairnessAssessment, w_struct]
  simp only [J.mlModelCardFairnessAssessmentFields, MLModelCardFairnessAssessment.toP, wF_field, wF_skip, wF_nil, w_option, w_pslice, w_string, and_true, true_and, implies_true]

instance : JEW J.mlModelCardFairnessAssessment := ⟨fun _ h => by simp [J.mlModelCardFairnessAssessment, JCodec.struct] at h⟩

theorem w_mlModelCardConsiderations (x : MLModelCardConsiderations) : J.W J.mlModelCardConsiderations x ↔ x.Writable := by
  rw [J.mlModelCardConsiderations, w_struct]
  simp only [J.mlModelCardConsiderationsFields, MLModelCardConsiderations.toP, MLModelCardConsiderations.Writable, wF_field, wF_skip, wF_nil, w_option, w_pslice, w_mlModelCardEnvironmentalConsiderations, w_mlModelCardEthicalConsideration, w_mlModelCardFairnessAssessment, w_string, and_true, true_and, implies_true]

instance : JEW J.mlModelCardConsiderations := ⟨fun _ h => by simp [J.mlModelCardConsiderations, JCodec.struct] at h⟩

theorem w_mlDatasetChoice (x : MLDatasetChoice) : J.W J.mlDatasetChoice x ↔ True := by
  have := fun p => (w_componentData p).2 trivial
  simp only [J.W] at this ⊢
  simp only [J.mlDatasetChoice, iff_true]
  repeat' split
  all_goals simp_all

instance : JEW J.mlDatasetChoice := ⟨fun _ h => by simp [J.mlDatasetChoice] at h⟩

theorem w_mlInputOutputParameters (x : MLInputOutputParameters) : J.W J.mlInputOutputParameters x ↔ True := by
  rw [J.mlInputOutputParameters, w_struct]
  simp only [J.mlInputOutputParametersFields, MLInputOutputParameters.toP, wF_field, wF_skip, wF_nil, w_option, w_pslice, w_string, and_true, true_and, implies_true]

instance : JEW J.mlInputOutputParameters := ⟨fun _ h => by simp [J.mlInputOutputParameters, JCodec.struct] at h⟩

theorem w_mlModelParametersApproach (x : MLModelParametersApproach) : J.W J.mlModelParametersApproach x ↔ True := by
  rw [J.mlModelParametersApproach, w_struct]
  simp only [J.mlModelParametersApproachFields, MLModelParametersApproach.toP, wF_field, wF_skip, wF_nil, w_option, w_pslice, w_string, and_true, true_and, implies_true]

instance : JEW J.mlModelParametersApproach := ⟨fun _ h => by simp [J.mlModelParametersApproach, JCodec.struct] at h⟩

theorem w_mlModelParameters (x : MLModelParameters) : J.W J.mlModelParameters x ↔ True := by
  rw [J.mlModelParameters, w_struct]
  simp only [J.mlModelParametersFields, MLModelParameters.toP, wF_field, wF_skip, wF_nil, w_option, w_pslice, w_mlDatasetChoice, w_mlInputOutputParameters, w_mlModelParametersApproach, w_string, and_true, true_and, implies_true]

instance : JEW J.mlModelParameters := ⟨fun _ h => by simp [J.mlModelParameters, JCodec.struct] at h⟩

theorem w_mlPerformanceMetricConfidenceInterval (x : MLPerformanceMetricConfidenceInterval) : J.W J.mlPerformanceMetricConfidenceInterval x ↔ True := by
  rw [J.mlPerformanceMetricConfidenceInterval, w_struct]
  simp only [J.mlPerformanceMetricConfidenceIntervalFields, MLPerformanceMetricConfidenceInterval.toP, wF_field, wF_skip, wF_nil, w_option, w_pslice, w_string, and_true, true_and, implies_true]

instance : JEW J.mlPerformanceMetricConfidenceInterval := ⟨fun _ h => by simp [J.mlPerformanceMetricConfidenceInterval, JCodec.struct] at h⟩

theorem w_mlPerformanceMetric (x : MLPerformanceMetric) : J.W J.mlPerformanceMetric x ↔ True := by
  rw [J.mlPerformanceMetric, w_struct]
  simp only [J.mlPerformanceMetricFields, MLPerformanceMetric.toP, wF_field, wF_skip, wF_nil, w_option, w_pslice, w_mlPerformanceMetricConfidenceInterval, w_string, and_true, true_and, implies_true]

instance : JEW J.mlPerformanceMetric := ⟨fun _ h => by simp [J.mlPerformanceMetric, JCodec.struct] at h⟩

theorem w_mlQuantitativeAnalysis (x : MLQuantitativeAnalysis) : J.W J.mlQuantitativeAnalysis x ↔ True := by
  rw [J.mlQuantitativeAnalysis, w_struct]
  simp only [J.mlQuantitativeAnalysisFields, MLQuantitativeAnalysis.toP, wF_field, wF_skip, wF_nil, w_option, w_pslice, w_componentDataGraphics, w_mlPerformanceMetric, and_true, true_and, implies_true]

instance : JEW J.mlQuantitativeAnalysis := ⟨fun _ h => by simp [J.mlQuantitativeAnalysis, JCodec.struct] at h⟩

theorem w_mlModelCard (x : MLModelCard) : J.W J.mlModelCard x ↔ x.Writable := by
  rw [J.mlModelCard, w_struct]
  simp only [J.mlModelCardFields, MLModelCard.toP, MLModelCard.Writable, wF_field, wF_skip, wF_nil, w_option, w_pslice, w_mlModelCardConsiderations, w_mlModelParameters, w_mlQuantitativeAnalysis, w_string, and_true, true_and, implies_true]

instance : JEW J.mlModelCard := ⟨fun _ h => by simp [J.mlModelCard, JCodec.struct] at h⟩

theorem w_identifiableAction (x : IdentifiableAction) : J.W J.identifiableAction x ↔ True := by
  rw [J.identifiableAction, w_struct]
  simp only [J.identifiableActionFields, IdentifiableAction.toP, wF_field, wF_skip, wF_nil, w_option, w_pslice, w_string, and_true, true_and, implies_true]

instance : JEW J.identifiableAction := ⟨fun _ h => by simp [J.identifiableAction, JCodec.struct] at h⟩

theorem w_commit (x : Commit) : J.W J.commit x ↔ True := by
  rw [J.commit, w_struct]
  simp only [J.commitFields, Commit.toP, wF_field, wF_skip, wF_nil, w_option, w_pslice, w_identifiableAction, w_string, and_true, true_and, implies_true]

instance : JEW J.commit := ⟨fun _ h => by simp [J.commit, JCodec.struct] at h⟩

theorem w_diff (x : Diff) : J.W J.diff x ↔ True := by
  rw [J.diff, w_struct]
  simp only [J.diffFields, Diff.toP, wF_field, wF_skip, wF_nil, w_option, w_pslice, w_attachedText, w_string, and_true, true_and, implies_true]

instance : JEW J.diff := ⟨fun _ h => by simp [J.diff, JCodec.struct] at h⟩

theorem w_source (x : Source) : J.W J.source x ↔ True := by
  rw [J.source, w_struct]
  simp only [J.sourceFields, Source.toP, wF_field, wF_skip, wF_nil, w_option, w_pslice, w_string, and_true, true_and, implies_true]

instance : JEW J.source := ⟨fun _ h => by simp [J.source, JCodec.struct] at h⟩

theorem w_issue (x : Issue) : J.W J.issue x ↔ True := by
  rw [J.issue, w_struct]
  simp only [J.issueFields, Issue.toP, wF_field, wF_skip, wF_nil, w_option, w_pslice, w_source, w_string, and_true, true_and, implies_true]

instance : JEW J.issue := ⟨fun _ h => by simp [J.issue, JCodec.struct] at h⟩

theorem w_patch (x : Patch) : J.W J.patch x ↔ True := by
  rw [J.patch, w_struct]
  simp only [J.patchFields, Patch.toP, wF_field, wF_skip, wF_nil, w_option, w_pslice, w_diff, w_issue, w_string, and_true, true_and, implies_true]

instance : JEW J.patch := ⟨fun _ h => by simp [J.patch, JCodec.struct] at h⟩

theorem w_pedigreeWith (C : JCodec Component) (x : Pedigree Component)
    (h1 : (∀ c ∈ x.ancestors.elems, J.W C c) ↔ WritableComponents x.ancestors)
    (h2 : (∀ c ∈ x.descendants.elems, J.W C c) ↔ WritableComponents x.descendants)
    (h3 : (∀ c ∈ x.variants.elems, J.W C c) ↔ WritableComponents x.variants) :
    J.W (J.pedigree C) x ↔ WritablePedigree x := by
  rw [J.pedigree, w_struct]
  simp only [J.pedigreeFields, Pedigree.toP, h1, h2, h3, wF_field, wF_skip, wF_nil, w_option, w_pslice, w_commit, w_patch, w_string, and_true, true_and, implies_true]
  cases x; simp only [WritablePedigree]

instance (C : JCodec Component) : JEW (J.pedigree C) := ⟨fun _ h => by simp [J.pedigree, JCodec.struct] at h⟩

theorem w_note (x : Note) : J.W J.note x ↔ True := by
  rw [J.note, w_struct]
  simp only [J.noteFields, Note.toP, wF_field, wF_skip, wF_nil, w_option, w_pslice, w_attachedText, w_string, and_true, true_and, implies_true]

instance : JEW J.note := ⟨fun _ h => by simp [J.note, JCodec.struct] at h⟩

theorem w_releaseNotes (x : ReleaseNotes) : J.W J.releaseNotes x ↔ True := by
  rw [J.releaseNotes, w_struct]
  simp only [J.releaseNotesFields, ReleaseNotes.toP, wF_field, wF_skip, wF_nil, w_option, w_pslice, w_issue, w_note, w_property, w_string, and_true, true_and, implies_true]

instance : JEW J.releaseNotes := ⟨fun _ h => by simp [J.releaseNotes, JCodec.struct] at h⟩

theorem w_swid (x : SWID) : J.W J.swid x ↔ True := by
  rw [J.swid, w_struct]
  simp only [J.swidFields, SWID.toP, wF_field, wF_skip, wF_nil, w_option, w_pslice, w_attachedText, w_bool, w_int, w_string, and_true, true_and, implies_true]

instance : JEW J.swid := ⟨fun _ h => by simp [J.swid, JCodec.struct] at h⟩

theorem w_asserterChoice (x : AsserterChoice) : J.W J.asserterChoice x ↔ True := by
  have h1 := fun p => (w_organizationalEntity p).2 trivial
  have h2 := fun p => (w_organizationalContact p).2 trivial
  have h3 := fun p => (w_bomReference p).2 trivial
  simp only [J.W] at h1 h2 h3 ⊢
  simp only [J.asserterChoice, iff_true]
  split <;> simp [h1, h2, h3]

instance : JEW J.asserterChoice := ⟨fun _ h => by simp [J.asserterChoice] at h⟩

theorem w_patentAssertion (x : PatentAssertion) : J.W J.patentAssertion x ↔ True := by
  rw [J.patentAssertion, w_struct]
  simp only [J.patentAssertionFields, PatentAssertion.toP, wF_field, wF_skip, wF_nil, w_option, w_pslice, w_asserterChoice, w_bomReference, w_string, and_true, true_and, implies_true]

instance : JEW J.patentAssertion := ⟨fun _ h => by simp [J.patentAssertion, JCodec.struct] at h⟩

theorem writableComponentList_iff (xs : List Component) :
    WritableComponentList xs ↔ ∀ c ∈ xs, c.Writable := by
  induction xs with
  | nil => simp [WritableComponentList]
  | cons x xs ih => simp [WritableComponentList, ih]

theorem writableComponents_iff (p : PSlice Component) : WritableComponents p ↔ ∀ c ∈ p.elems, c.Writable := by
  cases p <;> simp [WritableComponents, PSlice.elems, writableComponentList_iff]

theorem w_componentWith (C : JCodec Component) (x : Component)
    (h1 : (∀ c ∈ x.components.elems, J.W C c) ↔ WritableComponents x.components)
    (h2 : ∀ p ∈ x.pedigree, (J.W (J.pedigree C) p ↔ WritablePedigree p)) :
    J.W (J.componentWith C) x ↔ x.Writable := by
  have h3 : (∀ p ∈ x.pedigree, J.W (J.pedigree C) p) ↔ WritablePedigreeOpt x.pedigree := by
    cases hp : x.pedigree with
    | none => simp [WritablePedigreeOpt]
    | some p => simpa [WritablePedigreeOpt] using h2 p hp
  rw [J.componentWith, w_struct]
  simp only [J.componentFields, Component.toP, h1, h3, wF_field, wF_skip, wF_nil, w_option, w_pslice, w_bool, w_componentData, w_cryptoProperties, w_evidence, w_externalReference, w_hash, w_jsfSignature, w_licenseChoice, w_mlModelCard, w_organizationalContact, w_organizationalEntity, w_patentAssertion, w_property, w_releaseNotes, w_string, w_swid, and_true, true_and, implies_true]
  cases x; simp only [Component.Writable]

instance : JEW J.component := ⟨fun _ h => by simp [J.component, J.knot] at h⟩

theorem w_component (x : Component) : J.W J.component x ↔ x.Writable := by
  suffices H : ∀ n (x : Component), x.height ≤ n → (J.W J.component x ↔ x.Writable) from
    H x.height x (Nat.le_refl _)
  intro n
  induction n with
  | zero => intro x h; rw [Component.height_eq] at h; omega
  | succ n ih =>
    intro x h
    rw [(component_sameAt_self x).w]
    rw [Component.height_eq] at h
    have hm : max (heightComponents x.components) (heightPedigreeOpt x.pedigree) ≤ n := by omega
    rw [Nat.max_le] at hm
    have hl : ∀ p : PSlice Component, heightComponents p ≤ n →
        ((∀ c ∈ p.elems, J.W J.component c) ↔ WritableComponents p) := by
      intro p hp
      rw [heightComponents_le] at hp
      rw [writableComponents_iff]
      exact forall₂_congr fun c hc => ih c (hp c hc)
    refine w_componentWith _ x (hl _ hm.1) ?_
    intro p hp
    have hp : x.pedigree = some p := hp
    have hm := hm.2
    simp only [hp, heightPedigreeOpt, heightPedigree_eq, Nat.max_le] at hm
    exact w_pedigreeWith _ p (hl _ hm.1) (hl _ hm.2.1) (hl _ hm.2.2)

theorem w_dataClassification (x : DataClassification) : J.W J.dataClassification x ↔ True := by
  rw [J.dataClassification, w_struct]
  simp only [J.dataClassificationFields, DataClassification.toP, wF_field, wF_skip, wF_nil, w_option, w_pslice, w_dataGovernance, w_string, and_true, true_and, implies_true]

instance : JEW J.dataClassification := ⟨fun _ h => by simp [J.dataClassification, JCodec.struct] at h⟩

theorem writableServiceList_iff (xs : List Service) :
    WritableServiceList xs ↔ ∀ c ∈ xs, c.Writable := by
  induction xs with
  | nil => simp [WritableServiceList]
  | cons x xs ih => simp [WritableServiceList, ih]

theorem writableServices_iff (p : PSlice Service) : WritableServices p ↔ ∀ c ∈ p.elems, c.Writable := by
  cases p <;> simp [WritableServices, PSlice.elems, writableServiceList_iff]

theorem w_serviceWith (C : JCodec Service) (x : Service)
    (h1 : (∀ c ∈ x.services.elems, J.W C c) ↔ WritableServices x.services) :
    J.W (J.serviceWith C) x ↔ x.Writable := by
  rw [J.serviceWith, w_struct]
  simp only [J.serviceFields, Service.toP, h1, wF_field, wF_skip, wF_nil, w_option, w_pslice, w_bool, w_dataClassification, w_externalReference, w_jsfSignature, w_licenseChoice, w_organizationalEntity, w_patentAssertion, w_property, w_releaseNotes, w_string, and_true, true_and, implies_true]
  cases x; simp only [Service.Writable]

instance : JEW J.service := ⟨fun _ h => by simp [J.service, J.knot] at h⟩

theorem w_service (x : Service) : J.W J.service x ↔ x.Writable := by
  suffices H : ∀ n (x : Service), x.height ≤ n → (J.W J.service x ↔ x.Writable) from
    H x.height x (Nat.le_refl _)
  intro n
  induction n with
  | zero => intro x h; rw [Service.height_eq] at h; omega
  | succ n ih =>
    intro x h
    rw [(service_sameAt_self x).w]
    rw [Service.height_eq] at h
    have hm : heightServices x.services ≤ n := by omega
    refine w_serviceWith _ x ?_
    rw [heightServices_le] at hm
    rw [writableServices_iff]
    exact forall₂_congr fun c hc => ih c (hm c hc)

theorem w_annotator (x : Annotator) : J.W J.annotator x ↔ x.Writable := by
  rw [J.annotator, w_struct]
  simp only [J.annotatorFields, Annotator.toP, Annotator.Writable, wF_field, wF_skip, wF_nil, w_option, w_pslice, w_component, w_organizationalContact, w_organizationalEntity, w_service, and_true, true_and, implies_true]

instance : JEW J.annotator := ⟨fun _ h => by simp [J.annotator, JCodec.struct] at h⟩

theorem w_annotation (x : Annotation) : J.W J.annotation x ↔ x.Writable := by
  rw [J.annotation, w_struct]
  simp only [J.annotationFields, Annotation.toP, Annotation.Writable, wF_field, wF_skip, wF_nil, w_option, w_pslice, w_annotator, w_bomReference, w_jsfSignature, w_string, and_true, true_and, implies_true]

instance : JEW J.annotation := ⟨fun _ h => by simp [J.annotation, JCodec.struct] at h⟩

theorem w_assessor (x : Assessor) : J.W J.assessor x ↔ True := by
  rw [J.assessor, w_struct]
  simp only [J.assessorFields, Assessor.toP, wF_field, wF_skip, wF_nil, w_option, w_pslice, w_bomReference, w_bool, w_organizationalEntity, and_true, true_and, implies_true]

instance : JEW J.assessor := ⟨fun _ h => by simp [J.assessor, JCodec.struct] at h⟩

theorem w_attestationConformance (x : AttestationConformance) : J.W J.attestationConformance x ↔ x.Writable := by
  rw [J.attestationConformance, w_struct]
  simp only [J.attestationConformanceFields, AttestationConformance.toP, AttestationConformance.Writable, wF_field, wF_skip, wF_nil, w_option, w_pslice, w_bomReference, w_f64, w_string, and_true, true_and, implies_true]

instance : JEW J.attestationConformance := ⟨fun _ h => by simp [J.attestationConformance, JCodec.struct] at h⟩

theorem w_attestationConfidence (x : AttestationConfidence) : J.W J.attestationConfidence x ↔ x.Writable := by
  rw [J.attestationConfidence, w_struct]
  simp only [J.attestationConfidenceFields, AttestationConfidence.toP, AttestationConfidence.Writable, wF_field, wF_skip, wF_nil, w_option, w_pslice, w_f64, w_string, and_true, true_and, implies_true]

instance : JEW J.attestationConfidence := ⟨fun _ h => by simp [J.attestationConfidence, JCodec.struct] at h⟩

theorem w_attestationMap (x : AttestationMap) : J.W J.attestationMap x ↔ x.Writable := by
  rw [J.attestationMap, w_struct]
  simp only [J.attestationMapFields, AttestationMap.toP, AttestationMap.Writable, wF_field, wF_skip, wF_nil, w_option, w_pslice, w_attestationConfidence, w_attestationConformance, w_bomReference, w_string, and_true, true_and, implies_true]

instance : JEW J.attestationMap := ⟨fun _ h => by simp [J.attestationMap, JCodec.struct] at h⟩

theorem w_attestation (x : Attestation) : J.W J.attestation x ↔ x.Writable := by
  rw [J.attestation, w_struct]
  simp only [J.attestationFields, Attestation.toP, Attestation.Writable, wF_field, wF_skip, wF_nil, w_option, w_pslice, w_attestationMap, w_bomReference, w_jsfSignature, w_string, and_true, true_and, implies_true]

instance : JEW J.attestation := ⟨fun _ h => by simp [J.attestation, JCodec.struct] at h⟩

theorem w_composition (x : Composition) : J.W J.composition x ↔ True := by
  rw [J.composition, w_struct]
  simp only [J.compositionFields, Composition.toP, wF_field, wF_skip, wF_nil, w_option, w_pslice, w_bomReference, w_jsfSignature, w_string, and_true, true_and, implies_true]

instance : JEW J.composition := ⟨fun _ h => by simp [J.composition, JCodec.struct] at h⟩

theorem w_claim (x : Claim) : J.W J.claim x ↔ True := by
  rw [J.claim, w_struct]
  simp only [J.claimFields, Claim.toP, wF_field, wF_skip, wF_nil, w_option, w_pslice, w_bomReference, w_externalReference, w_jsfSignature, w_string, and_true, true_and, implies_true]

instance : JEW J.claim := ⟨fun _ h => by simp [J.claim, JCodec.struct] at h⟩

theorem w_evidenceDataContents (x : EvidenceDataContents) : J.W J.evidenceDataContents x ↔ True := by
  rw [J.evidenceDataContents, w_struct]
  simp only [J.evidenceDataContentsFields, EvidenceDataContents.toP, wF_field, wF_skip, wF_nil, w_option, w_pslice, w_attachedText, w_string, and_true, true_and, implies_true]

instance : JEW J.evidenceDataContents := ⟨fun _ h => by simp [J.evidenceDataContents, JCodec.struct] at h⟩

theorem w_evidenceData (x : EvidenceData) : J.W J.evidenceData x ↔ True := by
  rw [J.evidenceData, w_struct]
  simp only [J.evidenceDataFields, EvidenceData.toP, wF_field, wF_skip, wF_nil, w_option, w_pslice, w_dataClassification, w_dataGovernance, w_evidenceDataContents, w_string, and_true, true_and, implies_true]

instance : JEW J.evidenceData := ⟨fun _ h => by simp [J.evidenceData, JCodec.struct] at h⟩

theorem w_declarationEvidence (x : DeclarationEvidence) : J.W J.declarationEvidence x ↔ True := by
  rw [J.declarationEvidence, w_struct]
  simp only [J.declarationEvidenceFields, DeclarationEvidence.toP, wF_field, wF_skip, wF_nil, w_option, w_pslice, w_evidenceData, w_jsfSignature, w_organizationalContact, w_string, and_true, true_and, implies_true]

instance : JEW J.declarationEvidence := ⟨fun _ h => by simp [J.declarationEvidence, JCodec.struct] at h⟩

theorem w_targets (x : Targets) : J.W J.targets x ↔ x.Writable := by
  rw [J.targets, w_struct]
  simp only [J.targetsFields, Targets.toP, Targets.Writable, wF_field, wF_skip, wF_nil, w_option, w_pslice, w_component, w_organizationalEntity, w_service, and_true, true_and, implies_true]

instance : JEW J.targets := ⟨fun _ h => by simp [J.targets, JCodec.struct] at h⟩

theorem w_signatory (x : Signatory) : J.W J.signatory x ↔ True := by
  rw [J.signatory, w_struct]
  simp only [J.signatoryFields, Signatory.toP, wF_field, wF_skip, wF_nil, w_option, w_pslice, w_externalReference, w_jsfSignature, w_organizationalEntity, w_string, and_true, true_and, implies_true]

instance : JEW J.signatory := ⟨fun _ h => by simp [J.signatory, JCodec.struct] at h⟩

theorem w_affirmation (x : Affirmation) : J.W J.affirmation x ↔ True := by
  rw [J.affirmation, w_struct]
  simp only [J.affirmationFields, Affirmation.toP, wF_field, wF_skip, wF_nil, w_option, w_pslice, w_jsfSignature, w_signatory, w_string, and_true, true_and, implies_true]

instance : JEW J.affirmation := ⟨fun _ h => by simp [J.affirmation, JCodec.struct] at h⟩

theorem w_declarations (x : Declarations) : J.W J.declarations x ↔ x.Writable := by
  rw [J.declarations, w_struct]
  simp only [J.declarationsFields, Declarations.toP, Declarations.Writable, wF_field, wF_skip, wF_nil, w_option, w_pslice, w_affirmation, w_assessor, w_attestation, w_claim, w_declarationEvidence, w_jsfSignature, w_targets, and_true, true_and, implies_true]

instance : JEW J.declarations := ⟨fun _ h => by simp [J.declarations, JCodec.struct] at h⟩

theorem w_priorityApplication (x : PriorityApplication) : J.W J.priorityApplication x ↔ True := by
  rw [J.priorityApplication, w_struct]
  simp only [J.priorityApplicationFields, PriorityApplication.toP, wF_field, wF_skip, wF_nil, w_option, w_pslice, w_string, and_true, true_and, implies_true]

instance : JEW J.priorityApplication := ⟨fun _ h => by simp [J.priorityApplication, JCodec.struct] at h⟩

theorem w_patent (x : Patent) : J.W J.patent x ↔ True := by
  rw [J.patent, w_struct]
  simp only [J.patentFields, Patent.toP, wF_field, wF_skip, wF_nil, w_option, w_pslice, w_externalReference, w_organizationalEntityOrContact, w_priorityApplication, w_string, and_true, true_and, implies_true]

instance : JEW J.patent := ⟨fun _ h => by simp [J.patent, JCodec.struct] at h⟩

theorem w_patentFamily (x : PatentFamily) : J.W J.patentFamily x ↔ True := by
  rw [J.patentFamily, w_struct]
  simp only [J.patentFamilyFields, PatentFamily.toP, wF_field, wF_skip, wF_nil, w_option, w_pslice, w_bomReference, w_externalReference, w_priorityApplication, w_string, and_true, true_and, implies_true]

instance : JEW J.patentFamily := ⟨fun _ h => by simp [J.patentFamily, JCodec.struct] at h⟩

theorem w_patentChoice (x : PatentChoice) : J.W J.patentChoice x ↔ True := by
  have h1 := fun p => (w_patent p).2 trivial
  have h2 := fun p => (w_patentFamily p).2 trivial
  simp only [J.W] at h1 h2 ⊢
  simp only [J.patentChoice, iff_true]
  repeat' split
  all_goals simp_all

instance : JEW J.patentChoice := ⟨fun _ h => by simp [J.patentChoice] at h⟩

theorem w_standardRequirement (x : StandardRequirement) : J.W J.standardRequirement x ↔ True := by
  rw [J.standardRequirement, w_struct]
  simp only [J.standardRequirementFields, StandardRequirement.toP, wF_field, wF_skip, wF_nil, w_option, w_pslice, w_externalReference, w_property, w_string, and_true, true_and, implies_true]

instance : JEW J.standardRequirement := ⟨fun _ h => by simp [J.standardRequirement, JCodec.struct] at h⟩

theorem w_standardLevel (x : StandardLevel) : J.W J.standardLevel x ↔ True := by
  rw [J.standardLevel, w_struct]
  simp only [J.standardLevelFields, StandardLevel.toP, wF_field, wF_skip, wF_nil, w_option, w_pslice, w_string, and_true, true_and, implies_true]

instance : JEW J.standardLevel := ⟨fun _ h => by simp [J.standardLevel, JCodec.struct] at h⟩

theorem w_standardDefinition (x : StandardDefinition) : J.W J.standardDefinition x ↔ True := by
  rw [J.standardDefinition, w_struct]
  simp only [J.standardDefinitionFields, StandardDefinition.toP, wF_field, wF_skip, wF_nil, w_option, w_pslice, w_externalReference, w_jsfSignature, w_standardLevel, w_standardRequirement, w_string, and_true, true_and, implies_true]

instance : JEW J.standardDefinition := ⟨fun _ h => by simp [J.standardDefinition, JCodec.struct] at h⟩

theorem w_definitions (x : Definitions) : J.W J.definitions x ↔ True := by
  rw [J.definitions, w_struct]
  simp only [J.definitionsFields, Definitions.toP, wF_field, wF_skip, wF_nil, w_option, w_pslice, w_patentChoice, w_standardDefinition, and_true, true_and, implies_true]

instance : JEW J.definitions := ⟨fun _ h => by simp [J.definitions, JCodec.struct] at h⟩

theorem w_dependency (x : Dependency) : J.W J.dependency x ↔ True := by
  rw [J.dependency, w_struct]
  simp only [J.dependencyFields, Dependency.toP, wF_field, wF_skip, wF_nil, w_option, w_pslice, w_string, and_true, true_and, implies_true]

instance : JEW J.dependency := ⟨fun _ h => by simp [J.dependency, JCodec.struct] at h⟩

theorem w_resourceReferenceChoice (x : ResourceReferenceChoice) : J.W J.resourceReferenceChoice x ↔ True := by
  rw [J.resourceReferenceChoice, w_struct]
  simp only [J.resourceReferenceChoiceFields, ResourceReferenceChoice.toP, wF_field, wF_skip, wF_nil, w_option, w_pslice, w_externalReference, w_string, and_true, true_and, implies_true]

instance : JEW J.resourceReferenceChoice := ⟨fun _ h => by simp [J.resourceReferenceChoice, JCodec.struct] at h⟩

theorem w_environmentVariableChoice (x : EnvironmentVariableChoice) :
    J.W J.environmentVariableChoice x ↔ True := by
  have := fun p => (w_property p).2 trivial
  simp only [J.W] at this ⊢
  simp only [J.environmentVariableChoice, iff_true]
  split
  · split
    · exact this _
    · split <;> rfl
  · split <;> rfl

instance : JEW J.environmentVariableChoice := ⟨fun _ h => by simp [J.environmentVariableChoice] at h⟩

theorem w_parameter (x : Parameter) : J.W J.parameter x ↔ True := by
  rw [J.parameter, w_struct]
  simp only [J.parameterFields, Parameter.toP, wF_field, wF_skip, wF_nil, w_option, w_pslice, w_string, and_true, true_and, implies_true]

instance : JEW J.parameter := ⟨fun _ h => by simp [J.parameter, JCodec.struct] at h⟩

theorem w_taskInput (x : TaskInput) : J.W J.taskInput x ↔ True := by
  rw [J.taskInput, w_struct]
  simp only [J.taskInputFields, TaskInput.toP, wF_field, wF_skip, wF_nil, w_option, w_pslice, w_attachedText, w_environmentVariableChoice, w_parameter, w_property, w_resourceReferenceChoice, and_true, true_and, implies_true]

instance : JEW J.taskInput := ⟨fun _ h => by simp [J.taskInput, JCodec.struct] at h⟩

theorem w_taskOutput (x : TaskOutput) : J.W J.taskOutput x ↔ True := by
  rw [J.taskOutput, w_struct]
  simp only [J.taskOutputFields, TaskOutput.toP, wF_field, wF_skip, wF_nil, w_option, w_pslice, w_attachedText, w_environmentVariableChoice, w_parameter, w_property, w_resourceReferenceChoice, w_string, and_true, true_and, implies_true]

instance : JEW J.taskOutput := ⟨fun _ h => by simp [J.taskOutput, JCodec.struct] at h⟩

theorem w_taskCommand (x : TaskCommand) : J.W J.taskCommand x ↔ True := by
  rw [J.taskCommand, w_struct]
  simp only [J.taskCommandFields, TaskCommand.toP, wF_field, wF_skip, wF_nil, w_option, w_pslice, w_property, w_string, and_true, true_and, implies_true]

instance : JEW J.taskCommand := ⟨fun _ h => by simp [J.taskCommand, JCodec.struct] at h⟩

theorem w_taskStep (x : TaskStep) : J.W J.taskStep x ↔ True := by
  rw [J.taskStep, w_struct]
  simp only [J.taskStepFields, TaskStep.toP, wF_field, wF_skip, wF_nil, w_option, w_pslice, w_property, w_string, w_taskCommand, and_true, true_and, implies_true]

instance : JEW J.taskStep := ⟨fun _ h => by simp [J.taskStep, JCodec.struct] at h⟩

theorem w_event (x : Event) : J.W J.event x ↔ True := by
  rw [J.event, w_struct]
  simp only [J.eventFields, Event.toP, wF_field, wF_skip, wF_nil, w_option, w_pslice, w_attachedText, w_property, w_resourceReferenceChoice, w_string, and_true, true_and, implies_true]

instance : JEW J.event := ⟨fun _ h => by simp [J.event, JCodec.struct] at h⟩

theorem w_taskTriggerCondition (x : TaskTriggerCondition) : J.W J.taskTriggerCondition x ↔ True := by
  rw [J.taskTriggerCondition, w_struct]
  simp only [J.taskTriggerConditionFields, TaskTriggerCondition.toP, wF_field, wF_skip, wF_nil, w_option, w_pslice, w_property, w_string, and_true, true_and, implies_true]

instance : JEW J.taskTriggerCondition := ⟨fun _ h => by simp [J.taskTriggerCondition, JCodec.struct] at h⟩

theorem w_taskTrigger (x : TaskTrigger) : J.W J.taskTrigger x ↔ True := by
  rw [J.taskTrigger, w_struct]
  simp only [J.taskTriggerFields, TaskTrigger.toP, wF_field, wF_skip, wF_nil, w_option, w_pslice, w_event, w_property, w_resourceReferenceChoice, w_string, w_taskInput, w_taskOutput, w_taskTriggerCondition, and_true, true_and, implies_true]

instance : JEW J.taskTrigger := ⟨fun _ h => by simp [J.taskTrigger, JCodec.struct] at h⟩

theorem w_volume (x : Volume) : J.W J.volume x ↔ True := by
  rw [J.volume, w_struct]
  simp only [J.volumeFields, Volume.toP, wF_field, wF_skip, wF_nil, w_option, w_pslice, w_bool, w_property, w_string, and_true, true_and, implies_true]

instance : JEW J.volume := ⟨fun _ h => by simp [J.volume, JCodec.struct] at h⟩

theorem w_taskWorkspace (x : TaskWorkspace) : J.W J.taskWorkspace x ↔ True := by
  rw [J.taskWorkspace, w_struct]
  simp only [J.taskWorkspaceFields, TaskWorkspace.toP, wF_field, wF_skip, wF_nil, w_option, w_pslice, w_property, w_resourceReferenceChoice, w_string, w_volume, and_true, true_and, implies_true]

instance : JEW J.taskWorkspace := ⟨fun _ h => by simp [J.taskWorkspace, JCodec.struct] at h⟩

theorem w_task (x : Task) : J.W J.task x ↔ True := by
  rw [J.task, w_struct]
  simp only [J.taskFields, Task.toP, wF_field, wF_skip, wF_nil, w_option, w_pslice, w_dependency, w_property, w_resourceReferenceChoice, w_string, w_taskInput, w_taskOutput, w_taskStep, w_taskTrigger, w_taskWorkspace, and_true, true_and, implies_true]

instance : JEW J.task := ⟨fun _ h => by simp [J.task, JCodec.struct] at h⟩

theorem w_workflow (x : Workflow) : J.W J.workflow x ↔ True := by
  rw [J.workflow, w_struct]
  simp only [J.workflowFields, Workflow.toP, wF_field, wF_skip, wF_nil, w_option, w_pslice, w_dependency, w_property, w_resourceReferenceChoice, w_string, w_task, w_taskInput, w_taskOutput, w_taskStep, w_taskTrigger, w_taskWorkspace, and_true, true_and, implies_true]

instance : JEW J.workflow := ⟨fun _ h => by simp [J.workflow, JCodec.struct] at h⟩

theorem w_formula (x : Formula) : J.W J.formula x ↔ x.Writable := by
  rw [J.formula, w_struct]
  simp only [J.formulaFields, Formula.toP, Formula.Writable, wF_field, wF_skip, wF_nil, w_option, w_pslice, w_component, w_property, w_service, w_string, w_workflow, and_true, true_and, implies_true]

instance : JEW J.formula := ⟨fun _ h => by simp [J.formula, JCodec.struct] at h⟩

theorem w_lifecycle (x : Lifecycle) : J.W J.lifecycle x ↔ True := by
  rw [J.lifecycle, w_struct]
  simp only [J.lifecycleFields, Lifecycle.toP, wF_field, wF_skip, wF_nil, w_option, w_pslice, w_string, and_true, true_and, implies_true]

instance : JEW J.lifecycle := ⟨fun _ h => by simp [J.lifecycle, JCodec.struct] at h⟩

theorem w_tool (x : Tool) : J.W J.tool x ↔ True := by
  rw [J.tool, w_struct]
  simp only [J.toolFields, Tool.toP, wF_field, wF_skip, wF_nil, w_option, w_pslice, w_externalReference, w_hash, w_string, and_true, true_and, implies_true]

instance : JEW J.tool := ⟨fun _ h => by simp [J.tool, JCodec.struct] at h⟩

theorem w_toolsChoice (x : ToolsChoice) : J.W J.toolsChoice x ↔ x.Writable := by
  have h1 := w_pslice J.tool x.tools
  have h2 : J.W J.toolsChoiceJSON (x.components, x.services) ↔
      (∀ y ∈ x.components.elems, y.Writable) ∧ (∀ y ∈ x.services.elems, y.Writable) := by
    rw [J.toolsChoiceJSON, w_struct]
    simp only [J.toolsChoiceFields, wF_field, wF_skip, wF_nil, w_pslice, w_component, w_service, and_true]
  simp only [w_tool, implies_true, iff_true] at h1
  obtain ⟨t, c, s⟩ := x
  simp only [J.W] at h1 h2
  simp only [J.W, J.toolsChoice, ToolsChoice.Writable]
  by_cases ht : t = .nil
  · subst ht
    by_cases hcs : c = .nil ∧ s = .nil
    · obtain ⟨rfl, rfl⟩ := hcs
      simp [PSlice.isNil]
    · have : c.isNil = false ∨ s.isNil = false := by
        cases c <;> cases s <;> simp_all [PSlice.isNil]
      simp only [← h2]
      have hcs' : c ≠ .nil ∨ s ≠ .nil := by
        by_cases hc : c = .nil
        · exact Or.inr fun hs => hcs ⟨hc, hs⟩
        · exact Or.inl hc
      simp [PSlice.isNil_iff, hcs']
  · have ht' : t.isNil = false := by cases t <;> simp_all [PSlice.isNil]
    by_cases hcs : c = .nil ∧ s = .nil
    · obtain ⟨rfl, rfl⟩ := hcs
      simp [PSlice.isNil_iff, ht, h1, PSlice.elems]
    · have hcs' : ¬ c = .nil ∨ ¬ s = .nil := by
        by_cases hc : c = .nil
        · exact Or.inr fun hs => hcs ⟨hc, hs⟩
        · exact Or.inl hc
      simp [PSlice.isNil_iff, ht, hcs', hcs]

instance : JEW J.toolsChoice := ⟨fun _ h => by simp [J.toolsChoice] at h⟩

theorem w_distributionConstraints (x : DistributionConstraints) : J.W J.distributionConstraints x ↔ True := by
  rw [J.distributionConstraints, w_struct]
  simp only [J.distributionConstraintsFields, DistributionConstraints.toP, wF_field, wF_skip, wF_nil, w_option, w_pslice, w_string, and_true, true_and, implies_true]

instance : JEW J.distributionConstraints := ⟨fun _ h => by simp [J.distributionConstraints, JCodec.struct] at h⟩

theorem w_metadata (x : Metadata) : J.W J.metadata x ↔ x.Writable := by
  rw [J.metadata, w_struct]
  simp only [J.metadataFields, Metadata.toP, Metadata.Writable, wF_field, wF_skip, wF_nil, w_option, w_pslice, w_component, w_distributionConstraints, w_licenseChoice, w_lifecycle, w_organizationalContact, w_organizationalEntity, w_property, w_string, w_toolsChoice, and_true, true_and, implies_true]

instance : JEW J.metadata := ⟨fun _ h => by simp [J.metadata, JCodec.struct] at h⟩

theorem w_credits (x : Credits) : J.W J.credits x ↔ True := by
  rw [J.credits, w_struct]
  simp only [J.creditsFields, Credits.toP, wF_field, wF_skip, wF_nil, w_option, w_pslice, w_organizationalContact, w_organizationalEntity, and_true, true_and, implies_true]

instance : JEW J.credits := ⟨fun _ h => by simp [J.credits, JCodec.struct] at h⟩

theorem w_proofOfConcept (x : ProofOfConcept) : J.W J.proofOfConcept x ↔ True := by
  rw [J.proofOfConcept, w_struct]
  simp only [J.proofOfConceptFields, ProofOfConcept.toP, wF_field, wF_skip, wF_nil, w_option, w_pslice, w_attachedText, w_string, and_true, true_and, implies_true]

instance : JEW J.proofOfConcept := ⟨fun _ h => by simp [J.proofOfConcept, JCodec.struct] at h⟩

theorem w_vulnerabilityAnalysis (x : VulnerabilityAnalysis) : J.W J.vulnerabilityAnalysis x ↔ True := by
  rw [J.vulnerabilityAnalysis, w_struct]
  simp only [J.vulnerabilityAnalysisFields, VulnerabilityAnalysis.toP, wF_field, wF_skip, wF_nil, w_option, w_pslice, w_string, and_true, true_and, implies_true]

instance : JEW J.vulnerabilityAnalysis := ⟨fun _ h => by simp [J.vulnerabilityAnalysis, JCodec.struct] at h⟩

theorem w_vulnerabilityRating (x : VulnerabilityRating) : J.W J.vulnerabilityRating x ↔ x.Writable := by
  rw [J.vulnerabilityRating, w_struct]
  simp only [J.vulnerabilityRatingFields, VulnerabilityRating.toP, VulnerabilityRating.Writable, wF_field, wF_skip, wF_nil, w_option, w_pslice, w_f64, w_source, w_string, and_true, true_and, implies_true]

instance : JEW J.vulnerabilityRating := ⟨fun _ h => by simp [J.vulnerabilityRating, JCodec.struct] at h⟩

theorem w_vulnerabilityReference (x : VulnerabilityReference) : J.W J.vulnerabilityReference x ↔ True := by
  rw [J.vulnerabilityReference, w_struct]
  simp only [J.vulnerabilityReferenceFields, VulnerabilityReference.toP, wF_field, wF_skip, wF_nil, w_option, w_pslice, w_source, w_string, and_true, true_and, implies_true]

instance : JEW J.vulnerabilityReference := ⟨fun _ h => by simp [J.vulnerabilityReference, JCodec.struct] at h⟩

theorem w_vulnerability (x : Vulnerability) : J.W J.vulnerability x ↔ x.Writable := by
  rw [J.vulnerability, w_struct]
  simp only [J.vulnerabilityFields, Vulnerability.toP, Vulnerability.Writable, wF_field, wF_skip, wF_nil, w_option, w_pslice, w_advisory, w_affects, w_credits, w_int, w_proofOfConcept, w_property, w_source, w_string, w_toolsChoice, w_vulnerabilityAnalysis, w_vulnerabilityRating, w_vulnerabilityReference, and_true, true_and, implies_true]

instance : JEW J.vulnerability := ⟨fun _ h => by simp [J.vulnerability, JCodec.struct] at h⟩

theorem w_citation (x : Citation) : J.W J.citation x ↔ True := by
  rw [J.citation, w_struct]
  simp only [J.citationFields, Citation.toP, wF_field, wF_skip, wF_nil, w_option, w_pslice, w_bomReference, w_jsfSignature, w_string, and_true, true_and, implies_true]

instance : JEW J.citation := ⟨fun _ h => by simp [J.citation, JCodec.struct] at h⟩

theorem w_bom (x : BOM) : J.W J.bom x ↔ x.Writable := by
  rw [J.bom, J.bomWith, w_struct]
  simp only [J.bomFields, BOM.toP, BOM.Writable, wF_field, wF_skip, wF_nil, w_option, w_pslice, w_annotation, w_citation, w_component, w_composition, w_declarations, w_definitions, w_dependency, w_externalReference, w_formula, w_int, w_jsfSignature, w_metadata, w_property, w_service, w_specVersion, w_string, w_vulnerability, and_true, true_and, implies_true]

instance : JEW J.bom := ⟨fun _ h => by simp [J.bom, J.bomWith, JCodec.struct] at h⟩

end Verif
