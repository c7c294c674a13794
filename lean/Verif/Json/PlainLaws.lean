import Verif.Spec.Plain
import Verif.Json.StructLaws

/-!
# What survives a JSON round trip

GENERATED by `tools/gen_plain.py`; do not edit by hand.  `J.Ok c x`: the codec `c` reads `x` back
unchanged.  For every type this is `T.Plain`.
-/

namespace Verif

set_option linter.unusedSectionVars false
set_option linter.unusedSimpArgs false

variable [FloatIO]

/-- The value is read back unchanged. -/
def J.Ok {α : Type} (c : JCodec α) (a : α) : Prop := c.norm a = a ∧ c.good a

/-- The same for the fields of a struct. -/
def J.OkF {β : Type} (F : JFields β) (b : β) : Prop := F.norm b = b ∧ F.good b

/-- No value that is read back unchanged is written as `null`. -/
class JNN {α : Type} (c : JCodec α) : Prop where
  nn : ∀ a, J.Ok c a → c.nullish a = false

theorem ok_string (s : String) : J.Ok JCodec.string s ↔ True := by simp [J.Ok, JCodec.string]
theorem ok_bool (s : Bool) : J.Ok JCodec.bool s ↔ True := by simp [J.Ok, JCodec.bool]
theorem ok_int (i : Int) : J.Ok JCodec.int i ↔ InInt64 i := by simp [J.Ok, JCodec.int]
theorem ok_f32 (s : F32) : J.Ok JCodec.f32 s ↔ True := by simp [J.Ok, JCodec.f32]
theorem ok_f64 (s : F64) : J.Ok JCodec.f64 s ↔ True := by simp [J.Ok, JCodec.f64]
theorem ok_bomReference (s : BOMReference) : J.Ok J.bomReference s ↔ True := by simp [J.Ok, J.bomReference]
theorem ok_specVersion (v : Int) : J.Ok J.specVersionStrict v ↔ (0 ≤ v ∧ v ≤ 8) := by
  simp [J.Ok, J.specVersionStrict, J.specVersion, SpecVersion1_7]

instance : JNN JCodec.string := ⟨fun _ _ => rfl⟩
instance : JNN JCodec.bool := ⟨fun _ _ => rfl⟩
instance : JNN JCodec.int := ⟨fun _ _ => rfl⟩
instance : JNN JCodec.f32 := ⟨fun _ _ => rfl⟩
instance : JNN JCodec.f64 := ⟨fun _ _ => rfl⟩
instance : JNN J.bomReference := ⟨fun _ _ => rfl⟩

theorem ok_option {α : Type} (c : JCodec α) [N : JNN c] (o : Option α) :
    J.Ok (JCodec.option c) o ↔ ∀ a ∈ o, J.Ok c a := by
  cases o with
  | none => simp [J.Ok, JCodec.option]
  | some a =>
    simp only [Option.mem_some_iff, forall_eq']
    constructor
    · rintro ⟨h1, h2⟩
      simp only [JCodec.option] at h1 h2
      by_cases hn : c.nullish a = true
      · simp [hn] at h1
      · simp [hn] at h1; exact ⟨h1, h2⟩
    · intro h
      exact ⟨by simp [JCodec.option, N.nn a h, h.1], h.2⟩

theorem map_eq_self {α : Type} {f : α → α} : ∀ {xs : List α}, xs.map f = xs ↔ ∀ x ∈ xs, f x = x
  | [] => by simp
  | x :: xs => by simp [map_eq_self (xs := xs)]

theorem ok_pslice {α : Type} (c : JCodec α) (p : PSlice α) :
    J.Ok (JCodec.pslice c) p ↔ p.Each (J.Ok c) := by
  cases p with
  | nil => simp [J.Ok, JCodec.pslice, PSlice.Each, PSlice.elems]
  | nilSlice => simp [J.Ok, JCodec.pslice, PSlice.Each, PSlice.elems]
  | list xs =>
    simp only [J.Ok, JCodec.pslice, PSlice.Each, PSlice.elems, PSlice.list.injEq, ne_eq, reduceCtorEq,
      not_false_eq_true, true_and]
    constructor
    · rintro ⟨h1, h2⟩ x hx
      exact ⟨map_eq_self.1 h1 x hx, h2 x hx⟩
    · intro h
      exact ⟨map_eq_self.2 fun x hx => (h x hx).1, fun x hx => (h x hx).2⟩

theorem PSlice.each_congr {α : Type} {P Q : α → Prop} (h : ∀ a, P a ↔ Q a) (p : PSlice α) :
    p.Each P ↔ p.Each Q := by simp [PSlice.Each, h]

theorem PSlice.each_true {α : Type} {P : α → Prop} (h : ∀ a, P a ↔ True) (p : PSlice α) :
    p.Each P ↔ p ≠ .nilSlice := by simp [PSlice.Each, h]

theorem okF_nil (b : Unit) : J.OkF .nil b ↔ True := by simp [J.OkF, JFields.norm, JFields.good]
theorem okF_skip {α β : Type} (z : α) (F : JFields β) (b : α × β) :
    J.OkF (.skip z F) b ↔ b.1 = z ∧ J.OkF F b.2 := by
  obtain ⟨x, y⟩ := b
  simp only [J.OkF, JFields.norm, JFields.good, Prod.mk.injEq]
  exact ⟨fun h => ⟨h.1.1.symm, h.1.2, h.2⟩, fun h => ⟨⟨h.1.symm, h.2.1⟩, h.2.2⟩⟩
theorem okF_field {α β : Type} (n : String) (oe : Bool) (c : JCodec α) (F : JFields β) (b : α × β) :
    J.OkF (.field n oe c F) b ↔ J.Ok c b.1 ∧ J.OkF F b.2 := by
  obtain ⟨x, y⟩ := b
  simp only [J.OkF, J.Ok, JFields.norm, JFields.good, Prod.mk.injEq]
  exact ⟨fun h => ⟨⟨h.1.1, h.2.1⟩, h.1.2, h.2.2⟩, fun h => ⟨⟨h.1.1, h.2.1⟩, h.1.2, h.2.2⟩⟩

theorem ok_struct {σ β : Type} (F : JFields β) (toP : σ → β) (ofP : β → σ) (h1 : ∀ s, ofP (toP s) = s)
    (h2 : ∀ p, toP (ofP p) = p) (s : σ) : J.Ok (JCodec.struct F toP ofP) s ↔ J.OkF F (toP s) := by
  simp only [J.Ok, J.OkF, JCodec.struct]
  refine and_congr_left fun _ => ⟨fun h => ?_, fun h => ?_⟩
  · rw [← h2 (F.norm (toP s)), h]
  · rw [h, h1]

theorem SameAt.ok {α : Type} {C D : JCodec α} {a : α} (h : SameAt C D a) : J.Ok C a ↔ J.Ok D a := by
  simp only [J.Ok, h.norm, h.good]

theorem ok_advisory (x : Advisory) : J.Ok J.advisory x ↔ x.Plain := by
  rw [J.advisory, ok_struct J.advisoryFields _ _ (fun _ => rfl) (fun _ => rfl)]
  simp only [J.advisoryFields, okF_field, okF_skip, okF_nil, Advisory.toP, Advisory.Plain, ok_option, ok_pslice, PSlice.each_true ok_string, PSlice.each_true ok_bomReference, ok_string, and_true, true_and, implies_true]

instance : JNN J.advisory := ⟨fun _ _ => rfl⟩

theorem ok_affectedVersions (x : AffectedVersions) : J.Ok J.affectedVersions x ↔ x.Plain := by
  rw [J.affectedVersions, ok_struct J.affectedVersionsFields _ _ (fun _ => rfl) (fun _ => rfl)]
  simp only [J.affectedVersionsFields, okF_field, okF_skip, okF_nil, AffectedVersions.toP, AffectedVersions.Plain, ok_option, ok_pslice, PSlice.each_true ok_string, PSlice.each_true ok_bomReference, ok_string, and_true, true_and, implies_true]

instance : JNN J.affectedVersions := ⟨fun _ _ => rfl⟩

theorem ok_affects (x : Affects) : J.Ok J.affects x ↔ x.Plain := by
  rw [J.affects, ok_struct J.affectsFields _ _ (fun _ => rfl) (fun _ => rfl)]
  simp only [J.affectsFields, okF_field, okF_skip, okF_nil, Affects.toP, Affects.Plain, ok_option, ok_pslice, PSlice.each_true ok_string, PSlice.each_true ok_bomReference, PSlice.each_congr ok_affectedVersions, ok_affectedVersions, ok_string, and_true, true_and, implies_true]

instance : JNN J.affects := ⟨fun _ _ => rfl⟩

theorem ok_attachedText (x : AttachedText) : J.Ok J.attachedText x ↔ x.Plain := by
  rw [J.attachedText, ok_struct J.attachedTextFields _ _ (fun _ => rfl) (fun _ => rfl)]
  simp only [J.attachedTextFields, okF_field, okF_skip, okF_nil, AttachedText.toP, AttachedText.Plain, ok_option, ok_pslice, PSlice.each_true ok_string, PSlice.each_true ok_bomReference, ok_string, and_true, true_and, implies_true]

instance : JNN J.attachedText := ⟨fun _ _ => rfl⟩

theorem ok_property (x : Property) : J.Ok J.property x ↔ x.Plain := by
  rw [J.property, ok_struct J.propertyFields _ _ (fun _ => rfl) (fun _ => rfl)]
  simp only [J.propertyFields, okF_field, okF_skip, okF_nil, Property.toP, Property.Plain, ok_option, ok_pslice, PSlice.each_true ok_string, PSlice.each_true ok_bomReference, ok_string, and_true, true_and, implies_true]

instance : JNN J.property := ⟨fun _ _ => rfl⟩

theorem ok_componentDataContents (x : ComponentDataContents) : J.Ok J.componentDataContents x ↔ x.Plain := by
  rw [J.componentDataContents, ok_struct J.componentDataContentsFields _ _ (fun _ => rfl) (fun _ => rfl)]
  simp only [J.componentDataContentsFields, okF_field, okF_skip, okF_nil, ComponentDataContents.toP, ComponentDataContents.Plain, ok_option, ok_pslice, PSlice.each_true ok_string, PSlice.each_true ok_bomReference, PSlice.each_congr ok_property, ok_attachedText, ok_property, ok_string, and_true, true_and, implies_true]

instance : JNN J.componentDataContents := ⟨fun _ _ => rfl⟩

theorem ok_componentDataGraphic (x : ComponentDataGraphic) : J.Ok J.componentDataGraphic x ↔ x.Plain := by
  rw [J.componentDataGraphic, ok_struct J.componentDataGraphicFields _ _ (fun _ => rfl) (fun _ => rfl)]
  simp only [J.componentDataGraphicFields, okF_field, okF_skip, okF_nil, ComponentDataGraphic.toP, ComponentDataGraphic.Plain, ok_option, ok_pslice, PSlice.each_true ok_string, PSlice.each_true ok_bomReference, ok_attachedText, ok_string, and_true, true_and, implies_true]

instance : JNN J.componentDataGraphic := ⟨fun _ _ => rfl⟩

theorem ok_componentDataGraphics (x : ComponentDataGraphics) : J.Ok J.componentDataGraphics x ↔ x.Plain := by
  rw [J.componentDataGraphics, ok_struct J.componentDataGraphicsFields _ _ (fun _ => rfl) (fun _ => rfl)]
  simp only [J.componentDataGraphicsFields, okF_field, okF_skip, okF_nil, ComponentDataGraphics.toP, ComponentDataGraphics.Plain, ok_option, ok_pslice, PSlice.each_true ok_string, PSlice.each_true ok_bomReference, PSlice.each_congr ok_componentDataGraphic, ok_componentDataGraphic, ok_string, and_true, true_and, implies_true]

instance : JNN J.componentDataGraphics := ⟨fun _ _ => rfl⟩

theorem ok_organizationalContact (x : OrganizationalContact) : J.Ok J.organizationalContact x ↔ x.Plain := by
  rw [J.organizationalContact, ok_struct J.organizationalContactFields _ _ (fun _ => rfl) (fun _ => rfl)]
  simp only [J.organizationalContactFields, okF_field, okF_skip, okF_nil, OrganizationalContact.toP, OrganizationalContact.Plain, ok_option, ok_pslice, PSlice.each_true ok_string, PSlice.each_true ok_bomReference, ok_string, and_true, true_and, implies_true]

instance : JNN J.organizationalContact := ⟨fun _ _ => rfl⟩

theorem ok_postalAddress (x : PostalAddress) : J.Ok J.postalAddress x ↔ x.Plain := by
  rw [J.postalAddress, ok_struct J.postalAddressFields _ _ (fun _ => rfl) (fun _ => rfl)]
  simp only [J.postalAddressFields, okF_field, okF_skip, okF_nil, PostalAddress.toP, PostalAddress.Plain, ok_option, ok_pslice, PSlice.each_true ok_string, PSlice.each_true ok_bomReference, ok_string, and_true, true_and, implies_true]

instance : JNN J.postalAddress := ⟨fun _ _ => rfl⟩

theorem ok_organizationalEntity (x : OrganizationalEntity) : J.Ok J.organizationalEntity x ↔ x.Plain := by
  rw [J.organizationalEntity, ok_struct J.organizationalEntityFields _ _ (fun _ => rfl) (fun _ => rfl)]
  simp only [J.organizationalEntityFields, okF_field, okF_skip, okF_nil, OrganizationalEntity.toP, OrganizationalEntity.Plain, ok_option, ok_pslice, PSlice.each_true ok_string, PSlice.each_true ok_bomReference, PSlice.each_congr ok_organizationalContact, ok_organizationalContact, ok_postalAddress, ok_string, and_true, true_and, implies_true]

instance : JNN J.organizationalEntity := ⟨fun _ _ => rfl⟩

theorem ok_componentDataGovernanceResponsibleParty (x : ComponentDataGovernanceResponsibleParty) : J.Ok J.componentDataGovernanceResponsibleParty x ↔ x.Plain := by
  rw [J.componentDataGovernanceResponsibleParty, ok_struct J.componentDataGovernanceResponsiblePartyFields _ _ (fun _ => rfl) (fun _ => rfl)]
  simp only [J.componentDataGovernanceResponsiblePartyFields, okF_field, okF_skip, okF_nil, ComponentDataGovernanceResponsibleParty.toP, ComponentDataGovernanceResponsibleParty.Plain, ok_option, ok_pslice, PSlice.each_true ok_string, PSlice.each_true ok_bomReference, ok_organizationalContact, ok_organizationalEntity, and_true, true_and, implies_true]

instance : JNN J.componentDataGovernanceResponsibleParty := ⟨fun _ _ => rfl⟩

theorem ok_dataGovernance (x : DataGovernance) : J.Ok J.dataGovernance x ↔ x.Plain := by
  rw [J.dataGovernance, ok_struct J.dataGovernanceFields _ _ (fun _ => rfl) (fun _ => rfl)]
  simp only [J.dataGovernanceFields, okF_field, okF_skip, okF_nil, DataGovernance.toP, DataGovernance.Plain, ok_option, ok_pslice, PSlice.each_true ok_string, PSlice.each_true ok_bomReference, PSlice.each_congr ok_componentDataGovernanceResponsibleParty, ok_componentDataGovernanceResponsibleParty, and_true, true_and, implies_true]

instance : JNN J.dataGovernance := ⟨fun _ _ => rfl⟩

theorem ok_componentData (x : ComponentData) : J.Ok J.componentData x ↔ x.Plain := by
  rw [J.componentData, ok_struct J.componentDataFields _ _ (fun _ => rfl) (fun _ => rfl)]
  simp only [J.componentDataFields, okF_field, okF_skip, okF_nil, ComponentData.toP, ComponentData.Plain, ok_option, ok_pslice, PSlice.each_true ok_string, PSlice.each_true ok_bomReference, ok_componentDataContents, ok_componentDataGraphics, ok_dataGovernance, ok_string, and_true, true_and, implies_true]

instance : JNN J.componentData := ⟨fun _ _ => rfl⟩

theorem ok_hash (x : Hash) : J.Ok J.hash x ↔ x.Plain := by
  rw [J.hash, ok_struct J.hashFields _ _ (fun _ => rfl) (fun _ => rfl)]
  simp only [J.hashFields, okF_field, okF_skip, okF_nil, Hash.toP, Hash.Plain, ok_option, ok_pslice, PSlice.each_true ok_string, PSlice.each_true ok_bomReference, ok_string, and_true, true_and, implies_true]

instance : JNN J.hash := ⟨fun _ _ => rfl⟩

theorem ok_relatedCryptographicAsset (x : RelatedCryptographicAsset) : J.Ok J.relatedCryptographicAsset x ↔ x.Plain := by
  rw [J.relatedCryptographicAsset, ok_struct J.relatedCryptographicAssetFields _ _ (fun _ => rfl) (fun _ => rfl)]
  simp only [J.relatedCryptographicAssetFields, okF_field, okF_skip, okF_nil, RelatedCryptographicAsset.toP, RelatedCryptographicAsset.Plain, ok_option, ok_pslice, PSlice.each_true ok_string, PSlice.each_true ok_bomReference, ok_string, and_true, true_and, implies_true]

instance : JNN J.relatedCryptographicAsset := ⟨fun _ _ => rfl⟩

theorem ok_predefinedCertificateState (x : PredefinedCertificateState) : J.Ok J.predefinedCertificateState x ↔ x.Plain := by
  rw [J.predefinedCertificateState, ok_struct J.predefinedCertificateStateFields _ _ (fun _ => rfl) (fun _ => rfl)]
  simp only [J.predefinedCertificateStateFields, okF_field, okF_skip, okF_nil, PredefinedCertificateState.toP, PredefinedCertificateState.Plain, ok_option, ok_pslice, PSlice.each_true ok_string, PSlice.each_true ok_bomReference, ok_string, and_true, true_and, implies_true]

instance : JNN J.predefinedCertificateState := ⟨fun _ _ => rfl⟩

theorem ok_customCertificateState (x : CustomCertificateState) : J.Ok J.customCertificateState x ↔ x.Plain := by
  rw [J.customCertificateState, ok_struct J.customCertificateStateFields _ _ (fun _ => rfl) (fun _ => rfl)]
  simp only [J.customCertificateStateFields, okF_field, okF_skip, okF_nil, CustomCertificateState.toP, CustomCertificateState.Plain, ok_option, ok_pslice, PSlice.each_true ok_string, PSlice.each_true ok_bomReference, ok_string, and_true, true_and, implies_true]

instance : JNN J.customCertificateState := ⟨fun _ _ => rfl⟩

theorem ok_certificateState (x : CertificateState) : J.Ok J.certificateState x ↔ x.Plain := by
  obtain ⟨p, q⟩ := x
  cases p with
  | some p =>
    have h := ok_predefinedCertificateState p
    simp only [J.Ok] at h
    cases q <;> simp [J.Ok, J.certificateState, CertificateState.Plain, ← h] <;> grind
  | none =>
    cases q with
    | some q =>
      have h := ok_customCertificateState q
      simp only [J.Ok] at h
      simp [J.Ok, J.certificateState, CertificateState.Plain, ← h]
    | none => simp [J.Ok, J.certificateState, CertificateState.Plain]

instance : JNN J.certificateState := ⟨fun _ _ => rfl⟩

theorem ok_commonCertificateExtension (x : CommonCertificateExtension) : J.Ok J.commonCertificateExtension x ↔ x.Plain := by
  rw [J.commonCertificateExtension, ok_struct J.commonCertificateExtensionFields _ _ (fun _ => rfl) (fun _ => rfl)]
  simp only [J.commonCertificateExtensionFields, okF_field, okF_skip, okF_nil, CommonCertificateExtension.toP, CommonCertificateExtension.Plain, ok_option, ok_pslice, PSlice.each_true ok_string, PSlice.each_true ok_bomReference, ok_string, and_true, true_and, implies_true]

instance : JNN J.commonCertificateExtension := ⟨fun _ _ => rfl⟩

theorem ok_customCertificateExtension (x : CustomCertificateExtension) : J.Ok J.customCertificateExtension x ↔ x.Plain := by
  rw [J.customCertificateExtension, ok_struct J.customCertificateExtensionFields _ _ (fun _ => rfl) (fun _ => rfl)]
  simp only [J.customCertificateExtensionFields, okF_field, okF_skip, okF_nil, CustomCertificateExtension.toP, CustomCertificateExtension.Plain, ok_option, ok_pslice, PSlice.each_true ok_string, PSlice.each_true ok_bomReference, ok_string, and_true, true_and, implies_true]

instance : JNN J.customCertificateExtension := ⟨fun _ _ => rfl⟩

theorem ok_certificateExtension (x : CertificateExtension) : J.Ok J.certificateExtension x ↔ x.Plain := by
  obtain ⟨p, q⟩ := x
  cases p with
  | some p =>
    have h := ok_commonCertificateExtension p
    simp only [J.Ok] at h
    cases q <;> simp [J.Ok, J.certificateExtension, CertificateExtension.Plain, ← h] <;> grind
  | none =>
    cases q with
    | some q =>
      have h := ok_customCertificateExtension q
      simp only [J.Ok] at h
      simp [J.Ok, J.certificateExtension, CertificateExtension.Plain, ← h]
    | none => simp [J.Ok, J.certificateExtension, CertificateExtension.Plain]

instance : JNN J.certificateExtension := ⟨fun _ _ => rfl⟩

theorem ok_certificateProperties (x : CertificateProperties) : J.Ok J.certificateProperties x ↔ x.Plain := by
  rw [J.certificateProperties, ok_struct J.certificatePropertiesFields _ _ (fun _ => rfl) (fun _ => rfl)]
  simp only [J.certificatePropertiesFields, okF_field, okF_skip, okF_nil, CertificateProperties.toP, CertificateProperties.Plain, ok_option, ok_pslice, PSlice.each_true ok_string, PSlice.each_true ok_bomReference, PSlice.each_congr ok_certificateExtension, PSlice.each_congr ok_certificateState, PSlice.each_congr ok_relatedCryptographicAsset, ok_bomReference, ok_certificateExtension, ok_certificateState, ok_hash, ok_relatedCryptographicAsset, ok_string, and_true, true_and, implies_true]

instance : JNN J.certificateProperties := ⟨fun _ _ => rfl⟩

theorem ok_cryptoAlgorithmProperties (x : CryptoAlgorithmProperties) : J.Ok J.cryptoAlgorithmProperties x ↔ x.Plain := by
  rw [J.cryptoAlgorithmProperties, ok_struct J.cryptoAlgorithmPropertiesFields _ _ (fun _ => rfl) (fun _ => rfl)]
  simp only [J.cryptoAlgorithmPropertiesFields, okF_field, okF_skip, okF_nil, CryptoAlgorithmProperties.toP, CryptoAlgorithmProperties.Plain, ok_option, ok_pslice, PSlice.each_true ok_string, PSlice.each_true ok_bomReference, ok_int, ok_string, and_true, true_and, implies_true]

instance : JNN J.cryptoAlgorithmProperties := ⟨fun _ _ => rfl⟩

theorem ok_cipherSuite (x : CipherSuite) : J.Ok J.cipherSuite x ↔ x.Plain := by
  rw [J.cipherSuite, ok_struct J.cipherSuiteFields _ _ (fun _ => rfl) (fun _ => rfl)]
  simp only [J.cipherSuiteFields, okF_field, okF_skip, okF_nil, CipherSuite.toP, CipherSuite.Plain, ok_option, ok_pslice, PSlice.each_true ok_string, PSlice.each_true ok_bomReference, ok_bomReference, ok_string, and_true, true_and, implies_true]

instance : JNN J.cipherSuite := ⟨fun _ _ => rfl⟩

theorem ok_ikev2AuthStruct (x : IKEv2Auth) :
    J.Ok (JCodec.struct J.ikev2AuthFields IKEv2Auth.toP IKEv2Auth.ofP) x ↔ x.bomRef = ⟨""⟩ := by
  rw [ok_struct J.ikev2AuthFields _ _ (fun _ => rfl) (fun _ => rfl)]
  simp only [J.ikev2AuthFields, okF_field, okF_skip, okF_nil, IKEv2Auth.toP, ok_option, ok_string, and_true, true_and, implies_true]

instance : JNN J.ikev2Auth := ⟨fun _ _ => rfl⟩

theorem ok_ikev2Auth (x : IKEv2Auth) : J.Ok J.ikev2Auth x ↔ x.Plain := by
  have h := ok_ikev2AuthStruct x
  by_cases hb : x.bomRef.val = ""
  · have hb' : x.bomRef = ⟨""⟩ := by cases hx : x.bomRef; simp_all
    have hs : J.Ok J.ikev2Auth x ↔ J.Ok (JCodec.struct J.ikev2AuthFields IKEv2Auth.toP IKEv2Auth.ofP) x := by
      simp [J.Ok, J.ikev2Auth, J.ikev2, hb]
    rw [hs, h, IKEv2Auth.Plain]
    constructor
    · intro hh; right; simp_all
    · rintro (hh | hh)
      · rw [hh]; simp [hb', InInt64]
      · simp_all
  · have hs : J.Ok J.ikev2Auth x ↔ IKEv2Auth.mk x.bomRef "" "" = x := by
      simp [J.Ok, J.ikev2Auth, J.ikev2, hb]; rfl
    rw [hs, IKEv2Auth.Plain]
    constructor
    · intro hh; left; exact hh.symm
    · rintro (hh | hh)
      · exact hh.symm
      · exact absurd (by simp_all) hb

theorem ok_ikev2EncStruct (x : IKEv2Enc) :
    J.Ok (JCodec.struct J.ikev2EncFields IKEv2Enc.toP IKEv2Enc.ofP) x ↔ x.bomRef = ⟨""⟩ ∧ (∀ y ∈ x.keyLength, InInt64 y) := by
  rw [ok_struct J.ikev2EncFields _ _ (fun _ => rfl) (fun _ => rfl)]
  simp only [J.ikev2EncFields, okF_field, okF_skip, okF_nil, IKEv2Enc.toP, ok_option, ok_int, ok_string, and_true, true_and, implies_true]

instance : JNN J.ikev2Enc := ⟨fun _ _ => rfl⟩

theorem ok_ikev2Enc (x : IKEv2Enc) : J.Ok J.ikev2Enc x ↔ x.Plain := by
  have h := ok_ikev2EncStruct x
  by_cases hb : x.bomRef.val = ""
  · have hb' : x.bomRef = ⟨""⟩ := by cases hx : x.bomRef; simp_all
    have hs : J.Ok J.ikev2Enc x ↔ J.Ok (JCodec.struct J.ikev2EncFields IKEv2Enc.toP IKEv2Enc.ofP) x := by
      simp [J.Ok, J.ikev2Enc, J.ikev2, hb]
    rw [hs, h, IKEv2Enc.Plain]
    constructor
    · intro hh; right; simp_all
    · rintro (hh | hh)
      · rw [hh]; simp [hb', InInt64]
      · simp_all
  · have hs : J.Ok J.ikev2Enc x ↔ IKEv2Enc.mk x.bomRef "" none "" = x := by
      simp [J.Ok, J.ikev2Enc, J.ikev2, hb]; rfl
    rw [hs, IKEv2Enc.Plain]
    constructor
    · intro hh; left; exact hh.symm
    · rintro (hh | hh)
      · exact hh.symm
      · exact absurd (by simp_all) hb

theorem ok_ikev2IntegStruct (x : IKEv2Integ) :
    J.Ok (JCodec.struct J.ikev2IntegFields IKEv2Integ.toP IKEv2Integ.ofP) x ↔ x.bomRef = ⟨""⟩ := by
  rw [ok_struct J.ikev2IntegFields _ _ (fun _ => rfl) (fun _ => rfl)]
  simp only [J.ikev2IntegFields, okF_field, okF_skip, okF_nil, IKEv2Integ.toP, ok_option, ok_string, and_true, true_and, implies_true]

instance : JNN J.ikev2Integ := ⟨fun _ _ => rfl⟩

theorem ok_ikev2Integ (x : IKEv2Integ) : J.Ok J.ikev2Integ x ↔ x.Plain := by
  have h := ok_ikev2IntegStruct x
  by_cases hb : x.bomRef.val = ""
  · have hb' : x.bomRef = ⟨""⟩ := by cases hx : x.bomRef; simp_all
    have hs : J.Ok J.ikev2Integ x ↔ J.Ok (JCodec.struct J.ikev2IntegFields IKEv2Integ.toP IKEv2Integ.ofP) x := by
      simp [J.Ok, J.ikev2Integ, J.ikev2, hb]
    rw [hs, h, IKEv2Integ.Plain]
    constructor
    · intro hh; right; simp_all
    · rintro (hh | hh)
      · rw [hh]; simp [hb', InInt64]
      · simp_all
  · have hs : J.Ok J.ikev2Integ x ↔ IKEv2Integ.mk x.bomRef "" "" = x := by
      simp [J.Ok, J.ikev2Integ, J.ikev2, hb]; rfl
    rw [hs, IKEv2Integ.Plain]
    constructor
    · intro hh; left; exact hh.symm
    · rintro (hh | hh)
      · exact hh.symm
      · exact absurd (by simp_all) hb

theorem ok_ikev2KeStruct (x : IKEv2Ke) :
    J.Ok (JCodec.struct J.ikev2KeFields IKEv2Ke.toP IKEv2Ke.ofP) x ↔ x.bomRef = ⟨""⟩ ∧ (∀ y ∈ x.group, InInt64 y) := by
  rw [ok_struct J.ikev2KeFields _ _ (fun _ => rfl) (fun _ => rfl)]
  simp only [J.ikev2KeFields, okF_field, okF_skip, okF_nil, IKEv2Ke.toP, ok_option, ok_int, ok_string, and_true, true_and, implies_true]

instance : JNN J.ikev2Ke := ⟨fun _ _ => rfl⟩

theorem ok_ikev2Ke (x : IKEv2Ke) : J.Ok J.ikev2Ke x ↔ x.Plain := by
  have h := ok_ikev2KeStruct x
  by_cases hb : x.bomRef.val = ""
  · have hb' : x.bomRef = ⟨""⟩ := by cases hx : x.bomRef; simp_all
    have hs : J.Ok J.ikev2Ke x ↔ J.Ok (JCodec.struct J.ikev2KeFields IKEv2Ke.toP IKEv2Ke.ofP) x := by
      simp [J.Ok, J.ikev2Ke, J.ikev2, hb]
    rw [hs, h, IKEv2Ke.Plain]
    constructor
    · intro hh; right; simp_all
    · rintro (hh | hh)
      · rw [hh]; simp [hb', InInt64]
      · simp_all
  · have hs : J.Ok J.ikev2Ke x ↔ IKEv2Ke.mk x.bomRef none "" = x := by
      simp [J.Ok, J.ikev2Ke, J.ikev2, hb]; rfl
    rw [hs, IKEv2Ke.Plain]
    constructor
    · intro hh; left; exact hh.symm
    · rintro (hh | hh)
      · exact hh.symm
      · exact absurd (by simp_all) hb

theorem ok_ikev2PrfStruct (x : IKEv2Prf) :
    J.Ok (JCodec.struct J.ikev2PrfFields IKEv2Prf.toP IKEv2Prf.ofP) x ↔ x.bomRef = ⟨""⟩ := by
  rw [ok_struct J.ikev2PrfFields _ _ (fun _ => rfl) (fun _ => rfl)]
  simp only [J.ikev2PrfFields, okF_field, okF_skip, okF_nil, IKEv2Prf.toP, ok_option, ok_string, and_true, true_and, implies_true]

instance : JNN J.ikev2Prf := ⟨fun _ _ => rfl⟩

theorem ok_ikev2Prf (x : IKEv2Prf) : J.Ok J.ikev2Prf x ↔ x.Plain := by
  have h := ok_ikev2PrfStruct x
  by_cases hb : x.bomRef.val = ""
  · have hb' : x.bomRef = ⟨""⟩ := by cases hx : x.bomRef; simp_all
    have hs : J.Ok J.ikev2Prf x ↔ J.Ok (JCodec.struct J.ikev2PrfFields IKEv2Prf.toP IKEv2Prf.ofP) x := by
      simp [J.Ok, J.ikev2Prf, J.ikev2, hb]
    rw [hs, h, IKEv2Prf.Plain]
    constructor
    · intro hh; right; simp_all
    · rintro (hh | hh)
      · rw [hh]; simp [hb', InInt64]
      · simp_all
  · have hs : J.Ok J.ikev2Prf x ↔ IKEv2Prf.mk x.bomRef "" "" = x := by
      simp [J.Ok, J.ikev2Prf, J.ikev2, hb]; rfl
    rw [hs, IKEv2Prf.Plain]
    constructor
    · intro hh; left; exact hh.symm
    · rintro (hh | hh)
      · exact hh.symm
      · exact absurd (by simp_all) hb

theorem ok_ikev2TransformTypes (x : IKEv2TransformTypes) : J.Ok J.ikev2TransformTypes x ↔ x.Plain := by
  rw [J.ikev2TransformTypes, ok_struct J.ikev2TransformTypesFields _ _ (fun _ => rfl) (fun _ => rfl)]
  simp only [J.ikev2TransformTypesFields, okF_field, okF_skip, okF_nil, IKEv2TransformTypes.toP, IKEv2TransformTypes.Plain, ok_option, ok_pslice, PSlice.each_true ok_string, PSlice.each_true ok_bomReference, PSlice.each_congr ok_ikev2Auth, PSlice.each_congr ok_ikev2Enc, PSlice.each_congr ok_ikev2Integ, PSlice.each_congr ok_ikev2Ke, PSlice.each_congr ok_ikev2Prf, ok_bool, ok_ikev2Auth, ok_ikev2Enc, ok_ikev2Integ, ok_ikev2Ke, ok_ikev2Prf, and_true, true_and, implies_true]

instance : JNN J.ikev2TransformTypes := ⟨fun _ _ => rfl⟩

theorem ok_cryptoProtocolProperties (x : CryptoProtocolProperties) : J.Ok J.cryptoProtocolProperties x ↔ x.Plain := by
  rw [J.cryptoProtocolProperties, ok_struct J.cryptoProtocolPropertiesFields _ _ (fun _ => rfl) (fun _ => rfl)]
  simp only [J.cryptoProtocolPropertiesFields, okF_field, okF_skip, okF_nil, CryptoProtocolProperties.toP, CryptoProtocolProperties.Plain, ok_option, ok_pslice, PSlice.each_true ok_string, PSlice.each_true ok_bomReference, PSlice.each_congr ok_cipherSuite, PSlice.each_congr ok_relatedCryptographicAsset, ok_bomReference, ok_cipherSuite, ok_ikev2TransformTypes, ok_relatedCryptographicAsset, ok_string, and_true, true_and, implies_true]

instance : JNN J.cryptoProtocolProperties := ⟨fun _ _ => rfl⟩

theorem ok_securedBy (x : SecuredBy) : J.Ok J.securedBy x ↔ x.Plain := by
  rw [J.securedBy, ok_struct J.securedByFields _ _ (fun _ => rfl) (fun _ => rfl)]
  simp only [J.securedByFields, okF_field, okF_skip, okF_nil, SecuredBy.toP, SecuredBy.Plain, ok_option, ok_pslice, PSlice.each_true ok_string, PSlice.each_true ok_bomReference, ok_bomReference, ok_string, and_true, true_and, implies_true]

instance : JNN J.securedBy := ⟨fun _ _ => rfl⟩

theorem ok_relatedCryptoMaterialProperties (x : RelatedCryptoMaterialProperties) : J.Ok J.relatedCryptoMaterialProperties x ↔ x.Plain := by
  rw [J.relatedCryptoMaterialProperties, ok_struct J.relatedCryptoMaterialPropertiesFields _ _ (fun _ => rfl) (fun _ => rfl)]
  simp only [J.relatedCryptoMaterialPropertiesFields, okF_field, okF_skip, okF_nil, RelatedCryptoMaterialProperties.toP, RelatedCryptoMaterialProperties.Plain, ok_option, ok_pslice, PSlice.each_true ok_string, PSlice.each_true ok_bomReference, PSlice.each_congr ok_relatedCryptographicAsset, ok_bomReference, ok_hash, ok_int, ok_relatedCryptographicAsset, ok_securedBy, ok_string, and_true, true_and, implies_true]

instance : JNN J.relatedCryptoMaterialProperties := ⟨fun _ _ => rfl⟩

theorem ok_cryptoProperties (x : CryptoProperties) : J.Ok J.cryptoProperties x ↔ x.Plain := by
  rw [J.cryptoProperties, ok_struct J.cryptoPropertiesFields _ _ (fun _ => rfl) (fun _ => rfl)]
  simp only [J.cryptoPropertiesFields, okF_field, okF_skip, okF_nil, CryptoProperties.toP, CryptoProperties.Plain, ok_option, ok_pslice, PSlice.each_true ok_string, PSlice.each_true ok_bomReference, ok_certificateProperties, ok_cryptoAlgorithmProperties, ok_cryptoProtocolProperties, ok_relatedCryptoMaterialProperties, ok_string, and_true, true_and, implies_true]

instance : JNN J.cryptoProperties := ⟨fun _ _ => rfl⟩

theorem ok_callstackFrame (x : CallstackFrame) : J.Ok J.callstackFrame x ↔ x.Plain := by
  rw [J.callstackFrame, ok_struct J.callstackFrameFields _ _ (fun _ => rfl) (fun _ => rfl)]
  simp only [J.callstackFrameFields, okF_field, okF_skip, okF_nil, CallstackFrame.toP, CallstackFrame.Plain, ok_option, ok_pslice, PSlice.each_true ok_string, PSlice.each_true ok_bomReference, ok_int, ok_string, and_true, true_and, implies_true]

instance : JNN J.callstackFrame := ⟨fun _ _ => rfl⟩

theorem ok_callstack (x : Callstack) : J.Ok J.callstack x ↔ x.Plain := by
  rw [J.callstack, ok_struct J.callstackFields _ _ (fun _ => rfl) (fun _ => rfl)]
  simp only [J.callstackFields, okF_field, okF_skip, okF_nil, Callstack.toP, Callstack.Plain, ok_option, ok_pslice, PSlice.each_true ok_string, PSlice.each_true ok_bomReference, PSlice.each_congr ok_callstackFrame, ok_callstackFrame, and_true, true_and, implies_true]

instance : JNN J.callstack := ⟨fun _ _ => rfl⟩

theorem ok_copyright (x : Copyright) : J.Ok J.copyright x ↔ x.Plain := by
  rw [J.copyright, ok_struct J.copyrightFields _ _ (fun _ => rfl) (fun _ => rfl)]
  simp only [J.copyrightFields, okF_field, okF_skip, okF_nil, Copyright.toP, Copyright.Plain, ok_option, ok_pslice, PSlice.each_true ok_string, PSlice.each_true ok_bomReference, ok_string, and_true, true_and, implies_true]

instance : JNN J.copyright := ⟨fun _ _ => rfl⟩

theorem ok_evidenceIdentityMethod (x : EvidenceIdentityMethod) : J.Ok J.evidenceIdentityMethod x ↔ x.Plain := by
  rw [J.evidenceIdentityMethod, ok_struct J.evidenceIdentityMethodFields _ _ (fun _ => rfl) (fun _ => rfl)]
  simp only [J.evidenceIdentityMethodFields, okF_field, okF_skip, okF_nil, EvidenceIdentityMethod.toP, EvidenceIdentityMethod.Plain, ok_option, ok_pslice, PSlice.each_true ok_string, PSlice.each_true ok_bomReference, ok_f32, ok_string, and_true, true_and, implies_true]

instance : JNN J.evidenceIdentityMethod := ⟨fun _ _ => rfl⟩

theorem ok_evidenceIdentity (x : EvidenceIdentity) : J.Ok J.evidenceIdentity x ↔ x.Plain := by
  rw [J.evidenceIdentity, ok_struct J.evidenceIdentityFields _ _ (fun _ => rfl) (fun _ => rfl)]
  simp only [J.evidenceIdentityFields, okF_field, okF_skip, okF_nil, EvidenceIdentity.toP, EvidenceIdentity.Plain, ok_option, ok_pslice, PSlice.each_true ok_string, PSlice.each_true ok_bomReference, PSlice.each_congr ok_evidenceIdentityMethod, ok_bomReference, ok_evidenceIdentityMethod, ok_f32, ok_string, and_true, true_and, implies_true]

instance : JNN J.evidenceIdentity := ⟨fun _ _ => rfl⟩

theorem ok_evidenceIdentityChoice (x : EvidenceIdentityChoice) :
    J.Ok J.evidenceIdentityChoice x ↔ x.Plain := by
  obtain ⟨i, l⟩ := x
  cases i with
  | some i =>
    have h := ok_evidenceIdentity i
    simp only [J.Ok] at h
    simp only [J.Ok, J.evidenceIdentityChoice, EvidenceIdentityChoice.Plain]
    simp
    constructor
    · rintro ⟨⟨h1, rfl⟩, h2, _⟩; exact ⟨i, h.1 ⟨h1, h2⟩, rfl, rfl⟩
    · rintro ⟨i', h1, rfl, rfl⟩
      exact ⟨⟨(h.2 h1).1, rfl⟩, (h.2 h1).2, by simp [JCodec.pslice, PSlice.elems]⟩
  | none =>
    have h := (ok_pslice J.evidenceIdentity l).trans (PSlice.each_congr ok_evidenceIdentity _)
    cases l with
    | nil => simp [J.Ok, J.evidenceIdentityChoice, EvidenceIdentityChoice.Plain]
    | nilSlice => simp [J.Ok, J.evidenceIdentityChoice, EvidenceIdentityChoice.Plain]
    | list ids =>
      simp only [J.Ok, PSlice.Each, PSlice.elems] at h
      simp [J.Ok, J.evidenceIdentityChoice, EvidenceIdentityChoice.Plain]
      simp [JCodec.pslice] at h
      simpa [JCodec.pslice] using h

instance : JNN J.evidenceIdentityChoice := ⟨by
  intro x h
  rw [ok_evidenceIdentityChoice] at h
  rcases h with ⟨i, _, rfl⟩ | ⟨ids, _, rfl⟩ <;> simp [J.evidenceIdentityChoice, JCodec.pslice]⟩

theorem ok_evidenceOccurrence (x : EvidenceOccurrence) : J.Ok J.evidenceOccurrence x ↔ x.Plain := by
  rw [J.evidenceOccurrence, ok_struct J.evidenceOccurrenceFields _ _ (fun _ => rfl) (fun _ => rfl)]
  simp only [J.evidenceOccurrenceFields, okF_field, okF_skip, okF_nil, EvidenceOccurrence.toP, EvidenceOccurrence.Plain, ok_option, ok_pslice, PSlice.each_true ok_string, PSlice.each_true ok_bomReference, ok_int, ok_string, and_true, true_and, implies_true]

instance : JNN J.evidenceOccurrence := ⟨fun _ _ => rfl⟩

theorem ok_organizationalEntityOrContact (x : OrganizationalEntityOrContact) : J.Ok J.organizationalEntityOrContact x ↔ x.Plain := by
  rw [J.organizationalEntityOrContact, ok_struct J.organizationalEntityOrContactFields _ _ (fun _ => rfl) (fun _ => rfl)]
  simp only [J.organizationalEntityOrContactFields, okF_field, okF_skip, okF_nil, OrganizationalEntityOrContact.toP, OrganizationalEntityOrContact.Plain, ok_option, ok_pslice, PSlice.each_true ok_string, PSlice.each_true ok_bomReference, ok_organizationalContact, ok_organizationalEntity, and_true, true_and, implies_true]

instance : JNN J.organizationalEntityOrContact := ⟨fun _ _ => rfl⟩

theorem ok_licensing (x : Licensing) : J.Ok J.licensing x ↔ x.Plain := by
  rw [J.licensing, ok_struct J.licensingFields _ _ (fun _ => rfl) (fun _ => rfl)]
  simp only [J.licensingFields, okF_field, okF_skip, okF_nil, Licensing.toP, Licensing.Plain, ok_option, ok_pslice, PSlice.each_true ok_string, PSlice.each_true ok_bomReference, ok_organizationalEntityOrContact, ok_string, and_true, true_and, implies_true]

instance : JNN J.licensing := ⟨fun _ _ => rfl⟩

theorem ok_license (x : License) : J.Ok J.license x ↔ x.Plain := by
  show J.Ok J.licenseAlias x ↔ _
  rw [J.licenseAlias, ok_struct J.licenseFields _ _ (fun _ => rfl) (fun _ => rfl)]
  simp only [J.licenseFields, okF_field, okF_skip, okF_nil, License.toP, License.Plain, ok_option, ok_pslice, PSlice.each_true ok_string, PSlice.each_true ok_bomReference, PSlice.each_congr ok_property, ok_attachedText, ok_licensing, ok_property, ok_string, and_true, true_and, implies_true]

instance : JNN J.license := ⟨fun _ _ => rfl⟩

theorem ok_licenseExpressionDetail (x : LicenseExpressionDetail) : J.Ok J.licenseExpressionDetail x ↔ x.Plain := by
  rw [J.licenseExpressionDetail, ok_struct J.licenseExpressionDetailFields _ _ (fun _ => rfl) (fun _ => rfl)]
  simp only [J.licenseExpressionDetailFields, okF_field, okF_skip, okF_nil, LicenseExpressionDetail.toP, LicenseExpressionDetail.Plain, ok_option, ok_pslice, PSlice.each_true ok_string, PSlice.each_true ok_bomReference, ok_attachedText, ok_string, and_true, true_and, implies_true]

instance : JNN J.licenseExpressionDetail := ⟨fun _ _ => rfl⟩

theorem ok_licenseChoice (x : LicenseChoice) : J.Ok J.licenseChoice x ↔ x.Plain := by
  rw [J.licenseChoice, ok_struct J.licenseChoiceFields _ _ (fun _ => rfl) (fun _ => rfl)]
  simp only [J.licenseChoiceFields, okF_field, okF_skip, okF_nil, LicenseChoice.toP, LicenseChoice.Plain, ok_option, ok_pslice, PSlice.each_true ok_string, PSlice.each_true ok_bomReference, PSlice.each_congr ok_licenseExpressionDetail, PSlice.each_congr ok_property, ok_license, ok_licenseExpressionDetail, ok_licensing, ok_property, ok_string, and_true, true_and, implies_true]

instance : JNN J.licenseChoice := ⟨fun _ _ => rfl⟩

theorem ok_evidence (x : Evidence) : J.Ok J.evidence x ↔ x.Plain := by
  rw [J.evidence, ok_struct J.evidenceFields _ _ (fun _ => rfl) (fun _ => rfl)]
  simp only [J.evidenceFields, okF_field, okF_skip, okF_nil, Evidence.toP, Evidence.Plain, ok_option, ok_pslice, PSlice.each_true ok_string, PSlice.each_true ok_bomReference, PSlice.each_congr ok_copyright, PSlice.each_congr ok_evidenceOccurrence, PSlice.each_congr ok_licenseChoice, ok_callstack, ok_copyright, ok_evidenceIdentityChoice, ok_evidenceOccurrence, ok_licenseChoice, and_true, true_and, implies_true]

instance : JNN J.evidence := ⟨fun _ _ => rfl⟩

theorem ok_externalReference (x : ExternalReference) : J.Ok J.externalReference x ↔ x.Plain := by
  rw [J.externalReference, ok_struct J.externalReferenceFields _ _ (fun _ => rfl) (fun _ => rfl)]
  simp only [J.externalReferenceFields, okF_field, okF_skip, okF_nil, ExternalReference.toP, ExternalReference.Plain, ok_option, ok_pslice, PSlice.each_true ok_string, PSlice.each_true ok_bomReference, PSlice.each_congr ok_hash, PSlice.each_congr ok_property, ok_hash, ok_property, ok_string, and_true, true_and, implies_true]

instance : JNN J.externalReference := ⟨fun _ _ => rfl⟩

theorem ok_jsfPublicKey (x : JSFPublicKey) : J.Ok J.jsfPublicKey x ↔ x.Plain := by
  rw [J.jsfPublicKey, ok_struct J.jsfPublicKeyFields _ _ (fun _ => rfl) (fun _ => rfl)]
  simp only [J.jsfPublicKeyFields, okF_field, okF_skip, okF_nil, JSFPublicKey.toP, JSFPublicKey.Plain, ok_option, ok_pslice, PSlice.each_true ok_string, PSlice.each_true ok_bomReference, ok_string, and_true, true_and, implies_true]

instance : JNN J.jsfPublicKey := ⟨fun _ _ => rfl⟩

theorem ok_jsfSigner (x : JSFSigner) : J.Ok J.jsfSigner x ↔ x.Plain := by
  rw [J.jsfSigner, ok_struct J.jsfSignerFields _ _ (fun _ => rfl) (fun _ => rfl)]
  simp only [J.jsfSignerFields, okF_field, okF_skip, okF_nil, JSFSigner.toP, JSFSigner.Plain, ok_option, ok_pslice, PSlice.each_true ok_string, PSlice.each_true ok_bomReference, ok_jsfPublicKey, ok_string, and_true, true_and, implies_true]

instance : JNN J.jsfSigner := ⟨fun _ _ => rfl⟩

theorem ok_jsfSignature (x : JSFSignature) : J.Ok J.jsfSignature x ↔ x.Plain := by
  rw [J.jsfSignature, ok_struct J.jsfSignatureFields _ _ (fun _ => rfl) (fun _ => rfl)]
  simp only [J.jsfSignatureFields, okF_field, okF_skip, okF_nil, JSFSignature.toP, JSFSignature.Plain, ok_option, ok_pslice, PSlice.each_true ok_string, PSlice.each_true ok_bomReference, PSlice.each_congr ok_jsfSigner, ok_jsfSigner, and_true, true_and, implies_true]

instance : JNN J.jsfSignature := ⟨fun _ _ => rfl⟩

theorem ok_mlModelCO2Measure (x : MLModelCO2Measure) : J.Ok J.mlModelCO2Measure x ↔ x.Plain := by
  rw [J.mlModelCO2Measure, ok_struct J.mlModelCO2MeasureFields _ _ (fun _ => rfl) (fun _ => rfl)]
  simp only [J.mlModelCO2MeasureFields, okF_field, okF_skip, okF_nil, MLModelCO2Measure.toP, MLModelCO2Measure.Plain, ok_option, ok_pslice, PSlice.each_true ok_string, PSlice.each_true ok_bomReference, ok_f32, ok_string, and_true, true_and, implies_true]

instance : JNN J.mlModelCO2Measure := ⟨fun _ _ => rfl⟩

theorem ok_mlModelEnergyMeasure (x : MLModelEnergyMeasure) : J.Ok J.mlModelEnergyMeasure x ↔ x.Plain := by
  rw [J.mlModelEnergyMeasure, ok_struct J.mlModelEnergyMeasureFields _ _ (fun _ => rfl) (fun _ => rfl)]
  simp only [J.mlModelEnergyMeasureFields, okF_field, okF_skip, okF_nil, MLModelEnergyMeasure.toP, MLModelEnergyMeasure.Plain, ok_option, ok_pslice, PSlice.each_true ok_string, PSlice.each_true ok_bomReference, ok_f32, ok_string, and_true, true_and, implies_true]

instance : JNN J.mlModelEnergyMeasure := ⟨fun _ _ => rfl⟩

theorem ok_mlModelEnergyProvider (x : MLModelEnergyProvider) : J.Ok J.mlModelEnergyProvider x ↔ x.Plain := by
  rw [J.mlModelEnergyProvider, ok_struct J.mlModelEnergyProviderFields _ _ (fun _ => rfl) (fun _ => rfl)]
  simp only [J.mlModelEnergyProviderFields, okF_field, okF_skip, okF_nil, MLModelEnergyProvider.toP, MLModelEnergyProvider.Plain, ok_option, ok_pslice, PSlice.each_true ok_string, PSlice.each_true ok_bomReference, PSlice.each_congr ok_externalReference, ok_externalReference, ok_mlModelEnergyMeasure, ok_organizationalEntity, ok_string, and_true, true_and, implies_true]

instance : JNN J.mlModelEnergyProvider := ⟨fun _ _ => rfl⟩

theorem ok_mlModelEnergyConsumption (x : MLModelEnergyConsumption) : J.Ok J.mlModelEnergyConsumption x ↔ x.Plain := by
  rw [J.mlModelEnergyConsumption, ok_struct J.mlModelEnergyConsumptionFields _ _ (fun _ => rfl) (fun _ => rfl)]
  simp only [J.mlModelEnergyConsumptionFields, okF_field, okF_skip, okF_nil, MLModelEnergyConsumption.toP, MLModelEnergyConsumption.Plain, ok_option, ok_pslice, PSlice.each_true ok_string, PSlice.each_true ok_bomReference, PSlice.each_congr ok_mlModelEnergyProvider, PSlice.each_congr ok_property, ok_mlModelCO2Measure, ok_mlModelEnergyMeasure, ok_mlModelEnergyProvider, ok_property, ok_string, and_true, true_and, implies_true]

instance : JNN J.mlModelEnergyConsumption := ⟨fun _ _ => rfl⟩

theorem ok_mlModelCardEnvironmentalConsiderations (x : MLModelCardEnvironmentalConsiderations) : J.Ok J.mlModelCardEnvironmentalConsiderations x ↔ x.Plain := by
  rw [J.mlModelCardEnvironmentalConsiderations, ok_struct J.mlModelCardEnvironmentalConsiderationsFields _ _ (fun _ => rfl) (fun _ => rfl)]
  simp only [J.mlModelCardEnvironmentalConsiderationsFields, okF_field, okF_skip, okF_nil, MLModelCardEnvironmentalConsiderations.toP, MLModelCardEnvironmentalConsiderations.Plain, ok_option, ok_pslice, PSlice.each_true ok_string, PSlice.each_true ok_bomReference, PSlice.each_congr ok_mlModelEnergyConsumption, PSlice.each_congr ok_property, ok_mlModelEnergyConsumption, ok_property, and_true, true_and, implies_true]

instance : JNN J.mlModelCardEnvironmentalConsiderations := ⟨fun _ _ => rfl⟩

theorem ok_mlModelCardEthicalConsideration (x : MLModelCardEthicalConsideration) : J.Ok J.mlModelCardEthicalConsideration x ↔ x.Plain := by
  rw [J.mlModelCardEthicalConsideration, ok_struct J.mlModelCardEthicalConsiderationFields _ _ (fun _ => rfl) (fun _ => rfl)]
  simp only [J.mlModelCardEthicalConsiderationFields, okF_field, okF_skip, okF_nil, MLModelCardEthicalConsideration.toP, MLModelCardEthicalConsideration.Plain, ok_option, ok_pslice, PSlice.each_true ok_string, PSlice.each_true ok_bomReference, ok_string, and_true, true_and, implies_true]

instance : JNN J.mlModelCardEthicalConsideration := ⟨fun _ _ => rfl⟩

theorem ok_mlModelCardFairnessAssessment (x : MLModelCardFairnessAssessment) : J.Ok J.mlModelCardFairnessAssessment x ↔ x.Plain := by
  rw [J.mlModelCardFairnessAssessment, ok_struct J.mlModelCardFairnessAssessmentFields _ _ (fun _ => rfl) (fun _ => rfl)]
  simp only [J.mlModelCardFairnessAssessmentFields, okF_field, okF_skip, okF_nil, MLModelCardFairnessAssessment.toP, MLModelCardFairnessAssessment.Plain, ok_option, ok_pslice, PSlice.each_true ok_string, PSlice.each_true ok_bomReference, ok_string, and_true, true_and, implies_true]

instance : JNN J.mlModelCardFairnessAssessment := ⟨fun _ _ => rfl⟩

theorem ok_mlModelCardConsiderations (x : MLModelCardConsiderations) : J.Ok J.mlModelCardConsiderations x ↔ x.Plain := by
  rw [J.mlModelCardConsiderations, ok_struct J.mlModelCardConsiderationsFields _ _ (fun _ => rfl) (fun _ => rfl)]
  simp only [J.mlModelCardConsiderationsFields, okF_field, okF_skip, okF_nil, MLModelCardConsiderations.toP, MLModelCardConsiderations.Plain, ok_option, ok_pslice, PSlice.each_true ok_string, PSlice.each_true ok_bomReference, PSlice.each_congr ok_mlModelCardEthicalConsideration, PSlice.each_congr ok_mlModelCardFairnessAssessment, ok_mlModelCardEnvironmentalConsiderations, ok_mlModelCardEthicalConsideration, ok_mlModelCardFairnessAssessment, ok_string, and_true, true_and, implies_true]

instance : JNN J.mlModelCardConsiderations := ⟨fun _ _ => rfl⟩

theorem ok_mlDatasetChoice (x : MLDatasetChoice) : J.Ok J.mlDatasetChoice x ↔ x.Plain := by
  obtain ⟨r, d⟩ := x
  by_cases hr : r = ""
  · cases d with
    | none => simp [J.Ok, J.mlDatasetChoice, MLDatasetChoice.Plain, hr]
    | some d =>
      have h := ok_componentData d
      simp only [J.Ok] at h
      by_cases hz : (J.componentData.norm d).isZero = true
      · have hz' := (ComponentData.isZero_iff _).1 hz
        simp only [J.Ok, J.mlDatasetChoice, MLDatasetChoice.Plain, hr, hz, ← h]
        simp
        intro hn
        rw [← (h.2 hn).1]; exact hz'
      · have hne : J.componentData.norm d = d → d ≠ {} := by
          intro e e'
          apply hz
          rw [e, e']; rfl
        simp only [J.Ok, J.mlDatasetChoice, MLDatasetChoice.Plain, hr, hz, ← h]
        simp
        rw [← h]
        exact ⟨fun hh => ⟨hh, hne hh.1⟩, fun hh => hh.1⟩
  · cases d <;> simp [J.Ok, J.mlDatasetChoice, MLDatasetChoice.Plain, hr]

instance : JNN J.mlDatasetChoice := ⟨fun _ _ => rfl⟩

theorem ok_mlInputOutputParameters (x : MLInputOutputParameters) : J.Ok J.mlInputOutputParameters x ↔ x.Plain := by
  rw [J.mlInputOutputParameters, ok_struct J.mlInputOutputParametersFields _ _ (fun _ => rfl) (fun _ => rfl)]
  simp only [J.mlInputOutputParametersFields, okF_field, okF_skip, okF_nil, MLInputOutputParameters.toP, MLInputOutputParameters.Plain, ok_option, ok_pslice, PSlice.each_true ok_string, PSlice.each_true ok_bomReference, ok_string, and_true, true_and, implies_true]

instance : JNN J.mlInputOutputParameters := ⟨fun _ _ => rfl⟩

theorem ok_mlModelParametersApproach (x : MLModelParametersApproach) : J.Ok J.mlModelParametersApproach x ↔ x.Plain := by
  rw [J.mlModelParametersApproach, ok_struct J.mlModelParametersApproachFields _ _ (fun _ => rfl) (fun _ => rfl)]
  simp only [J.mlModelParametersApproachFields, okF_field, okF_skip, okF_nil, MLModelParametersApproach.toP, MLModelParametersApproach.Plain, ok_option, ok_pslice, PSlice.each_true ok_string, PSlice.each_true ok_bomReference, ok_string, and_true, true_and, implies_true]

instance : JNN J.mlModelParametersApproach := ⟨fun _ _ => rfl⟩

theorem ok_mlModelParameters (x : MLModelParameters) : J.Ok J.mlModelParameters x ↔ x.Plain := by
  rw [J.mlModelParameters, ok_struct J.mlModelParametersFields _ _ (fun _ => rfl) (fun _ => rfl)]
  simp only [J.mlModelParametersFields, okF_field, okF_skip, okF_nil, MLModelParameters.toP, MLModelParameters.Plain, ok_option, ok_pslice, PSlice.each_true ok_string, PSlice.each_true ok_bomReference, PSlice.each_congr ok_mlDatasetChoice, PSlice.each_congr ok_mlInputOutputParameters, ok_mlDatasetChoice, ok_mlInputOutputParameters, ok_mlModelParametersApproach, ok_string, and_true, true_and, implies_true]

instance : JNN J.mlModelParameters := ⟨fun _ _ => rfl⟩

theorem ok_mlPerformanceMetricConfidenceInterval (x : MLPerformanceMetricConfidenceInterval) : J.Ok J.mlPerformanceMetricConfidenceInterval x ↔ x.Plain := by
  rw [J.mlPerformanceMetricConfidenceInterval, ok_struct J.mlPerformanceMetricConfidenceIntervalFields _ _ (fun _ => rfl) (fun _ => rfl)]
  simp only [J.mlPerformanceMetricConfidenceIntervalFields, okF_field, okF_skip, okF_nil, MLPerformanceMetricConfidenceInterval.toP, MLPerformanceMetricConfidenceInterval.Plain, ok_option, ok_pslice, PSlice.each_true ok_string, PSlice.each_true ok_bomReference, ok_string, and_true, true_and, implies_true]

instance : JNN J.mlPerformanceMetricConfidenceInterval := ⟨fun _ _ => rfl⟩

theorem ok_mlPerformanceMetric (x : MLPerformanceMetric) : J.Ok J.mlPerformanceMetric x ↔ x.Plain := by
  rw [J.mlPerformanceMetric, ok_struct J.mlPerformanceMetricFields _ _ (fun _ => rfl) (fun _ => rfl)]
  simp only [J.mlPerformanceMetricFields, okF_field, okF_skip, okF_nil, MLPerformanceMetric.toP, MLPerformanceMetric.Plain, ok_option, ok_pslice, PSlice.each_true ok_string, PSlice.each_true ok_bomReference, ok_mlPerformanceMetricConfidenceInterval, ok_string, and_true, true_and, implies_true]

instance : JNN J.mlPerformanceMetric := ⟨fun _ _ => rfl⟩

theorem ok_mlQuantitativeAnalysis (x : MLQuantitativeAnalysis) : J.Ok J.mlQuantitativeAnalysis x ↔ x.Plain := by
  rw [J.mlQuantitativeAnalysis, ok_struct J.mlQuantitativeAnalysisFields _ _ (fun _ => rfl) (fun _ => rfl)]
  simp only [J.mlQuantitativeAnalysisFields, okF_field, okF_skip, okF_nil, MLQuantitativeAnalysis.toP, MLQuantitativeAnalysis.Plain, ok_option, ok_pslice, PSlice.each_true ok_string, PSlice.each_true ok_bomReference, PSlice.each_congr ok_mlPerformanceMetric, ok_componentDataGraphics, ok_mlPerformanceMetric, and_true, true_and, implies_true]

instance : JNN J.mlQuantitativeAnalysis := ⟨fun _ _ => rfl⟩

theorem ok_mlModelCard (x : MLModelCard) : J.Ok J.mlModelCard x ↔ x.Plain := by
  rw [J.mlModelCard, ok_struct J.mlModelCardFields _ _ (fun _ => rfl) (fun _ => rfl)]
  simp only [J.mlModelCardFields, okF_field, okF_skip, okF_nil, MLModelCard.toP, MLModelCard.Plain, ok_option, ok_pslice, PSlice.each_true ok_string, PSlice.each_true ok_bomReference, ok_mlModelCardConsiderations, ok_mlModelParameters, ok_mlQuantitativeAnalysis, ok_string, and_true, true_and, implies_true]

instance : JNN J.mlModelCard := ⟨fun _ _ => rfl⟩

theorem ok_identifiableAction (x : IdentifiableAction) : J.Ok J.identifiableAction x ↔ x.Plain := by
  rw [J.identifiableAction, ok_struct J.identifiableActionFields _ _ (fun _ => rfl) (fun _ => rfl)]
  simp only [J.identifiableActionFields, okF_field, okF_skip, okF_nil, IdentifiableAction.toP, IdentifiableAction.Plain, ok_option, ok_pslice, PSlice.each_true ok_string, PSlice.each_true ok_bomReference, ok_string, and_true, true_and, implies_true]

instance : JNN J.identifiableAction := ⟨fun _ _ => rfl⟩

theorem ok_commit (x : Commit) : J.Ok J.commit x ↔ x.Plain := by
  rw [J.commit, ok_struct J.commitFields _ _ (fun _ => rfl) (fun _ => rfl)]
  simp only [J.commitFields, okF_field, okF_skip, okF_nil, Commit.toP, Commit.Plain, ok_option, ok_pslice, PSlice.each_true ok_string, PSlice.each_true ok_bomReference, ok_identifiableAction, ok_string, and_true, true_and, implies_true]

instance : JNN J.commit := ⟨fun _ _ => rfl⟩

theorem ok_diff (x : Diff) : J.Ok J.diff x ↔ x.Plain := by
  rw [J.diff, ok_struct J.diffFields _ _ (fun _ => rfl) (fun _ => rfl)]
  simp only [J.diffFields, okF_field, okF_skip, okF_nil, Diff.toP, Diff.Plain, ok_option, ok_pslice, PSlice.each_true ok_string, PSlice.each_true ok_bomReference, ok_attachedText, ok_string, and_true, true_and, implies_true]

instance : JNN J.diff := ⟨fun _ _ => rfl⟩

theorem ok_source (x : Source) : J.Ok J.source x ↔ x.Plain := by
  rw [J.source, ok_struct J.sourceFields _ _ (fun _ => rfl) (fun _ => rfl)]
  simp only [J.sourceFields, okF_field, okF_skip, okF_nil, Source.toP, Source.Plain, ok_option, ok_pslice, PSlice.each_true ok_string, PSlice.each_true ok_bomReference, ok_string, and_true, true_and, implies_true]

instance : JNN J.source := ⟨fun _ _ => rfl⟩

theorem ok_issue (x : Issue) : J.Ok J.issue x ↔ x.Plain := by
  rw [J.issue, ok_struct J.issueFields _ _ (fun _ => rfl) (fun _ => rfl)]
  simp only [J.issueFields, okF_field, okF_skip, okF_nil, Issue.toP, Issue.Plain, ok_option, ok_pslice, PSlice.each_true ok_string, PSlice.each_true ok_bomReference, ok_source, ok_string, and_true, true_and, implies_true]

instance : JNN J.issue := ⟨fun _ _ => rfl⟩

theorem ok_patch (x : Patch) : J.Ok J.patch x ↔ x.Plain := by
  rw [J.patch, ok_struct J.patchFields _ _ (fun _ => rfl) (fun _ => rfl)]
  simp only [J.patchFields, okF_field, okF_skip, okF_nil, Patch.toP, Patch.Plain, ok_option, ok_pslice, PSlice.each_true ok_string, PSlice.each_true ok_bomReference, PSlice.each_congr ok_issue, ok_diff, ok_issue, ok_string, and_true, true_and, implies_true]

instance : JNN J.patch := ⟨fun _ _ => rfl⟩

theorem ok_pedigreeWith (C : JCodec Component) (x : Pedigree Component)
    (h1 : x.ancestors.Each (J.Ok C) ↔ PlainComponents x.ancestors)
    (h2 : x.descendants.Each (J.Ok C) ↔ PlainComponents x.descendants)
    (h3 : x.variants.Each (J.Ok C) ↔ PlainComponents x.variants) :
    J.Ok (J.pedigree C) x ↔ PlainPedigree x := by
  rw [J.pedigree, ok_struct (J.pedigreeFields C) _ _ (fun _ => rfl) (fun _ => rfl)]
  simp only [J.pedigreeFields, okF_field, okF_skip, okF_nil, Pedigree.toP, ok_option, ok_pslice, h1, h2, h3,
    PSlice.each_true ok_string, PSlice.each_true ok_bomReference, ok_commit, ok_patch, ok_string, and_true, true_and, implies_true]
  cases x; simp only [PlainPedigree, PSlice.each_congr ok_commit, PSlice.each_congr ok_patch]

instance (C : JCodec Component) : JNN (J.pedigree C) := ⟨fun _ _ => rfl⟩

theorem ok_note (x : Note) : J.Ok J.note x ↔ x.Plain := by
  rw [J.note, ok_struct J.noteFields _ _ (fun _ => rfl) (fun _ => rfl)]
  simp only [J.noteFields, okF_field, okF_skip, okF_nil, Note.toP, Note.Plain, ok_option, ok_pslice, PSlice.each_true ok_string, PSlice.each_true ok_bomReference, ok_attachedText, ok_string, and_true, true_and, implies_true]

instance : JNN J.note := ⟨fun _ _ => rfl⟩

theorem ok_releaseNotes (x : ReleaseNotes) : J.Ok J.releaseNotes x ↔ x.Plain := by
  rw [J.releaseNotes, ok_struct J.releaseNotesFields _ _ (fun _ => rfl) (fun _ => rfl)]
  simp only [J.releaseNotesFields, okF_field, okF_skip, okF_nil, ReleaseNotes.toP, ReleaseNotes.Plain, ok_option, ok_pslice, PSlice.each_true ok_string, PSlice.each_true ok_bomReference, PSlice.each_congr ok_issue, PSlice.each_congr ok_note, PSlice.each_congr ok_property, ok_issue, ok_note, ok_property, ok_string, and_true, true_and, implies_true]

instance : JNN J.releaseNotes := ⟨fun _ _ => rfl⟩

theorem ok_swid (x : SWID) : J.Ok J.swid x ↔ x.Plain := by
  rw [J.swid, ok_struct J.swidFields _ _ (fun _ => rfl) (fun _ => rfl)]
  simp only [J.swidFields, okF_field, okF_skip, okF_nil, SWID.toP, SWID.Plain, ok_option, ok_pslice, PSlice.each_true ok_string, PSlice.each_true ok_bomReference, ok_attachedText, ok_bool, ok_int, ok_string, and_true, true_and, implies_true]

instance : JNN J.swid := ⟨fun _ _ => rfl⟩

theorem ok_asserterChoice (x : AsserterChoice) : J.Ok J.asserterChoice x ↔ x.Plain := by
  obtain ⟨o, i, r⟩ := x
  cases o with
  | some o =>
    have h := ok_organizationalEntity o
    simp only [J.Ok] at h
    cases i <;> cases r <;> simp [J.Ok, J.asserterChoice, AsserterChoice.Plain, ← h]
  | none =>
    cases i with
    | some i =>
      have h := ok_organizationalContact i
      simp only [J.Ok] at h
      cases r <;> simp [J.Ok, J.asserterChoice, AsserterChoice.Plain, ← h]
    | none =>
      cases r <;> simp [J.Ok, J.asserterChoice, AsserterChoice.Plain]

instance : JNN J.asserterChoice := ⟨fun _ _ => rfl⟩

theorem ok_patentAssertion (x : PatentAssertion) : J.Ok J.patentAssertion x ↔ x.Plain := by
  rw [J.patentAssertion, ok_struct J.patentAssertionFields _ _ (fun _ => rfl) (fun _ => rfl)]
  simp only [J.patentAssertionFields, okF_field, okF_skip, okF_nil, PatentAssertion.toP, PatentAssertion.Plain, ok_option, ok_pslice, PSlice.each_true ok_string, PSlice.each_true ok_bomReference, ok_asserterChoice, ok_bomReference, ok_string, and_true, true_and, implies_true]

instance : JNN J.patentAssertion := ⟨fun _ _ => rfl⟩

theorem plainComponentList_iff (xs : List Component) :
    PlainComponentList xs ↔ ∀ c ∈ xs, c.Plain := by
  induction xs with
  | nil => simp [PlainComponentList]
  | cons x xs ih => simp [PlainComponentList, ih]

theorem plainComponents_iff (p : PSlice Component) : PlainComponents p ↔ p.Each Component.Plain := by
  cases p <;> simp [PlainComponents, PSlice.Each, PSlice.elems, plainComponentList_iff]

theorem ok_componentWith (C : JCodec Component) (x : Component)
    (h1 : x.components.Each (J.Ok C) ↔ PlainComponents x.components)
    (h2 : ∀ p ∈ x.pedigree, (J.Ok (J.pedigree C) p ↔ PlainPedigree p)) :
    J.Ok (J.componentWith C) x ↔ x.Plain := by
  have h3 : (∀ p ∈ x.pedigree, J.Ok (J.pedigree C) p) ↔ PlainPedigreeOpt x.pedigree := by
    cases hp : x.pedigree with
    | none => simp [PlainPedigreeOpt]
    | some p => simpa [PlainPedigreeOpt] using h2 p hp
  rw [J.componentWith, ok_struct (J.componentFields C) _ _ (fun c => by cases c; rfl) (fun _ => rfl)]
  simp only [J.componentFields, okF_field, okF_skip, okF_nil, Component.toP, ok_option, ok_pslice, h1, h3,
    PSlice.each_true ok_string, PSlice.each_true ok_bomReference, ok_bool, ok_componentData, ok_cryptoProperties, ok_evidence, ok_externalReference, ok_hash, ok_jsfSignature, ok_licenseChoice, ok_mlModelCard, ok_organizationalContact, ok_organizationalEntity, ok_patentAssertion, ok_property, ok_releaseNotes, ok_string, ok_swid, and_true, true_and, implies_true]
  cases x; simp only [Component.Plain, PSlice.each_congr ok_componentData, PSlice.each_congr ok_externalReference, PSlice.each_congr ok_hash, PSlice.each_congr ok_licenseChoice, PSlice.each_congr ok_organizationalContact, PSlice.each_congr ok_patentAssertion, PSlice.each_congr ok_property]

instance : JNN J.component := ⟨fun _ _ => rfl⟩

theorem ok_component (x : Component) : J.Ok J.component x ↔ x.Plain := by
  suffices H : ∀ n (x : Component), x.height ≤ n → (J.Ok J.component x ↔ x.Plain) from
    H x.height x (Nat.le_refl _)
  intro n
  induction n with
  | zero => intro x h; rw [Component.height_eq] at h; omega
  | succ n ih =>
    intro x h
    rw [(component_sameAt_self x).ok]
    rw [Component.height_eq] at h
    have hm : max (heightComponents x.components) (heightPedigreeOpt x.pedigree) ≤ n := by omega
    rw [Nat.max_le] at hm
    have hl : ∀ p : PSlice Component, heightComponents p ≤ n →
        (p.Each (J.Ok J.component) ↔ PlainComponents p) := by
      intro p hp
      rw [heightComponents_le] at hp
      rw [plainComponents_iff]
      exact and_congr_right fun _ => forall₂_congr fun c hc => ih c (hp c hc)
    refine ok_componentWith _ x (hl _ hm.1) ?_
    intro p hp
    have hp : x.pedigree = some p := hp
    have hm := hm.2
    simp only [hp, heightPedigreeOpt, heightPedigree_eq, Nat.max_le] at hm
    exact ok_pedigreeWith _ p (hl _ hm.1) (hl _ hm.2.1) (hl _ hm.2.2)

theorem ok_dataClassification (x : DataClassification) : J.Ok J.dataClassification x ↔ x.Plain := by
  rw [J.dataClassification, ok_struct J.dataClassificationFields _ _ (fun _ => rfl) (fun _ => rfl)]
  simp only [J.dataClassificationFields, okF_field, okF_skip, okF_nil, DataClassification.toP, DataClassification.Plain, ok_option, ok_pslice, PSlice.each_true ok_string, PSlice.each_true ok_bomReference, ok_dataGovernance, ok_string, and_true, true_and, implies_true]

instance : JNN J.dataClassification := ⟨fun _ _ => rfl⟩

theorem plainServiceList_iff (xs : List Service) :
    PlainServiceList xs ↔ ∀ c ∈ xs, c.Plain := by
  induction xs with
  | nil => simp [PlainServiceList]
  | cons x xs ih => simp [PlainServiceList, ih]

theorem plainServices_iff (p : PSlice Service) : PlainServices p ↔ p.Each Service.Plain := by
  cases p <;> simp [PlainServices, PSlice.Each, PSlice.elems, plainServiceList_iff]

theorem ok_serviceWith (C : JCodec Service) (x : Service)
    (h1 : x.services.Each (J.Ok C) ↔ PlainServices x.services) :
    J.Ok (J.serviceWith C) x ↔ x.Plain := by
  rw [J.serviceWith, ok_struct (J.serviceFields C) _ _ (fun c => by cases c; rfl) (fun _ => rfl)]
  simp only [J.serviceFields, okF_field, okF_skip, okF_nil, Service.toP, ok_option, ok_pslice, h1,
    PSlice.each_true ok_string, PSlice.each_true ok_bomReference, ok_bool, ok_dataClassification, ok_externalReference, ok_jsfSignature, ok_licenseChoice, ok_organizationalEntity, ok_patentAssertion, ok_property, ok_releaseNotes, ok_string, and_true, true_and, implies_true]
  cases x; simp only [Service.Plain, PSlice.each_congr ok_dataClassification, PSlice.each_congr ok_externalReference, PSlice.each_congr ok_licenseChoice, PSlice.each_congr ok_patentAssertion, PSlice.each_congr ok_property]

instance : JNN J.service := ⟨fun _ _ => rfl⟩

theorem ok_service (x : Service) : J.Ok J.service x ↔ x.Plain := by
  suffices H : ∀ n (x : Service), x.height ≤ n → (J.Ok J.service x ↔ x.Plain) from
    H x.height x (Nat.le_refl _)
  intro n
  induction n with
  | zero => intro x h; rw [Service.height_eq] at h; omega
  | succ n ih =>
    intro x h
    rw [(service_sameAt_self x).ok]
    rw [Service.height_eq] at h
    have hm : heightServices x.services ≤ n := by omega
    refine ok_serviceWith _ x ?_
    rw [heightServices_le] at hm
    rw [plainServices_iff]
    exact and_congr_right fun _ => forall₂_congr fun c hc => ih c (hm c hc)

theorem ok_annotator (x : Annotator) : J.Ok J.annotator x ↔ x.Plain := by
  rw [J.annotator, ok_struct J.annotatorFields _ _ (fun _ => rfl) (fun _ => rfl)]
  simp only [J.annotatorFields, okF_field, okF_skip, okF_nil, Annotator.toP, Annotator.Plain, ok_option, ok_pslice, PSlice.each_true ok_string, PSlice.each_true ok_bomReference, ok_component, ok_organizationalContact, ok_organizationalEntity, ok_service, and_true, true_and, implies_true]

instance : JNN J.annotator := ⟨fun _ _ => rfl⟩

theorem ok_annotation (x : Annotation) : J.Ok J.annotation x ↔ x.Plain := by
  rw [J.annotation, ok_struct J.annotationFields _ _ (fun _ => rfl) (fun _ => rfl)]
  simp only [J.annotationFields, okF_field, okF_skip, okF_nil, Annotation.toP, Annotation.Plain, ok_option, ok_pslice, PSlice.each_true ok_string, PSlice.each_true ok_bomReference, ok_annotator, ok_bomReference, ok_jsfSignature, ok_string, and_true, true_and, implies_true]

instance : JNN J.annotation := ⟨fun _ _ => rfl⟩

theorem ok_assessor (x : Assessor) : J.Ok J.assessor x ↔ x.Plain := by
  rw [J.assessor, ok_struct J.assessorFields _ _ (fun _ => rfl) (fun _ => rfl)]
  simp only [J.assessorFields, okF_field, okF_skip, okF_nil, Assessor.toP, Assessor.Plain, ok_option, ok_pslice, PSlice.each_true ok_string, PSlice.each_true ok_bomReference, ok_bomReference, ok_bool, ok_organizationalEntity, and_true, true_and, implies_true]

instance : JNN J.assessor := ⟨fun _ _ => rfl⟩

theorem ok_attestationConformance (x : AttestationConformance) : J.Ok J.attestationConformance x ↔ x.Plain := by
  rw [J.attestationConformance, ok_struct J.attestationConformanceFields _ _ (fun _ => rfl) (fun _ => rfl)]
  simp only [J.attestationConformanceFields, okF_field, okF_skip, okF_nil, AttestationConformance.toP, AttestationConformance.Plain, ok_option, ok_pslice, PSlice.each_true ok_string, PSlice.each_true ok_bomReference, ok_bomReference, ok_f64, ok_string, and_true, true_and, implies_true]

instance : JNN J.attestationConformance := ⟨fun _ _ => rfl⟩

theorem ok_attestationConfidence (x : AttestationConfidence) : J.Ok J.attestationConfidence x ↔ x.Plain := by
  rw [J.attestationConfidence, ok_struct J.attestationConfidenceFields _ _ (fun _ => rfl) (fun _ => rfl)]
  simp only [J.attestationConfidenceFields, okF_field, okF_skip, okF_nil, AttestationConfidence.toP, AttestationConfidence.Plain, ok_option, ok_pslice, PSlice.each_true ok_string, PSlice.each_true ok_bomReference, ok_f64, ok_string, and_true, true_and, implies_true]

instance : JNN J.attestationConfidence := ⟨fun _ _ => rfl⟩

theorem ok_attestationMap (x : AttestationMap) : J.Ok J.attestationMap x ↔ x.Plain := by
  rw [J.attestationMap, ok_struct J.attestationMapFields _ _ (fun _ => rfl) (fun _ => rfl)]
  simp only [J.attestationMapFields, okF_field, okF_skip, okF_nil, AttestationMap.toP, AttestationMap.Plain, ok_option, ok_pslice, PSlice.each_true ok_string, PSlice.each_true ok_bomReference, ok_attestationConfidence, ok_attestationConformance, ok_bomReference, ok_string, and_true, true_and, implies_true]

instance : JNN J.attestationMap := ⟨fun _ _ => rfl⟩

theorem ok_attestation (x : Attestation) : J.Ok J.attestation x ↔ x.Plain := by
  rw [J.attestation, ok_struct J.attestationFields _ _ (fun _ => rfl) (fun _ => rfl)]
  simp only [J.attestationFields, okF_field, okF_skip, okF_nil, Attestation.toP, Attestation.Plain, ok_option, ok_pslice, PSlice.each_true ok_string, PSlice.each_true ok_bomReference, PSlice.each_congr ok_attestationMap, ok_attestationMap, ok_bomReference, ok_jsfSignature, ok_string, and_true, true_and, implies_true]

instance : JNN J.attestation := ⟨fun _ _ => rfl⟩

theorem ok_composition (x : Composition) : J.Ok J.composition x ↔ x.Plain := by
  rw [J.composition, ok_struct J.compositionFields _ _ (fun _ => rfl) (fun _ => rfl)]
  simp only [J.compositionFields, okF_field, okF_skip, okF_nil, Composition.toP, Composition.Plain, ok_option, ok_pslice, PSlice.each_true ok_string, PSlice.each_true ok_bomReference, ok_bomReference, ok_jsfSignature, ok_string, and_true, true_and, implies_true]

instance : JNN J.composition := ⟨fun _ _ => rfl⟩

theorem ok_claim (x : Claim) : J.Ok J.claim x ↔ x.Plain := by
  rw [J.claim, ok_struct J.claimFields _ _ (fun _ => rfl) (fun _ => rfl)]
  simp only [J.claimFields, okF_field, okF_skip, okF_nil, Claim.toP, Claim.Plain, ok_option, ok_pslice, PSlice.each_true ok_string, PSlice.each_true ok_bomReference, PSlice.each_congr ok_externalReference, ok_bomReference, ok_externalReference, ok_jsfSignature, ok_string, and_true, true_and, implies_true]

instance : JNN J.claim := ⟨fun _ _ => rfl⟩

theorem ok_evidenceDataContents (x : EvidenceDataContents) : J.Ok J.evidenceDataContents x ↔ x.Plain := by
  rw [J.evidenceDataContents, ok_struct J.evidenceDataContentsFields _ _ (fun _ => rfl) (fun _ => rfl)]
  simp only [J.evidenceDataContentsFields, okF_field, okF_skip, okF_nil, EvidenceDataContents.toP, EvidenceDataContents.Plain, ok_option, ok_pslice, PSlice.each_true ok_string, PSlice.each_true ok_bomReference, ok_attachedText, ok_string, and_true, true_and, implies_true]

instance : JNN J.evidenceDataContents := ⟨fun _ _ => rfl⟩

theorem ok_evidenceData (x : EvidenceData) : J.Ok J.evidenceData x ↔ x.Plain := by
  rw [J.evidenceData, ok_struct J.evidenceDataFields _ _ (fun _ => rfl) (fun _ => rfl)]
  simp only [J.evidenceDataFields, okF_field, okF_skip, okF_nil, EvidenceData.toP, EvidenceData.Plain, ok_option, ok_pslice, PSlice.each_true ok_string, PSlice.each_true ok_bomReference, ok_dataClassification, ok_dataGovernance, ok_evidenceDataContents, ok_string, and_true, true_and, implies_true]

instance : JNN J.evidenceData := ⟨fun _ _ => rfl⟩

theorem ok_declarationEvidence (x : DeclarationEvidence) : J.Ok J.declarationEvidence x ↔ x.Plain := by
  rw [J.declarationEvidence, ok_struct J.declarationEvidenceFields _ _ (fun _ => rfl) (fun _ => rfl)]
  simp only [J.declarationEvidenceFields, okF_field, okF_skip, okF_nil, DeclarationEvidence.toP, DeclarationEvidence.Plain, ok_option, ok_pslice, PSlice.each_true ok_string, PSlice.each_true ok_bomReference, PSlice.each_congr ok_evidenceData, ok_evidenceData, ok_jsfSignature, ok_organizationalContact, ok_string, and_true, true_and, implies_true]

instance : JNN J.declarationEvidence := ⟨fun _ _ => rfl⟩

theorem ok_targets (x : Targets) : J.Ok J.targets x ↔ x.Plain := by
  rw [J.targets, ok_struct J.targetsFields _ _ (fun _ => rfl) (fun _ => rfl)]
  simp only [J.targetsFields, okF_field, okF_skip, okF_nil, Targets.toP, Targets.Plain, ok_option, ok_pslice, PSlice.each_true ok_string, PSlice.each_true ok_bomReference, PSlice.each_congr ok_component, PSlice.each_congr ok_organizationalEntity, PSlice.each_congr ok_service, ok_component, ok_organizationalEntity, ok_service, and_true, true_and, implies_true]

instance : JNN J.targets := ⟨fun _ _ => rfl⟩

theorem ok_signatory (x : Signatory) : J.Ok J.signatory x ↔ x.Plain := by
  rw [J.signatory, ok_struct J.signatoryFields _ _ (fun _ => rfl) (fun _ => rfl)]
  simp only [J.signatoryFields, okF_field, okF_skip, okF_nil, Signatory.toP, Signatory.Plain, ok_option, ok_pslice, PSlice.each_true ok_string, PSlice.each_true ok_bomReference, ok_externalReference, ok_jsfSignature, ok_organizationalEntity, ok_string, and_true, true_and, implies_true]

instance : JNN J.signatory := ⟨fun _ _ => rfl⟩

theorem ok_affirmation (x : Affirmation) : J.Ok J.affirmation x ↔ x.Plain := by
  rw [J.affirmation, ok_struct J.affirmationFields _ _ (fun _ => rfl) (fun _ => rfl)]
  simp only [J.affirmationFields, okF_field, okF_skip, okF_nil, Affirmation.toP, Affirmation.Plain, ok_option, ok_pslice, PSlice.each_true ok_string, PSlice.each_true ok_bomReference, PSlice.each_congr ok_signatory, ok_jsfSignature, ok_signatory, ok_string, and_true, true_and, implies_true]

instance : JNN J.affirmation := ⟨fun _ _ => rfl⟩

theorem ok_declarations (x : Declarations) : J.Ok J.declarations x ↔ x.Plain := by
  rw [J.declarations, ok_struct J.declarationsFields _ _ (fun _ => rfl) (fun _ => rfl)]
  simp only [J.declarationsFields, okF_field, okF_skip, okF_nil, Declarations.toP, Declarations.Plain, ok_option, ok_pslice, PSlice.each_true ok_string, PSlice.each_true ok_bomReference, PSlice.each_congr ok_assessor, PSlice.each_congr ok_attestation, PSlice.each_congr ok_claim, PSlice.each_congr ok_declarationEvidence, ok_affirmation, ok_assessor, ok_attestation, ok_claim, ok_declarationEvidence, ok_jsfSignature, ok_targets, and_true, true_and, implies_true]

instance : JNN J.declarations := ⟨fun _ _ => rfl⟩

theorem ok_priorityApplication (x : PriorityApplication) : J.Ok J.priorityApplication x ↔ x.Plain := by
  rw [J.priorityApplication, ok_struct J.priorityApplicationFields _ _ (fun _ => rfl) (fun _ => rfl)]
  simp only [J.priorityApplicationFields, okF_field, okF_skip, okF_nil, PriorityApplication.toP, PriorityApplication.Plain, ok_option, ok_pslice, PSlice.each_true ok_string, PSlice.each_true ok_bomReference, ok_string, and_true, true_and, implies_true]

instance : JNN J.priorityApplication := ⟨fun _ _ => rfl⟩

theorem ok_patent (x : Patent) : J.Ok J.patent x ↔ x.Plain := by
  rw [J.patent, ok_struct J.patentFields _ _ (fun _ => rfl) (fun _ => rfl)]
  simp only [J.patentFields, okF_field, okF_skip, okF_nil, Patent.toP, Patent.Plain, ok_option, ok_pslice, PSlice.each_true ok_string, PSlice.each_true ok_bomReference, PSlice.each_congr ok_externalReference, PSlice.each_congr ok_organizationalEntityOrContact, ok_externalReference, ok_organizationalEntityOrContact, ok_priorityApplication, ok_string, and_true, true_and, implies_true]

instance : JNN J.patent := ⟨fun _ _ => rfl⟩

theorem ok_patentFamily (x : PatentFamily) : J.Ok J.patentFamily x ↔ x.Plain := by
  rw [J.patentFamily, ok_struct J.patentFamilyFields _ _ (fun _ => rfl) (fun _ => rfl)]
  simp only [J.patentFamilyFields, okF_field, okF_skip, okF_nil, PatentFamily.toP, PatentFamily.Plain, ok_option, ok_pslice, PSlice.each_true ok_string, PSlice.each_true ok_bomReference, PSlice.each_congr ok_externalReference, ok_bomReference, ok_externalReference, ok_priorityApplication, ok_string, and_true, true_and, implies_true]

instance : JNN J.patentFamily := ⟨fun _ _ => rfl⟩

theorem ok_patentChoice (x : PatentChoice) : J.Ok J.patentChoice x ↔ x.Plain := by
  obtain ⟨p, q⟩ := x
  cases p with
  | some p =>
    have h := ok_patent p
    simp only [J.Ok] at h
    cases q <;> simp [J.Ok, J.patentChoice, PatentChoice.Plain, ← h]
  | none =>
    cases q with
    | some q =>
      have h := ok_patentFamily q
      simp only [J.Ok] at h
      simp [J.Ok, J.patentChoice, PatentChoice.Plain, ← h]
      grind
    | none => simp [J.Ok, J.patentChoice, PatentChoice.Plain]

instance : JNN J.patentChoice := ⟨fun _ _ => rfl⟩

theorem ok_standardRequirement (x : StandardRequirement) : J.Ok J.standardRequirement x ↔ x.Plain := by
  rw [J.standardRequirement, ok_struct J.standardRequirementFields _ _ (fun _ => rfl) (fun _ => rfl)]
  simp only [J.standardRequirementFields, okF_field, okF_skip, okF_nil, StandardRequirement.toP, StandardRequirement.Plain, ok_option, ok_pslice, PSlice.each_true ok_string, PSlice.each_true ok_bomReference, PSlice.each_congr ok_externalReference, PSlice.each_congr ok_property, ok_externalReference, ok_property, ok_string, and_true, true_and, implies_true]

instance : JNN J.standardRequirement := ⟨fun _ _ => rfl⟩

theorem ok_standardLevel (x : StandardLevel) : J.Ok J.standardLevel x ↔ x.Plain := by
  rw [J.standardLevel, ok_struct J.standardLevelFields _ _ (fun _ => rfl) (fun _ => rfl)]
  simp only [J.standardLevelFields, okF_field, okF_skip, okF_nil, StandardLevel.toP, StandardLevel.Plain, ok_option, ok_pslice, PSlice.each_true ok_string, PSlice.each_true ok_bomReference, ok_string, and_true, true_and, implies_true]

instance : JNN J.standardLevel := ⟨fun _ _ => rfl⟩

theorem ok_standardDefinition (x : StandardDefinition) : J.Ok J.standardDefinition x ↔ x.Plain := by
  rw [J.standardDefinition, ok_struct J.standardDefinitionFields _ _ (fun _ => rfl) (fun _ => rfl)]
  simp only [J.standardDefinitionFields, okF_field, okF_skip, okF_nil, StandardDefinition.toP, StandardDefinition.Plain, ok_option, ok_pslice, PSlice.each_true ok_string, PSlice.each_true ok_bomReference, PSlice.each_congr ok_externalReference, PSlice.each_congr ok_standardLevel, PSlice.each_congr ok_standardRequirement, ok_externalReference, ok_jsfSignature, ok_standardLevel, ok_standardRequirement, ok_string, and_true, true_and, implies_true]

instance : JNN J.standardDefinition := ⟨fun _ _ => rfl⟩

theorem ok_definitions (x : Definitions) : J.Ok J.definitions x ↔ x.Plain := by
  rw [J.definitions, ok_struct J.definitionsFields _ _ (fun _ => rfl) (fun _ => rfl)]
  simp only [J.definitionsFields, okF_field, okF_skip, okF_nil, Definitions.toP, Definitions.Plain, ok_option, ok_pslice, PSlice.each_true ok_string, PSlice.each_true ok_bomReference, PSlice.each_congr ok_patentChoice, PSlice.each_congr ok_standardDefinition, ok_patentChoice, ok_standardDefinition, and_true, true_and, implies_true]

instance : JNN J.definitions := ⟨fun _ _ => rfl⟩

theorem ok_dependency (x : Dependency) : J.Ok J.dependency x ↔ x.Plain := by
  rw [J.dependency, ok_struct J.dependencyFields _ _ (fun _ => rfl) (fun _ => rfl)]
  simp only [J.dependencyFields, okF_field, okF_skip, okF_nil, Dependency.toP, Dependency.Plain, ok_option, ok_pslice, PSlice.each_true ok_string, PSlice.each_true ok_bomReference, ok_string, and_true, true_and, implies_true]

instance : JNN J.dependency := ⟨fun _ _ => rfl⟩

theorem ok_resourceReferenceChoice (x : ResourceReferenceChoice) : J.Ok J.resourceReferenceChoice x ↔ x.Plain := by
  rw [J.resourceReferenceChoice, ok_struct J.resourceReferenceChoiceFields _ _ (fun _ => rfl) (fun _ => rfl)]
  simp only [J.resourceReferenceChoiceFields, okF_field, okF_skip, okF_nil, ResourceReferenceChoice.toP, ResourceReferenceChoice.Plain, ok_option, ok_pslice, PSlice.each_true ok_string, PSlice.each_true ok_bomReference, ok_externalReference, ok_string, and_true, true_and, implies_true]

instance : JNN J.resourceReferenceChoice := ⟨fun _ _ => rfl⟩

theorem ok_environmentVariableChoice (x : EnvironmentVariableChoice) :
    J.Ok J.environmentVariableChoice x ↔ x.Plain := by
  obtain ⟨p, v⟩ := x
  cases p with
  | none => simp [J.Ok, J.environmentVariableChoice, EnvironmentVariableChoice.Plain]
  | some p =>
    have hv : "" = v ↔ v = "" := eq_comm
    by_cases hz : p.name = "" ∧ p.value = ""
    · simp [J.Ok, J.environmentVariableChoice, EnvironmentVariableChoice.Plain, Property.isZero, hz]
    · have hz' : p.isZero = false := by simpa [Property.isZero] using hz
      simp only [J.Ok, J.environmentVariableChoice, EnvironmentVariableChoice.Plain, hz']
      simp [hz, hv]
      exact fun _ h1 h2 => hz ⟨h1, h2⟩

instance : JNN J.environmentVariableChoice := ⟨fun _ _ => rfl⟩

theorem ok_parameter (x : Parameter) : J.Ok J.parameter x ↔ x.Plain := by
  rw [J.parameter, ok_struct J.parameterFields _ _ (fun _ => rfl) (fun _ => rfl)]
  simp only [J.parameterFields, okF_field, okF_skip, okF_nil, Parameter.toP, Parameter.Plain, ok_option, ok_pslice, PSlice.each_true ok_string, PSlice.each_true ok_bomReference, ok_string, and_true, true_and, implies_true]

instance : JNN J.parameter := ⟨fun _ _ => rfl⟩

theorem ok_taskInput (x : TaskInput) : J.Ok J.taskInput x ↔ x.Plain := by
  rw [J.taskInput, ok_struct J.taskInputFields _ _ (fun _ => rfl) (fun _ => rfl)]
  simp only [J.taskInputFields, okF_field, okF_skip, okF_nil, TaskInput.toP, TaskInput.Plain, ok_option, ok_pslice, PSlice.each_true ok_string, PSlice.each_true ok_bomReference, PSlice.each_congr ok_environmentVariableChoice, PSlice.each_congr ok_parameter, PSlice.each_congr ok_property, ok_attachedText, ok_environmentVariableChoice, ok_parameter, ok_property, ok_resourceReferenceChoice, and_true, true_and, implies_true]

instance : JNN J.taskInput := ⟨fun _ _ => rfl⟩

theorem ok_taskOutput (x : TaskOutput) : J.Ok J.taskOutput x ↔ x.Plain := by
  rw [J.taskOutput, ok_struct J.taskOutputFields _ _ (fun _ => rfl) (fun _ => rfl)]
  simp only [J.taskOutputFields, okF_field, okF_skip, okF_nil, TaskOutput.toP, TaskOutput.Plain, ok_option, ok_pslice, PSlice.each_true ok_string, PSlice.each_true ok_bomReference, PSlice.each_congr ok_environmentVariableChoice, PSlice.each_congr ok_parameter, PSlice.each_congr ok_property, ok_attachedText, ok_environmentVariableChoice, ok_parameter, ok_property, ok_resourceReferenceChoice, ok_string, and_true, true_and, implies_true]

instance : JNN J.taskOutput := ⟨fun _ _ => rfl⟩

theorem ok_taskCommand (x : TaskCommand) : J.Ok J.taskCommand x ↔ x.Plain := by
  rw [J.taskCommand, ok_struct J.taskCommandFields _ _ (fun _ => rfl) (fun _ => rfl)]
  simp only [J.taskCommandFields, okF_field, okF_skip, okF_nil, TaskCommand.toP, TaskCommand.Plain, ok_option, ok_pslice, PSlice.each_true ok_string, PSlice.each_true ok_bomReference, PSlice.each_congr ok_property, ok_property, ok_string, and_true, true_and, implies_true]

instance : JNN J.taskCommand := ⟨fun _ _ => rfl⟩

theorem ok_taskStep (x : TaskStep) : J.Ok J.taskStep x ↔ x.Plain := by
  rw [J.taskStep, ok_struct J.taskStepFields _ _ (fun _ => rfl) (fun _ => rfl)]
  simp only [J.taskStepFields, okF_field, okF_skip, okF_nil, TaskStep.toP, TaskStep.Plain, ok_option, ok_pslice, PSlice.each_true ok_string, PSlice.each_true ok_bomReference, PSlice.each_congr ok_property, PSlice.each_congr ok_taskCommand, ok_property, ok_string, ok_taskCommand, and_true, true_and, implies_true]

instance : JNN J.taskStep := ⟨fun _ _ => rfl⟩

theorem ok_event (x : Event) : J.Ok J.event x ↔ x.Plain := by
  rw [J.event, ok_struct J.eventFields _ _ (fun _ => rfl) (fun _ => rfl)]
  simp only [J.eventFields, okF_field, okF_skip, okF_nil, Event.toP, Event.Plain, ok_option, ok_pslice, PSlice.each_true ok_string, PSlice.each_true ok_bomReference, PSlice.each_congr ok_property, ok_attachedText, ok_property, ok_resourceReferenceChoice, ok_string, and_true, true_and, implies_true]

instance : JNN J.event := ⟨fun _ _ => rfl⟩

theorem ok_taskTriggerCondition (x : TaskTriggerCondition) : J.Ok J.taskTriggerCondition x ↔ x.Plain := by
  rw [J.taskTriggerCondition, ok_struct J.taskTriggerConditionFields _ _ (fun _ => rfl) (fun _ => rfl)]
  simp only [J.taskTriggerConditionFields, okF_field, okF_skip, okF_nil, TaskTriggerCondition.toP, TaskTriggerCondition.Plain, ok_option, ok_pslice, PSlice.each_true ok_string, PSlice.each_true ok_bomReference, PSlice.each_congr ok_property, ok_property, ok_string, and_true, true_and, implies_true]

instance : JNN J.taskTriggerCondition := ⟨fun _ _ => rfl⟩

theorem ok_taskTrigger (x : TaskTrigger) : J.Ok J.taskTrigger x ↔ x.Plain := by
  rw [J.taskTrigger, ok_struct J.taskTriggerFields _ _ (fun _ => rfl) (fun _ => rfl)]
  simp only [J.taskTriggerFields, okF_field, okF_skip, okF_nil, TaskTrigger.toP, TaskTrigger.Plain, ok_option, ok_pslice, PSlice.each_true ok_string, PSlice.each_true ok_bomReference, PSlice.each_congr ok_property, PSlice.each_congr ok_resourceReferenceChoice, PSlice.each_congr ok_taskInput, PSlice.each_congr ok_taskOutput, PSlice.each_congr ok_taskTriggerCondition, ok_event, ok_property, ok_resourceReferenceChoice, ok_string, ok_taskInput, ok_taskOutput, ok_taskTriggerCondition, and_true, true_and, implies_true]

instance : JNN J.taskTrigger := ⟨fun _ _ => rfl⟩

theorem ok_volume (x : Volume) : J.Ok J.volume x ↔ x.Plain := by
  rw [J.volume, ok_struct J.volumeFields _ _ (fun _ => rfl) (fun _ => rfl)]
  simp only [J.volumeFields, okF_field, okF_skip, okF_nil, Volume.toP, Volume.Plain, ok_option, ok_pslice, PSlice.each_true ok_string, PSlice.each_true ok_bomReference, PSlice.each_congr ok_property, ok_bool, ok_property, ok_string, and_true, true_and, implies_true]

instance : JNN J.volume := ⟨fun _ _ => rfl⟩

theorem ok_taskWorkspace (x : TaskWorkspace) : J.Ok J.taskWorkspace x ↔ x.Plain := by
  rw [J.taskWorkspace, ok_struct J.taskWorkspaceFields _ _ (fun _ => rfl) (fun _ => rfl)]
  simp only [J.taskWorkspaceFields, okF_field, okF_skip, okF_nil, TaskWorkspace.toP, TaskWorkspace.Plain, ok_option, ok_pslice, PSlice.each_true ok_string, PSlice.each_true ok_bomReference, PSlice.each_congr ok_property, PSlice.each_congr ok_resourceReferenceChoice, ok_property, ok_resourceReferenceChoice, ok_string, ok_volume, and_true, true_and, implies_true]

instance : JNN J.taskWorkspace := ⟨fun _ _ => rfl⟩

theorem ok_task (x : Task) : J.Ok J.task x ↔ x.Plain := by
  rw [J.task, ok_struct J.taskFields _ _ (fun _ => rfl) (fun _ => rfl)]
  simp only [J.taskFields, okF_field, okF_skip, okF_nil, Task.toP, Task.Plain, ok_option, ok_pslice, PSlice.each_true ok_string, PSlice.each_true ok_bomReference, PSlice.each_congr ok_dependency, PSlice.each_congr ok_property, PSlice.each_congr ok_resourceReferenceChoice, PSlice.each_congr ok_taskInput, PSlice.each_congr ok_taskOutput, PSlice.each_congr ok_taskStep, PSlice.each_congr ok_taskWorkspace, ok_dependency, ok_property, ok_resourceReferenceChoice, ok_string, ok_taskInput, ok_taskOutput, ok_taskStep, ok_taskTrigger, ok_taskWorkspace, and_true, true_and, implies_true]

instance : JNN J.task := ⟨fun _ _ => rfl⟩

theorem ok_workflow (x : Workflow) : J.Ok J.workflow x ↔ x.Plain := by
  rw [J.workflow, ok_struct J.workflowFields _ _ (fun _ => rfl) (fun _ => rfl)]
  simp only [J.workflowFields, okF_field, okF_skip, okF_nil, Workflow.toP, Workflow.Plain, ok_option, ok_pslice, PSlice.each_true ok_string, PSlice.each_true ok_bomReference, PSlice.each_congr ok_dependency, PSlice.each_congr ok_property, PSlice.each_congr ok_resourceReferenceChoice, PSlice.each_congr ok_task, PSlice.each_congr ok_taskInput, PSlice.each_congr ok_taskOutput, PSlice.each_congr ok_taskStep, PSlice.each_congr ok_taskWorkspace, ok_dependency, ok_property, ok_resourceReferenceChoice, ok_string, ok_task, ok_taskInput, ok_taskOutput, ok_taskStep, ok_taskTrigger, ok_taskWorkspace, and_true, true_and, implies_true]

instance : JNN J.workflow := ⟨fun _ _ => rfl⟩

theorem ok_formula (x : Formula) : J.Ok J.formula x ↔ x.Plain := by
  rw [J.formula, ok_struct J.formulaFields _ _ (fun _ => rfl) (fun _ => rfl)]
  simp only [J.formulaFields, okF_field, okF_skip, okF_nil, Formula.toP, Formula.Plain, ok_option, ok_pslice, PSlice.each_true ok_string, PSlice.each_true ok_bomReference, PSlice.each_congr ok_component, PSlice.each_congr ok_property, PSlice.each_congr ok_service, PSlice.each_congr ok_workflow, ok_component, ok_property, ok_service, ok_string, ok_workflow, and_true, true_and, implies_true]

instance : JNN J.formula := ⟨fun _ _ => rfl⟩

theorem ok_lifecycle (x : Lifecycle) : J.Ok J.lifecycle x ↔ x.Plain := by
  rw [J.lifecycle, ok_struct J.lifecycleFields _ _ (fun _ => rfl) (fun _ => rfl)]
  simp only [J.lifecycleFields, okF_field, okF_skip, okF_nil, Lifecycle.toP, Lifecycle.Plain, ok_option, ok_pslice, PSlice.each_true ok_string, PSlice.each_true ok_bomReference, ok_string, and_true, true_and, implies_true]

instance : JNN J.lifecycle := ⟨fun _ _ => rfl⟩

theorem ok_tool (x : Tool) : J.Ok J.tool x ↔ x.Plain := by
  rw [J.tool, ok_struct J.toolFields _ _ (fun _ => rfl) (fun _ => rfl)]
  simp only [J.toolFields, okF_field, okF_skip, okF_nil, Tool.toP, Tool.Plain, ok_option, ok_pslice, PSlice.each_true ok_string, PSlice.each_true ok_bomReference, PSlice.each_congr ok_externalReference, PSlice.each_congr ok_hash, ok_externalReference, ok_hash, ok_string, and_true, true_and, implies_true]

instance : JNN J.tool := ⟨fun _ _ => rfl⟩

theorem ok_toolsChoice (x : ToolsChoice) : J.Ok J.toolsChoice x ↔ x.Plain := by
  have ht := (ok_pslice J.tool x.tools).trans (PSlice.each_congr ok_tool _)
  have hc := (ok_pslice J.component x.components).trans (PSlice.each_congr ok_component _)
  have hs := (ok_pslice J.service x.services).trans (PSlice.each_congr ok_service _)
  rw [ToolsChoice.Plain, ← ht, ← hc, ← hs]
  obtain ⟨t, c, s⟩ := x
  simp only [J.Ok, J.toolsChoice]
  have hz : (JCodec.pslice J.component).norm .nil = .nil := rfl
  have hz' : (JCodec.pslice J.service).norm .nil = .nil := rfl
  have hz'' : (JCodec.pslice J.tool).norm .nil = .nil := rfl
  by_cases h : t = .nil
  · subst h
    simp [PSlice.isNil, hz'']
    grind
  · have h' : t.isNil = false := by cases t <;> simp_all [PSlice.isNil]
    simp [h, h']
    constructor
    · rintro ⟨⟨h1, rfl, rfl⟩, h2, h3, h4⟩
      exact ⟨⟨rfl, rfl⟩, ⟨h1, h2⟩, ⟨hz, h3⟩, ⟨hz', h4⟩⟩
    · rintro ⟨⟨rfl, rfl⟩, ⟨h1, h2⟩, ⟨_, h3⟩, ⟨_, h4⟩⟩
      exact ⟨⟨h1, rfl, rfl⟩, h2, h3, h4⟩

instance : JNN J.toolsChoice := ⟨by
  intro x h
  rw [ok_toolsChoice] at h
  have := h.2.1.1
  cases ht : x.tools <;> simp_all [J.toolsChoice, JCodec.pslice, PSlice.isNil]⟩

theorem ok_distributionConstraints (x : DistributionConstraints) : J.Ok J.distributionConstraints x ↔ x.Plain := by
  rw [J.distributionConstraints, ok_struct J.distributionConstraintsFields _ _ (fun _ => rfl) (fun _ => rfl)]
  simp only [J.distributionConstraintsFields, okF_field, okF_skip, okF_nil, DistributionConstraints.toP, DistributionConstraints.Plain, ok_option, ok_pslice, PSlice.each_true ok_string, PSlice.each_true ok_bomReference, ok_string, and_true, true_and, implies_true]

instance : JNN J.distributionConstraints := ⟨fun _ _ => rfl⟩

theorem ok_metadata (x : Metadata) : J.Ok J.metadata x ↔ x.Plain := by
  rw [J.metadata, ok_struct J.metadataFields _ _ (fun _ => rfl) (fun _ => rfl)]
  simp only [J.metadataFields, okF_field, okF_skip, okF_nil, Metadata.toP, Metadata.Plain, ok_option, ok_pslice, PSlice.each_true ok_string, PSlice.each_true ok_bomReference, PSlice.each_congr ok_licenseChoice, PSlice.each_congr ok_lifecycle, PSlice.each_congr ok_organizationalContact, PSlice.each_congr ok_property, ok_component, ok_distributionConstraints, ok_licenseChoice, ok_lifecycle, ok_organizationalContact, ok_organizationalEntity, ok_property, ok_string, ok_toolsChoice, and_true, true_and, implies_true]

instance : JNN J.metadata := ⟨fun _ _ => rfl⟩

theorem ok_credits (x : Credits) : J.Ok J.credits x ↔ x.Plain := by
  rw [J.credits, ok_struct J.creditsFields _ _ (fun _ => rfl) (fun _ => rfl)]
  simp only [J.creditsFields, okF_field, okF_skip, okF_nil, Credits.toP, Credits.Plain, ok_option, ok_pslice, PSlice.each_true ok_string, PSlice.each_true ok_bomReference, PSlice.each_congr ok_organizationalContact, PSlice.each_congr ok_organizationalEntity, ok_organizationalContact, ok_organizationalEntity, and_true, true_and, implies_true]

instance : JNN J.credits := ⟨fun _ _ => rfl⟩

theorem ok_proofOfConcept (x : ProofOfConcept) : J.Ok J.proofOfConcept x ↔ x.Plain := by
  rw [J.proofOfConcept, ok_struct J.proofOfConceptFields _ _ (fun _ => rfl) (fun _ => rfl)]
  simp only [J.proofOfConceptFields, okF_field, okF_skip, okF_nil, ProofOfConcept.toP, ProofOfConcept.Plain, ok_option, ok_pslice, PSlice.each_true ok_string, PSlice.each_true ok_bomReference, PSlice.each_congr ok_attachedText, ok_attachedText, ok_string, and_true, true_and, implies_true]

instance : JNN J.proofOfConcept := ⟨fun _ _ => rfl⟩

theorem ok_vulnerabilityAnalysis (x : VulnerabilityAnalysis) : J.Ok J.vulnerabilityAnalysis x ↔ x.Plain := by
  rw [J.vulnerabilityAnalysis, ok_struct J.vulnerabilityAnalysisFields _ _ (fun _ => rfl) (fun _ => rfl)]
  simp only [J.vulnerabilityAnalysisFields, okF_field, okF_skip, okF_nil, VulnerabilityAnalysis.toP, VulnerabilityAnalysis.Plain, ok_option, ok_pslice, PSlice.each_true ok_string, PSlice.each_true ok_bomReference, ok_string, and_true, true_and, implies_true]

instance : JNN J.vulnerabilityAnalysis := ⟨fun _ _ => rfl⟩

theorem ok_vulnerabilityRating (x : VulnerabilityRating) : J.Ok J.vulnerabilityRating x ↔ x.Plain := by
  rw [J.vulnerabilityRating, ok_struct J.vulnerabilityRatingFields _ _ (fun _ => rfl) (fun _ => rfl)]
  simp only [J.vulnerabilityRatingFields, okF_field, okF_skip, okF_nil, VulnerabilityRating.toP, VulnerabilityRating.Plain, ok_option, ok_pslice, PSlice.each_true ok_string, PSlice.each_true ok_bomReference, ok_f64, ok_source, ok_string, and_true, true_and, implies_true]

instance : JNN J.vulnerabilityRating := ⟨fun _ _ => rfl⟩

theorem ok_vulnerabilityReference (x : VulnerabilityReference) : J.Ok J.vulnerabilityReference x ↔ x.Plain := by
  rw [J.vulnerabilityReference, ok_struct J.vulnerabilityReferenceFields _ _ (fun _ => rfl) (fun _ => rfl)]
  simp only [J.vulnerabilityReferenceFields, okF_field, okF_skip, okF_nil, VulnerabilityReference.toP, VulnerabilityReference.Plain, ok_option, ok_pslice, PSlice.each_true ok_string, PSlice.each_true ok_bomReference, ok_source, ok_string, and_true, true_and, implies_true]

instance : JNN J.vulnerabilityReference := ⟨fun _ _ => rfl⟩

theorem ok_vulnerability (x : Vulnerability) : J.Ok J.vulnerability x ↔ x.Plain := by
  rw [J.vulnerability, ok_struct J.vulnerabilityFields _ _ (fun _ => rfl) (fun _ => rfl)]
  simp only [J.vulnerabilityFields, okF_field, okF_skip, okF_nil, Vulnerability.toP, Vulnerability.Plain, ok_option, ok_pslice, PSlice.each_true ok_string, PSlice.each_true ok_bomReference, PSlice.each_congr ok_advisory, PSlice.each_congr ok_affects, PSlice.each_congr ok_int, PSlice.each_congr ok_property, PSlice.each_congr ok_vulnerabilityRating, PSlice.each_congr ok_vulnerabilityReference, ok_advisory, ok_affects, ok_credits, ok_int, ok_proofOfConcept, ok_property, ok_source, ok_string, ok_toolsChoice, ok_vulnerabilityAnalysis, ok_vulnerabilityRating, ok_vulnerabilityReference, and_true, true_and, implies_true]

instance : JNN J.vulnerability := ⟨fun _ _ => rfl⟩

theorem ok_citation (x : Citation) : J.Ok J.citation x ↔ x.Plain := by
  rw [J.citation, ok_struct J.citationFields _ _ (fun _ => rfl) (fun _ => rfl)]
  simp only [J.citationFields, okF_field, okF_skip, okF_nil, Citation.toP, Citation.Plain, ok_option, ok_pslice, PSlice.each_true ok_string, PSlice.each_true ok_bomReference, ok_bomReference, ok_jsfSignature, ok_string, and_true, true_and, implies_true]

instance : JNN J.citation := ⟨fun _ _ => rfl⟩

theorem ok_bom (x : BOM) : J.Ok (J.bomWith J.specVersionStrict) x ↔ x.Plain := by
  rw [J.bomWith, ok_struct (J.bomFields J.specVersionStrict) _ _ (fun _ => rfl) (fun _ => rfl)]
  simp only [J.bomFields, okF_field, okF_skip, okF_nil, BOM.toP, BOM.Plain, ok_option, ok_pslice, PSlice.each_true ok_string, PSlice.each_true ok_bomReference, PSlice.each_congr ok_annotation, PSlice.each_congr ok_citation, PSlice.each_congr ok_component, PSlice.each_congr ok_composition, PSlice.each_congr ok_dependency, PSlice.each_congr ok_externalReference, PSlice.each_congr ok_formula, PSlice.each_congr ok_property, PSlice.each_congr ok_service, PSlice.each_congr ok_vulnerability, ok_annotation, ok_citation, ok_component, ok_composition, ok_declarations, ok_definitions, ok_dependency, ok_externalReference, ok_formula, ok_int, ok_jsfSignature, ok_metadata, ok_property, ok_service, ok_specVersion, ok_string, ok_vulnerability, and_true, true_and, implies_true]

instance : JNN (J.bomWith J.specVersionStrict) := ⟨fun _ _ => rfl⟩

end Verif
