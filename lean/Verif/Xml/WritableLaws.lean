import Verif.Spec.XmlWritable
import Verif.Spec.GoInts
import Verif.Xml.PlainLaws

/-!
# Which values can be written as XML, and which integers are read back

GENERATED by `tools/gen_xwritable.py`; do not edit by hand.
-/

namespace Verif

open Xml (sanitize textKids)

set_option linter.unusedSectionVars false
set_option linter.unusedSimpArgs false
set_option linter.unusedVariables false

variable [XFloatIO]

/-! ## What can be written -/

theorem xw_simple {α : Type} (c : XText α) (n : String) (a : α) : ((XCodec.simple c).enc n a).isSome = true ↔ True := by
  simp [XCodec.simple]

theorem xw_ref (n : String) (r : BOMReference) : (X.bomReference.enc n r).isSome = true ↔ True := by
  simp [X.bomReference, X.fresh, XCodec.struct, X.bomReferenceFields, XFields.encKids]

theorem xw_dependencyRef (n : String) (r : String) : (X.dependencyRef.enc n r).isSome = true ↔ True := by
  simp [X.dependencyRef, XCodec.struct, X.bomReferenceFields, XFields.encKids]

theorem xw_plain_simple {α : Type} (c : XText α) (n : String) (oe : Bool) (a : α) :
    ((XField.plain n oe (XCodec.simple c)).enc a).isSome = true ↔ True := by
  simp only [XField.plain]
  split <;> simp [XCodec.simple]

theorem xw_plain_ref (n : String) (oe : Bool) (a : BOMReference) :
    ((XField.plain n oe X.bomReference).enc a).isSome = true ↔ True := by
  simp only [XField.plain]
  split
  · simp
  · rw [Option.isSome_map, xw_ref]

theorem xw_plain_struct {α : Type} (n : String) (oe : Bool) (c : XCodec α) [N : XNonEmpty c] (a : α) :
    ((XField.plain n oe c).enc a).isSome = true ↔ (c.enc n a).isSome = true := by
  simp [XField.plain, N.empty]

theorem xw_ptr {α : Type} (n : String) (c : XCodec α) (o : Option α) :
    ((XField.ptr n c).enc o).isSome = true ↔ ∀ a ∈ o, (c.enc n a).isSome = true := by
  cases o <;> simp [XField.ptr]

theorem xw_nptr {α : Type} (p n : String) (c : XCodec α) (o : Option α) :
    ((XField.nptr p n c).enc o).isSome = true ↔ ∀ a ∈ o, (c.enc n a).isSome = true := by
  cases o <;> simp [XField.nptr]

theorem xw_encList {α : Type} (n : String) (oe : Bool) (c : XCodec α) (as : List α) :
    (XField.encList n oe c as).isSome = true ↔ ∀ a ∈ as, (oe && c.empty a) = true ∨ (c.enc n a).isSome = true := by
  induction as with
  | nil => simp [XField.encList]
  | cons a as ih =>
    simp only [XField.encList, List.forall_mem_cons, ← ih]
    split
    · rename_i h; simp [h]
    · rename_i h
      cases c.enc n a <;> simp_all

theorem xw_encList_always {α : Type} (n : String) (oe : Bool) (c : XCodec α) (h : ∀ a, (c.enc n a).isSome = true ↔ True)
    (as : List α) : (XField.encList n oe c as).isSome = true ↔ True := by
  rw [xw_encList]; simp [h]

theorem xw_encList_struct {α : Type} (n : String) (oe : Bool) (c : XCodec α) [N : XNonEmpty c] (as : List α) :
    (XField.encList n oe c as).isSome = true ↔ ∀ a ∈ as, (c.enc n a).isSome = true := by
  rw [xw_encList]; simp [N.empty]

theorem xw_list_simple {α : Type} (n : String) (oe : Bool) (c : XText α) (p : PSlice α) :
    ((XField.list n oe (XCodec.simple c)).enc p).isSome = true ↔ True := xw_encList_always n oe _ (xw_simple c n) _
theorem xw_list_ref (n : String) (oe : Bool) (p : PSlice BOMReference) :
    ((XField.list n oe X.bomReference).enc p).isSome = true ↔ True := xw_encList_always n oe _ (xw_ref n) _
theorem xw_list_struct {α : Type} (n : String) (oe : Bool) (c : XCodec α) [N : XNonEmpty c] (p : PSlice α) :
    ((XField.list n oe c).enc p).isSome = true ↔ ∀ a ∈ p.elems, (c.enc n a).isSome = true := xw_encList_struct n oe c _

theorem xw_nlist {α : Type} (q n : String) (oe : Bool) (c : XCodec α) (p : PSlice α) :
    ((XField.nlist q n oe c).enc p).isSome = true ↔ (XField.encList n oe c p.elems).isSome = true := by
  cases p <;> simp [XField.nlist, PSlice.elems, XField.encList]
theorem xw_nlist_simple {α : Type} (q n : String) (oe : Bool) (c : XText α) (p : PSlice α) :
    ((XField.nlist q n oe (XCodec.simple c)).enc p).isSome = true ↔ True := by
  rw [xw_nlist, xw_encList_always n oe _ (xw_simple c n)]
theorem xw_nlist_ref (q n : String) (oe : Bool) (p : PSlice BOMReference) :
    ((XField.nlist q n oe X.bomReference).enc p).isSome = true ↔ True := by
  rw [xw_nlist, xw_encList_always n oe _ (xw_ref n)]
theorem xw_nlist_struct {α : Type} (q n : String) (oe : Bool) (c : XCodec α) [N : XNonEmpty c] (p : PSlice α) :
    ((XField.nlist q n oe c).enc p).isSome = true ↔ ∀ a ∈ p.elems, (c.enc n a).isSome = true := by
  rw [xw_nlist, xw_encList_struct]

theorem xw_encEach {α : Type} (f : α → Option (List Xml)) (as : List α) :
    (X.encEach f as).isSome = true ↔ ∀ a ∈ as, (f a).isSome = true := by
  induction as with
  | nil => simp [X.encEach]
  | cons a as ih =>
    simp only [X.encEach, List.forall_mem_cons, ← ih]
    cases f a <;> simp

theorem xwF_nil (b : Unit) : (XFields.nil.encKids b).isSome = true ↔ True := by simp [XFields.encKids]
theorem xwF_skip {α β : Type} (z : α) (F : XFields β) (b : α × β) :
    ((XFields.skip z F).encKids b).isSome = true ↔ (F.encKids b.2).isSome = true := by simp [XFields.encKids]
theorem xwF_attr {α β : Type} (n : String) (oe : Bool) (c : XText α) (F : XFields β) (b : α × β) :
    ((XFields.attr n oe c F).encKids b).isSome = true ↔ (F.encKids b.2).isSome = true := by simp [XFields.encKids]
theorem xwF_attrPtr {α β : Type} (n : String) (c : XText α) (F : XFields β) (b : Option α × β) :
    ((XFields.attrPtr n c F).encKids b).isSome = true ↔ (F.encKids b.2).isSome = true := by simp [XFields.encKids]
theorem xwF_chardata {β : Type} (F : XFields β) (b : String × β) :
    ((XFields.chardata F).encKids b).isSome = true ↔ (F.encKids b.2).isSome = true := by simp [XFields.encKids]
theorem xwF_elem {α β : Type} (f : XField α) (F : XFields β) (b : α × β) :
    ((XFields.elem f F).encKids b).isSome = true ↔ (f.enc b.1).isSome = true ∧ (F.encKids b.2).isSome = true := by
  simp only [XFields.encKids]
  cases f.enc b.1 <;> simp

theorem xw_struct {σ β : Type} (F : XFields β) (toP : σ → β) (ofP : β → σ) (n : String) (s : σ) :
    ((XCodec.struct F toP ofP).enc n s).isSome = true ↔ (F.encKids (toP s)).isSome = true := by
  simp [XCodec.struct]

theorem pslice_isNil {α : Type} (p : PSlice α) : p.isNil = true ↔ p = .nil := by cases p <;> simp [PSlice.isNil]

theorem xw_advisory (n : String) (x : Advisory) : (X.advisory.enc n x).isSome = true ↔ True := by
  rw [X.advisory, xw_struct X.advisoryFields]
  simp only [X.advisoryFields, xwF_nil, xwF_skip, xwF_attr, xwF_attrPtr, xwF_chardata, xwF_elem, xw_plain_simple, xw_plain_ref, xw_plain_struct, xw_ptr, xw_list_simple, xw_list_ref, xw_list_struct, xw_nlist_simple, xw_nlist_ref, xw_nlist_struct, xw_nptr, xw_simple, xw_ref, Advisory.toP, and_true, true_and, implies_true]

theorem xw_affectedVersions (n : String) (x : AffectedVersions) : (X.affectedVersions.enc n x).isSome = true ↔ True := by
  rw [X.affectedVersions, xw_struct X.affectedVersionsFields]
  simp only [X.affectedVersionsFields, xwF_nil, xwF_skip, xwF_attr, xwF_attrPtr, xwF_chardata, xwF_elem, xw_plain_simple, xw_plain_ref, xw_plain_struct, xw_ptr, xw_list_simple, xw_list_ref, xw_list_struct, xw_nlist_simple, xw_nlist_ref, xw_nlist_struct, xw_nptr, xw_simple, xw_ref, AffectedVersions.toP, and_true, true_and, implies_true]

theorem xw_affects (n : String) (x : Affects) : (X.affects.enc n x).isSome = true ↔ True := by
  rw [X.affects, xw_struct X.affectsFields]
  simp only [X.affectsFields, xwF_nil, xwF_skip, xwF_attr, xwF_attrPtr, xwF_chardata, xwF_elem, xw_plain_simple, xw_plain_ref, xw_plain_struct, xw_ptr, xw_list_simple, xw_list_ref, xw_list_struct, xw_nlist_simple, xw_nlist_ref, xw_nlist_struct, xw_nptr, xw_simple, xw_ref, Affects.toP, xw_affectedVersions, and_true, true_and, implies_true]

theorem xw_attachedText (n : String) (x : AttachedText) : (X.attachedText.enc n x).isSome = true ↔ True := by
  rw [X.attachedText, xw_struct X.attachedTextFields]
  simp only [X.attachedTextFields, xwF_nil, xwF_skip, xwF_attr, xwF_attrPtr, xwF_chardata, xwF_elem, xw_plain_simple, xw_plain_ref, xw_plain_struct, xw_ptr, xw_list_simple, xw_list_ref, xw_list_struct, xw_nlist_simple, xw_nlist_ref, xw_nlist_struct, xw_nptr, xw_simple, xw_ref, AttachedText.toP, and_true, true_and, implies_true]

theorem xw_property (n : String) (x : Property) : (X.property.enc n x).isSome = true ↔ True := by
  rw [X.property, xw_struct X.propertyFields]
  simp only [X.propertyFields, xwF_nil, xwF_skip, xwF_attr, xwF_attrPtr, xwF_chardata, xwF_elem, xw_plain_simple, xw_plain_ref, xw_plain_struct, xw_ptr, xw_list_simple, xw_list_ref, xw_list_struct, xw_nlist_simple, xw_nlist_ref, xw_nlist_struct, xw_nptr, xw_simple, xw_ref, Property.toP, and_true, true_and, implies_true]

theorem xw_componentDataContents (n : String) (x : ComponentDataContents) : (X.componentDataContents.enc n x).isSome = true ↔ True := by
  rw [X.componentDataContents, xw_struct X.componentDataContentsFields]
  simp only [X.componentDataContentsFields, xwF_nil, xwF_skip, xwF_attr, xwF_attrPtr, xwF_chardata, xwF_elem, xw_plain_simple, xw_plain_ref, xw_plain_struct, xw_ptr, xw_list_simple, xw_list_ref, xw_list_struct, xw_nlist_simple, xw_nlist_ref, xw_nlist_struct, xw_nptr, xw_simple, xw_ref, ComponentDataContents.toP, xw_attachedText, xw_property, and_true, true_and, implies_true]

theorem xw_componentDataGraphic (n : String) (x : ComponentDataGraphic) : (X.componentDataGraphic.enc n x).isSome = true ↔ True := by
  rw [X.componentDataGraphic, xw_struct X.componentDataGraphicFields]
  simp only [X.componentDataGraphicFields, xwF_nil, xwF_skip, xwF_attr, xwF_attrPtr, xwF_chardata, xwF_elem, xw_plain_simple, xw_plain_ref, xw_plain_struct, xw_ptr, xw_list_simple, xw_list_ref, xw_list_struct, xw_nlist_simple, xw_nlist_ref, xw_nlist_struct, xw_nptr, xw_simple, xw_ref, ComponentDataGraphic.toP, xw_attachedText, and_true, true_and, implies_true]

theorem xw_componentDataGraphics (n : String) (x : ComponentDataGraphics) : (X.componentDataGraphics.enc n x).isSome = true ↔ True := by
  rw [X.componentDataGraphics, xw_struct X.componentDataGraphicsFields]
  simp only [X.componentDataGraphicsFields, xwF_nil, xwF_skip, xwF_attr, xwF_attrPtr, xwF_chardata, xwF_elem, xw_plain_simple, xw_plain_ref, xw_plain_struct, xw_ptr, xw_list_simple, xw_list_ref, xw_list_struct, xw_nlist_simple, xw_nlist_ref, xw_nlist_struct, xw_nptr, xw_simple, xw_ref, ComponentDataGraphics.toP, xw_componentDataGraphic, and_true, true_and, implies_true]

theorem xw_organizationalContact (n : String) (x : OrganizationalContact) : (X.organizationalContact.enc n x).isSome = true ↔ True := by
  rw [X.organizationalContact, xw_struct X.organizationalContactFields]
  simp only [X.organizationalContactFields, xwF_nil, xwF_skip, xwF_attr, xwF_attrPtr, xwF_chardata, xwF_elem, xw_plain_simple, xw_plain_ref, xw_plain_struct, xw_ptr, xw_list_simple, xw_list_ref, xw_list_struct, xw_nlist_simple, xw_nlist_ref, xw_nlist_struct, xw_nptr, xw_simple, xw_ref, OrganizationalContact.toP, and_true, true_and, implies_true]

theorem xw_postalAddress (n : String) (x : PostalAddress) : (X.postalAddress.enc n x).isSome = true ↔ True := by
  rw [X.postalAddress, xw_struct X.postalAddressFields]
  simp only [X.postalAddressFields, xwF_nil, xwF_skip, xwF_attr, xwF_attrPtr, xwF_chardata, xwF_elem, xw_plain_simple, xw_plain_ref, xw_plain_struct, xw_ptr, xw_list_simple, xw_list_ref, xw_list_struct, xw_nlist_simple, xw_nlist_ref, xw_nlist_struct, xw_nptr, xw_simple, xw_ref, PostalAddress.toP, and_true, true_and, implies_true]

theorem xw_organizationalEntity (n : String) (x : OrganizationalEntity) : (X.organizationalEntity.enc n x).isSome = true ↔ True := by
  rw [X.organizationalEntity, xw_struct X.organizationalEntityFields]
  simp only [X.organizationalEntityFields, xwF_nil, xwF_skip, xwF_attr, xwF_attrPtr, xwF_chardata, xwF_elem, xw_plain_simple, xw_plain_ref, xw_plain_struct, xw_ptr, xw_list_simple, xw_list_ref, xw_list_struct, xw_nlist_simple, xw_nlist_ref, xw_nlist_struct, xw_nptr, xw_simple, xw_ref, OrganizationalEntity.toP, xw_organizationalContact, xw_postalAddress, and_true, true_and, implies_true]

theorem xw_componentDataGovernanceResponsibleParty (n : String) (x : ComponentDataGovernanceResponsibleParty) : (X.componentDataGovernanceResponsibleParty.enc n x).isSome = true ↔ True := by
  rw [X.componentDataGovernanceResponsibleParty, xw_struct X.componentDataGovernanceResponsiblePartyFields]
  simp only [X.componentDataGovernanceResponsiblePartyFields, xwF_nil, xwF_skip, xwF_attr, xwF_attrPtr, xwF_chardata, xwF_elem, xw_plain_simple, xw_plain_ref, xw_plain_struct, xw_ptr, xw_list_simple, xw_list_ref, xw_list_struct, xw_nlist_simple, xw_nlist_ref, xw_nlist_struct, xw_nptr, xw_simple, xw_ref, ComponentDataGovernanceResponsibleParty.toP, xw_organizationalContact, xw_organizationalEntity, and_true, true_and, implies_true]

theorem xw_dataGovernance (n : String) (x : DataGovernance) : (X.dataGovernance.enc n x).isSome = true ↔ True := by
  rw [X.dataGovernance, xw_struct X.dataGovernanceFields]
  simp only [X.dataGovernanceFields, xwF_nil, xwF_skip, xwF_attr, xwF_attrPtr, xwF_chardata, xwF_elem, xw_plain_simple, xw_plain_ref, xw_plain_struct, xw_ptr, xw_list_simple, xw_list_ref, xw_list_struct, xw_nlist_simple, xw_nlist_ref, xw_nlist_struct, xw_nptr, xw_simple, xw_ref, DataGovernance.toP, xw_componentDataGovernanceResponsibleParty, and_true, true_and, implies_true]

theorem xw_componentData (n : String) (x : ComponentData) : (X.componentData.enc n x).isSome = true ↔ True := by
  rw [X.componentData, xw_struct X.componentDataFields]
  simp only [X.componentDataFields, xwF_nil, xwF_skip, xwF_attr, xwF_attrPtr, xwF_chardata, xwF_elem, xw_plain_simple, xw_plain_ref, xw_plain_struct, xw_ptr, xw_list_simple, xw_list_ref, xw_list_struct, xw_nlist_simple, xw_nlist_ref, xw_nlist_struct, xw_nptr, xw_simple, xw_ref, ComponentData.toP, xw_componentDataContents, xw_componentDataGraphics, xw_dataGovernance, and_true, true_and, implies_true]

theorem xw_hash (n : String) (x : Hash) : (X.hash.enc n x).isSome = true ↔ True := by
  rw [X.hash, xw_struct X.hashFields]
  simp only [X.hashFields, xwF_nil, xwF_skip, xwF_attr, xwF_attrPtr, xwF_chardata, xwF_elem, xw_plain_simple, xw_plain_ref, xw_plain_struct, xw_ptr, xw_list_simple, xw_list_ref, xw_list_struct, xw_nlist_simple, xw_nlist_ref, xw_nlist_struct, xw_nptr, xw_simple, xw_ref, Hash.toP, and_true, true_and, implies_true]

theorem xw_relatedCryptographicAsset (n : String) (x : RelatedCryptographicAsset) : (X.relatedCryptographicAsset.enc n x).isSome = true ↔ True := by
  rw [X.relatedCryptographicAsset, xw_struct X.relatedCryptographicAssetFields]
  simp only [X.relatedCryptographicAssetFields, xwF_nil, xwF_skip, xwF_attr, xwF_attrPtr, xwF_chardata, xwF_elem, xw_plain_simple, xw_plain_ref, xw_plain_struct, xw_ptr, xw_list_simple, xw_list_ref, xw_list_struct, xw_nlist_simple, xw_nlist_ref, xw_nlist_struct, xw_nptr, xw_simple, xw_ref, RelatedCryptographicAsset.toP, and_true, true_and, implies_true]

theorem xw_certificateState (n : String) (x : CertificateState) : (X.certificateState.enc n x).isSome = true ↔ x.XWritable := by
  obtain ⟨p, q⟩ := x
  cases p <;> cases q <;> simp [X.certificateState, CertificateState.XWritable, X.predefinedCertificateState, X.customCertificateState, xw_struct, xwF_elem, xwF_nil, xw_plain_simple]

theorem xw_certificateExtension (n : String) (x : CertificateExtension) : (X.certificateExtension.enc n x).isSome = true ↔ x.XWritable := by
  obtain ⟨p, q⟩ := x
  cases p <;> cases q <;> simp [X.certificateExtension, CertificateExtension.XWritable, X.commonCertificateExtension, X.customCertificateExtension, xw_struct, xwF_elem, xwF_nil, xw_plain_simple]

theorem xw_certificateProperties (n : String) (x : CertificateProperties) : (X.certificateProperties.enc n x).isSome = true ↔ x.XWritable := by
  rw [X.certificateProperties, xw_struct X.certificatePropertiesFields]
  simp only [X.certificatePropertiesFields, xwF_nil, xwF_skip, xwF_attr, xwF_attrPtr, xwF_chardata, xwF_elem, xw_plain_simple, xw_plain_ref, xw_plain_struct, xw_ptr, xw_list_simple, xw_list_ref, xw_list_struct, xw_nlist_simple, xw_nlist_ref, xw_nlist_struct, xw_nptr, xw_simple, xw_ref, CertificateProperties.toP, CertificateProperties.XWritable, xw_certificateExtension, xw_certificateState, xw_hash, xw_relatedCryptographicAsset, and_true, true_and, implies_true]

theorem xw_cryptoAlgorithmProperties (n : String) (x : CryptoAlgorithmProperties) : (X.cryptoAlgorithmProperties.enc n x).isSome = true ↔ True := by
  rw [X.cryptoAlgorithmProperties, xw_struct X.cryptoAlgorithmPropertiesFields]
  simp only [X.cryptoAlgorithmPropertiesFields, xwF_nil, xwF_skip, xwF_attr, xwF_attrPtr, xwF_chardata, xwF_elem, xw_plain_simple, xw_plain_ref, xw_plain_struct, xw_ptr, xw_list_simple, xw_list_ref, xw_list_struct, xw_nlist_simple, xw_nlist_ref, xw_nlist_struct, xw_nptr, xw_simple, xw_ref, CryptoAlgorithmProperties.toP, and_true, true_and, implies_true]

theorem xw_cipherSuite (n : String) (x : CipherSuite) : (X.cipherSuite.enc n x).isSome = true ↔ True := by
  rw [X.cipherSuite, xw_struct X.cipherSuiteFields]
  simp only [X.cipherSuiteFields, xwF_nil, xwF_skip, xwF_attr, xwF_attrPtr, xwF_chardata, xwF_elem, xw_plain_simple, xw_plain_ref, xw_plain_struct, xw_ptr, xw_list_simple, xw_list_ref, xw_list_struct, xw_nlist_simple, xw_nlist_ref, xw_nlist_struct, xw_nptr, xw_simple, xw_ref, CipherSuite.toP, and_true, true_and, implies_true]

theorem xw_ikev2Auth (n : String) (x : IKEv2Auth) : (X.ikev2Auth.enc n x).isSome = true ↔ True := by
  simp only [X.ikev2Auth, X.ikev2]
  split
  · simp
  · rw [xw_struct]
    simp only [X.ikev2AuthFields, xwF_nil, xwF_skip, xwF_attr, xwF_attrPtr, xwF_chardata, xwF_elem, xw_plain_simple, xw_plain_ref, xw_plain_struct, xw_ptr, xw_list_simple, xw_list_ref, xw_list_struct, xw_nlist_simple, xw_nlist_ref, xw_nlist_struct, xw_nptr, xw_simple, xw_ref, and_true, true_and, implies_true]

theorem xw_ikev2Enc (n : String) (x : IKEv2Enc) : (X.ikev2Enc.enc n x).isSome = true ↔ True := by
  simp only [X.ikev2Enc, X.ikev2]
  split
  · simp
  · rw [xw_struct]
    simp only [X.ikev2EncFields, xwF_nil, xwF_skip, xwF_attr, xwF_attrPtr, xwF_chardata, xwF_elem, xw_plain_simple, xw_plain_ref, xw_plain_struct, xw_ptr, xw_list_simple, xw_list_ref, xw_list_struct, xw_nlist_simple, xw_nlist_ref, xw_nlist_struct, xw_nptr, xw_simple, xw_ref, and_true, true_and, implies_true]

theorem xw_ikev2Integ (n : String) (x : IKEv2Integ) : (X.ikev2Integ.enc n x).isSome = true ↔ True := by
  simp only [X.ikev2Integ, X.ikev2]
  split
  · simp
  · rw [xw_struct]
    simp only [X.ikev2IntegFields, xwF_nil, xwF_skip, xwF_attr, xwF_attrPtr, xwF_chardata, xwF_elem, xw_plain_simple, xw_plain_ref, xw_plain_struct, xw_ptr, xw_list_simple, xw_list_ref, xw_list_struct, xw_nlist_simple, xw_nlist_ref, xw_nlist_struct, xw_nptr, xw_simple, xw_ref, and_true, true_and, implies_true]

theorem xw_ikev2Ke (n : String) (x : IKEv2Ke) : (X.ikev2Ke.enc n x).isSome = true ↔ True := by
  simp only [X.ikev2Ke, X.ikev2]
  split
  · simp
  · rw [xw_struct]
    simp only [X.ikev2KeFields, xwF_nil, xwF_skip, xwF_attr, xwF_attrPtr, xwF_chardata, xwF_elem, xw_plain_simple, xw_plain_ref, xw_plain_struct, xw_ptr, xw_list_simple, xw_list_ref, xw_list_struct, xw_nlist_simple, xw_nlist_ref, xw_nlist_struct, xw_nptr, xw_simple, xw_ref, and_true, true_and, implies_true]

theorem xw_ikev2Prf (n : String) (x : IKEv2Prf) : (X.ikev2Prf.enc n x).isSome = true ↔ True := by
  simp only [X.ikev2Prf, X.ikev2]
  split
  · simp
  · rw [xw_struct]
    simp only [X.ikev2PrfFields, xwF_nil, xwF_skip, xwF_attr, xwF_attrPtr, xwF_chardata, xwF_elem, xw_plain_simple, xw_plain_ref, xw_plain_struct, xw_ptr, xw_list_simple, xw_list_ref, xw_list_struct, xw_nlist_simple, xw_nlist_ref, xw_nlist_struct, xw_nptr, xw_simple, xw_ref, and_true, true_and, implies_true]

theorem xw_ikev2TransformTypes (n : String) (x : IKEv2TransformTypes) : (X.ikev2TransformTypes.enc n x).isSome = true ↔ True := by
  rw [X.ikev2TransformTypes, xw_struct X.ikev2TransformTypesFields]
  simp only [X.ikev2TransformTypesFields, xwF_nil, xwF_skip, xwF_attr, xwF_attrPtr, xwF_chardata, xwF_elem, xw_plain_simple, xw_plain_ref, xw_plain_struct, xw_ptr, xw_list_simple, xw_list_ref, xw_list_struct, xw_nlist_simple, xw_nlist_ref, xw_nlist_struct, xw_nptr, xw_simple, xw_ref, IKEv2TransformTypes.toP, xw_ikev2Auth, xw_ikev2Enc, xw_ikev2Integ, xw_ikev2Ke, xw_ikev2Prf, and_true, true_and, implies_true]

theorem xw_cryptoProtocolProperties (n : String) (x : CryptoProtocolProperties) : (X.cryptoProtocolProperties.enc n x).isSome = true ↔ True := by
  rw [X.cryptoProtocolProperties, xw_struct X.cryptoProtocolPropertiesFields]
  simp only [X.cryptoProtocolPropertiesFields, xwF_nil, xwF_skip, xwF_attr, xwF_attrPtr, xwF_chardata, xwF_elem, xw_plain_simple, xw_plain_ref, xw_plain_struct, xw_ptr, xw_list_simple, xw_list_ref, xw_list_struct, xw_nlist_simple, xw_nlist_ref, xw_nlist_struct, xw_nptr, xw_simple, xw_ref, CryptoProtocolProperties.toP, xw_cipherSuite, xw_ikev2TransformTypes, xw_relatedCryptographicAsset, and_true, true_and, implies_true]

theorem xw_securedBy (n : String) (x : SecuredBy) : (X.securedBy.enc n x).isSome = true ↔ True := by
  rw [X.securedBy, xw_struct X.securedByFields]
  simp only [X.securedByFields, xwF_nil, xwF_skip, xwF_attr, xwF_attrPtr, xwF_chardata, xwF_elem, xw_plain_simple, xw_plain_ref, xw_plain_struct, xw_ptr, xw_list_simple, xw_list_ref, xw_list_struct, xw_nlist_simple, xw_nlist_ref, xw_nlist_struct, xw_nptr, xw_simple, xw_ref, SecuredBy.toP, and_true, true_and, implies_true]

theorem xw_relatedCryptoMaterialProperties (n : String) (x : RelatedCryptoMaterialProperties) : (X.relatedCryptoMaterialProperties.enc n x).isSome = true ↔ True := by
  rw [X.relatedCryptoMaterialProperties, xw_struct X.relatedCryptoMaterialPropertiesFields]
  simp only [X.relatedCryptoMaterialPropertiesFields, xwF_nil, xwF_skip, xwF_attr, xwF_attrPtr, xwF_chardata, xwF_elem, xw_plain_simple, xw_plain_ref, xw_plain_struct, xw_ptr, xw_list_simple, xw_list_ref, xw_list_struct, xw_nlist_simple, xw_nlist_ref, xw_nlist_struct, xw_nptr, xw_simple, xw_ref, RelatedCryptoMaterialProperties.toP, xw_hash, xw_relatedCryptographicAsset, xw_securedBy, and_true, true_and, implies_true]

theorem xw_cryptoProperties (n : String) (x : CryptoProperties) : (X.cryptoProperties.enc n x).isSome = true ↔ x.XWritable := by
  rw [X.cryptoProperties, xw_struct X.cryptoPropertiesFields]
  simp only [X.cryptoPropertiesFields, xwF_nil, xwF_skip, xwF_attr, xwF_attrPtr, xwF_chardata, xwF_elem, xw_plain_simple, xw_plain_ref, xw_plain_struct, xw_ptr, xw_list_simple, xw_list_ref, xw_list_struct, xw_nlist_simple, xw_nlist_ref, xw_nlist_struct, xw_nptr, xw_simple, xw_ref, CryptoProperties.toP, CryptoProperties.XWritable, xw_certificateProperties, xw_cryptoAlgorithmProperties, xw_cryptoProtocolProperties, xw_relatedCryptoMaterialProperties, and_true, true_and, implies_true]

theorem xw_callstackFrame (n : String) (x : CallstackFrame) : (X.callstackFrame.enc n x).isSome = true ↔ True := by
  rw [X.callstackFrame, xw_struct X.callstackFrameFields]
  simp only [X.callstackFrameFields, xwF_nil, xwF_skip, xwF_attr, xwF_attrPtr, xwF_chardata, xwF_elem, xw_plain_simple, xw_plain_ref, xw_plain_struct, xw_ptr, xw_list_simple, xw_list_ref, xw_list_struct, xw_nlist_simple, xw_nlist_ref, xw_nlist_struct, xw_nptr, xw_simple, xw_ref, CallstackFrame.toP, and_true, true_and, implies_true]

theorem xw_callstack (n : String) (x : Callstack) : (X.callstack.enc n x).isSome = true ↔ True := by
  rw [X.callstack, xw_struct X.callstackFields]
  simp only [X.callstackFields, xwF_nil, xwF_skip, xwF_attr, xwF_attrPtr, xwF_chardata, xwF_elem, xw_plain_simple, xw_plain_ref, xw_plain_struct, xw_ptr, xw_list_simple, xw_list_ref, xw_list_struct, xw_nlist_simple, xw_nlist_ref, xw_nlist_struct, xw_nptr, xw_simple, xw_ref, Callstack.toP, xw_callstackFrame, and_true, true_and, implies_true]

theorem xw_copyright (n : String) (x : Copyright) : (X.copyright.enc n x).isSome = true ↔ True := xw_simple _ n _

theorem xw_evidenceIdentityMethod (n : String) (x : EvidenceIdentityMethod) : (X.evidenceIdentityMethod.enc n x).isSome = true ↔ True := by
  rw [X.evidenceIdentityMethod, xw_struct X.evidenceIdentityMethodFields]
  simp only [X.evidenceIdentityMethodFields, xwF_nil, xwF_skip, xwF_attr, xwF_attrPtr, xwF_chardata, xwF_elem, xw_plain_simple, xw_plain_ref, xw_plain_struct, xw_ptr, xw_list_simple, xw_list_ref, xw_list_struct, xw_nlist_simple, xw_nlist_ref, xw_nlist_struct, xw_nptr, xw_simple, xw_ref, EvidenceIdentityMethod.toP, and_true, true_and, implies_true]

theorem xw_evidenceIdentity (n : String) (x : EvidenceIdentity) : (X.evidenceIdentity.enc n x).isSome = true ↔ True := by
  rw [X.evidenceIdentity, xw_struct X.evidenceIdentityFields]
  simp only [X.evidenceIdentityFields, xwF_nil, xwF_skip, xwF_attr, xwF_attrPtr, xwF_chardata, xwF_elem, xw_plain_simple, xw_plain_ref, xw_plain_struct, xw_ptr, xw_list_simple, xw_list_ref, xw_list_struct, xw_nlist_simple, xw_nlist_ref, xw_nlist_struct, xw_nptr, xw_simple, xw_ref, EvidenceIdentity.toP, xw_evidenceIdentityMethod, and_true, true_and, implies_true]

theorem xw_evidenceOccurrence (n : String) (x : EvidenceOccurrence) : (X.evidenceOccurrence.enc n x).isSome = true ↔ True := by
  rw [X.evidenceOccurrence, xw_struct X.evidenceOccurrenceFields]
  simp only [X.evidenceOccurrenceFields, xwF_nil, xwF_skip, xwF_attr, xwF_attrPtr, xwF_chardata, xwF_elem, xw_plain_simple, xw_plain_ref, xw_plain_struct, xw_ptr, xw_list_simple, xw_list_ref, xw_list_struct, xw_nlist_simple, xw_nlist_ref, xw_nlist_struct, xw_nptr, xw_simple, xw_ref, EvidenceOccurrence.toP, and_true, true_and, implies_true]

theorem xw_organizationalEntityOrContact (n : String) (x : OrganizationalEntityOrContact) : (X.organizationalEntityOrContact.enc n x).isSome = true ↔ True := by
  rw [X.organizationalEntityOrContact, xw_struct X.organizationalEntityOrContactFields]
  simp only [X.organizationalEntityOrContactFields, xwF_nil, xwF_skip, xwF_attr, xwF_attrPtr, xwF_chardata, xwF_elem, xw_plain_simple, xw_plain_ref, xw_plain_struct, xw_ptr, xw_list_simple, xw_list_ref, xw_list_struct, xw_nlist_simple, xw_nlist_ref, xw_nlist_struct, xw_nptr, xw_simple, xw_ref, OrganizationalEntityOrContact.toP, xw_organizationalContact, xw_organizationalEntity, and_true, true_and, implies_true]

theorem xw_licensing (n : String) (x : Licensing) : (X.licensing.enc n x).isSome = true ↔ True := by
  rw [X.licensing, xw_struct X.licensingFields]
  simp only [X.licensingFields, xwF_nil, xwF_skip, xwF_attr, xwF_attrPtr, xwF_chardata, xwF_elem, xw_plain_simple, xw_plain_ref, xw_plain_struct, xw_ptr, xw_list_simple, xw_list_ref, xw_list_struct, xw_nlist_simple, xw_nlist_ref, xw_nlist_struct, xw_nptr, xw_simple, xw_ref, Licensing.toP, xw_organizationalEntityOrContact, and_true, true_and, implies_true]

theorem xw_license (n : String) (x : License) : (X.license.enc n x).isSome = true ↔ x.XWritable := by
  have h : (X.licenseAlias.enc n x).isSome = true := by
    rw [X.licenseAlias, xw_struct X.licenseFields]
    simp only [X.licenseFields, xwF_nil, xwF_skip, xwF_attr, xwF_attrPtr, xwF_chardata, xwF_elem, xw_plain_simple, xw_plain_ref, xw_plain_struct, xw_ptr, xw_list_simple, xw_list_ref, xw_list_struct, xw_nlist_simple, xw_nlist_ref, xw_nlist_struct, xw_nptr, xw_simple, xw_ref, License.toP, xw_attachedText, xw_licensing, xw_property, and_true, true_and, implies_true]
  simp only [X.license, License.XWritable]
  by_cases h1 : x.id = "" <;> by_cases h2 : x.name = "" <;> simp [h1, h2, h]

theorem xw_licenseExpressionDetail (n : String) (x : LicenseExpressionDetail) :
    (X.licenseExpressionDetail.enc n x).isSome = true ↔ True := by
  rw [X.licenseExpressionDetail, xw_struct X.licenseExpressionDetailFields]
  simp only [X.licenseExpressionDetailFields, xwF_nil, xwF_skip, xwF_attr, xwF_attrPtr, xwF_chardata, xwF_elem, xw_plain_simple, xw_plain_ref, xw_plain_struct, xw_ptr, xw_list_simple, xw_list_ref, xw_list_struct, xw_nlist_simple, xw_nlist_ref, xw_nlist_struct, xw_nptr, xw_simple, xw_ref, xw_attachedText, and_true, true_and, implies_true]

theorem xw_licenseChoice (x : LicenseChoice) : (X.licenseChoiceEnc x).isSome = true ↔ x.XWritable := by
  unfold X.licenseChoiceEnc LicenseChoice.XWritable
  cases x.license with
  | some l =>
    simp only [Option.mem_some_iff, forall_eq', ← xw_license "license"]
    by_cases h : x.expression = "" <;> simp [h]
  | none =>
    refine iff_of_true ?_ (by simp)
    show (if _ then _ else _ : Option (List Xml)).isSome = true
    split
    · split
      · rw [Option.isSome_map, xw_struct]
        simp only [X.licenseExpressionFields, xwF_nil, xwF_skip, xwF_attr, xwF_attrPtr, xwF_chardata, xwF_elem, xw_plain_simple, xw_plain_ref, xw_plain_struct, xw_ptr, xw_list_simple, xw_list_ref, xw_list_struct, xw_nlist_simple, xw_nlist_ref, xw_nlist_struct, xw_nptr, xw_simple, xw_ref]
      · rw [Option.isSome_map, xw_struct]
        simp only [X.licenseExpressionDetailedFields, xwF_nil, xwF_skip, xwF_attr, xwF_attrPtr, xwF_chardata, xwF_elem, xw_plain_simple, xw_plain_ref, xw_plain_struct, xw_ptr, xw_list_simple, xw_list_ref, xw_list_struct, xw_nlist_simple, xw_nlist_ref, xw_nlist_struct, xw_nptr, xw_simple, xw_ref, xw_licenseExpressionDetail, and_true, true_and, implies_true]
    · rfl

theorem xw_licenses (n : String) (ls : List LicenseChoice) :
    (X.licenses.enc n ls).isSome = true ↔ ∀ l ∈ ls, LicenseChoice.XWritable l := by
  cases ls with
  | nil => simp [X.licenses]
  | cons l ls => simp only [X.licenses, Option.isSome_map, xw_encEach, xw_licenseChoice]

theorem xw_licenses_field (n : String) (p : PSlice LicenseChoice) :
    ((XField.slice n X.licenses).enc p).isSome = true ↔ ∀ l ∈ p.elems, LicenseChoice.XWritable l := by
  rw [← xw_licenses n]
  cases p <;> simp [XField.slice, PSlice.elems, X.licenses]

theorem xw_environmentVariableChoice (x : EnvironmentVariableChoice) :
    (X.environmentVariableEnc x).isSome = true ↔ x.XWritable := by
  have hp : ∀ n (p : Property), (X.property.enc n p).isSome = true := by
    intro n p
    rw [X.property, xw_struct]
    simp only [X.propertyFields, xwF_nil, xwF_skip, xwF_attr, xwF_attrPtr, xwF_chardata, xwF_elem, xw_plain_simple, and_true, true_and, implies_true]
  unfold X.environmentVariableEnc EnvironmentVariableChoice.XWritable
  cases x.property with
  | some p => by_cases h : x.value = "" <;> simp [h, hp]
  | none => by_cases h : x.value = "" <;> simp [h, X.string, XCodec.simple]

theorem xw_environmentVariables (n : String) (ls : List EnvironmentVariableChoice) :
    (X.environmentVariables.enc n ls).isSome = true ↔ ∀ l ∈ ls, EnvironmentVariableChoice.XWritable l := by
  cases ls with
  | nil => simp [X.environmentVariables]
  | cons l ls => simp only [X.environmentVariables, Option.isSome_map, xw_encEach, xw_environmentVariableChoice]

theorem xw_environmentVariables_field (n : String) (p : PSlice EnvironmentVariableChoice) :
    ((XField.slice n X.environmentVariables).enc p).isSome = true ↔ ∀ l ∈ p.elems, EnvironmentVariableChoice.XWritable l := by
  rw [← xw_environmentVariables n]
  cases p <;> simp [XField.slice, PSlice.elems, X.environmentVariables]

theorem xw_evidence (n : String) (x : Evidence) : (X.evidence.enc n x).isSome = true ↔ x.XWritable := by
  simp only [X.evidence]
  split
  · rename_i h
    simp [Evidence.XWritable, (pslice_isNil _).1 h.2.2.2.1, PSlice.elems]
  · rw [xw_struct]
    simp only [X.evidenceFields, xwF_nil, xwF_skip, xwF_attr, xwF_attrPtr, xwF_chardata, xwF_elem, xw_plain_simple, xw_plain_ref, xw_plain_struct, xw_ptr, xw_list_simple, xw_list_ref, xw_list_struct, xw_nlist_simple, xw_nlist_ref, xw_nlist_struct, xw_nptr, xw_licenses_field, xw_environmentVariables_field, xw_simple, xw_ref, id_eq, xw_licenses_field, xw_evidenceIdentity, xw_evidenceOccurrence, xw_callstack,
      xw_copyright, and_true, true_and, implies_true]
    exact Iff.rfl

theorem xw_externalReference (n : String) (x : ExternalReference) : (X.externalReference.enc n x).isSome = true ↔ True := by
  rw [X.externalReference, xw_struct X.externalReferenceFields]
  simp only [X.externalReferenceFields, xwF_nil, xwF_skip, xwF_attr, xwF_attrPtr, xwF_chardata, xwF_elem, xw_plain_simple, xw_plain_ref, xw_plain_struct, xw_ptr, xw_list_simple, xw_list_ref, xw_list_struct, xw_nlist_simple, xw_nlist_ref, xw_nlist_struct, xw_nptr, xw_licenses_field, xw_environmentVariables_field, xw_simple, xw_ref, ExternalReference.toP, xw_hash, xw_property, and_true, true_and, implies_true]

theorem xw_mlModelCO2Measure (n : String) (x : MLModelCO2Measure) : (X.mlModelCO2Measure.enc n x).isSome = true ↔ True := by
  rw [X.mlModelCO2Measure, xw_struct X.mlModelCO2MeasureFields]
  simp only [X.mlModelCO2MeasureFields, xwF_nil, xwF_skip, xwF_attr, xwF_attrPtr, xwF_chardata, xwF_elem, xw_plain_simple, xw_plain_ref, xw_plain_struct, xw_ptr, xw_list_simple, xw_list_ref, xw_list_struct, xw_nlist_simple, xw_nlist_ref, xw_nlist_struct, xw_nptr, xw_licenses_field, xw_environmentVariables_field, xw_simple, xw_ref, MLModelCO2Measure.toP, and_true, true_and, implies_true]

theorem xw_mlModelEnergyMeasure (n : String) (x : MLModelEnergyMeasure) : (X.mlModelEnergyMeasure.enc n x).isSome = true ↔ True := by
  rw [X.mlModelEnergyMeasure, xw_struct X.mlModelEnergyMeasureFields]
  simp only [X.mlModelEnergyMeasureFields, xwF_nil, xwF_skip, xwF_attr, xwF_attrPtr, xwF_chardata, xwF_elem, xw_plain_simple, xw_plain_ref, xw_plain_struct, xw_ptr, xw_list_simple, xw_list_ref, xw_list_struct, xw_nlist_simple, xw_nlist_ref, xw_nlist_struct, xw_nptr, xw_licenses_field, xw_environmentVariables_field, xw_simple, xw_ref, MLModelEnergyMeasure.toP, and_true, true_and, implies_true]

theorem xw_mlModelEnergyProvider (n : String) (x : MLModelEnergyProvider) : (X.mlModelEnergyProvider.enc n x).isSome = true ↔ True := by
  rw [X.mlModelEnergyProvider, xw_struct X.mlModelEnergyProviderFields]
  simp only [X.mlModelEnergyProviderFields, xwF_nil, xwF_skip, xwF_attr, xwF_attrPtr, xwF_chardata, xwF_elem, xw_plain_simple, xw_plain_ref, xw_plain_struct, xw_ptr, xw_list_simple, xw_list_ref, xw_list_struct, xw_nlist_simple, xw_nlist_ref, xw_nlist_struct, xw_nptr, xw_licenses_field, xw_environmentVariables_field, xw_simple, xw_ref, MLModelEnergyProvider.toP, xw_externalReference, xw_mlModelEnergyMeasure, xw_organizationalEntity, and_true, true_and, implies_true]

theorem xw_mlModelEnergyConsumption (n : String) (x : MLModelEnergyConsumption) : (X.mlModelEnergyConsumption.enc n x).isSome = true ↔ True := by
  rw [X.mlModelEnergyConsumption, xw_struct X.mlModelEnergyConsumptionFields]
  simp only [X.mlModelEnergyConsumptionFields, xwF_nil, xwF_skip, xwF_attr, xwF_attrPtr, xwF_chardata, xwF_elem, xw_plain_simple, xw_plain_ref, xw_plain_struct, xw_ptr, xw_list_simple, xw_list_ref, xw_list_struct, xw_nlist_simple, xw_nlist_ref, xw_nlist_struct, xw_nptr, xw_licenses_field, xw_environmentVariables_field, xw_simple, xw_ref, MLModelEnergyConsumption.toP, xw_mlModelCO2Measure, xw_mlModelEnergyMeasure, xw_mlModelEnergyProvider, xw_property, and_true, true_and, implies_true]

theorem xw_mlModelCardEnvironmentalConsiderations (n : String) (x : MLModelCardEnvironmentalConsiderations) : (X.mlModelCardEnvironmentalConsiderations.enc n x).isSome = true ↔ True := by
  rw [X.mlModelCardEnvironmentalConsiderations, xw_struct X.mlModelCardEnvironmentalConsiderationsFields]
  simp only [X.mlModelCardEnvironmentalConsiderationsFields, xwF_nil, xwF_skip, xwF_attr, xwF_attrPtr, xwF_chardata, xwF_elem, xw_plain_simple, xw_plain_ref, xw_plain_struct, xw_ptr, xw_list_simple, xw_list_ref, xw_list_struct, xw_nlist_simple, xw_nlist_ref, xw_nlist_struct, xw_nptr, xw_licenses_field, xw_environmentVariables_field, xw_simple, xw_ref, MLModelCardEnvironmentalConsiderations.toP, xw_mlModelEnergyConsumption, xw_property, and_true, true_and, implies_true]

theorem xw_mlModelCardEthicalConsideration (n : String) (x : MLModelCardEthicalConsideration) : (X.mlModelCardEthicalConsideration.enc n x).isSome = true ↔ True := by
  rw [X.mlModelCardEthicalConsideration, xw_struct X.mlModelCardEthicalConsiderationFields]
  simp only [X.mlModelCardEthicalConsiderationFields, xwF_nil, xwF_skip, xwF_attr, xwF_attrPtr, xwF_chardata, xwF_elem, xw_plain_simple, xw_plain_ref, xw_plain_struct, xw_ptr, xw_list_simple, xw_list_ref, xw_list_struct, xw_nlist_simple, xw_nlist_ref, xw_nlist_struct, xw_nptr, xw_licenses_field, xw_environmentVariables_field, xw_simple, xw_ref, MLModelCardEthicalConsideration.toP, and_true, true_and, implies_true]

theorem xw_mlModelCardFairnessAssessment (n : String) (x : MLModelCardFairnessAssessment) : (X.mlModelCardFairnessAssessment.enc n x).isSome = true ↔ True := by
  rw [X.mlModelCardFairnessAssessment, xw_struct X.mlModelCardFairnessAssessmentFields]
  simp only [X.mlModelCardFairnessAssessmentFields, xwF_nil, xwF_skip, xwF_attr, xwF_attrPtr, xwF_chardata, xwF_elem, xw_plain_simple, xw_plain_ref, xw_plain_struct, xw_ptr, xw_list_simple, xw_list_ref, xw_list_struct, xw_nlist_simple, xw_nlist_ref, xw_nlist_struct, xw_nptr, xw_licenses_field, xw_environmentVariables_field, xw_simple, xw_ref, MLModelCardFairnessAssessment.toP, and_true, true_and, implies_true]

theorem xw_mlModelCardConsiderations (n : String) (x : MLModelCardConsiderations) : (X.mlModelCardConsiderations.enc n x).isSome = true ↔ True := by
  rw [X.mlModelCardConsiderations, xw_struct X.mlModelCardConsiderationsFields]
  simp only [X.mlModelCardConsiderationsFields, xwF_nil, xwF_skip, xwF_attr, xwF_attrPtr, xwF_chardata, xwF_elem, xw_plain_simple, xw_plain_ref, xw_plain_struct, xw_ptr, xw_list_simple, xw_list_ref, xw_list_struct, xw_nlist_simple, xw_nlist_ref, xw_nlist_struct, xw_nptr, xw_licenses_field, xw_environmentVariables_field, xw_simple, xw_ref, MLModelCardConsiderations.toP, xw_mlModelCardEnvironmentalConsiderations, xw_mlModelCardEthicalConsideration, xw_mlModelCardFairnessAssessment, and_true, true_and, implies_true]

theorem xw_mlDatasetChoice (n : String) (x : MLDatasetChoice) : (X.mlDatasetChoice.enc n x).isSome = true ↔ True := by
  simp only [X.mlDatasetChoice]
  split
  · rw [X.mlDatasetChoiceRef, xw_struct]
    simp only [xwF_nil, xwF_skip, xwF_attr, xwF_attrPtr, xwF_chardata, xwF_elem, xw_plain_simple, xw_plain_ref, xw_plain_struct, xw_ptr, xw_list_simple, xw_list_ref, xw_list_struct, xw_nlist_simple, xw_nlist_ref, xw_nlist_struct, xw_nptr, xw_licenses_field, xw_environmentVariables_field, xw_simple, xw_ref, and_true, true_and, implies_true]
  · cases x.componentData <;> simp [xw_componentData]

theorem xw_mlInputOutputParameters (n : String) (x : MLInputOutputParameters) : (X.mlInputOutputParameters.enc n x).isSome = true ↔ True := by
  rw [X.mlInputOutputParameters, xw_struct X.mlInputOutputParametersFields]
  simp only [X.mlInputOutputParametersFields, xwF_nil, xwF_skip, xwF_attr, xwF_attrPtr, xwF_chardata, xwF_elem, xw_plain_simple, xw_plain_ref, xw_plain_struct, xw_ptr, xw_list_simple, xw_list_ref, xw_list_struct, xw_nlist_simple, xw_nlist_ref, xw_nlist_struct, xw_nptr, xw_licenses_field, xw_environmentVariables_field, xw_simple, xw_ref, MLInputOutputParameters.toP, and_true, true_and, implies_true]

theorem xw_mlModelParametersApproach (n : String) (x : MLModelParametersApproach) : (X.mlModelParametersApproach.enc n x).isSome = true ↔ True := by
  rw [X.mlModelParametersApproach, xw_struct X.mlModelParametersApproachFields]
  simp only [X.mlModelParametersApproachFields, xwF_nil, xwF_skip, xwF_attr, xwF_attrPtr, xwF_chardata, xwF_elem, xw_plain_simple, xw_plain_ref, xw_plain_struct, xw_ptr, xw_list_simple, xw_list_ref, xw_list_struct, xw_nlist_simple, xw_nlist_ref, xw_nlist_struct, xw_nptr, xw_licenses_field, xw_environmentVariables_field, xw_simple, xw_ref, MLModelParametersApproach.toP, and_true, true_and, implies_true]

theorem xw_mlModelParameters (n : String) (x : MLModelParameters) : (X.mlModelParameters.enc n x).isSome = true ↔ True := by
  rw [X.mlModelParameters, xw_struct X.mlModelParametersFields]
  simp only [X.mlModelParametersFields, xwF_nil, xwF_skip, xwF_attr, xwF_attrPtr, xwF_chardata, xwF_elem, xw_plain_simple, xw_plain_ref, xw_plain_struct, xw_ptr, xw_list_simple, xw_list_ref, xw_list_struct, xw_nlist_simple, xw_nlist_ref, xw_nlist_struct, xw_nptr, xw_licenses_field, xw_environmentVariables_field, xw_simple, xw_ref, MLModelParameters.toP, xw_mlDatasetChoice, xw_mlInputOutputParameters, xw_mlModelParametersApproach, and_true, true_and, implies_true]

theorem xw_mlPerformanceMetricConfidenceInterval (n : String) (x : MLPerformanceMetricConfidenceInterval) : (X.mlPerformanceMetricConfidenceInterval.enc n x).isSome = true ↔ True := by
  rw [X.mlPerformanceMetricConfidenceInterval, xw_struct X.mlPerformanceMetricConfidenceIntervalFields]
  simp only [X.mlPerformanceMetricConfidenceIntervalFields, xwF_nil, xwF_skip, xwF_attr, xwF_attrPtr, xwF_chardata, xwF_elem, xw_plain_simple, xw_plain_ref, xw_plain_struct, xw_ptr, xw_list_simple, xw_list_ref, xw_list_struct, xw_nlist_simple, xw_nlist_ref, xw_nlist_struct, xw_nptr, xw_licenses_field, xw_environmentVariables_field, xw_simple, xw_ref, MLPerformanceMetricConfidenceInterval.toP, and_true, true_and, implies_true]

theorem xw_mlPerformanceMetric (n : String) (x : MLPerformanceMetric) : (X.mlPerformanceMetric.enc n x).isSome = true ↔ True := by
  rw [X.mlPerformanceMetric, xw_struct X.mlPerformanceMetricFields]
  simp only [X.mlPerformanceMetricFields, xwF_nil, xwF_skip, xwF_attr, xwF_attrPtr, xwF_chardata, xwF_elem, xw_plain_simple, xw_plain_ref, xw_plain_struct, xw_ptr, xw_list_simple, xw_list_ref, xw_list_struct, xw_nlist_simple, xw_nlist_ref, xw_nlist_struct, xw_nptr, xw_licenses_field, xw_environmentVariables_field, xw_simple, xw_ref, MLPerformanceMetric.toP, xw_mlPerformanceMetricConfidenceInterval, and_true, true_and, implies_true]

theorem xw_mlQuantitativeAnalysis (n : String) (x : MLQuantitativeAnalysis) : (X.mlQuantitativeAnalysis.enc n x).isSome = true ↔ True := by
  rw [X.mlQuantitativeAnalysis, xw_struct X.mlQuantitativeAnalysisFields]
  simp only [X.mlQuantitativeAnalysisFields, xwF_nil, xwF_skip, xwF_attr, xwF_attrPtr, xwF_chardata, xwF_elem, xw_plain_simple, xw_plain_ref, xw_plain_struct, xw_ptr, xw_list_simple, xw_list_ref, xw_list_struct, xw_nlist_simple, xw_nlist_ref, xw_nlist_struct, xw_nptr, xw_licenses_field, xw_environmentVariables_field, xw_simple, xw_ref, MLQuantitativeAnalysis.toP, xw_componentDataGraphics, xw_mlPerformanceMetric, and_true, true_and, implies_true]

theorem xw_mlModelCard (n : String) (x : MLModelCard) : (X.mlModelCard.enc n x).isSome = true ↔ True := by
  rw [X.mlModelCard, xw_struct X.mlModelCardFields]
  simp only [X.mlModelCardFields, xwF_nil, xwF_skip, xwF_attr, xwF_attrPtr, xwF_chardata, xwF_elem, xw_plain_simple, xw_plain_ref, xw_plain_struct, xw_ptr, xw_list_simple, xw_list_ref, xw_list_struct, xw_nlist_simple, xw_nlist_ref, xw_nlist_struct, xw_nptr, xw_licenses_field, xw_environmentVariables_field, xw_simple, xw_ref, MLModelCard.toP, xw_mlModelCardConsiderations, xw_mlModelParameters, xw_mlQuantitativeAnalysis, and_true, true_and, implies_true]

theorem xw_identifiableAction (n : String) (x : IdentifiableAction) : (X.identifiableAction.enc n x).isSome = true ↔ True := by
  rw [X.identifiableAction, xw_struct X.identifiableActionFields]
  simp only [X.identifiableActionFields, xwF_nil, xwF_skip, xwF_attr, xwF_attrPtr, xwF_chardata, xwF_elem, xw_plain_simple, xw_plain_ref, xw_plain_struct, xw_ptr, xw_list_simple, xw_list_ref, xw_list_struct, xw_nlist_simple, xw_nlist_ref, xw_nlist_struct, xw_nptr, xw_licenses_field, xw_environmentVariables_field, xw_simple, xw_ref, IdentifiableAction.toP, and_true, true_and, implies_true]

theorem xw_commit (n : String) (x : Commit) : (X.commit.enc n x).isSome = true ↔ True := by
  rw [X.commit, xw_struct X.commitFields]
  simp only [X.commitFields, xwF_nil, xwF_skip, xwF_attr, xwF_attrPtr, xwF_chardata, xwF_elem, xw_plain_simple, xw_plain_ref, xw_plain_struct, xw_ptr, xw_list_simple, xw_list_ref, xw_list_struct, xw_nlist_simple, xw_nlist_ref, xw_nlist_struct, xw_nptr, xw_licenses_field, xw_environmentVariables_field, xw_simple, xw_ref, Commit.toP, xw_identifiableAction, and_true, true_and, implies_true]

theorem xw_diff (n : String) (x : Diff) : (X.diff.enc n x).isSome = true ↔ True := by
  rw [X.diff, xw_struct X.diffFields]
  simp only [X.diffFields, xwF_nil, xwF_skip, xwF_attr, xwF_attrPtr, xwF_chardata, xwF_elem, xw_plain_simple, xw_plain_ref, xw_plain_struct, xw_ptr, xw_list_simple, xw_list_ref, xw_list_struct, xw_nlist_simple, xw_nlist_ref, xw_nlist_struct, xw_nptr, xw_licenses_field, xw_environmentVariables_field, xw_simple, xw_ref, Diff.toP, xw_attachedText, and_true, true_and, implies_true]

theorem xw_source (n : String) (x : Source) : (X.source.enc n x).isSome = true ↔ True := by
  rw [X.source, xw_struct X.sourceFields]
  simp only [X.sourceFields, xwF_nil, xwF_skip, xwF_attr, xwF_attrPtr, xwF_chardata, xwF_elem, xw_plain_simple, xw_plain_ref, xw_plain_struct, xw_ptr, xw_list_simple, xw_list_ref, xw_list_struct, xw_nlist_simple, xw_nlist_ref, xw_nlist_struct, xw_nptr, xw_licenses_field, xw_environmentVariables_field, xw_simple, xw_ref, Source.toP, and_true, true_and, implies_true]

theorem xw_issue (n : String) (x : Issue) : (X.issue.enc n x).isSome = true ↔ True := by
  rw [X.issue, xw_struct X.issueFields]
  simp only [X.issueFields, xwF_nil, xwF_skip, xwF_attr, xwF_attrPtr, xwF_chardata, xwF_elem, xw_plain_simple, xw_plain_ref, xw_plain_struct, xw_ptr, xw_list_simple, xw_list_ref, xw_list_struct, xw_nlist_simple, xw_nlist_ref, xw_nlist_struct, xw_nptr, xw_licenses_field, xw_environmentVariables_field, xw_simple, xw_ref, Issue.toP, xw_source, and_true, true_and, implies_true]

theorem xw_patch (n : String) (x : Patch) : (X.patch.enc n x).isSome = true ↔ True := by
  rw [X.patch, xw_struct X.patchFields]
  simp only [X.patchFields, xwF_nil, xwF_skip, xwF_attr, xwF_attrPtr, xwF_chardata, xwF_elem, xw_plain_simple, xw_plain_ref, xw_plain_struct, xw_ptr, xw_list_simple, xw_list_ref, xw_list_struct, xw_nlist_simple, xw_nlist_ref, xw_nlist_struct, xw_nptr, xw_licenses_field, xw_environmentVariables_field, xw_simple, xw_ref, Patch.toP, xw_diff, xw_issue, and_true, true_and, implies_true]

theorem xw_pedigreeWith (C : XCodec Component) [XNonEmpty C] (n : String) (x : Pedigree Component)
    (h1 : ∀ n, (∀ c ∈ x.ancestors.elems, (C.enc n c).isSome = true) ↔ XWritableComponents x.ancestors)
    (h2 : ∀ n, (∀ c ∈ x.descendants.elems, (C.enc n c).isSome = true) ↔ XWritableComponents x.descendants)
    (h3 : ∀ n, (∀ c ∈ x.variants.elems, (C.enc n c).isSome = true) ↔ XWritableComponents x.variants) :
    ((X.pedigree C).enc n x).isSome = true ↔ XWritablePedigree x := by
  rw [X.pedigree, xw_struct (X.pedigreeFields C)]
  simp only [X.pedigreeFields, xwF_nil, xwF_skip, xwF_attr, xwF_attrPtr, xwF_chardata, xwF_elem, xw_plain_simple, xw_plain_ref, xw_plain_struct, xw_ptr, xw_list_simple, xw_list_ref, xw_list_struct, xw_nlist_simple, xw_nlist_ref, xw_nlist_struct, xw_nptr, xw_licenses_field, xw_environmentVariables_field, xw_simple, xw_ref, Pedigree.toP, h1, h2, h3, xw_commit, xw_patch, and_true, true_and, implies_true]
  cases x; exact Iff.rfl

theorem xw_note (n : String) (x : Note) : (X.note.enc n x).isSome = true ↔ True := by
  rw [X.note, xw_struct X.noteFields]
  simp only [X.noteFields, xwF_nil, xwF_skip, xwF_attr, xwF_attrPtr, xwF_chardata, xwF_elem, xw_plain_simple, xw_plain_ref, xw_plain_struct, xw_ptr, xw_list_simple, xw_list_ref, xw_list_struct, xw_nlist_simple, xw_nlist_ref, xw_nlist_struct, xw_nptr, xw_licenses_field, xw_environmentVariables_field, xw_simple, xw_ref, Note.toP, xw_attachedText, and_true, true_and, implies_true]

theorem xw_releaseNotes (n : String) (x : ReleaseNotes) : (X.releaseNotes.enc n x).isSome = true ↔ True := by
  rw [X.releaseNotes, xw_struct X.releaseNotesFields]
  simp only [X.releaseNotesFields, xwF_nil, xwF_skip, xwF_attr, xwF_attrPtr, xwF_chardata, xwF_elem, xw_plain_simple, xw_plain_ref, xw_plain_struct, xw_ptr, xw_list_simple, xw_list_ref, xw_list_struct, xw_nlist_simple, xw_nlist_ref, xw_nlist_struct, xw_nptr, xw_licenses_field, xw_environmentVariables_field, xw_simple, xw_ref, ReleaseNotes.toP, xw_issue, xw_note, xw_property, and_true, true_and, implies_true]

theorem xw_swid (n : String) (x : SWID) : (X.swid.enc n x).isSome = true ↔ True := by
  rw [X.swid, xw_struct X.swidFields]
  simp only [X.swidFields, xwF_nil, xwF_skip, xwF_attr, xwF_attrPtr, xwF_chardata, xwF_elem, xw_plain_simple, xw_plain_ref, xw_plain_struct, xw_ptr, xw_list_simple, xw_list_ref, xw_list_struct, xw_nlist_simple, xw_nlist_ref, xw_nlist_struct, xw_nptr, xw_licenses_field, xw_environmentVariables_field, xw_simple, xw_ref, SWID.toP, xw_attachedText, and_true, true_and, implies_true]

theorem xw_asserterChoice (n : String) (x : AsserterChoice) : (X.asserterChoice.enc n x).isSome = true ↔ x.XWritable := by
  obtain ⟨o, i, r⟩ := x
  cases o <;> cases i <;> cases r <;> simp [X.asserterChoice, AsserterChoice.XWritable, xw_struct, xwF_elem, xwF_nil, xw_ptr,
    xw_organizationalEntity, xw_organizationalContact, xw_ref]

theorem xw_patentAssertion (n : String) (x : PatentAssertion) : (X.patentAssertion.enc n x).isSome = true ↔ x.XWritable := by
  rw [X.patentAssertion, xw_struct X.patentAssertionFields]
  simp only [X.patentAssertionFields, xwF_nil, xwF_skip, xwF_attr, xwF_attrPtr, xwF_chardata, xwF_elem, xw_plain_simple, xw_plain_ref, xw_plain_struct, xw_ptr, xw_list_simple, xw_list_ref, xw_list_struct, xw_nlist_simple, xw_nlist_ref, xw_nlist_struct, xw_nptr, xw_licenses_field, xw_environmentVariables_field, xw_simple, xw_ref, PatentAssertion.toP, PatentAssertion.XWritable, xw_asserterChoice, and_true, true_and, implies_true]

omit [XFloatIO] in
theorem xwritableComponentList_iff (xs : List Component) : XWritableComponentList xs ↔ ∀ c ∈ xs, c.XWritable := by
  induction xs with
  | nil => simp [XWritableComponentList]
  | cons x xs ih => simp [XWritableComponentList, ih]

omit [XFloatIO] in
theorem xWritableComponents_iff (p : PSlice Component) : XWritableComponents p ↔ ∀ c ∈ p.elems, c.XWritable := by
  cases p <;> simp [XWritableComponents, PSlice.elems, xwritableComponentList_iff]

theorem xw_componentWith (C : XCodec Component) [XNonEmpty C] (n : String) (x : Component)
    (h1 : ∀ n, (∀ c ∈ x.components.elems, (C.enc n c).isSome = true) ↔ XWritableComponents x.components)
    (h2 : ∀ n, ∀ p ∈ x.pedigree, (((X.pedigree C).enc n p).isSome = true ↔ XWritablePedigree p)) :
    ((X.componentWith C).enc n x).isSome = true ↔ x.XWritable := by
  have h3 : ∀ n, (∀ p ∈ x.pedigree, ((X.pedigree C).enc n p).isSome = true) ↔ XWritablePedigreeOpt x.pedigree := by
    intro n
    cases hp : x.pedigree with
    | none => simp [XWritablePedigreeOpt]
    | some p => simpa [XWritablePedigreeOpt] using h2 n p hp
  rw [X.componentWith, xw_struct (X.componentFields C)]
  simp only [X.componentFields, xwF_nil, xwF_skip, xwF_attr, xwF_attrPtr, xwF_chardata, xwF_elem, xw_plain_simple, xw_plain_ref, xw_plain_struct, xw_ptr, xw_list_simple, xw_list_ref, xw_list_struct, xw_nlist_simple, xw_nlist_ref, xw_nlist_struct, xw_nptr, xw_licenses_field, xw_environmentVariables_field, xw_simple, xw_ref, Component.toP, h1, h3, xw_componentData, xw_cryptoProperties, xw_evidence, xw_externalReference, xw_hash, xw_mlModelCard, xw_organizationalContact, xw_organizationalEntity, xw_patentAssertion, xw_property, xw_releaseNotes, xw_swid, and_true, true_and, implies_true]
  cases x; exact Iff.rfl

theorem xw_component (n : String) (x : Component) : (X.component.enc n x).isSome = true ↔ x.XWritable := by
  suffices H : ∀ m n (x : Component), x.height ≤ m → ((X.component.enc n x).isSome = true ↔ x.XWritable) from
    H x.height n x (Nat.le_refl _)
  intro m
  induction m with
  | zero => intro n x h; rw [Component.height_eq] at h; omega
  | succ m ih =>
    intro n x h
    rw [(xcomponent_sameAt_self x).enc]
    rw [Component.height_eq] at h
    have hm : max (heightComponents x.components) (heightPedigreeOpt x.pedigree) ≤ m := by omega
    rw [Nat.max_le] at hm
    have hl : ∀ p : PSlice Component, heightComponents p ≤ m → ∀ n,
        ((∀ c ∈ p.elems, (X.component.enc n c).isSome = true) ↔ XWritableComponents p) := by
      intro p hp n
      rw [heightComponents_le] at hp
      rw [xWritableComponents_iff]
      exact forall₂_congr fun c hc => ih n c (hp c hc)
    refine xw_componentWith _ n x (hl _ hm.1) ?_
    intro n p hp
    have hp : x.pedigree = some p := hp
    have hm := hm.2
    simp only [hp, heightPedigreeOpt, heightPedigree_eq, Nat.max_le] at hm
    exact xw_pedigreeWith _ n p (hl _ hm.1) (hl _ hm.2.1) (hl _ hm.2.2)

theorem xw_dataClassification (n : String) (x : DataClassification) :
    (X.dataClassification.enc n x).isSome = true ↔ True := by
  have h : ((XField.ptr "governance" X.dataGovernance).enc x.governance).isSome = true := by
    rw [xw_ptr]; simp [xw_dataGovernance]
  obtain ⟨gs, hg⟩ := Option.isSome_iff_exists.1 h
  simp [X.dataClassification, hg]

omit [XFloatIO] in
theorem xwritableServiceList_iff (xs : List Service) : XWritableServiceList xs ↔ ∀ c ∈ xs, c.XWritable := by
  induction xs with
  | nil => simp [XWritableServiceList]
  | cons x xs ih => simp [XWritableServiceList, ih]

omit [XFloatIO] in
theorem xWritableServices_iff (p : PSlice Service) : XWritableServices p ↔ ∀ c ∈ p.elems, c.XWritable := by
  cases p <;> simp [XWritableServices, PSlice.elems, xwritableServiceList_iff]

theorem xw_serviceWith (C : XCodec Service) [XNonEmpty C] (n : String) (x : Service)
    (h1 : ∀ n, (∀ c ∈ x.services.elems, (C.enc n c).isSome = true) ↔ XWritableServices x.services) :
    ((X.serviceWith C).enc n x).isSome = true ↔ x.XWritable := by
  rw [X.serviceWith, xw_struct (X.serviceFields C)]
  simp only [X.serviceFields, xwF_nil, xwF_skip, xwF_attr, xwF_attrPtr, xwF_chardata, xwF_elem, xw_plain_simple, xw_plain_ref, xw_plain_struct, xw_ptr, xw_list_simple, xw_list_ref, xw_list_struct, xw_nlist_simple, xw_nlist_ref, xw_nlist_struct, xw_nptr, xw_licenses_field, xw_environmentVariables_field, xw_simple, xw_ref, Service.toP, h1, xw_dataClassification, xw_externalReference, xw_organizationalEntity, xw_patentAssertion, xw_property, xw_releaseNotes, and_true, true_and, implies_true]
  cases x; exact Iff.rfl

theorem xw_service (n : String) (x : Service) : (X.service.enc n x).isSome = true ↔ x.XWritable := by
  suffices H : ∀ m n (x : Service), x.height ≤ m → ((X.service.enc n x).isSome = true ↔ x.XWritable) from
    H x.height n x (Nat.le_refl _)
  intro m
  induction m with
  | zero => intro n x h; rw [Service.height_eq] at h; omega
  | succ m ih =>
    intro n x h
    rw [(xservice_sameAt_self x).enc]
    rw [Service.height_eq] at h
    have hm : heightServices x.services ≤ m := by omega
    refine xw_serviceWith _ n x fun n => ?_
    rw [heightServices_le] at hm
    rw [xWritableServices_iff]
    exact forall₂_congr fun c hc => ih n c (hm c hc)

theorem xw_annotator (n : String) (x : Annotator) : (X.annotator.enc n x).isSome = true ↔ x.XWritable := by
  rw [X.annotator, xw_struct X.annotatorFields]
  simp only [X.annotatorFields, xwF_nil, xwF_skip, xwF_attr, xwF_attrPtr, xwF_chardata, xwF_elem, xw_plain_simple, xw_plain_ref, xw_plain_struct, xw_ptr, xw_list_simple, xw_list_ref, xw_list_struct, xw_nlist_simple, xw_nlist_ref, xw_nlist_struct, xw_nptr, xw_licenses_field, xw_environmentVariables_field, xw_simple, xw_ref, Annotator.toP, Annotator.XWritable, xw_component, xw_organizationalContact, xw_organizationalEntity, xw_service, and_true, true_and, implies_true]

theorem xw_annotation (n : String) (x : Annotation) : (X.annotation.enc n x).isSome = true ↔ x.XWritable := by
  rw [X.annotation, xw_struct X.annotationFields]
  simp only [X.annotationFields, xwF_nil, xwF_skip, xwF_attr, xwF_attrPtr, xwF_chardata, xwF_elem, xw_plain_simple, xw_plain_ref, xw_plain_struct, xw_ptr, xw_list_simple, xw_list_ref, xw_list_struct, xw_nlist_simple, xw_nlist_ref, xw_nlist_struct, xw_nptr, xw_licenses_field, xw_environmentVariables_field, xw_simple, xw_ref, Annotation.toP, Annotation.XWritable, xw_annotator, and_true, true_and, implies_true]

theorem xw_assessor (n : String) (x : Assessor) : (X.assessor.enc n x).isSome = true ↔ True := by
  rw [X.assessor, xw_struct X.assessorFields]
  simp only [X.assessorFields, xwF_nil, xwF_skip, xwF_attr, xwF_attrPtr, xwF_chardata, xwF_elem, xw_plain_simple, xw_plain_ref, xw_plain_struct, xw_ptr, xw_list_simple, xw_list_ref, xw_list_struct, xw_nlist_simple, xw_nlist_ref, xw_nlist_struct, xw_nptr, xw_licenses_field, xw_environmentVariables_field, xw_simple, xw_ref, Assessor.toP, xw_organizationalEntity, and_true, true_and, implies_true]

theorem xw_attestationConformance (n : String) (x : AttestationConformance) : (X.attestationConformance.enc n x).isSome = true ↔ True := by
  rw [X.attestationConformance, xw_struct X.attestationConformanceFields]
  simp only [X.attestationConformanceFields, xwF_nil, xwF_skip, xwF_attr, xwF_attrPtr, xwF_chardata, xwF_elem, xw_plain_simple, xw_plain_ref, xw_plain_struct, xw_ptr, xw_list_simple, xw_list_ref, xw_list_struct, xw_nlist_simple, xw_nlist_ref, xw_nlist_struct, xw_nptr, xw_licenses_field, xw_environmentVariables_field, xw_simple, xw_ref, AttestationConformance.toP, and_true, true_and, implies_true]

theorem xw_attestationConfidence (n : String) (x : AttestationConfidence) : (X.attestationConfidence.enc n x).isSome = true ↔ True := by
  rw [X.attestationConfidence, xw_struct X.attestationConfidenceFields]
  simp only [X.attestationConfidenceFields, xwF_nil, xwF_skip, xwF_attr, xwF_attrPtr, xwF_chardata, xwF_elem, xw_plain_simple, xw_plain_ref, xw_plain_struct, xw_ptr, xw_list_simple, xw_list_ref, xw_list_struct, xw_nlist_simple, xw_nlist_ref, xw_nlist_struct, xw_nptr, xw_licenses_field, xw_environmentVariables_field, xw_simple, xw_ref, AttestationConfidence.toP, and_true, true_and, implies_true]

theorem xw_attestationMap (n : String) (x : AttestationMap) : (X.attestationMap.enc n x).isSome = true ↔ True := by
  rw [X.attestationMap, xw_struct X.attestationMapFields]
  simp only [X.attestationMapFields, xwF_nil, xwF_skip, xwF_attr, xwF_attrPtr, xwF_chardata, xwF_elem, xw_plain_simple, xw_plain_ref, xw_plain_struct, xw_ptr, xw_list_simple, xw_list_ref, xw_list_struct, xw_nlist_simple, xw_nlist_ref, xw_nlist_struct, xw_nptr, xw_licenses_field, xw_environmentVariables_field, xw_simple, xw_ref, AttestationMap.toP, xw_attestationConfidence, xw_attestationConformance, and_true, true_and, implies_true]

theorem xw_attestation (n : String) (x : Attestation) : (X.attestation.enc n x).isSome = true ↔ True := by
  rw [X.attestation, xw_struct X.attestationFields]
  simp only [X.attestationFields, xwF_nil, xwF_skip, xwF_attr, xwF_attrPtr, xwF_chardata, xwF_elem, xw_plain_simple, xw_plain_ref, xw_plain_struct, xw_ptr, xw_list_simple, xw_list_ref, xw_list_struct, xw_nlist_simple, xw_nlist_ref, xw_nlist_struct, xw_nptr, xw_licenses_field, xw_environmentVariables_field, xw_simple, xw_ref, Attestation.toP, xw_attestationMap, and_true, true_and, implies_true]

theorem xw_composition (n : String) (x : Composition) : (X.composition.enc n x).isSome = true ↔ True := by
  rw [X.composition, xw_struct X.compositionFields]
  simp only [X.compositionFields, xwF_nil, xwF_skip, xwF_attr, xwF_attrPtr, xwF_chardata, xwF_elem, xw_plain_simple, xw_plain_ref, xw_plain_struct, xw_ptr, xw_list_simple, xw_list_ref, xw_list_struct, xw_nlist_simple, xw_nlist_ref, xw_nlist_struct, xw_nptr, xw_licenses_field, xw_environmentVariables_field, xw_simple, xw_ref, Composition.toP, and_true, true_and, implies_true]

theorem xw_claim (n : String) (x : Claim) : (X.claim.enc n x).isSome = true ↔ True := by
  rw [X.claim, xw_struct X.claimFields]
  simp only [X.claimFields, xwF_nil, xwF_skip, xwF_attr, xwF_attrPtr, xwF_chardata, xwF_elem, xw_plain_simple, xw_plain_ref, xw_plain_struct, xw_ptr, xw_list_simple, xw_list_ref, xw_list_struct, xw_nlist_simple, xw_nlist_ref, xw_nlist_struct, xw_nptr, xw_licenses_field, xw_environmentVariables_field, xw_simple, xw_ref, Claim.toP, xw_externalReference, and_true, true_and, implies_true]

theorem xw_evidenceDataContents (n : String) (x : EvidenceDataContents) : (X.evidenceDataContents.enc n x).isSome = true ↔ True := by
  rw [X.evidenceDataContents, xw_struct X.evidenceDataContentsFields]
  simp only [X.evidenceDataContentsFields, xwF_nil, xwF_skip, xwF_attr, xwF_attrPtr, xwF_chardata, xwF_elem, xw_plain_simple, xw_plain_ref, xw_plain_struct, xw_ptr, xw_list_simple, xw_list_ref, xw_list_struct, xw_nlist_simple, xw_nlist_ref, xw_nlist_struct, xw_nptr, xw_licenses_field, xw_environmentVariables_field, xw_simple, xw_ref, EvidenceDataContents.toP, xw_attachedText, and_true, true_and, implies_true]

theorem xw_evidenceData (n : String) (x : EvidenceData) : (X.evidenceData.enc n x).isSome = true ↔ True := by
  rw [X.evidenceData, xw_struct X.evidenceDataFields]
  simp only [X.evidenceDataFields, xwF_nil, xwF_skip, xwF_attr, xwF_attrPtr, xwF_chardata, xwF_elem, xw_plain_simple, xw_plain_ref, xw_plain_struct, xw_ptr, xw_list_simple, xw_list_ref, xw_list_struct, xw_nlist_simple, xw_nlist_ref, xw_nlist_struct, xw_nptr, xw_licenses_field, xw_environmentVariables_field, xw_simple, xw_ref, EvidenceData.toP, xw_dataClassification, xw_dataGovernance, xw_evidenceDataContents, and_true, true_and, implies_true]

theorem xw_declarationEvidence (n : String) (x : DeclarationEvidence) : (X.declarationEvidence.enc n x).isSome = true ↔ True := by
  rw [X.declarationEvidence, xw_struct X.declarationEvidenceFields]
  simp only [X.declarationEvidenceFields, xwF_nil, xwF_skip, xwF_attr, xwF_attrPtr, xwF_chardata, xwF_elem, xw_plain_simple, xw_plain_ref, xw_plain_struct, xw_ptr, xw_list_simple, xw_list_ref, xw_list_struct, xw_nlist_simple, xw_nlist_ref, xw_nlist_struct, xw_nptr, xw_licenses_field, xw_environmentVariables_field, xw_simple, xw_ref, DeclarationEvidence.toP, xw_evidenceData, xw_organizationalContact, and_true, true_and, implies_true]

theorem xw_targets (n : String) (x : Targets) : (X.targets.enc n x).isSome = true ↔ x.XWritable := by
  rw [X.targets, xw_struct X.targetsFields]
  simp only [X.targetsFields, xwF_nil, xwF_skip, xwF_attr, xwF_attrPtr, xwF_chardata, xwF_elem, xw_plain_simple, xw_plain_ref, xw_plain_struct, xw_ptr, xw_list_simple, xw_list_ref, xw_list_struct, xw_nlist_simple, xw_nlist_ref, xw_nlist_struct, xw_nptr, xw_licenses_field, xw_environmentVariables_field, xw_simple, xw_ref, Targets.toP, Targets.XWritable, xw_component, xw_organizationalEntity, xw_service, and_true, true_and, implies_true]

theorem xw_signatory (n : String) (x : Signatory) : (X.signatory.enc n x).isSome = true ↔ True := by
  rw [X.signatory, xw_struct X.signatoryFields]
  simp only [X.signatoryFields, xwF_nil, xwF_skip, xwF_attr, xwF_attrPtr, xwF_chardata, xwF_elem, xw_plain_simple, xw_plain_ref, xw_plain_struct, xw_ptr, xw_list_simple, xw_list_ref, xw_list_struct, xw_nlist_simple, xw_nlist_ref, xw_nlist_struct, xw_nptr, xw_licenses_field, xw_environmentVariables_field, xw_simple, xw_ref, Signatory.toP, xw_externalReference, xw_organizationalEntity, and_true, true_and, implies_true]

theorem xw_affirmation (n : String) (x : Affirmation) : (X.affirmation.enc n x).isSome = true ↔ True := by
  rw [X.affirmation, xw_struct X.affirmationFields]
  simp only [X.affirmationFields, xwF_nil, xwF_skip, xwF_attr, xwF_attrPtr, xwF_chardata, xwF_elem, xw_plain_simple, xw_plain_ref, xw_plain_struct, xw_ptr, xw_list_simple, xw_list_ref, xw_list_struct, xw_nlist_simple, xw_nlist_ref, xw_nlist_struct, xw_nptr, xw_licenses_field, xw_environmentVariables_field, xw_simple, xw_ref, Affirmation.toP, xw_signatory, and_true, true_and, implies_true]

theorem xw_declarations (n : String) (x : Declarations) : (X.declarations.enc n x).isSome = true ↔ x.XWritable := by
  rw [X.declarations, xw_struct X.declarationsFields]
  simp only [X.declarationsFields, xwF_nil, xwF_skip, xwF_attr, xwF_attrPtr, xwF_chardata, xwF_elem, xw_plain_simple, xw_plain_ref, xw_plain_struct, xw_ptr, xw_list_simple, xw_list_ref, xw_list_struct, xw_nlist_simple, xw_nlist_ref, xw_nlist_struct, xw_nptr, xw_licenses_field, xw_environmentVariables_field, xw_simple, xw_ref, Declarations.toP, Declarations.XWritable, xw_affirmation, xw_assessor, xw_attestation, xw_claim, xw_declarationEvidence, xw_targets, and_true, true_and, implies_true]

theorem xw_priorityApplication (n : String) (x : PriorityApplication) : (X.priorityApplication.enc n x).isSome = true ↔ True := by
  rw [X.priorityApplication, xw_struct X.priorityApplicationFields]
  simp only [X.priorityApplicationFields, xwF_nil, xwF_skip, xwF_attr, xwF_attrPtr, xwF_chardata, xwF_elem, xw_plain_simple, xw_plain_ref, xw_plain_struct, xw_ptr, xw_list_simple, xw_list_ref, xw_list_struct, xw_nlist_simple, xw_nlist_ref, xw_nlist_struct, xw_nptr, xw_licenses_field, xw_environmentVariables_field, xw_simple, xw_ref, PriorityApplication.toP, and_true, true_and, implies_true]

theorem xw_patent (n : String) (x : Patent) : (X.patent.enc n x).isSome = true ↔ True := by
  rw [X.patent, xw_struct X.patentFields]
  simp only [X.patentFields, xwF_nil, xwF_skip, xwF_attr, xwF_attrPtr, xwF_chardata, xwF_elem, xw_plain_simple, xw_plain_ref, xw_plain_struct, xw_ptr, xw_list_simple, xw_list_ref, xw_list_struct, xw_nlist_simple, xw_nlist_ref, xw_nlist_struct, xw_nptr, xw_licenses_field, xw_environmentVariables_field, xw_simple, xw_ref, Patent.toP, xw_externalReference, xw_organizationalEntityOrContact, xw_priorityApplication, and_true, true_and, implies_true]

theorem xw_patentFamily (n : String) (x : PatentFamily) : (X.patentFamily.enc n x).isSome = true ↔ True := by
  rw [X.patentFamily, xw_struct X.patentFamilyFields]
  simp only [X.patentFamilyFields, xwF_nil, xwF_skip, xwF_attr, xwF_attrPtr, xwF_chardata, xwF_elem, xw_plain_simple, xw_plain_ref, xw_plain_struct, xw_ptr, xw_list_simple, xw_list_ref, xw_list_struct, xw_nlist_simple, xw_nlist_ref, xw_nlist_struct, xw_nptr, xw_licenses_field, xw_environmentVariables_field, xw_simple, xw_ref, PatentFamily.toP, xw_externalReference, xw_priorityApplication, and_true, true_and, implies_true]


theorem xw_standardRequirement (n : String) (x : StandardRequirement) : (X.standardRequirement.enc n x).isSome = true ↔ True := by
  rw [X.standardRequirement, xw_struct X.standardRequirementFields]
  simp only [X.standardRequirementFields, xwF_nil, xwF_skip, xwF_attr, xwF_attrPtr, xwF_chardata, xwF_elem, xw_plain_simple, xw_plain_ref, xw_plain_struct, xw_ptr, xw_list_simple, xw_list_ref, xw_list_struct, xw_nlist_simple, xw_nlist_ref, xw_nlist_struct, xw_nptr, xw_licenses_field, xw_environmentVariables_field, xw_simple, xw_ref, StandardRequirement.toP, xw_externalReference, xw_property, and_true, true_and, implies_true]

theorem xw_standardLevel (n : String) (x : StandardLevel) : (X.standardLevel.enc n x).isSome = true ↔ True := by
  rw [X.standardLevel, xw_struct X.standardLevelFields]
  simp only [X.standardLevelFields, xwF_nil, xwF_skip, xwF_attr, xwF_attrPtr, xwF_chardata, xwF_elem, xw_plain_simple, xw_plain_ref, xw_plain_struct, xw_ptr, xw_list_simple, xw_list_ref, xw_list_struct, xw_nlist_simple, xw_nlist_ref, xw_nlist_struct, xw_nptr, xw_licenses_field, xw_environmentVariables_field, xw_simple, xw_ref, StandardLevel.toP, and_true, true_and, implies_true]

theorem xw_standardDefinition (n : String) (x : StandardDefinition) : (X.standardDefinition.enc n x).isSome = true ↔ True := by
  rw [X.standardDefinition, xw_struct X.standardDefinitionFields]
  simp only [X.standardDefinitionFields, xwF_nil, xwF_skip, xwF_attr, xwF_attrPtr, xwF_chardata, xwF_elem, xw_plain_simple, xw_plain_ref, xw_plain_struct, xw_ptr, xw_list_simple, xw_list_ref, xw_list_struct, xw_nlist_simple, xw_nlist_ref, xw_nlist_struct, xw_nptr, xw_licenses_field, xw_environmentVariables_field, xw_simple, xw_ref, StandardDefinition.toP, xw_externalReference, xw_standardLevel, xw_standardRequirement, and_true, true_and, implies_true]

theorem xw_patentChoice (x : PatentChoice) : (X.patentChoiceEnc x).isSome = true ↔ True := by
  unfold X.patentChoiceEnc
  split <;> simp [xw_patent, xw_patentFamily]

theorem xw_enclosed {α : Type} (name : String) (f : α → Option (List Xml)) (h : ∀ a, (f a).isSome = true ↔ True) (p : PSlice α) :
    (X.enclosed name f p).isSome = true := by
  cases p <;> simp [X.enclosed, xw_encEach, h]

theorem xw_definitions (n : String) (x : Definitions) : (X.definitions.enc n x).isSome = true ↔ True := by
  obtain ⟨a, ha⟩ := Option.isSome_iff_exists.1 (xw_enclosed "standards"
    (fun s => (X.standardDefinition.enc "standard" s).map (·.toList)) (fun s => by simp [xw_standardDefinition]) x.standards)
  obtain ⟨b, hb⟩ := Option.isSome_iff_exists.1 (xw_enclosed "patents" X.patentChoiceEnc xw_patentChoice x.patents)
  simp [X.definitions, ha, hb]

theorem xw_dependency (n : String) (x : Dependency) : (X.dependency.enc n x).isSome = true ↔ True := by
  show ((XCodec.struct X.dependencyFields Dependency.toP Dependency.ofP).enc n x).isSome = true ↔ _
  rw [xw_struct X.dependencyFields]
  simp only [X.dependencyFields, xwF_nil, xwF_skip, xwF_attr, xwF_attrPtr, xwF_chardata, xwF_elem, xw_plain_simple, xw_plain_ref, xw_plain_struct, xw_ptr, xw_list_simple, xw_list_ref, xw_list_struct, xw_nlist_simple, xw_nlist_ref, xw_nlist_struct, xw_nptr, xw_licenses_field, xw_environmentVariables_field, xw_simple, xw_ref, xw_dependencyRef, and_true, true_and, implies_true]

theorem xw_resourceReferenceChoice (n : String) (x : ResourceReferenceChoice) : (X.resourceReferenceChoice.enc n x).isSome = true ↔ True := by
  rw [X.resourceReferenceChoice, xw_struct X.resourceReferenceChoiceFields]
  simp only [X.resourceReferenceChoiceFields, xwF_nil, xwF_skip, xwF_attr, xwF_attrPtr, xwF_chardata, xwF_elem, xw_plain_simple, xw_plain_ref, xw_plain_struct, xw_ptr, xw_list_simple, xw_list_ref, xw_list_struct, xw_nlist_simple, xw_nlist_ref, xw_nlist_struct, xw_nptr, xw_licenses_field, xw_environmentVariables_field, xw_simple, xw_ref, ResourceReferenceChoice.toP, xw_externalReference, and_true, true_and, implies_true]


theorem xw_parameter (n : String) (x : Parameter) : (X.parameter.enc n x).isSome = true ↔ True := by
  rw [X.parameter, xw_struct X.parameterFields]
  simp only [X.parameterFields, xwF_nil, xwF_skip, xwF_attr, xwF_attrPtr, xwF_chardata, xwF_elem, xw_plain_simple, xw_plain_ref, xw_plain_struct, xw_ptr, xw_list_simple, xw_list_ref, xw_list_struct, xw_nlist_simple, xw_nlist_ref, xw_nlist_struct, xw_nptr, xw_licenses_field, xw_environmentVariables_field, xw_simple, xw_ref, Parameter.toP, and_true, true_and, implies_true]

theorem xw_taskInput (n : String) (x : TaskInput) : (X.taskInput.enc n x).isSome = true ↔ x.XWritable := by
  rw [X.taskInput, xw_struct X.taskInputFields]
  simp only [X.taskInputFields, xwF_nil, xwF_skip, xwF_attr, xwF_attrPtr, xwF_chardata, xwF_elem, xw_plain_simple, xw_plain_ref, xw_plain_struct, xw_ptr, xw_list_simple, xw_list_ref, xw_list_struct, xw_nlist_simple, xw_nlist_ref, xw_nlist_struct, xw_nptr, xw_licenses_field, xw_environmentVariables_field, xw_simple, xw_ref, TaskInput.toP, TaskInput.XWritable, xw_attachedText, xw_parameter, xw_property, xw_resourceReferenceChoice, and_true, true_and, implies_true]

theorem xw_taskOutput (n : String) (x : TaskOutput) : (X.taskOutput.enc n x).isSome = true ↔ x.XWritable := by
  rw [X.taskOutput, xw_struct X.taskOutputFields]
  simp only [X.taskOutputFields, xwF_nil, xwF_skip, xwF_attr, xwF_attrPtr, xwF_chardata, xwF_elem, xw_plain_simple, xw_plain_ref, xw_plain_struct, xw_ptr, xw_list_simple, xw_list_ref, xw_list_struct, xw_nlist_simple, xw_nlist_ref, xw_nlist_struct, xw_nptr, xw_licenses_field, xw_environmentVariables_field, xw_simple, xw_ref, TaskOutput.toP, TaskOutput.XWritable, xw_attachedText, xw_parameter, xw_property, xw_resourceReferenceChoice, and_true, true_and, implies_true]

theorem xw_taskCommand (n : String) (x : TaskCommand) : (X.taskCommand.enc n x).isSome = true ↔ True := by
  rw [X.taskCommand, xw_struct X.taskCommandFields]
  simp only [X.taskCommandFields, xwF_nil, xwF_skip, xwF_attr, xwF_attrPtr, xwF_chardata, xwF_elem, xw_plain_simple, xw_plain_ref, xw_plain_struct, xw_ptr, xw_list_simple, xw_list_ref, xw_list_struct, xw_nlist_simple, xw_nlist_ref, xw_nlist_struct, xw_nptr, xw_licenses_field, xw_environmentVariables_field, xw_simple, xw_ref, TaskCommand.toP, xw_property, and_true, true_and, implies_true]

theorem xw_taskStep (n : String) (x : TaskStep) : (X.taskStep.enc n x).isSome = true ↔ True := by
  rw [X.taskStep, xw_struct X.taskStepFields]
  simp only [X.taskStepFields, xwF_nil, xwF_skip, xwF_attr, xwF_attrPtr, xwF_chardata, xwF_elem, xw_plain_simple, xw_plain_ref, xw_plain_struct, xw_ptr, xw_list_simple, xw_list_ref, xw_list_struct, xw_nlist_simple, xw_nlist_ref, xw_nlist_struct, xw_nptr, xw_licenses_field, xw_environmentVariables_field, xw_simple, xw_ref, TaskStep.toP, xw_property, xw_taskCommand, and_true, true_and, implies_true]

theorem xw_event (n : String) (x : Event) : (X.event.enc n x).isSome = true ↔ True := by
  rw [X.event, xw_struct X.eventFields]
  simp only [X.eventFields, xwF_nil, xwF_skip, xwF_attr, xwF_attrPtr, xwF_chardata, xwF_elem, xw_plain_simple, xw_plain_ref, xw_plain_struct, xw_ptr, xw_list_simple, xw_list_ref, xw_list_struct, xw_nlist_simple, xw_nlist_ref, xw_nlist_struct, xw_nptr, xw_licenses_field, xw_environmentVariables_field, xw_simple, xw_ref, Event.toP, xw_attachedText, xw_property, xw_resourceReferenceChoice, and_true, true_and, implies_true]

theorem xw_taskTriggerCondition (n : String) (x : TaskTriggerCondition) : (X.taskTriggerCondition.enc n x).isSome = true ↔ True := by
  rw [X.taskTriggerCondition, xw_struct X.taskTriggerConditionFields]
  simp only [X.taskTriggerConditionFields, xwF_nil, xwF_skip, xwF_attr, xwF_attrPtr, xwF_chardata, xwF_elem, xw_plain_simple, xw_plain_ref, xw_plain_struct, xw_ptr, xw_list_simple, xw_list_ref, xw_list_struct, xw_nlist_simple, xw_nlist_ref, xw_nlist_struct, xw_nptr, xw_licenses_field, xw_environmentVariables_field, xw_simple, xw_ref, TaskTriggerCondition.toP, xw_property, and_true, true_and, implies_true]

theorem xw_taskTrigger (n : String) (x : TaskTrigger) : (X.taskTrigger.enc n x).isSome = true ↔ x.XWritable := by
  rw [X.taskTrigger, xw_struct X.taskTriggerFields]
  simp only [X.taskTriggerFields, xwF_nil, xwF_skip, xwF_attr, xwF_attrPtr, xwF_chardata, xwF_elem, xw_plain_simple, xw_plain_ref, xw_plain_struct, xw_ptr, xw_list_simple, xw_list_ref, xw_list_struct, xw_nlist_simple, xw_nlist_ref, xw_nlist_struct, xw_nptr, xw_licenses_field, xw_environmentVariables_field, xw_simple, xw_ref, TaskTrigger.toP, TaskTrigger.XWritable, xw_event, xw_property, xw_resourceReferenceChoice, xw_taskInput, xw_taskOutput, xw_taskTriggerCondition, and_true, true_and, implies_true]

theorem xw_volume (n : String) (x : Volume) : (X.volume.enc n x).isSome = true ↔ True := by
  rw [X.volume, xw_struct X.volumeFields]
  simp only [X.volumeFields, xwF_nil, xwF_skip, xwF_attr, xwF_attrPtr, xwF_chardata, xwF_elem, xw_plain_simple, xw_plain_ref, xw_plain_struct, xw_ptr, xw_list_simple, xw_list_ref, xw_list_struct, xw_nlist_simple, xw_nlist_ref, xw_nlist_struct, xw_nptr, xw_licenses_field, xw_environmentVariables_field, xw_simple, xw_ref, Volume.toP, xw_property, and_true, true_and, implies_true]

theorem xw_taskWorkspace (n : String) (x : TaskWorkspace) : (X.taskWorkspace.enc n x).isSome = true ↔ True := by
  rw [X.taskWorkspace, xw_struct X.taskWorkspaceFields]
  simp only [X.taskWorkspaceFields, xwF_nil, xwF_skip, xwF_attr, xwF_attrPtr, xwF_chardata, xwF_elem, xw_plain_simple, xw_plain_ref, xw_plain_struct, xw_ptr, xw_list_simple, xw_list_ref, xw_list_struct, xw_nlist_simple, xw_nlist_ref, xw_nlist_struct, xw_nptr, xw_licenses_field, xw_environmentVariables_field, xw_simple, xw_ref, TaskWorkspace.toP, xw_property, xw_resourceReferenceChoice, xw_volume, and_true, true_and, implies_true]

theorem xw_task (n : String) (x : Task) : (X.task.enc n x).isSome = true ↔ x.XWritable := by
  rw [X.task, xw_struct X.taskFields]
  simp only [X.taskFields, xwF_nil, xwF_skip, xwF_attr, xwF_attrPtr, xwF_chardata, xwF_elem, xw_plain_simple, xw_plain_ref, xw_plain_struct, xw_ptr, xw_list_simple, xw_list_ref, xw_list_struct, xw_nlist_simple, xw_nlist_ref, xw_nlist_struct, xw_nptr, xw_licenses_field, xw_environmentVariables_field, xw_simple, xw_ref, Task.toP, Task.XWritable, xw_dependency, xw_property, xw_resourceReferenceChoice, xw_taskInput, xw_taskOutput, xw_taskStep, xw_taskTrigger, xw_taskWorkspace, and_true, true_and, implies_true]

theorem xw_workflow (n : String) (x : Workflow) : (X.workflow.enc n x).isSome = true ↔ x.XWritable := by
  rw [X.workflow, xw_struct X.workflowFields]
  simp only [X.workflowFields, xwF_nil, xwF_skip, xwF_attr, xwF_attrPtr, xwF_chardata, xwF_elem, xw_plain_simple, xw_plain_ref, xw_plain_struct, xw_ptr, xw_list_simple, xw_list_ref, xw_list_struct, xw_nlist_simple, xw_nlist_ref, xw_nlist_struct, xw_nptr, xw_licenses_field, xw_environmentVariables_field, xw_simple, xw_ref, Workflow.toP, Workflow.XWritable, xw_dependency, xw_property, xw_resourceReferenceChoice, xw_task, xw_taskInput, xw_taskOutput, xw_taskStep, xw_taskTrigger, xw_taskWorkspace, and_true, true_and, implies_true]

theorem xw_formula (n : String) (x : Formula) : (X.formula.enc n x).isSome = true ↔ x.XWritable := by
  rw [X.formula, xw_struct X.formulaFields]
  simp only [X.formulaFields, xwF_nil, xwF_skip, xwF_attr, xwF_attrPtr, xwF_chardata, xwF_elem, xw_plain_simple, xw_plain_ref, xw_plain_struct, xw_ptr, xw_list_simple, xw_list_ref, xw_list_struct, xw_nlist_simple, xw_nlist_ref, xw_nlist_struct, xw_nptr, xw_licenses_field, xw_environmentVariables_field, xw_simple, xw_ref, Formula.toP, Formula.XWritable, xw_component, xw_property, xw_service, xw_workflow, and_true, true_and, implies_true]

theorem xw_lifecycle (n : String) (x : Lifecycle) : (X.lifecycle.enc n x).isSome = true ↔ True := by
  rw [X.lifecycle, xw_struct X.lifecycleFields]
  simp only [X.lifecycleFields, xwF_nil, xwF_skip, xwF_attr, xwF_attrPtr, xwF_chardata, xwF_elem, xw_plain_simple, xw_plain_ref, xw_plain_struct, xw_ptr, xw_list_simple, xw_list_ref, xw_list_struct, xw_nlist_simple, xw_nlist_ref, xw_nlist_struct, xw_nptr, xw_licenses_field, xw_environmentVariables_field, xw_simple, xw_ref, Lifecycle.toP, and_true, true_and, implies_true]

theorem xw_tool (n : String) (x : Tool) : (X.tool.enc n x).isSome = true ↔ True := by
  rw [X.tool, xw_struct X.toolFields]
  simp only [X.toolFields, xwF_nil, xwF_skip, xwF_attr, xwF_attrPtr, xwF_chardata, xwF_elem, xw_plain_simple, xw_plain_ref, xw_plain_struct, xw_ptr, xw_list_simple, xw_list_ref, xw_list_struct, xw_nlist_simple, xw_nlist_ref, xw_nlist_struct, xw_nptr, xw_licenses_field, xw_environmentVariables_field, xw_simple, xw_ref, Tool.toP, xw_externalReference, xw_hash, and_true, true_and, implies_true]

theorem xw_toolsChoice (n : String) (x : ToolsChoice) : (X.toolsChoice.enc n x).isSome = true ↔ x.XWritable := by
  have hs : ∀ (t : PSlice Tool) (c : PSlice Component) (s : PSlice Service),
      ((XCodec.struct X.toolsChoiceFields id id).enc n (t, c, s, ())).isSome = true ↔
        (∀ y ∈ c.elems, Component.XWritable y) ∧ (∀ y ∈ s.elems, Service.XWritable y) := by
    intro t c s
    rw [xw_struct]
    simp only [id_eq, X.toolsChoiceFields, xwF_nil, xwF_skip, xwF_attr, xwF_attrPtr, xwF_chardata, xwF_elem, xw_plain_simple, xw_plain_ref, xw_plain_struct, xw_ptr, xw_list_simple, xw_list_ref, xw_list_struct, xw_nlist_simple, xw_nlist_ref, xw_nlist_struct, xw_nptr, xw_licenses_field, xw_environmentVariables_field, xw_simple, xw_ref, xw_component, xw_service, xw_tool, and_true, true_and, implies_true]
  obtain ⟨t, c, s⟩ := x
  simp only [X.toolsChoice, ToolsChoice.XWritable]
  split
  · rename_i h
    simp only [pslice_isNil] at h
    simp only [Option.isSome_none, Bool.false_eq_true, false_iff]
    grind
  · rename_i h
    simp only [pslice_isNil] at h
    split
    · rename_i h2
      rw [hs]
      have h3 : c = .nil ∧ s = .nil := by rw [pslice_isNil] at h2; grind
      simp [h3.1, h3.2, PSlice.elems]
    · rename_i h2
      have h2 : t = .nil := by simpa [pslice_isNil] using h2
      subst h2
      refine Iff.trans ?_ (and_iff_right (.inl rfl)).symm
      split
      · exact hs _ _ _
      · rename_i h3
        have h3 : c = .nil ∧ s = .nil := by simpa [pslice_isNil] using h3
        simp [h3.1, h3.2, PSlice.elems]

theorem xw_distributionConstraints (n : String) (x : DistributionConstraints) : (X.distributionConstraints.enc n x).isSome = true ↔ True := by
  rw [X.distributionConstraints, xw_struct X.distributionConstraintsFields]
  simp only [X.distributionConstraintsFields, xwF_nil, xwF_skip, xwF_attr, xwF_attrPtr, xwF_chardata, xwF_elem, xw_plain_simple, xw_plain_ref, xw_plain_struct, xw_ptr, xw_list_simple, xw_list_ref, xw_list_struct, xw_nlist_simple, xw_nlist_ref, xw_nlist_struct, xw_nptr, xw_licenses_field, xw_environmentVariables_field, xw_simple, xw_ref, DistributionConstraints.toP, and_true, true_and, implies_true]

theorem xw_metadata (n : String) (x : Metadata) : (X.metadata.enc n x).isSome = true ↔ x.XWritable := by
  rw [X.metadata, xw_struct X.metadataFields]
  simp only [X.metadataFields, xwF_nil, xwF_skip, xwF_attr, xwF_attrPtr, xwF_chardata, xwF_elem, xw_plain_simple, xw_plain_ref, xw_plain_struct, xw_ptr, xw_list_simple, xw_list_ref, xw_list_struct, xw_nlist_simple, xw_nlist_ref, xw_nlist_struct, xw_nptr, xw_licenses_field, xw_environmentVariables_field, xw_simple, xw_ref, Metadata.toP, Metadata.XWritable, xw_component, xw_distributionConstraints, xw_lifecycle, xw_organizationalContact, xw_organizationalEntity, xw_property, xw_toolsChoice, and_true, true_and, implies_true]

theorem xw_credits (n : String) (x : Credits) : (X.credits.enc n x).isSome = true ↔ True := by
  rw [X.credits, xw_struct X.creditsFields]
  simp only [X.creditsFields, xwF_nil, xwF_skip, xwF_attr, xwF_attrPtr, xwF_chardata, xwF_elem, xw_plain_simple, xw_plain_ref, xw_plain_struct, xw_ptr, xw_list_simple, xw_list_ref, xw_list_struct, xw_nlist_simple, xw_nlist_ref, xw_nlist_struct, xw_nptr, xw_licenses_field, xw_environmentVariables_field, xw_simple, xw_ref, Credits.toP, xw_organizationalContact, xw_organizationalEntity, and_true, true_and, implies_true]

theorem xw_proofOfConcept (n : String) (x : ProofOfConcept) : (X.proofOfConcept.enc n x).isSome = true ↔ True := by
  rw [X.proofOfConcept, xw_struct X.proofOfConceptFields]
  simp only [X.proofOfConceptFields, xwF_nil, xwF_skip, xwF_attr, xwF_attrPtr, xwF_chardata, xwF_elem, xw_plain_simple, xw_plain_ref, xw_plain_struct, xw_ptr, xw_list_simple, xw_list_ref, xw_list_struct, xw_nlist_simple, xw_nlist_ref, xw_nlist_struct, xw_nptr, xw_licenses_field, xw_environmentVariables_field, xw_simple, xw_ref, ProofOfConcept.toP, xw_attachedText, and_true, true_and, implies_true]

theorem xw_vulnerabilityAnalysis (n : String) (x : VulnerabilityAnalysis) : (X.vulnerabilityAnalysis.enc n x).isSome = true ↔ True := by
  rw [X.vulnerabilityAnalysis, xw_struct X.vulnerabilityAnalysisFields]
  simp only [X.vulnerabilityAnalysisFields, xwF_nil, xwF_skip, xwF_attr, xwF_attrPtr, xwF_chardata, xwF_elem, xw_plain_simple, xw_plain_ref, xw_plain_struct, xw_ptr, xw_list_simple, xw_list_ref, xw_list_struct, xw_nlist_simple, xw_nlist_ref, xw_nlist_struct, xw_nptr, xw_licenses_field, xw_environmentVariables_field, xw_simple, xw_ref, VulnerabilityAnalysis.toP, and_true, true_and, implies_true]

theorem xw_vulnerabilityRating (n : String) (x : VulnerabilityRating) : (X.vulnerabilityRating.enc n x).isSome = true ↔ True := by
  rw [X.vulnerabilityRating, xw_struct X.vulnerabilityRatingFields]
  simp only [X.vulnerabilityRatingFields, xwF_nil, xwF_skip, xwF_attr, xwF_attrPtr, xwF_chardata, xwF_elem, xw_plain_simple, xw_plain_ref, xw_plain_struct, xw_ptr, xw_list_simple, xw_list_ref, xw_list_struct, xw_nlist_simple, xw_nlist_ref, xw_nlist_struct, xw_nptr, xw_licenses_field, xw_environmentVariables_field, xw_simple, xw_ref, VulnerabilityRating.toP, xw_source, and_true, true_and, implies_true]

theorem xw_vulnerabilityReference (n : String) (x : VulnerabilityReference) : (X.vulnerabilityReference.enc n x).isSome = true ↔ True := by
  rw [X.vulnerabilityReference, xw_struct X.vulnerabilityReferenceFields]
  simp only [X.vulnerabilityReferenceFields, xwF_nil, xwF_skip, xwF_attr, xwF_attrPtr, xwF_chardata, xwF_elem, xw_plain_simple, xw_plain_ref, xw_plain_struct, xw_ptr, xw_list_simple, xw_list_ref, xw_list_struct, xw_nlist_simple, xw_nlist_ref, xw_nlist_struct, xw_nptr, xw_licenses_field, xw_environmentVariables_field, xw_simple, xw_ref, VulnerabilityReference.toP, xw_source, and_true, true_and, implies_true]

theorem xw_vulnerability (n : String) (x : Vulnerability) : (X.vulnerability.enc n x).isSome = true ↔ x.XWritable := by
  rw [X.vulnerability, xw_struct X.vulnerabilityFields]
  simp only [X.vulnerabilityFields, xwF_nil, xwF_skip, xwF_attr, xwF_attrPtr, xwF_chardata, xwF_elem, xw_plain_simple, xw_plain_ref, xw_plain_struct, xw_ptr, xw_list_simple, xw_list_ref, xw_list_struct, xw_nlist_simple, xw_nlist_ref, xw_nlist_struct, xw_nptr, xw_licenses_field, xw_environmentVariables_field, xw_simple, xw_ref, Vulnerability.toP, Vulnerability.XWritable, xw_advisory, xw_affects, xw_credits, xw_proofOfConcept, xw_property, xw_source, xw_toolsChoice, xw_vulnerabilityAnalysis, xw_vulnerabilityRating, xw_vulnerabilityReference, and_true, true_and, implies_true]

theorem xw_citation (n : String) (x : Citation) : (X.citation.enc n x).isSome = true ↔ True := by
  rw [X.citation, xw_struct X.citationFields]
  simp only [X.citationFields, xwF_nil, xwF_skip, xwF_attr, xwF_attrPtr, xwF_chardata, xwF_elem, xw_plain_simple, xw_plain_ref, xw_plain_struct, xw_ptr, xw_list_simple, xw_list_ref, xw_list_struct, xw_nlist_simple, xw_nlist_ref, xw_nlist_struct, xw_nptr, xw_licenses_field, xw_environmentVariables_field, xw_simple, xw_ref, Citation.toP, and_true, true_and, implies_true]

theorem xw_bom (n : String) (x : BOM) : (X.bom.enc n x).isSome = true ↔ x.XWritable := by
  rw [X.bom, xw_struct X.bomFields]
  simp only [X.bomFields, xwF_nil, xwF_skip, xwF_attr, xwF_attrPtr, xwF_chardata, xwF_elem, xw_plain_simple, xw_plain_ref, xw_plain_struct, xw_ptr, xw_list_simple, xw_list_ref, xw_list_struct, xw_nlist_simple, xw_nlist_ref, xw_nlist_struct, xw_nptr, xw_licenses_field, xw_environmentVariables_field, xw_simple, xw_ref, BOM.toP, BOM.XWritable, xw_annotation, xw_citation, xw_component, xw_composition, xw_declarations, xw_definitions, xw_dependency, xw_externalReference, xw_formula, xw_metadata, xw_property, xw_service, xw_vulnerability, and_true, true_and, implies_true]

/-! ## Integers -/

theorem xg_ref (r : BOMReference) : X.bomReference.good r ↔ True := by
  simp [X.bomReference, X.fresh, XCodec.struct, X.bomReferenceFields, XFields.good, XText.string]

theorem xg_dependencyRef (r : String) : X.dependencyRef.good r ↔ True := by
  simp [X.dependencyRef, XCodec.struct, X.bomReferenceFields, XFields.good, XText.string]

theorem xg_advisory (x : Advisory) : X.advisory.good x ↔ True := by
  show X.advisoryFields.good (Advisory.toP x) ↔ True
  simp only [X.advisoryFields, XFields.good, XField.plain, XField.ptr, XField.list, XField.nlist, XField.nptr, XField.slice, XCodec.simple, XText.string, XText.int, XText.bool, XText.f32, XText.f64, XText.bomReference, xg_ref, xg_dependencyRef, Advisory.toP, and_true, true_and, implies_true]

theorem xg_affectedVersions (x : AffectedVersions) : X.affectedVersions.good x ↔ True := by
  show X.affectedVersionsFields.good (AffectedVersions.toP x) ↔ True
  simp only [X.affectedVersionsFields, XFields.good, XField.plain, XField.ptr, XField.list, XField.nlist, XField.nptr, XField.slice, XCodec.simple, XText.string, XText.int, XText.bool, XText.f32, XText.f64, XText.bomReference, xg_ref, xg_dependencyRef, AffectedVersions.toP, and_true, true_and, implies_true]

theorem xg_affects (x : Affects) : X.affects.good x ↔ True := by
  show X.affectsFields.good (Affects.toP x) ↔ True
  simp only [X.affectsFields, XFields.good, XField.plain, XField.ptr, XField.list, XField.nlist, XField.nptr, XField.slice, XCodec.simple, XText.string, XText.int, XText.bool, XText.f32, XText.f64, XText.bomReference, xg_ref, xg_dependencyRef, Affects.toP, xg_affectedVersions, and_true, true_and, implies_true]

theorem xg_attachedText (x : AttachedText) : X.attachedText.good x ↔ True := by
  show X.attachedTextFields.good (AttachedText.toP x) ↔ True
  simp only [X.attachedTextFields, XFields.good, XField.plain, XField.ptr, XField.list, XField.nlist, XField.nptr, XField.slice, XCodec.simple, XText.string, XText.int, XText.bool, XText.f32, XText.f64, XText.bomReference, xg_ref, xg_dependencyRef, AttachedText.toP, and_true, true_and, implies_true]

theorem xg_property (x : Property) : X.property.good x ↔ True := by
  show X.propertyFields.good (Property.toP x) ↔ True
  simp only [X.propertyFields, XFields.good, XField.plain, XField.ptr, XField.list, XField.nlist, XField.nptr, XField.slice, XCodec.simple, XText.string, XText.int, XText.bool, XText.f32, XText.f64, XText.bomReference, xg_ref, xg_dependencyRef, Property.toP, and_true, true_and, implies_true]

theorem xg_componentDataContents (x : ComponentDataContents) : X.componentDataContents.good x ↔ True := by
  show X.componentDataContentsFields.good (ComponentDataContents.toP x) ↔ True
  simp only [X.componentDataContentsFields, XFields.good, XField.plain, XField.ptr, XField.list, XField.nlist, XField.nptr, XField.slice, XCodec.simple, XText.string, XText.int, XText.bool, XText.f32, XText.f64, XText.bomReference, xg_ref, xg_dependencyRef, ComponentDataContents.toP, xg_attachedText, xg_property, and_true, true_and, implies_true]

theorem xg_componentDataGraphic (x : ComponentDataGraphic) : X.componentDataGraphic.good x ↔ True := by
  show X.componentDataGraphicFields.good (ComponentDataGraphic.toP x) ↔ True
  simp only [X.componentDataGraphicFields, XFields.good, XField.plain, XField.ptr, XField.list, XField.nlist, XField.nptr, XField.slice, XCodec.simple, XText.string, XText.int, XText.bool, XText.f32, XText.f64, XText.bomReference, xg_ref, xg_dependencyRef, ComponentDataGraphic.toP, xg_attachedText, and_true, true_and, implies_true]

theorem xg_componentDataGraphics (x : ComponentDataGraphics) : X.componentDataGraphics.good x ↔ True := by
  show X.componentDataGraphicsFields.good (ComponentDataGraphics.toP x) ↔ True
  simp only [X.componentDataGraphicsFields, XFields.good, XField.plain, XField.ptr, XField.list, XField.nlist, XField.nptr, XField.slice, XCodec.simple, XText.string, XText.int, XText.bool, XText.f32, XText.f64, XText.bomReference, xg_ref, xg_dependencyRef, ComponentDataGraphics.toP, xg_componentDataGraphic, and_true, true_and, implies_true]

theorem xg_organizationalContact (x : OrganizationalContact) : X.organizationalContact.good x ↔ True := by
  show X.organizationalContactFields.good (OrganizationalContact.toP x) ↔ True
  simp only [X.organizationalContactFields, XFields.good, XField.plain, XField.ptr, XField.list, XField.nlist, XField.nptr, XField.slice, XCodec.simple, XText.string, XText.int, XText.bool, XText.f32, XText.f64, XText.bomReference, xg_ref, xg_dependencyRef, OrganizationalContact.toP, and_true, true_and, implies_true]

theorem xg_postalAddress (x : PostalAddress) : X.postalAddress.good x ↔ True := by
  show X.postalAddressFields.good (PostalAddress.toP x) ↔ True
  simp only [X.postalAddressFields, XFields.good, XField.plain, XField.ptr, XField.list, XField.nlist, XField.nptr, XField.slice, XCodec.simple, XText.string, XText.int, XText.bool, XText.f32, XText.f64, XText.bomReference, xg_ref, xg_dependencyRef, PostalAddress.toP, and_true, true_and, implies_true]

theorem xg_organizationalEntity (x : OrganizationalEntity) : X.organizationalEntity.good x ↔ True := by
  show X.organizationalEntityFields.good (OrganizationalEntity.toP x) ↔ True
  simp only [X.organizationalEntityFields, XFields.good, XField.plain, XField.ptr, XField.list, XField.nlist, XField.nptr, XField.slice, XCodec.simple, XText.string, XText.int, XText.bool, XText.f32, XText.f64, XText.bomReference, xg_ref, xg_dependencyRef, OrganizationalEntity.toP, xg_organizationalContact, xg_postalAddress, and_true, true_and, implies_true]

theorem xg_componentDataGovernanceResponsibleParty (x : ComponentDataGovernanceResponsibleParty) : X.componentDataGovernanceResponsibleParty.good x ↔ True := by
  show X.componentDataGovernanceResponsiblePartyFields.good (ComponentDataGovernanceResponsibleParty.toP x) ↔ True
  simp only [X.componentDataGovernanceResponsiblePartyFields, XFields.good, XField.plain, XField.ptr, XField.list, XField.nlist, XField.nptr, XField.slice, XCodec.simple, XText.string, XText.int, XText.bool, XText.f32, XText.f64, XText.bomReference, xg_ref, xg_dependencyRef, ComponentDataGovernanceResponsibleParty.toP, xg_organizationalContact, xg_organizationalEntity, and_true, true_and, implies_true]

theorem xg_dataGovernance (x : DataGovernance) : X.dataGovernance.good x ↔ True := by
  show X.dataGovernanceFields.good (DataGovernance.toP x) ↔ True
  simp only [X.dataGovernanceFields, XFields.good, XField.plain, XField.ptr, XField.list, XField.nlist, XField.nptr, XField.slice, XCodec.simple, XText.string, XText.int, XText.bool, XText.f32, XText.f64, XText.bomReference, xg_ref, xg_dependencyRef, DataGovernance.toP, xg_componentDataGovernanceResponsibleParty, and_true, true_and, implies_true]

theorem xg_componentData (x : ComponentData) : X.componentData.good x ↔ True := by
  show X.componentDataFields.good (ComponentData.toP x) ↔ True
  simp only [X.componentDataFields, XFields.good, XField.plain, XField.ptr, XField.list, XField.nlist, XField.nptr, XField.slice, XCodec.simple, XText.string, XText.int, XText.bool, XText.f32, XText.f64, XText.bomReference, xg_ref, xg_dependencyRef, ComponentData.toP, xg_componentDataContents, xg_componentDataGraphics, xg_dataGovernance, and_true, true_and, implies_true]

theorem xg_hash (x : Hash) : X.hash.good x ↔ True := by
  show X.hashFields.good (Hash.toP x) ↔ True
  simp only [X.hashFields, XFields.good, XField.plain, XField.ptr, XField.list, XField.nlist, XField.nptr, XField.slice, XCodec.simple, XText.string, XText.int, XText.bool, XText.f32, XText.f64, XText.bomReference, xg_ref, xg_dependencyRef, Hash.toP, and_true, true_and, implies_true]

theorem xg_relatedCryptographicAsset (x : RelatedCryptographicAsset) : X.relatedCryptographicAsset.good x ↔ True := by
  show X.relatedCryptographicAssetFields.good (RelatedCryptographicAsset.toP x) ↔ True
  simp only [X.relatedCryptographicAssetFields, XFields.good, XField.plain, XField.ptr, XField.list, XField.nlist, XField.nptr, XField.slice, XCodec.simple, XText.string, XText.int, XText.bool, XText.f32, XText.f64, XText.bomReference, xg_ref, xg_dependencyRef, RelatedCryptographicAsset.toP, and_true, true_and, implies_true]

theorem xg_certificateState (x : CertificateState) : X.certificateState.good x ↔ True := Iff.rfl

theorem xg_certificateExtension (x : CertificateExtension) : X.certificateExtension.good x ↔ True := Iff.rfl

theorem xg_certificateProperties (x : CertificateProperties) : X.certificateProperties.good x ↔ True := by
  show X.certificatePropertiesFields.good (CertificateProperties.toP x) ↔ True
  simp only [X.certificatePropertiesFields, XFields.good, XField.plain, XField.ptr, XField.list, XField.nlist, XField.nptr, XField.slice, XCodec.simple, XText.string, XText.int, XText.bool, XText.f32, XText.f64, XText.bomReference, xg_ref, xg_dependencyRef, CertificateProperties.toP, xg_certificateExtension, xg_certificateState, xg_hash, xg_relatedCryptographicAsset, and_true, true_and, implies_true]

theorem xg_cryptoAlgorithmProperties {x : CryptoAlgorithmProperties} (h : x.GoInts) : X.cryptoAlgorithmProperties.good x := by
  show X.cryptoAlgorithmPropertiesFields.good (CryptoAlgorithmProperties.toP x)
  simp only [X.cryptoAlgorithmPropertiesFields, XFields.good, XField.plain, XField.ptr, XField.list, XField.nlist, XField.nptr, XField.slice, XCodec.simple, XText.string, XText.int, XText.bool, XText.f32, XText.f64, XText.bomReference, xg_ref, xg_dependencyRef, CryptoAlgorithmProperties.toP, and_true, true_and, implies_true]
  exact ⟨h.1, h.2⟩

theorem xg_cipherSuite (x : CipherSuite) : X.cipherSuite.good x ↔ True := by
  show X.cipherSuiteFields.good (CipherSuite.toP x) ↔ True
  simp only [X.cipherSuiteFields, XFields.good, XField.plain, XField.ptr, XField.list, XField.nlist, XField.nptr, XField.slice, XCodec.simple, XText.string, XText.int, XText.bool, XText.f32, XText.f64, XText.bomReference, xg_ref, xg_dependencyRef, CipherSuite.toP, and_true, true_and, implies_true]

theorem xg_ikev2Auth (x : IKEv2Auth) : X.ikev2Auth.good x ↔ True := by
  simp only [X.ikev2Auth, X.ikev2, X.ikev2AuthFields, XFields.good, XField.plain, XField.ptr, XField.list, XField.nlist, XField.nptr, XField.slice, XCodec.simple, XText.string, XText.int, XText.bool, XText.f32, XText.f64, XText.bomReference, xg_ref, xg_dependencyRef, and_true, true_and, implies_true]

theorem xg_ikev2Enc {x : IKEv2Enc} (h : x.GoInts) : X.ikev2Enc.good x := by
  intro _
  simp only [X.ikev2EncFields, XFields.good, XField.plain, XField.ptr, XField.list, XField.nlist, XField.nptr, XField.slice, XCodec.simple, XText.string, XText.int, XText.bool, XText.f32, XText.f64, XText.bomReference, xg_ref, xg_dependencyRef, IKEv2Enc.toP, and_true, true_and, implies_true]
  exact h

theorem xg_ikev2Integ (x : IKEv2Integ) : X.ikev2Integ.good x ↔ True := by
  simp only [X.ikev2Integ, X.ikev2, X.ikev2IntegFields, XFields.good, XField.plain, XField.ptr, XField.list, XField.nlist, XField.nptr, XField.slice, XCodec.simple, XText.string, XText.int, XText.bool, XText.f32, XText.f64, XText.bomReference, xg_ref, xg_dependencyRef, and_true, true_and, implies_true]

theorem xg_ikev2Ke {x : IKEv2Ke} (h : x.GoInts) : X.ikev2Ke.good x := by
  intro _
  simp only [X.ikev2KeFields, XFields.good, XField.plain, XField.ptr, XField.list, XField.nlist, XField.nptr, XField.slice, XCodec.simple, XText.string, XText.int, XText.bool, XText.f32, XText.f64, XText.bomReference, xg_ref, xg_dependencyRef, IKEv2Ke.toP, and_true, true_and, implies_true]
  exact h

theorem xg_ikev2Prf (x : IKEv2Prf) : X.ikev2Prf.good x ↔ True := by
  simp only [X.ikev2Prf, X.ikev2, X.ikev2PrfFields, XFields.good, XField.plain, XField.ptr, XField.list, XField.nlist, XField.nptr, XField.slice, XCodec.simple, XText.string, XText.int, XText.bool, XText.f32, XText.f64, XText.bomReference, xg_ref, xg_dependencyRef, and_true, true_and, implies_true]

theorem xg_ikev2TransformTypes {x : IKEv2TransformTypes} (h : x.GoInts) : X.ikev2TransformTypes.good x := by
  show X.ikev2TransformTypesFields.good (IKEv2TransformTypes.toP x)
  simp only [X.ikev2TransformTypesFields, XFields.good, XField.plain, XField.ptr, XField.list, XField.nlist, XField.nptr, XField.slice, XCodec.simple, XText.string, XText.int, XText.bool, XText.f32, XText.f64, XText.bomReference, xg_ref, xg_dependencyRef, IKEv2TransformTypes.toP, xg_ikev2Auth, xg_ikev2Integ, xg_ikev2Prf, and_true, true_and, implies_true]
  exact ⟨fun y hy => xg_ikev2Enc (h.1 y hy), fun y hy => xg_ikev2Ke (h.2 y hy)⟩

theorem xg_cryptoProtocolProperties {x : CryptoProtocolProperties} (h : x.GoInts) : X.cryptoProtocolProperties.good x := by
  show X.cryptoProtocolPropertiesFields.good (CryptoProtocolProperties.toP x)
  simp only [X.cryptoProtocolPropertiesFields, XFields.good, XField.plain, XField.ptr, XField.list, XField.nlist, XField.nptr, XField.slice, XCodec.simple, XText.string, XText.int, XText.bool, XText.f32, XText.f64, XText.bomReference, xg_ref, xg_dependencyRef, CryptoProtocolProperties.toP, xg_cipherSuite, xg_relatedCryptographicAsset, and_true, true_and, implies_true]
  exact fun y hy => xg_ikev2TransformTypes (h y hy)

theorem xg_securedBy (x : SecuredBy) : X.securedBy.good x ↔ True := by
  show X.securedByFields.good (SecuredBy.toP x) ↔ True
  simp only [X.securedByFields, XFields.good, XField.plain, XField.ptr, XField.list, XField.nlist, XField.nptr, XField.slice, XCodec.simple, XText.string, XText.int, XText.bool, XText.f32, XText.f64, XText.bomReference, xg_ref, xg_dependencyRef, SecuredBy.toP, and_true, true_and, implies_true]

theorem xg_relatedCryptoMaterialProperties {x : RelatedCryptoMaterialProperties} (h : x.GoInts) : X.relatedCryptoMaterialProperties.good x := by
  show X.relatedCryptoMaterialPropertiesFields.good (RelatedCryptoMaterialProperties.toP x)
  simp only [X.relatedCryptoMaterialPropertiesFields, XFields.good, XField.plain, XField.ptr, XField.list, XField.nlist, XField.nptr, XField.slice, XCodec.simple, XText.string, XText.int, XText.bool, XText.f32, XText.f64, XText.bomReference, xg_ref, xg_dependencyRef, RelatedCryptoMaterialProperties.toP, xg_hash, xg_relatedCryptographicAsset, xg_securedBy, and_true, true_and, implies_true]
  exact h

theorem xg_cryptoProperties {x : CryptoProperties} (h : x.GoInts) : X.cryptoProperties.good x := by
  show X.cryptoPropertiesFields.good (CryptoProperties.toP x)
  simp only [X.cryptoPropertiesFields, XFields.good, XField.plain, XField.ptr, XField.list, XField.nlist, XField.nptr, XField.slice, XCodec.simple, XText.string, XText.int, XText.bool, XText.f32, XText.f64, XText.bomReference, xg_ref, xg_dependencyRef, CryptoProperties.toP, xg_certificateProperties, and_true, true_and, implies_true]
  exact ⟨fun y hy => xg_cryptoAlgorithmProperties (h.1 y hy), fun y hy => xg_relatedCryptoMaterialProperties (h.2.1 y hy), fun y hy => xg_cryptoProtocolProperties (h.2.2 y hy)⟩

theorem xg_callstackFrame {x : CallstackFrame} (h : x.GoInts) : X.callstackFrame.good x := by
  show X.callstackFrameFields.good (CallstackFrame.toP x)
  simp only [X.callstackFrameFields, XFields.good, XField.plain, XField.ptr, XField.list, XField.nlist, XField.nptr, XField.slice, XCodec.simple, XText.string, XText.int, XText.bool, XText.f32, XText.f64, XText.bomReference, xg_ref, xg_dependencyRef, CallstackFrame.toP, and_true, true_and, implies_true]
  exact ⟨h.1, h.2⟩

theorem xg_callstack {x : Callstack} (h : x.GoInts) : X.callstack.good x := by
  show X.callstackFields.good (Callstack.toP x)
  simp only [X.callstackFields, XFields.good, XField.plain, XField.ptr, XField.list, XField.nlist, XField.nptr, XField.slice, XCodec.simple, XText.string, XText.int, XText.bool, XText.f32, XText.f64, XText.bomReference, xg_ref, xg_dependencyRef, Callstack.toP, and_true, true_and, implies_true]
  exact fun y hy => xg_callstackFrame (h y hy)

theorem xg_copyright (x : Copyright) : X.copyright.good x ↔ True := Iff.rfl

theorem xg_evidenceIdentityMethod (x : EvidenceIdentityMethod) : X.evidenceIdentityMethod.good x ↔ True := by
  show X.evidenceIdentityMethodFields.good (EvidenceIdentityMethod.toP x) ↔ True
  simp only [X.evidenceIdentityMethodFields, XFields.good, XField.plain, XField.ptr, XField.list, XField.nlist, XField.nptr, XField.slice, XCodec.simple, XText.string, XText.int, XText.bool, XText.f32, XText.f64, XText.bomReference, xg_ref, xg_dependencyRef, EvidenceIdentityMethod.toP, and_true, true_and, implies_true]

theorem xg_evidenceIdentity (x : EvidenceIdentity) : X.evidenceIdentity.good x ↔ True := by
  show X.evidenceIdentityFields.good (EvidenceIdentity.toP x) ↔ True
  simp only [X.evidenceIdentityFields, XFields.good, XField.plain, XField.ptr, XField.list, XField.nlist, XField.nptr, XField.slice, XCodec.simple, XText.string, XText.int, XText.bool, XText.f32, XText.f64, XText.bomReference, xg_ref, xg_dependencyRef, EvidenceIdentity.toP, xg_evidenceIdentityMethod, and_true, true_and, implies_true]

theorem xg_evidenceOccurrence {x : EvidenceOccurrence} (h : x.GoInts) : X.evidenceOccurrence.good x := by
  show X.evidenceOccurrenceFields.good (EvidenceOccurrence.toP x)
  simp only [X.evidenceOccurrenceFields, XFields.good, XField.plain, XField.ptr, XField.list, XField.nlist, XField.nptr, XField.slice, XCodec.simple, XText.string, XText.int, XText.bool, XText.f32, XText.f64, XText.bomReference, xg_ref, xg_dependencyRef, EvidenceOccurrence.toP, and_true, true_and, implies_true]
  exact ⟨h.1, h.2⟩

theorem xg_organizationalEntityOrContact (x : OrganizationalEntityOrContact) : X.organizationalEntityOrContact.good x ↔ True := by
  show X.organizationalEntityOrContactFields.good (OrganizationalEntityOrContact.toP x) ↔ True
  simp only [X.organizationalEntityOrContactFields, XFields.good, XField.plain, XField.ptr, XField.list, XField.nlist, XField.nptr, XField.slice, XCodec.simple, XText.string, XText.int, XText.bool, XText.f32, XText.f64, XText.bomReference, xg_ref, xg_dependencyRef, OrganizationalEntityOrContact.toP, xg_organizationalContact, xg_organizationalEntity, and_true, true_and, implies_true]

theorem xg_licensing (x : Licensing) : X.licensing.good x ↔ True := by
  show X.licensingFields.good (Licensing.toP x) ↔ True
  simp only [X.licensingFields, XFields.good, XField.plain, XField.ptr, XField.list, XField.nlist, XField.nptr, XField.slice, XCodec.simple, XText.string, XText.int, XText.bool, XText.f32, XText.f64, XText.bomReference, xg_ref, xg_dependencyRef, Licensing.toP, xg_organizationalEntityOrContact, and_true, true_and, implies_true]

theorem xg_license (x : License) : X.license.good x ↔ True := by
  show X.licenseFields.good (License.toP x) ↔ True
  simp only [X.licenseFields, XFields.good, XField.plain, XField.ptr, XField.list, XField.nlist, XCodec.simple, XText.string, XText.bool,
    License.toP, xg_attachedText, xg_licensing, xg_property, and_true, true_and, implies_true]

theorem xg_licenses (ls : List LicenseChoice) : X.licenses.good ls ↔ True := by
  simp only [X.licenses, xg_license, implies_true]

theorem xg_environmentVariables (ls : List EnvironmentVariableChoice) : X.environmentVariables.good ls ↔ True := Iff.rfl

theorem xg_evidence {x : Evidence} (h : x.GoInts) : X.evidence.good x := by
  show X.evidenceFields.good _
  simp only [X.evidenceFields, XFields.good, XField.plain, XField.ptr, XField.list, XField.nlist, XField.nptr, XField.slice, XCodec.simple, XText.string, XText.int, XText.bool, XText.f32, XText.f64, XText.bomReference, xg_ref, xg_dependencyRef, xg_licenses, xg_environmentVariables, xg_evidenceIdentity, xg_copyright, and_true, true_and, implies_true]
  exact ⟨fun y hy => xg_evidenceOccurrence (h.1 y hy), fun y hy => xg_callstack (h.2 y hy)⟩

theorem xg_externalReference (x : ExternalReference) : X.externalReference.good x ↔ True := by
  show X.externalReferenceFields.good (ExternalReference.toP x) ↔ True
  simp only [X.externalReferenceFields, XFields.good, XField.plain, XField.ptr, XField.list, XField.nlist, XField.nptr, XField.slice, XCodec.simple, XText.string, XText.int, XText.bool, XText.f32, XText.f64, XText.bomReference, xg_ref, xg_dependencyRef, xg_licenses, xg_environmentVariables, ExternalReference.toP, xg_hash, xg_property, and_true, true_and, implies_true]

theorem xg_mlModelCO2Measure (x : MLModelCO2Measure) : X.mlModelCO2Measure.good x ↔ True := by
  show X.mlModelCO2MeasureFields.good (MLModelCO2Measure.toP x) ↔ True
  simp only [X.mlModelCO2MeasureFields, XFields.good, XField.plain, XField.ptr, XField.list, XField.nlist, XField.nptr, XField.slice, XCodec.simple, XText.string, XText.int, XText.bool, XText.f32, XText.f64, XText.bomReference, xg_ref, xg_dependencyRef, xg_licenses, xg_environmentVariables, MLModelCO2Measure.toP, and_true, true_and, implies_true]

theorem xg_mlModelEnergyMeasure (x : MLModelEnergyMeasure) : X.mlModelEnergyMeasure.good x ↔ True := by
  show X.mlModelEnergyMeasureFields.good (MLModelEnergyMeasure.toP x) ↔ True
  simp only [X.mlModelEnergyMeasureFields, XFields.good, XField.plain, XField.ptr, XField.list, XField.nlist, XField.nptr, XField.slice, XCodec.simple, XText.string, XText.int, XText.bool, XText.f32, XText.f64, XText.bomReference, xg_ref, xg_dependencyRef, xg_licenses, xg_environmentVariables, MLModelEnergyMeasure.toP, and_true, true_and, implies_true]

theorem xg_mlModelEnergyProvider (x : MLModelEnergyProvider) : X.mlModelEnergyProvider.good x ↔ True := by
  show X.mlModelEnergyProviderFields.good (MLModelEnergyProvider.toP x) ↔ True
  simp only [X.mlModelEnergyProviderFields, XFields.good, XField.plain, XField.ptr, XField.list, XField.nlist, XField.nptr, XField.slice, XCodec.simple, XText.string, XText.int, XText.bool, XText.f32, XText.f64, XText.bomReference, xg_ref, xg_dependencyRef, xg_licenses, xg_environmentVariables, MLModelEnergyProvider.toP, xg_externalReference, xg_mlModelEnergyMeasure, xg_organizationalEntity, and_true, true_and, implies_true]

theorem xg_mlModelEnergyConsumption (x : MLModelEnergyConsumption) : X.mlModelEnergyConsumption.good x ↔ True := by
  show X.mlModelEnergyConsumptionFields.good (MLModelEnergyConsumption.toP x) ↔ True
  simp only [X.mlModelEnergyConsumptionFields, XFields.good, XField.plain, XField.ptr, XField.list, XField.nlist, XField.nptr, XField.slice, XCodec.simple, XText.string, XText.int, XText.bool, XText.f32, XText.f64, XText.bomReference, xg_ref, xg_dependencyRef, xg_licenses, xg_environmentVariables, MLModelEnergyConsumption.toP, xg_mlModelCO2Measure, xg_mlModelEnergyMeasure, xg_mlModelEnergyProvider, xg_property, and_true, true_and, implies_true]

theorem xg_mlModelCardEnvironmentalConsiderations (x : MLModelCardEnvironmentalConsiderations) : X.mlModelCardEnvironmentalConsiderations.good x ↔ True := by
  show X.mlModelCardEnvironmentalConsiderationsFields.good (MLModelCardEnvironmentalConsiderations.toP x) ↔ True
  simp only [X.mlModelCardEnvironmentalConsiderationsFields, XFields.good, XField.plain, XField.ptr, XField.list, XField.nlist, XField.nptr, XField.slice, XCodec.simple, XText.string, XText.int, XText.bool, XText.f32, XText.f64, XText.bomReference, xg_ref, xg_dependencyRef, xg_licenses, xg_environmentVariables, MLModelCardEnvironmentalConsiderations.toP, xg_mlModelEnergyConsumption, xg_property, and_true, true_and, implies_true]

theorem xg_mlModelCardEthicalConsideration (x : MLModelCardEthicalConsideration) : X.mlModelCardEthicalConsideration.good x ↔ True := by
  show X.mlModelCardEthicalConsiderationFields.good (MLModelCardEthicalConsideration.toP x) ↔ True
  simp only [X.mlModelCardEthicalConsiderationFields, XFields.good, XField.plain, XField.ptr, XField.list, XField.nlist, XField.nptr, XField.slice, XCodec.simple, XText.string, XText.int, XText.bool, XText.f32, XText.f64, XText.bomReference, xg_ref, xg_dependencyRef, xg_licenses, xg_environmentVariables, MLModelCardEthicalConsideration.toP, and_true, true_and, implies_true]

theorem xg_mlModelCardFairnessAssessment (x : MLModelCardFairnessAssessment) : X.mlModelCardFairnessAssessment.good x ↔ True := by
  show X.mlModelCardFairnessAssessmentFields.good (MLModelCardFairnessAssessment.toP x) ↔ True
  simp only [X.mlModelCardFairnessAssessmentFields, XFields.good, XField.plain, XField.ptr, XField.list, XField.nlist, XField.nptr, XField.slice, XCodec.simple, XText.string, XText.int, XText.bool, XText.f32, XText.f64, XText.bomReference, xg_ref, xg_dependencyRef, xg_licenses, xg_environmentVariables, MLModelCardFairnessAssessment.toP, and_true, true_and, implies_true]

theorem xg_mlModelCardConsiderations (x : MLModelCardConsiderations) : X.mlModelCardConsiderations.good x ↔ True := by
  show X.mlModelCardConsiderationsFields.good (MLModelCardConsiderations.toP x) ↔ True
  simp only [X.mlModelCardConsiderationsFields, XFields.good, XField.plain, XField.ptr, XField.list, XField.nlist, XField.nptr, XField.slice, XCodec.simple, XText.string, XText.int, XText.bool, XText.f32, XText.f64, XText.bomReference, xg_ref, xg_dependencyRef, xg_licenses, xg_environmentVariables, MLModelCardConsiderations.toP, xg_mlModelCardEnvironmentalConsiderations, xg_mlModelCardEthicalConsideration, xg_mlModelCardFairnessAssessment, and_true, true_and, implies_true]

theorem xg_mlDatasetChoice (x : MLDatasetChoice) : X.mlDatasetChoice.good x ↔ True := by
  simp only [X.mlDatasetChoice, xg_componentData, implies_true]

theorem xg_mlInputOutputParameters (x : MLInputOutputParameters) : X.mlInputOutputParameters.good x ↔ True := by
  show X.mlInputOutputParametersFields.good (MLInputOutputParameters.toP x) ↔ True
  simp only [X.mlInputOutputParametersFields, XFields.good, XField.plain, XField.ptr, XField.list, XField.nlist, XField.nptr, XField.slice, XCodec.simple, XText.string, XText.int, XText.bool, XText.f32, XText.f64, XText.bomReference, xg_ref, xg_dependencyRef, xg_licenses, xg_environmentVariables, MLInputOutputParameters.toP, and_true, true_and, implies_true]

theorem xg_mlModelParametersApproach (x : MLModelParametersApproach) : X.mlModelParametersApproach.good x ↔ True := by
  show X.mlModelParametersApproachFields.good (MLModelParametersApproach.toP x) ↔ True
  simp only [X.mlModelParametersApproachFields, XFields.good, XField.plain, XField.ptr, XField.list, XField.nlist, XField.nptr, XField.slice, XCodec.simple, XText.string, XText.int, XText.bool, XText.f32, XText.f64, XText.bomReference, xg_ref, xg_dependencyRef, xg_licenses, xg_environmentVariables, MLModelParametersApproach.toP, and_true, true_and, implies_true]

theorem xg_mlModelParameters (x : MLModelParameters) : X.mlModelParameters.good x ↔ True := by
  show X.mlModelParametersFields.good (MLModelParameters.toP x) ↔ True
  simp only [X.mlModelParametersFields, XFields.good, XField.plain, XField.ptr, XField.list, XField.nlist, XField.nptr, XField.slice, XCodec.simple, XText.string, XText.int, XText.bool, XText.f32, XText.f64, XText.bomReference, xg_ref, xg_dependencyRef, xg_licenses, xg_environmentVariables, MLModelParameters.toP, xg_mlDatasetChoice, xg_mlInputOutputParameters, xg_mlModelParametersApproach, and_true, true_and, implies_true]

theorem xg_mlPerformanceMetricConfidenceInterval (x : MLPerformanceMetricConfidenceInterval) : X.mlPerformanceMetricConfidenceInterval.good x ↔ True := by
  show X.mlPerformanceMetricConfidenceIntervalFields.good (MLPerformanceMetricConfidenceInterval.toP x) ↔ True
  simp only [X.mlPerformanceMetricConfidenceIntervalFields, XFields.good, XField.plain, XField.ptr, XField.list, XField.nlist, XField.nptr, XField.slice, XCodec.simple, XText.string, XText.int, XText.bool, XText.f32, XText.f64, XText.bomReference, xg_ref, xg_dependencyRef, xg_licenses, xg_environmentVariables, MLPerformanceMetricConfidenceInterval.toP, and_true, true_and, implies_true]

theorem xg_mlPerformanceMetric (x : MLPerformanceMetric) : X.mlPerformanceMetric.good x ↔ True := by
  show X.mlPerformanceMetricFields.good (MLPerformanceMetric.toP x) ↔ True
  simp only [X.mlPerformanceMetricFields, XFields.good, XField.plain, XField.ptr, XField.list, XField.nlist, XField.nptr, XField.slice, XCodec.simple, XText.string, XText.int, XText.bool, XText.f32, XText.f64, XText.bomReference, xg_ref, xg_dependencyRef, xg_licenses, xg_environmentVariables, MLPerformanceMetric.toP, xg_mlPerformanceMetricConfidenceInterval, and_true, true_and, implies_true]

theorem xg_mlQuantitativeAnalysis (x : MLQuantitativeAnalysis) : X.mlQuantitativeAnalysis.good x ↔ True := by
  show X.mlQuantitativeAnalysisFields.good (MLQuantitativeAnalysis.toP x) ↔ True
  simp only [X.mlQuantitativeAnalysisFields, XFields.good, XField.plain, XField.ptr, XField.list, XField.nlist, XField.nptr, XField.slice, XCodec.simple, XText.string, XText.int, XText.bool, XText.f32, XText.f64, XText.bomReference, xg_ref, xg_dependencyRef, xg_licenses, xg_environmentVariables, MLQuantitativeAnalysis.toP, xg_componentDataGraphics, xg_mlPerformanceMetric, and_true, true_and, implies_true]

theorem xg_mlModelCard (x : MLModelCard) : X.mlModelCard.good x ↔ True := by
  show X.mlModelCardFields.good (MLModelCard.toP x) ↔ True
  simp only [X.mlModelCardFields, XFields.good, XField.plain, XField.ptr, XField.list, XField.nlist, XField.nptr, XField.slice, XCodec.simple, XText.string, XText.int, XText.bool, XText.f32, XText.f64, XText.bomReference, xg_ref, xg_dependencyRef, xg_licenses, xg_environmentVariables, MLModelCard.toP, xg_mlModelCardConsiderations, xg_mlModelParameters, xg_mlQuantitativeAnalysis, and_true, true_and, implies_true]

theorem xg_identifiableAction (x : IdentifiableAction) : X.identifiableAction.good x ↔ True := by
  show X.identifiableActionFields.good (IdentifiableAction.toP x) ↔ True
  simp only [X.identifiableActionFields, XFields.good, XField.plain, XField.ptr, XField.list, XField.nlist, XField.nptr, XField.slice, XCodec.simple, XText.string, XText.int, XText.bool, XText.f32, XText.f64, XText.bomReference, xg_ref, xg_dependencyRef, xg_licenses, xg_environmentVariables, IdentifiableAction.toP, and_true, true_and, implies_true]

theorem xg_commit (x : Commit) : X.commit.good x ↔ True := by
  show X.commitFields.good (Commit.toP x) ↔ True
  simp only [X.commitFields, XFields.good, XField.plain, XField.ptr, XField.list, XField.nlist, XField.nptr, XField.slice, XCodec.simple, XText.string, XText.int, XText.bool, XText.f32, XText.f64, XText.bomReference, xg_ref, xg_dependencyRef, xg_licenses, xg_environmentVariables, Commit.toP, xg_identifiableAction, and_true, true_and, implies_true]

theorem xg_diff (x : Diff) : X.diff.good x ↔ True := by
  show X.diffFields.good (Diff.toP x) ↔ True
  simp only [X.diffFields, XFields.good, XField.plain, XField.ptr, XField.list, XField.nlist, XField.nptr, XField.slice, XCodec.simple, XText.string, XText.int, XText.bool, XText.f32, XText.f64, XText.bomReference, xg_ref, xg_dependencyRef, xg_licenses, xg_environmentVariables, Diff.toP, xg_attachedText, and_true, true_and, implies_true]

theorem xg_source (x : Source) : X.source.good x ↔ True := by
  show X.sourceFields.good (Source.toP x) ↔ True
  simp only [X.sourceFields, XFields.good, XField.plain, XField.ptr, XField.list, XField.nlist, XField.nptr, XField.slice, XCodec.simple, XText.string, XText.int, XText.bool, XText.f32, XText.f64, XText.bomReference, xg_ref, xg_dependencyRef, xg_licenses, xg_environmentVariables, Source.toP, and_true, true_and, implies_true]

theorem xg_issue (x : Issue) : X.issue.good x ↔ True := by
  show X.issueFields.good (Issue.toP x) ↔ True
  simp only [X.issueFields, XFields.good, XField.plain, XField.ptr, XField.list, XField.nlist, XField.nptr, XField.slice, XCodec.simple, XText.string, XText.int, XText.bool, XText.f32, XText.f64, XText.bomReference, xg_ref, xg_dependencyRef, xg_licenses, xg_environmentVariables, Issue.toP, xg_source, and_true, true_and, implies_true]

theorem xg_patch (x : Patch) : X.patch.good x ↔ True := by
  show X.patchFields.good (Patch.toP x) ↔ True
  simp only [X.patchFields, XFields.good, XField.plain, XField.ptr, XField.list, XField.nlist, XField.nptr, XField.slice, XCodec.simple, XText.string, XText.int, XText.bool, XText.f32, XText.f64, XText.bomReference, xg_ref, xg_dependencyRef, xg_licenses, xg_environmentVariables, Patch.toP, xg_diff, xg_issue, and_true, true_and, implies_true]

omit [XFloatIO] in
theorem goIntsComponentList_iff (xs : List Component) : GoIntsComponentList xs ↔ ∀ c ∈ xs, c.GoInts := by
  induction xs with
  | nil => simp [GoIntsComponentList]
  | cons x xs ih => simp [GoIntsComponentList, ih]

omit [XFloatIO] in
theorem goIntsComponents_iff (p : PSlice Component) : GoIntsComponents p ↔ ∀ c ∈ p.elems, c.GoInts := by
  cases p <;> simp [GoIntsComponents, PSlice.elems, goIntsComponentList_iff]

theorem xg_pedigreeWith (C : XCodec Component) (x : Pedigree Component)
    (h1 : ∀ c ∈ x.ancestors.elems, C.good c) (h2 : ∀ c ∈ x.descendants.elems, C.good c)
    (h3 : ∀ c ∈ x.variants.elems, C.good c) : (X.pedigree C).good x := by
  show (X.pedigreeFields C).good (Pedigree.toP x)
  simp only [X.pedigreeFields, XFields.good, XField.plain, XField.ptr, XField.list, XField.nlist, XField.nptr, XField.slice, XCodec.simple, XText.string, XText.int, XText.bool, XText.f32, XText.f64, XText.bomReference, xg_ref, xg_dependencyRef, xg_licenses, xg_environmentVariables, Pedigree.toP, xg_commit, xg_patch, and_true, true_and, implies_true]
  exact ⟨h1, h2, h3⟩

theorem xg_note (x : Note) : X.note.good x ↔ True := by
  show X.noteFields.good (Note.toP x) ↔ True
  simp only [X.noteFields, XFields.good, XField.plain, XField.ptr, XField.list, XField.nlist, XField.nptr, XField.slice, XCodec.simple, XText.string, XText.int, XText.bool, XText.f32, XText.f64, XText.bomReference, xg_ref, xg_dependencyRef, xg_licenses, xg_environmentVariables, Note.toP, xg_attachedText, and_true, true_and, implies_true]

theorem xg_releaseNotes (x : ReleaseNotes) : X.releaseNotes.good x ↔ True := by
  show X.releaseNotesFields.good (ReleaseNotes.toP x) ↔ True
  simp only [X.releaseNotesFields, XFields.good, XField.plain, XField.ptr, XField.list, XField.nlist, XField.nptr, XField.slice, XCodec.simple, XText.string, XText.int, XText.bool, XText.f32, XText.f64, XText.bomReference, xg_ref, xg_dependencyRef, xg_licenses, xg_environmentVariables, ReleaseNotes.toP, xg_issue, xg_note, xg_property, and_true, true_and, implies_true]

theorem xg_swid {x : SWID} (h : x.GoInts) : X.swid.good x := by
  show X.swidFields.good (SWID.toP x)
  simp only [X.swidFields, XFields.good, XField.plain, XField.ptr, XField.list, XField.nlist, XField.nptr, XField.slice, XCodec.simple, XText.string, XText.int, XText.bool, XText.f32, XText.f64, XText.bomReference, xg_ref, xg_dependencyRef, xg_licenses, xg_environmentVariables, SWID.toP, xg_attachedText, and_true, true_and, implies_true]
  exact h

theorem xg_asserterChoice (x : AsserterChoice) : X.asserterChoice.good x ↔ True := by
  simp only [X.asserterChoice, xg_organizationalEntity, xg_organizationalContact, and_true, true_and, implies_true]

theorem xg_patentAssertion (x : PatentAssertion) : X.patentAssertion.good x ↔ True := by
  show X.patentAssertionFields.good (PatentAssertion.toP x) ↔ True
  simp only [X.patentAssertionFields, XFields.good, XField.plain, XField.ptr, XField.list, XField.nlist, XField.nptr, XField.slice, XCodec.simple, XText.string, XText.int, XText.bool, XText.f32, XText.f64, XText.bomReference, xg_ref, xg_dependencyRef, xg_licenses, xg_environmentVariables, PatentAssertion.toP, xg_asserterChoice, and_true, true_and, implies_true]

theorem xg_componentWith (C : XCodec Component) (x : Component) (h : x.GoInts)
    (h1 : ∀ c ∈ x.components.elems, C.good c) (h2 : ∀ p ∈ x.pedigree, (X.pedigree C).good p) :
    (X.componentWith C).good x := by
  show (X.componentFields C).good (Component.toP x)
  simp only [X.componentFields, XFields.good, XField.plain, XField.ptr, XField.list, XField.nlist, XField.nptr, XField.slice, XCodec.simple, XText.string, XText.int, XText.bool, XText.f32, XText.f64, XText.bomReference, xg_ref, xg_dependencyRef, xg_licenses, xg_environmentVariables, Component.toP, xg_componentData, xg_externalReference, xg_hash, xg_mlModelCard, xg_organizationalContact, xg_organizationalEntity, xg_patentAssertion, xg_property, xg_releaseNotes, and_true, true_and, implies_true]
  cases x
  simp only [Component.GoInts] at h
  exact ⟨fun y hy => xg_swid (h.1 y hy), h2, h1, fun y hy => xg_evidence (h.2.2.2.1 y hy),
    fun y hy => xg_cryptoProperties (h.2.2.2.2 y hy)⟩

theorem xg_component {x : Component} (h : x.GoInts) : X.component.good x := by
  suffices H : ∀ m (x : Component), x.height ≤ m → x.GoInts → X.component.good x from H x.height x (Nat.le_refl _) h
  intro m
  induction m with
  | zero => intro x h; rw [Component.height_eq] at h; omega
  | succ m ih =>
    intro x h hg
    rw [(xcomponent_sameAt_self x).good]
    rw [Component.height_eq] at h
    have hm : max (heightComponents x.components) (heightPedigreeOpt x.pedigree) ≤ m := by omega
    rw [Nat.max_le] at hm
    have hl : ∀ p : PSlice Component, heightComponents p ≤ m → GoIntsComponents p → ∀ c ∈ p.elems, X.component.good c := by
      intro p hp hg c hc
      rw [heightComponents_le] at hp
      rw [goIntsComponents_iff] at hg
      exact ih c (hp c hc) (hg c hc)
    have hk : GoIntsComponents x.components ∧ GoIntsPedigreeOpt x.pedigree := by
      cases x
      simp only [Component.GoInts] at hg
      exact ⟨hg.2.2.1, hg.2.1⟩
    refine xg_componentWith _ x hg (hl _ hm.1 hk.1) ?_
    intro p hp
    have hp : x.pedigree = some p := hp
    have hm := hm.2
    have hk := hk.2
    simp only [hp, heightPedigreeOpt, heightPedigree_eq, Nat.max_le] at hm
    rw [hp] at hk
    cases p
    simp only [GoIntsPedigreeOpt, GoIntsPedigree] at hk
    exact xg_pedigreeWith _ _ (hl _ hm.1 hk.1) (hl _ hm.2.1 hk.2.1) (hl _ hm.2.2 hk.2.2)

theorem xg_dataClassification (x : DataClassification) : X.dataClassification.good x ↔ True := by
  simp only [X.dataClassification, xg_dataGovernance, implies_true]

theorem xg_serviceWith (C : XCodec Service) (x : Service) (hc : ∀ c ∈ x.services.elems, C.good c) :
    (X.serviceWith C).good x := by
  show (X.serviceFields C).good (Service.toP x)
  simp only [X.serviceFields, XFields.good, XField.plain, XField.ptr, XField.list, XField.nlist, XField.nptr, XField.slice, XCodec.simple, XText.string, XText.int, XText.bool, XText.f32, XText.f64, XText.bomReference, xg_ref, xg_dependencyRef, xg_licenses, xg_environmentVariables, Service.toP, xg_dataClassification, xg_externalReference, xg_organizationalEntity, xg_patentAssertion, xg_property, xg_releaseNotes, and_true, true_and, implies_true]
  exact hc

theorem xg_service (x : Service) : X.service.good x ↔ True := by
  suffices H : ∀ m (x : Service), x.height ≤ m → X.service.good x from iff_true_intro (H x.height x (Nat.le_refl _))
  intro m
  induction m with
  | zero => intro x h; rw [Service.height_eq] at h; omega
  | succ m ih =>
    intro x h
    rw [(xservice_sameAt_self x).good]
    rw [Service.height_eq] at h
    have hm : heightServices x.services ≤ m := by omega
    rw [heightServices_le] at hm
    exact xg_serviceWith _ x fun c hc => ih c (hm c hc)

theorem xg_annotator {x : Annotator} (h : x.GoInts) : X.annotator.good x := by
  show X.annotatorFields.good (Annotator.toP x)
  simp only [X.annotatorFields, XFields.good, XField.plain, XField.ptr, XField.list, XField.nlist, XField.nptr, XField.slice, XCodec.simple, XText.string, XText.int, XText.bool, XText.f32, XText.f64, XText.bomReference, xg_ref, xg_dependencyRef, xg_licenses, xg_environmentVariables, Annotator.toP, xg_organizationalContact, xg_organizationalEntity, xg_service, and_true, true_and, implies_true]
  exact fun y hy => xg_component (h y hy)

theorem xg_annotation {x : Annotation} (h : x.GoInts) : X.annotation.good x := by
  show X.annotationFields.good (Annotation.toP x)
  simp only [X.annotationFields, XFields.good, XField.plain, XField.ptr, XField.list, XField.nlist, XField.nptr, XField.slice, XCodec.simple, XText.string, XText.int, XText.bool, XText.f32, XText.f64, XText.bomReference, xg_ref, xg_dependencyRef, xg_licenses, xg_environmentVariables, Annotation.toP, and_true, true_and, implies_true]
  exact fun y hy => xg_annotator (h y hy)

theorem xg_assessor (x : Assessor) : X.assessor.good x ↔ True := by
  show X.assessorFields.good (Assessor.toP x) ↔ True
  simp only [X.assessorFields, XFields.good, XField.plain, XField.ptr, XField.list, XField.nlist, XField.nptr, XField.slice, XCodec.simple, XText.string, XText.int, XText.bool, XText.f32, XText.f64, XText.bomReference, xg_ref, xg_dependencyRef, xg_licenses, xg_environmentVariables, Assessor.toP, xg_organizationalEntity, and_true, true_and, implies_true]

theorem xg_attestationConformance (x : AttestationConformance) : X.attestationConformance.good x ↔ True := by
  show X.attestationConformanceFields.good (AttestationConformance.toP x) ↔ True
  simp only [X.attestationConformanceFields, XFields.good, XField.plain, XField.ptr, XField.list, XField.nlist, XField.nptr, XField.slice, XCodec.simple, XText.string, XText.int, XText.bool, XText.f32, XText.f64, XText.bomReference, xg_ref, xg_dependencyRef, xg_licenses, xg_environmentVariables, AttestationConformance.toP, and_true, true_and, implies_true]

theorem xg_attestationConfidence (x : AttestationConfidence) : X.attestationConfidence.good x ↔ True := by
  show X.attestationConfidenceFields.good (AttestationConfidence.toP x) ↔ True
  simp only [X.attestationConfidenceFields, XFields.good, XField.plain, XField.ptr, XField.list, XField.nlist, XField.nptr, XField.slice, XCodec.simple, XText.string, XText.int, XText.bool, XText.f32, XText.f64, XText.bomReference, xg_ref, xg_dependencyRef, xg_licenses, xg_environmentVariables, AttestationConfidence.toP, and_true, true_and, implies_true]

theorem xg_attestationMap (x : AttestationMap) : X.attestationMap.good x ↔ True := by
  show X.attestationMapFields.good (AttestationMap.toP x) ↔ True
  simp only [X.attestationMapFields, XFields.good, XField.plain, XField.ptr, XField.list, XField.nlist, XField.nptr, XField.slice, XCodec.simple, XText.string, XText.int, XText.bool, XText.f32, XText.f64, XText.bomReference, xg_ref, xg_dependencyRef, xg_licenses, xg_environmentVariables, AttestationMap.toP, xg_attestationConfidence, xg_attestationConformance, and_true, true_and, implies_true]

theorem xg_attestation (x : Attestation) : X.attestation.good x ↔ True := by
  show X.attestationFields.good (Attestation.toP x) ↔ True
  simp only [X.attestationFields, XFields.good, XField.plain, XField.ptr, XField.list, XField.nlist, XField.nptr, XField.slice, XCodec.simple, XText.string, XText.int, XText.bool, XText.f32, XText.f64, XText.bomReference, xg_ref, xg_dependencyRef, xg_licenses, xg_environmentVariables, Attestation.toP, xg_attestationMap, and_true, true_and, implies_true]

theorem xg_composition (x : Composition) : X.composition.good x ↔ True := by
  show X.compositionFields.good (Composition.toP x) ↔ True
  simp only [X.compositionFields, XFields.good, XField.plain, XField.ptr, XField.list, XField.nlist, XField.nptr, XField.slice, XCodec.simple, XText.string, XText.int, XText.bool, XText.f32, XText.f64, XText.bomReference, xg_ref, xg_dependencyRef, xg_licenses, xg_environmentVariables, Composition.toP, and_true, true_and, implies_true]

theorem xg_claim (x : Claim) : X.claim.good x ↔ True := by
  show X.claimFields.good (Claim.toP x) ↔ True
  simp only [X.claimFields, XFields.good, XField.plain, XField.ptr, XField.list, XField.nlist, XField.nptr, XField.slice, XCodec.simple, XText.string, XText.int, XText.bool, XText.f32, XText.f64, XText.bomReference, xg_ref, xg_dependencyRef, xg_licenses, xg_environmentVariables, Claim.toP, xg_externalReference, and_true, true_and, implies_true]

theorem xg_evidenceDataContents (x : EvidenceDataContents) : X.evidenceDataContents.good x ↔ True := by
  show X.evidenceDataContentsFields.good (EvidenceDataContents.toP x) ↔ True
  simp only [X.evidenceDataContentsFields, XFields.good, XField.plain, XField.ptr, XField.list, XField.nlist, XField.nptr, XField.slice, XCodec.simple, XText.string, XText.int, XText.bool, XText.f32, XText.f64, XText.bomReference, xg_ref, xg_dependencyRef, xg_licenses, xg_environmentVariables, EvidenceDataContents.toP, xg_attachedText, and_true, true_and, implies_true]

theorem xg_evidenceData (x : EvidenceData) : X.evidenceData.good x ↔ True := by
  show X.evidenceDataFields.good (EvidenceData.toP x) ↔ True
  simp only [X.evidenceDataFields, XFields.good, XField.plain, XField.ptr, XField.list, XField.nlist, XField.nptr, XField.slice, XCodec.simple, XText.string, XText.int, XText.bool, XText.f32, XText.f64, XText.bomReference, xg_ref, xg_dependencyRef, xg_licenses, xg_environmentVariables, EvidenceData.toP, xg_dataClassification, xg_dataGovernance, xg_evidenceDataContents, and_true, true_and, implies_true]

theorem xg_declarationEvidence (x : DeclarationEvidence) : X.declarationEvidence.good x ↔ True := by
  show X.declarationEvidenceFields.good (DeclarationEvidence.toP x) ↔ True
  simp only [X.declarationEvidenceFields, XFields.good, XField.plain, XField.ptr, XField.list, XField.nlist, XField.nptr, XField.slice, XCodec.simple, XText.string, XText.int, XText.bool, XText.f32, XText.f64, XText.bomReference, xg_ref, xg_dependencyRef, xg_licenses, xg_environmentVariables, DeclarationEvidence.toP, xg_evidenceData, xg_organizationalContact, and_true, true_and, implies_true]

theorem xg_targets {x : Targets} (h : x.GoInts) : X.targets.good x := by
  show X.targetsFields.good (Targets.toP x)
  simp only [X.targetsFields, XFields.good, XField.plain, XField.ptr, XField.list, XField.nlist, XField.nptr, XField.slice, XCodec.simple, XText.string, XText.int, XText.bool, XText.f32, XText.f64, XText.bomReference, xg_ref, xg_dependencyRef, xg_licenses, xg_environmentVariables, Targets.toP, xg_organizationalEntity, xg_service, and_true, true_and, implies_true]
  exact fun y hy => xg_component (h y hy)

theorem xg_signatory (x : Signatory) : X.signatory.good x ↔ True := by
  show X.signatoryFields.good (Signatory.toP x) ↔ True
  simp only [X.signatoryFields, XFields.good, XField.plain, XField.ptr, XField.list, XField.nlist, XField.nptr, XField.slice, XCodec.simple, XText.string, XText.int, XText.bool, XText.f32, XText.f64, XText.bomReference, xg_ref, xg_dependencyRef, xg_licenses, xg_environmentVariables, Signatory.toP, xg_externalReference, xg_organizationalEntity, and_true, true_and, implies_true]

theorem xg_affirmation (x : Affirmation) : X.affirmation.good x ↔ True := by
  show X.affirmationFields.good (Affirmation.toP x) ↔ True
  simp only [X.affirmationFields, XFields.good, XField.plain, XField.ptr, XField.list, XField.nlist, XField.nptr, XField.slice, XCodec.simple, XText.string, XText.int, XText.bool, XText.f32, XText.f64, XText.bomReference, xg_ref, xg_dependencyRef, xg_licenses, xg_environmentVariables, Affirmation.toP, xg_signatory, and_true, true_and, implies_true]

theorem xg_declarations {x : Declarations} (h : x.GoInts) : X.declarations.good x := by
  show X.declarationsFields.good (Declarations.toP x)
  simp only [X.declarationsFields, XFields.good, XField.plain, XField.ptr, XField.list, XField.nlist, XField.nptr, XField.slice, XCodec.simple, XText.string, XText.int, XText.bool, XText.f32, XText.f64, XText.bomReference, xg_ref, xg_dependencyRef, xg_licenses, xg_environmentVariables, Declarations.toP, xg_affirmation, xg_assessor, xg_attestation, xg_claim, xg_declarationEvidence, and_true, true_and, implies_true]
  exact fun y hy => xg_targets (h y hy)

theorem xg_priorityApplication (x : PriorityApplication) : X.priorityApplication.good x ↔ True := by
  show X.priorityApplicationFields.good (PriorityApplication.toP x) ↔ True
  simp only [X.priorityApplicationFields, XFields.good, XField.plain, XField.ptr, XField.list, XField.nlist, XField.nptr, XField.slice, XCodec.simple, XText.string, XText.int, XText.bool, XText.f32, XText.f64, XText.bomReference, xg_ref, xg_dependencyRef, xg_licenses, xg_environmentVariables, PriorityApplication.toP, and_true, true_and, implies_true]

theorem xg_patent (x : Patent) : X.patent.good x ↔ True := by
  show X.patentFields.good (Patent.toP x) ↔ True
  simp only [X.patentFields, XFields.good, XField.plain, XField.ptr, XField.list, XField.nlist, XField.nptr, XField.slice, XCodec.simple, XText.string, XText.int, XText.bool, XText.f32, XText.f64, XText.bomReference, xg_ref, xg_dependencyRef, xg_licenses, xg_environmentVariables, Patent.toP, xg_externalReference, xg_organizationalEntityOrContact, xg_priorityApplication, and_true, true_and, implies_true]

theorem xg_patentFamily (x : PatentFamily) : X.patentFamily.good x ↔ True := by
  show X.patentFamilyFields.good (PatentFamily.toP x) ↔ True
  simp only [X.patentFamilyFields, XFields.good, XField.plain, XField.ptr, XField.list, XField.nlist, XField.nptr, XField.slice, XCodec.simple, XText.string, XText.int, XText.bool, XText.f32, XText.f64, XText.bomReference, xg_ref, xg_dependencyRef, xg_licenses, xg_environmentVariables, PatentFamily.toP, xg_externalReference, xg_priorityApplication, and_true, true_and, implies_true]


theorem xg_standardRequirement (x : StandardRequirement) : X.standardRequirement.good x ↔ True := by
  show X.standardRequirementFields.good (StandardRequirement.toP x) ↔ True
  simp only [X.standardRequirementFields, XFields.good, XField.plain, XField.ptr, XField.list, XField.nlist, XField.nptr, XField.slice, XCodec.simple, XText.string, XText.int, XText.bool, XText.f32, XText.f64, XText.bomReference, xg_ref, xg_dependencyRef, xg_licenses, xg_environmentVariables, StandardRequirement.toP, xg_externalReference, xg_property, and_true, true_and, implies_true]

theorem xg_standardLevel (x : StandardLevel) : X.standardLevel.good x ↔ True := by
  show X.standardLevelFields.good (StandardLevel.toP x) ↔ True
  simp only [X.standardLevelFields, XFields.good, XField.plain, XField.ptr, XField.list, XField.nlist, XField.nptr, XField.slice, XCodec.simple, XText.string, XText.int, XText.bool, XText.f32, XText.f64, XText.bomReference, xg_ref, xg_dependencyRef, xg_licenses, xg_environmentVariables, StandardLevel.toP, and_true, true_and, implies_true]

theorem xg_standardDefinition (x : StandardDefinition) : X.standardDefinition.good x ↔ True := by
  show X.standardDefinitionFields.good (StandardDefinition.toP x) ↔ True
  simp only [X.standardDefinitionFields, XFields.good, XField.plain, XField.ptr, XField.list, XField.nlist, XField.nptr, XField.slice, XCodec.simple, XText.string, XText.int, XText.bool, XText.f32, XText.f64, XText.bomReference, xg_ref, xg_dependencyRef, xg_licenses, xg_environmentVariables, StandardDefinition.toP, xg_externalReference, xg_standardLevel, xg_standardRequirement, and_true, true_and, implies_true]

theorem xg_definitions (x : Definitions) : X.definitions.good x ↔ True := by
  simp only [X.definitions, xg_standardDefinition, xg_patent, xg_patentFamily, and_true, true_and, implies_true]

theorem xg_dependency (x : Dependency) : X.dependency.good x ↔ True := by
  show X.dependencyFields.good (Dependency.toP x) ↔ True
  simp only [X.dependencyFields, XFields.good, XField.plain, XField.ptr, XField.list, XField.nlist, XField.nptr, XField.slice, XCodec.simple, XText.string, XText.int, XText.bool, XText.f32, XText.f64, XText.bomReference, xg_ref, xg_dependencyRef, xg_licenses, xg_environmentVariables, Dependency.toP, and_true, true_and, implies_true]

theorem xg_resourceReferenceChoice (x : ResourceReferenceChoice) : X.resourceReferenceChoice.good x ↔ True := by
  show X.resourceReferenceChoiceFields.good (ResourceReferenceChoice.toP x) ↔ True
  simp only [X.resourceReferenceChoiceFields, XFields.good, XField.plain, XField.ptr, XField.list, XField.nlist, XField.nptr, XField.slice, XCodec.simple, XText.string, XText.int, XText.bool, XText.f32, XText.f64, XText.bomReference, xg_ref, xg_dependencyRef, xg_licenses, xg_environmentVariables, ResourceReferenceChoice.toP, xg_externalReference, and_true, true_and, implies_true]


theorem xg_parameter (x : Parameter) : X.parameter.good x ↔ True := by
  show X.parameterFields.good (Parameter.toP x) ↔ True
  simp only [X.parameterFields, XFields.good, XField.plain, XField.ptr, XField.list, XField.nlist, XField.nptr, XField.slice, XCodec.simple, XText.string, XText.int, XText.bool, XText.f32, XText.f64, XText.bomReference, xg_ref, xg_dependencyRef, xg_licenses, xg_environmentVariables, Parameter.toP, and_true, true_and, implies_true]

theorem xg_taskInput (x : TaskInput) : X.taskInput.good x ↔ True := by
  show X.taskInputFields.good (TaskInput.toP x) ↔ True
  simp only [X.taskInputFields, XFields.good, XField.plain, XField.ptr, XField.list, XField.nlist, XField.nptr, XField.slice, XCodec.simple, XText.string, XText.int, XText.bool, XText.f32, XText.f64, XText.bomReference, xg_ref, xg_dependencyRef, xg_licenses, xg_environmentVariables, TaskInput.toP, xg_attachedText, xg_parameter, xg_property, xg_resourceReferenceChoice, and_true, true_and, implies_true]

theorem xg_taskOutput (x : TaskOutput) : X.taskOutput.good x ↔ True := by
  show X.taskOutputFields.good (TaskOutput.toP x) ↔ True
  simp only [X.taskOutputFields, XFields.good, XField.plain, XField.ptr, XField.list, XField.nlist, XField.nptr, XField.slice, XCodec.simple, XText.string, XText.int, XText.bool, XText.f32, XText.f64, XText.bomReference, xg_ref, xg_dependencyRef, xg_licenses, xg_environmentVariables, TaskOutput.toP, xg_attachedText, xg_parameter, xg_property, xg_resourceReferenceChoice, and_true, true_and, implies_true]

theorem xg_taskCommand (x : TaskCommand) : X.taskCommand.good x ↔ True := by
  show X.taskCommandFields.good (TaskCommand.toP x) ↔ True
  simp only [X.taskCommandFields, XFields.good, XField.plain, XField.ptr, XField.list, XField.nlist, XField.nptr, XField.slice, XCodec.simple, XText.string, XText.int, XText.bool, XText.f32, XText.f64, XText.bomReference, xg_ref, xg_dependencyRef, xg_licenses, xg_environmentVariables, TaskCommand.toP, xg_property, and_true, true_and, implies_true]

theorem xg_taskStep (x : TaskStep) : X.taskStep.good x ↔ True := by
  show X.taskStepFields.good (TaskStep.toP x) ↔ True
  simp only [X.taskStepFields, XFields.good, XField.plain, XField.ptr, XField.list, XField.nlist, XField.nptr, XField.slice, XCodec.simple, XText.string, XText.int, XText.bool, XText.f32, XText.f64, XText.bomReference, xg_ref, xg_dependencyRef, xg_licenses, xg_environmentVariables, TaskStep.toP, xg_property, xg_taskCommand, and_true, true_and, implies_true]

theorem xg_event (x : Event) : X.event.good x ↔ True := by
  show X.eventFields.good (Event.toP x) ↔ True
  simp only [X.eventFields, XFields.good, XField.plain, XField.ptr, XField.list, XField.nlist, XField.nptr, XField.slice, XCodec.simple, XText.string, XText.int, XText.bool, XText.f32, XText.f64, XText.bomReference, xg_ref, xg_dependencyRef, xg_licenses, xg_environmentVariables, Event.toP, xg_attachedText, xg_property, xg_resourceReferenceChoice, and_true, true_and, implies_true]

theorem xg_taskTriggerCondition (x : TaskTriggerCondition) : X.taskTriggerCondition.good x ↔ True := by
  show X.taskTriggerConditionFields.good (TaskTriggerCondition.toP x) ↔ True
  simp only [X.taskTriggerConditionFields, XFields.good, XField.plain, XField.ptr, XField.list, XField.nlist, XField.nptr, XField.slice, XCodec.simple, XText.string, XText.int, XText.bool, XText.f32, XText.f64, XText.bomReference, xg_ref, xg_dependencyRef, xg_licenses, xg_environmentVariables, TaskTriggerCondition.toP, xg_property, and_true, true_and, implies_true]

theorem xg_taskTrigger (x : TaskTrigger) : X.taskTrigger.good x ↔ True := by
  show X.taskTriggerFields.good (TaskTrigger.toP x) ↔ True
  simp only [X.taskTriggerFields, XFields.good, XField.plain, XField.ptr, XField.list, XField.nlist, XField.nptr, XField.slice, XCodec.simple, XText.string, XText.int, XText.bool, XText.f32, XText.f64, XText.bomReference, xg_ref, xg_dependencyRef, xg_licenses, xg_environmentVariables, TaskTrigger.toP, xg_event, xg_property, xg_resourceReferenceChoice, xg_taskInput, xg_taskOutput, xg_taskTriggerCondition, and_true, true_and, implies_true]

theorem xg_volume (x : Volume) : X.volume.good x ↔ True := by
  show X.volumeFields.good (Volume.toP x) ↔ True
  simp only [X.volumeFields, XFields.good, XField.plain, XField.ptr, XField.list, XField.nlist, XField.nptr, XField.slice, XCodec.simple, XText.string, XText.int, XText.bool, XText.f32, XText.f64, XText.bomReference, xg_ref, xg_dependencyRef, xg_licenses, xg_environmentVariables, Volume.toP, xg_property, and_true, true_and, implies_true]

theorem xg_taskWorkspace (x : TaskWorkspace) : X.taskWorkspace.good x ↔ True := by
  show X.taskWorkspaceFields.good (TaskWorkspace.toP x) ↔ True
  simp only [X.taskWorkspaceFields, XFields.good, XField.plain, XField.ptr, XField.list, XField.nlist, XField.nptr, XField.slice, XCodec.simple, XText.string, XText.int, XText.bool, XText.f32, XText.f64, XText.bomReference, xg_ref, xg_dependencyRef, xg_licenses, xg_environmentVariables, TaskWorkspace.toP, xg_property, xg_resourceReferenceChoice, xg_volume, and_true, true_and, implies_true]

theorem xg_task (x : Task) : X.task.good x ↔ True := by
  show X.taskFields.good (Task.toP x) ↔ True
  simp only [X.taskFields, XFields.good, XField.plain, XField.ptr, XField.list, XField.nlist, XField.nptr, XField.slice, XCodec.simple, XText.string, XText.int, XText.bool, XText.f32, XText.f64, XText.bomReference, xg_ref, xg_dependencyRef, xg_licenses, xg_environmentVariables, Task.toP, xg_dependency, xg_property, xg_resourceReferenceChoice, xg_taskInput, xg_taskOutput, xg_taskStep, xg_taskTrigger, xg_taskWorkspace, and_true, true_and, implies_true]

theorem xg_workflow (x : Workflow) : X.workflow.good x ↔ True := by
  show X.workflowFields.good (Workflow.toP x) ↔ True
  simp only [X.workflowFields, XFields.good, XField.plain, XField.ptr, XField.list, XField.nlist, XField.nptr, XField.slice, XCodec.simple, XText.string, XText.int, XText.bool, XText.f32, XText.f64, XText.bomReference, xg_ref, xg_dependencyRef, xg_licenses, xg_environmentVariables, Workflow.toP, xg_dependency, xg_property, xg_resourceReferenceChoice, xg_task, xg_taskInput, xg_taskOutput, xg_taskStep, xg_taskTrigger, xg_taskWorkspace, and_true, true_and, implies_true]

theorem xg_formula {x : Formula} (h : x.GoInts) : X.formula.good x := by
  show X.formulaFields.good (Formula.toP x)
  simp only [X.formulaFields, XFields.good, XField.plain, XField.ptr, XField.list, XField.nlist, XField.nptr, XField.slice, XCodec.simple, XText.string, XText.int, XText.bool, XText.f32, XText.f64, XText.bomReference, xg_ref, xg_dependencyRef, xg_licenses, xg_environmentVariables, Formula.toP, xg_property, xg_service, xg_workflow, and_true, true_and, implies_true]
  exact fun y hy => xg_component (h y hy)

theorem xg_lifecycle (x : Lifecycle) : X.lifecycle.good x ↔ True := by
  show X.lifecycleFields.good (Lifecycle.toP x) ↔ True
  simp only [X.lifecycleFields, XFields.good, XField.plain, XField.ptr, XField.list, XField.nlist, XField.nptr, XField.slice, XCodec.simple, XText.string, XText.int, XText.bool, XText.f32, XText.f64, XText.bomReference, xg_ref, xg_dependencyRef, xg_licenses, xg_environmentVariables, Lifecycle.toP, and_true, true_and, implies_true]

theorem xg_tool (x : Tool) : X.tool.good x ↔ True := by
  show X.toolFields.good (Tool.toP x) ↔ True
  simp only [X.toolFields, XFields.good, XField.plain, XField.ptr, XField.list, XField.nlist, XField.nptr, XField.slice, XCodec.simple, XText.string, XText.int, XText.bool, XText.f32, XText.f64, XText.bomReference, xg_ref, xg_dependencyRef, xg_licenses, xg_environmentVariables, Tool.toP, xg_externalReference, xg_hash, and_true, true_and, implies_true]

theorem xg_toolsChoice {x : ToolsChoice} (h : x.GoInts) : X.toolsChoice.good x := by
  show X.toolsChoiceFields.good _
  simp only [X.toolsChoiceFields, XFields.good, XField.plain, XField.ptr, XField.list, XField.nlist, XField.nptr, XField.slice, XCodec.simple, XText.string, XText.int, XText.bool, XText.f32, XText.f64, XText.bomReference, xg_ref, xg_dependencyRef, xg_licenses, xg_environmentVariables, xg_tool, xg_service, and_true, true_and, implies_true]
  exact fun y hy => xg_component (h y hy)

theorem xg_distributionConstraints (x : DistributionConstraints) : X.distributionConstraints.good x ↔ True := by
  show X.distributionConstraintsFields.good (DistributionConstraints.toP x) ↔ True
  simp only [X.distributionConstraintsFields, XFields.good, XField.plain, XField.ptr, XField.list, XField.nlist, XField.nptr, XField.slice, XCodec.simple, XText.string, XText.int, XText.bool, XText.f32, XText.f64, XText.bomReference, xg_ref, xg_dependencyRef, xg_licenses, xg_environmentVariables, DistributionConstraints.toP, and_true, true_and, implies_true]

theorem xg_metadata {x : Metadata} (h : x.GoInts) : X.metadata.good x := by
  show X.metadataFields.good (Metadata.toP x)
  simp only [X.metadataFields, XFields.good, XField.plain, XField.ptr, XField.list, XField.nlist, XField.nptr, XField.slice, XCodec.simple, XText.string, XText.int, XText.bool, XText.f32, XText.f64, XText.bomReference, xg_ref, xg_dependencyRef, xg_licenses, xg_environmentVariables, Metadata.toP, xg_distributionConstraints, xg_lifecycle, xg_organizationalContact, xg_organizationalEntity, xg_property, and_true, true_and, implies_true]
  exact ⟨fun y hy => xg_toolsChoice (h.1 y hy), fun y hy => xg_component (h.2 y hy)⟩

theorem xg_credits (x : Credits) : X.credits.good x ↔ True := by
  show X.creditsFields.good (Credits.toP x) ↔ True
  simp only [X.creditsFields, XFields.good, XField.plain, XField.ptr, XField.list, XField.nlist, XField.nptr, XField.slice, XCodec.simple, XText.string, XText.int, XText.bool, XText.f32, XText.f64, XText.bomReference, xg_ref, xg_dependencyRef, xg_licenses, xg_environmentVariables, Credits.toP, xg_organizationalContact, xg_organizationalEntity, and_true, true_and, implies_true]

theorem xg_proofOfConcept (x : ProofOfConcept) : X.proofOfConcept.good x ↔ True := by
  show X.proofOfConceptFields.good (ProofOfConcept.toP x) ↔ True
  simp only [X.proofOfConceptFields, XFields.good, XField.plain, XField.ptr, XField.list, XField.nlist, XField.nptr, XField.slice, XCodec.simple, XText.string, XText.int, XText.bool, XText.f32, XText.f64, XText.bomReference, xg_ref, xg_dependencyRef, xg_licenses, xg_environmentVariables, ProofOfConcept.toP, xg_attachedText, and_true, true_and, implies_true]

theorem xg_vulnerabilityAnalysis (x : VulnerabilityAnalysis) : X.vulnerabilityAnalysis.good x ↔ True := by
  show X.vulnerabilityAnalysisFields.good (VulnerabilityAnalysis.toP x) ↔ True
  simp only [X.vulnerabilityAnalysisFields, XFields.good, XField.plain, XField.ptr, XField.list, XField.nlist, XField.nptr, XField.slice, XCodec.simple, XText.string, XText.int, XText.bool, XText.f32, XText.f64, XText.bomReference, xg_ref, xg_dependencyRef, xg_licenses, xg_environmentVariables, VulnerabilityAnalysis.toP, and_true, true_and, implies_true]

theorem xg_vulnerabilityRating (x : VulnerabilityRating) : X.vulnerabilityRating.good x ↔ True := by
  show X.vulnerabilityRatingFields.good (VulnerabilityRating.toP x) ↔ True
  simp only [X.vulnerabilityRatingFields, XFields.good, XField.plain, XField.ptr, XField.list, XField.nlist, XField.nptr, XField.slice, XCodec.simple, XText.string, XText.int, XText.bool, XText.f32, XText.f64, XText.bomReference, xg_ref, xg_dependencyRef, xg_licenses, xg_environmentVariables, VulnerabilityRating.toP, xg_source, and_true, true_and, implies_true]

theorem xg_vulnerabilityReference (x : VulnerabilityReference) : X.vulnerabilityReference.good x ↔ True := by
  show X.vulnerabilityReferenceFields.good (VulnerabilityReference.toP x) ↔ True
  simp only [X.vulnerabilityReferenceFields, XFields.good, XField.plain, XField.ptr, XField.list, XField.nlist, XField.nptr, XField.slice, XCodec.simple, XText.string, XText.int, XText.bool, XText.f32, XText.f64, XText.bomReference, xg_ref, xg_dependencyRef, xg_licenses, xg_environmentVariables, VulnerabilityReference.toP, xg_source, and_true, true_and, implies_true]

theorem xg_vulnerability {x : Vulnerability} (h : x.GoInts) : X.vulnerability.good x := by
  show X.vulnerabilityFields.good (Vulnerability.toP x)
  simp only [X.vulnerabilityFields, XFields.good, XField.plain, XField.ptr, XField.list, XField.nlist, XField.nptr, XField.slice, XCodec.simple, XText.string, XText.int, XText.bool, XText.f32, XText.f64, XText.bomReference, xg_ref, xg_dependencyRef, xg_licenses, xg_environmentVariables, Vulnerability.toP, xg_advisory, xg_affects, xg_credits, xg_proofOfConcept, xg_property, xg_source, xg_vulnerabilityAnalysis, xg_vulnerabilityRating, xg_vulnerabilityReference, and_true, true_and, implies_true]
  exact ⟨h.1, fun y hy => xg_toolsChoice (h.2 y hy)⟩

theorem xg_citation (x : Citation) : X.citation.good x ↔ True := by
  show X.citationFields.good (Citation.toP x) ↔ True
  simp only [X.citationFields, XFields.good, XField.plain, XField.ptr, XField.list, XField.nlist, XField.nptr, XField.slice, XCodec.simple, XText.string, XText.int, XText.bool, XText.f32, XText.f64, XText.bomReference, xg_ref, xg_dependencyRef, xg_licenses, xg_environmentVariables, Citation.toP, and_true, true_and, implies_true]

theorem xg_bom {x : BOM} (h : x.GoInts) : X.bom.good x := by
  show X.bomFields.good (BOM.toP x)
  simp only [X.bomFields, XFields.good, XField.plain, XField.ptr, XField.list, XField.nlist, XField.nptr, XField.slice, XCodec.simple, XText.string, XText.int, XText.bool, XText.f32, XText.f64, XText.bomReference, xg_ref, xg_dependencyRef, xg_licenses, xg_environmentVariables, BOM.toP, xg_citation, xg_composition, xg_definitions, xg_dependency, xg_externalReference, xg_property, xg_service, and_true, true_and, implies_true]
  exact ⟨h.1, fun y hy => xg_metadata (h.2.1 y hy), fun y hy => xg_component (h.2.2.1 y hy), fun y hy => xg_vulnerability (h.2.2.2.1 y hy), fun y hy => xg_annotation (h.2.2.2.2.1 y hy), fun y hy => xg_formula (h.2.2.2.2.2.1 y hy), fun y hy => xg_declarations (h.2.2.2.2.2.2 y hy)⟩

end Verif
