import Verif.Model.Trees

/-!
# The typed deep copy is the untyped one

GENERATED by `tools/gen_trees.py`; do not edit by hand.

`(T.copy x).tree = x.tree.gob` for every type: the model of the deep copy in `Verif.Model.Gob`, type by type,
agrees with the generic description of gob in `Verif.Model.Heap`.
-/

namespace Verif
open Verif.Heap

set_option linter.unusedSimpArgs false

/-- One field of a struct. -/
def Heap.gobField : Tree → Tree
  | .ptr t => if t.zero then .nilPtr else .ptr t.gob
  | .scalar s => .scalar s.sent
  | t => t.gob

theorem gobFields_nil : gobFields [] = [] := by simp [gobFields]
theorem gobFields_cons (t : Tree) (ts : List Tree) : gobFields (t :: ts) = gobField t :: gobFields ts := by
  cases t <;> simp [gobFields, gobField]
theorem gobElems_eq (ts : List Tree) : gobElems ts = ts.map Tree.gob := by
  induction ts with
  | nil => simp [gobElems]
  | cons t ts ih => simp [gobElems, ih]

theorem field_str (s : String) : gobField (.str s) = .str s := rfl
theorem field_ref (s : BOMReference) : gobField (.ref s) = .ref s := rfl
theorem field_int (i : Int) : gobField (.int i) = .int i := rfl
theorem field_bool (b : Bool) : gobField (.bool b) = .bool b := rfl
theorem field_f32 (x : F32) : gobField (.f32 x) = .f32 x.noNegZero := rfl
theorem field_f64 (x : F64) : gobField (.f64 x) = .f64 x.noNegZero := rfl
theorem field_xmlName (n : XMLName) : gobField n.tree = n.tree := by
  rfl

theorem field_optStr (o : Option String) : gobField (.opt .str o) = .opt .str (Gob.string o) := by
  cases o with
  | none => simp [Tree.opt, gobField, Tree.gob, Gob.string]
  | some s => by_cases h : s = "" <;> simp [Tree.opt, gobField, Tree.gob, Gob.string, Tree.str, Tree.zero, h]
theorem field_optRef (o : Option BOMReference) : gobField (.opt .ref o) = .opt .ref (Gob.ref o) := by
  cases o with
  | none => simp [Tree.opt, gobField, Tree.gob, Gob.ref]
  | some s => by_cases h : s.val = "" <;> simp [Tree.opt, gobField, Tree.gob, Gob.ref, Tree.ref, Tree.zero, h]
theorem field_optInt (o : Option Int) : gobField (.opt .int o) = .opt .int (Gob.int o) := by
  cases o with
  | none => simp [Tree.opt, gobField, Tree.gob, Gob.int]
  | some s => by_cases h : s = 0 <;> simp [Tree.opt, gobField, Tree.gob, Gob.int, Tree.int, Tree.zero, h]
theorem field_optBool (o : Option Bool) : gobField (.opt .bool o) = .opt .bool (Gob.bool o) := by
  cases o with
  | none => simp [Tree.opt, gobField, Tree.gob, Gob.bool]
  | some s => cases s <;> simp [Tree.opt, gobField, Tree.gob, Gob.bool, Tree.bool, Tree.zero]
theorem field_optF32 (o : Option F32) : gobField (.opt .f32 o) = .opt .f32 (Gob.float32 o) := by
  cases o with
  | none => simp [Tree.opt, gobField, Tree.gob, Gob.float32]
  | some s => by_cases h : s.isZero <;> simp [Tree.opt, gobField, Tree.gob, Gob.float32, Tree.f32, Tree.zero, h]
theorem field_optF64 (o : Option F64) : gobField (.opt .f64 o) = .opt .f64 (Gob.float64 o) := by
  cases o with
  | none => simp [Tree.opt, gobField, Tree.gob, Gob.float64]
  | some s => by_cases h : s.isZero <;> simp [Tree.opt, gobField, Tree.gob, Gob.float64, Tree.f64, Tree.zero, h]

theorem field_opt {α : Type} {f : α → Tree} {g : α → α} (h : ∀ x, (f (g x)) = (f x).gob)
    (hz : ∀ x, (f x).zero = false) (o : Option α) : gobField (.opt f o) = .opt f (o.map g) := by
  cases o with
  | none => simp [Tree.opt, gobField, Tree.gob]
  | some x => simp [Tree.opt, gobField, hz, h]
theorem field_pslice {α : Type} {f : α → Tree} {g : α → α} (h : ∀ x, (f (g x)) = (f x).gob) (p : PSlice α) :
    gobField (.pslice f p) = .pslice f (p.copyWith g) := by
  rcases p with _ | _ | ⟨_ | ⟨x, xs⟩⟩ <;>
    simp [Tree.pslice, gobField, Tree.gob, Tree.zero, PSlice.copyWith, gobElems_eq, h, Function.comp_def]
theorem field_psliceStr (p : PSlice String) : gobField (.pslice .str p) = .pslice .str (p.copyWith _root_.id) :=
  field_pslice (fun _ => by simp [Tree.str, Tree.gob]) p
theorem field_psliceInt (p : PSlice Int) : gobField (.pslice .int p) = .pslice .int (p.copyWith _root_.id) :=
  field_pslice (fun _ => by simp [Tree.int, Tree.gob]) p
theorem field_psliceRef (p : PSlice BOMReference) :
    gobField (.pslice .ref p) = .pslice .ref (p.copyWith _root_.id) :=
  field_pslice (fun _ => by simp [Tree.ref, Tree.gob]) p

theorem Advisory.tree_gob (x : Advisory) : x.copy.tree = x.tree.gob := by
  simp only [Advisory.tree, Advisory.copy, Tree.gob, gobFields_cons, gobFields_nil, field_str]
theorem Advisory.tree_zero (x : Advisory) : x.tree.zero = false := rfl
theorem Advisory.field_gob (x : Advisory) : gobField x.tree = x.copy.tree := (tree_gob x).symm

theorem AffectedVersions.tree_gob (x : AffectedVersions) : x.copy.tree = x.tree.gob := by
  simp only [AffectedVersions.tree, AffectedVersions.copy, Tree.gob, gobFields_cons, gobFields_nil, field_str]
theorem AffectedVersions.tree_zero (x : AffectedVersions) : x.tree.zero = false := rfl
theorem AffectedVersions.field_gob (x : AffectedVersions) : gobField x.tree = x.copy.tree := (tree_gob x).symm

theorem Affects.tree_gob (x : Affects) : x.copy.tree = x.tree.gob := by
  simp only [Affects.tree, Affects.copy, Tree.gob, gobFields_cons, gobFields_nil, field_str, field_pslice AffectedVersions.tree_gob]
theorem Affects.tree_zero (x : Affects) : x.tree.zero = false := rfl
theorem Affects.field_gob (x : Affects) : gobField x.tree = x.copy.tree := (tree_gob x).symm

theorem AttachedText.tree_gob (x : AttachedText) : x.copy.tree = x.tree.gob := by
  simp only [AttachedText.tree, AttachedText.copy, Tree.gob, gobFields_cons, gobFields_nil, field_str]
theorem AttachedText.tree_zero (x : AttachedText) : x.tree.zero = false := rfl
theorem AttachedText.field_gob (x : AttachedText) : gobField x.tree = x.copy.tree := (tree_gob x).symm

theorem Property.tree_gob (x : Property) : x.copy.tree = x.tree.gob := by
  simp only [Property.tree, Property.copy, Tree.gob, gobFields_cons, gobFields_nil, field_str]
theorem Property.tree_zero (x : Property) : x.tree.zero = false := rfl
theorem Property.field_gob (x : Property) : gobField x.tree = x.copy.tree := (tree_gob x).symm

theorem ComponentDataContents.tree_gob (x : ComponentDataContents) : x.copy.tree = x.tree.gob := by
  simp only [ComponentDataContents.tree, ComponentDataContents.copy, Tree.gob, gobFields_cons, gobFields_nil, field_opt AttachedText.tree_gob AttachedText.tree_zero, field_str, field_pslice Property.tree_gob]
theorem ComponentDataContents.tree_zero (x : ComponentDataContents) : x.tree.zero = false := rfl
theorem ComponentDataContents.field_gob (x : ComponentDataContents) : gobField x.tree = x.copy.tree := (tree_gob x).symm

theorem ComponentDataGraphic.tree_gob (x : ComponentDataGraphic) : x.copy.tree = x.tree.gob := by
  simp only [ComponentDataGraphic.tree, ComponentDataGraphic.copy, Tree.gob, gobFields_cons, gobFields_nil, field_str, field_opt AttachedText.tree_gob AttachedText.tree_zero]
theorem ComponentDataGraphic.tree_zero (x : ComponentDataGraphic) : x.tree.zero = false := rfl
theorem ComponentDataGraphic.field_gob (x : ComponentDataGraphic) : gobField x.tree = x.copy.tree := (tree_gob x).symm

theorem ComponentDataGraphics.tree_gob (x : ComponentDataGraphics) : x.copy.tree = x.tree.gob := by
  simp only [ComponentDataGraphics.tree, ComponentDataGraphics.copy, Tree.gob, gobFields_cons, gobFields_nil, field_str, field_pslice ComponentDataGraphic.tree_gob]
theorem ComponentDataGraphics.tree_zero (x : ComponentDataGraphics) : x.tree.zero = false := rfl
theorem ComponentDataGraphics.field_gob (x : ComponentDataGraphics) : gobField x.tree = x.copy.tree := (tree_gob x).symm

theorem OrganizationalContact.tree_gob (x : OrganizationalContact) : x.copy.tree = x.tree.gob := by
  simp only [OrganizationalContact.tree, OrganizationalContact.copy, Tree.gob, gobFields_cons, gobFields_nil, field_str]
theorem OrganizationalContact.tree_zero (x : OrganizationalContact) : x.tree.zero = false := rfl
theorem OrganizationalContact.field_gob (x : OrganizationalContact) : gobField x.tree = x.copy.tree := (tree_gob x).symm

theorem PostalAddress.tree_gob (x : PostalAddress) : x.copy.tree = x.tree.gob := by
  simp only [PostalAddress.tree, PostalAddress.copy, Tree.gob, gobFields_cons, gobFields_nil, field_str]
theorem PostalAddress.tree_zero (x : PostalAddress) : x.tree.zero = false := rfl
theorem PostalAddress.field_gob (x : PostalAddress) : gobField x.tree = x.copy.tree := (tree_gob x).symm

theorem OrganizationalEntity.tree_gob (x : OrganizationalEntity) : x.copy.tree = x.tree.gob := by
  simp only [OrganizationalEntity.tree, OrganizationalEntity.copy, Tree.gob, gobFields_cons, gobFields_nil, field_str, field_opt PostalAddress.tree_gob PostalAddress.tree_zero, field_psliceStr, field_pslice OrganizationalContact.tree_gob]
theorem OrganizationalEntity.tree_zero (x : OrganizationalEntity) : x.tree.zero = false := rfl
theorem OrganizationalEntity.field_gob (x : OrganizationalEntity) : gobField x.tree = x.copy.tree := (tree_gob x).symm

theorem ComponentDataGovernanceResponsibleParty.tree_gob (x : ComponentDataGovernanceResponsibleParty) : x.copy.tree = x.tree.gob := by
  simp only [ComponentDataGovernanceResponsibleParty.tree, ComponentDataGovernanceResponsibleParty.copy, Tree.gob, gobFields_cons, gobFields_nil, field_opt OrganizationalEntity.tree_gob OrganizationalEntity.tree_zero, field_opt OrganizationalContact.tree_gob OrganizationalContact.tree_zero]
theorem ComponentDataGovernanceResponsibleParty.tree_zero (x : ComponentDataGovernanceResponsibleParty) : x.tree.zero = false := rfl
theorem ComponentDataGovernanceResponsibleParty.field_gob (x : ComponentDataGovernanceResponsibleParty) : gobField x.tree = x.copy.tree := (tree_gob x).symm

theorem DataGovernance.tree_gob (x : DataGovernance) : x.copy.tree = x.tree.gob := by
  simp only [DataGovernance.tree, DataGovernance.copy, Tree.gob, gobFields_cons, gobFields_nil, field_pslice ComponentDataGovernanceResponsibleParty.tree_gob]
theorem DataGovernance.tree_zero (x : DataGovernance) : x.tree.zero = false := rfl
theorem DataGovernance.field_gob (x : DataGovernance) : gobField x.tree = x.copy.tree := (tree_gob x).symm

theorem ComponentData.tree_gob (x : ComponentData) : x.copy.tree = x.tree.gob := by
  simp only [ComponentData.tree, ComponentData.copy, Tree.gob, gobFields_cons, gobFields_nil, field_str, field_opt ComponentDataContents.tree_gob ComponentDataContents.tree_zero, field_psliceStr, field_opt ComponentDataGraphics.tree_gob ComponentDataGraphics.tree_zero, field_opt DataGovernance.tree_gob DataGovernance.tree_zero]
theorem ComponentData.tree_zero (x : ComponentData) : x.tree.zero = false := rfl
theorem ComponentData.field_gob (x : ComponentData) : gobField x.tree = x.copy.tree := (tree_gob x).symm

theorem Hash.tree_gob (x : Hash) : x.copy.tree = x.tree.gob := by
  simp only [Hash.tree, Hash.copy, Tree.gob, gobFields_cons, gobFields_nil, field_str]
theorem Hash.tree_zero (x : Hash) : x.tree.zero = false := rfl
theorem Hash.field_gob (x : Hash) : gobField x.tree = x.copy.tree := (tree_gob x).symm

theorem RelatedCryptographicAsset.tree_gob (x : RelatedCryptographicAsset) : x.copy.tree = x.tree.gob := by
  simp only [RelatedCryptographicAsset.tree, RelatedCryptographicAsset.copy, Tree.gob, gobFields_cons, gobFields_nil, field_str]
theorem RelatedCryptographicAsset.tree_zero (x : RelatedCryptographicAsset) : x.tree.zero = false := rfl
theorem RelatedCryptographicAsset.field_gob (x : RelatedCryptographicAsset) : gobField x.tree = x.copy.tree := (tree_gob x).symm

theorem PredefinedCertificateState.tree_gob (x : PredefinedCertificateState) : x.copy.tree = x.tree.gob := by
  simp only [PredefinedCertificateState.tree, PredefinedCertificateState.copy, Tree.gob, gobFields_cons, gobFields_nil, field_str]
theorem PredefinedCertificateState.tree_zero (x : PredefinedCertificateState) : x.tree.zero = false := rfl
theorem PredefinedCertificateState.field_gob (x : PredefinedCertificateState) : gobField x.tree = x.copy.tree := (tree_gob x).symm

theorem CustomCertificateState.tree_gob (x : CustomCertificateState) : x.copy.tree = x.tree.gob := by
  simp only [CustomCertificateState.tree, CustomCertificateState.copy, Tree.gob, gobFields_cons, gobFields_nil, field_str]
theorem CustomCertificateState.tree_zero (x : CustomCertificateState) : x.tree.zero = false := rfl
theorem CustomCertificateState.field_gob (x : CustomCertificateState) : gobField x.tree = x.copy.tree := (tree_gob x).symm

theorem CertificateState.tree_gob (x : CertificateState) : x.copy.tree = x.tree.gob := by
  simp only [CertificateState.tree, CertificateState.copy, Tree.gob, gobFields_cons, gobFields_nil, field_opt PredefinedCertificateState.tree_gob PredefinedCertificateState.tree_zero, field_opt CustomCertificateState.tree_gob CustomCertificateState.tree_zero]
theorem CertificateState.tree_zero (x : CertificateState) : x.tree.zero = false := rfl
theorem CertificateState.field_gob (x : CertificateState) : gobField x.tree = x.copy.tree := (tree_gob x).symm

theorem CommonCertificateExtension.tree_gob (x : CommonCertificateExtension) : x.copy.tree = x.tree.gob := by
  simp only [CommonCertificateExtension.tree, CommonCertificateExtension.copy, Tree.gob, gobFields_cons, gobFields_nil, field_str]
theorem CommonCertificateExtension.tree_zero (x : CommonCertificateExtension) : x.tree.zero = false := rfl
theorem CommonCertificateExtension.field_gob (x : CommonCertificateExtension) : gobField x.tree = x.copy.tree := (tree_gob x).symm

theorem CustomCertificateExtension.tree_gob (x : CustomCertificateExtension) : x.copy.tree = x.tree.gob := by
  simp only [CustomCertificateExtension.tree, CustomCertificateExtension.copy, Tree.gob, gobFields_cons, gobFields_nil, field_str]
theorem CustomCertificateExtension.tree_zero (x : CustomCertificateExtension) : x.tree.zero = false := rfl
theorem CustomCertificateExtension.field_gob (x : CustomCertificateExtension) : gobField x.tree = x.copy.tree := (tree_gob x).symm

theorem CertificateExtension.tree_gob (x : CertificateExtension) : x.copy.tree = x.tree.gob := by
  simp only [CertificateExtension.tree, CertificateExtension.copy, Tree.gob, gobFields_cons, gobFields_nil, field_opt CommonCertificateExtension.tree_gob CommonCertificateExtension.tree_zero, field_opt CustomCertificateExtension.tree_gob CustomCertificateExtension.tree_zero]
theorem CertificateExtension.tree_zero (x : CertificateExtension) : x.tree.zero = false := rfl
theorem CertificateExtension.field_gob (x : CertificateExtension) : gobField x.tree = x.copy.tree := (tree_gob x).symm

theorem CertificateProperties.tree_gob (x : CertificateProperties) : x.copy.tree = x.tree.gob := by
  simp only [CertificateProperties.tree, CertificateProperties.copy, Tree.gob, gobFields_cons, gobFields_nil, field_str, field_ref, field_opt Hash.tree_gob Hash.tree_zero, field_pslice CertificateState.tree_gob, field_pslice CertificateExtension.tree_gob, field_pslice RelatedCryptographicAsset.tree_gob]
theorem CertificateProperties.tree_zero (x : CertificateProperties) : x.tree.zero = false := rfl
theorem CertificateProperties.field_gob (x : CertificateProperties) : gobField x.tree = x.copy.tree := (tree_gob x).symm

theorem CryptoAlgorithmProperties.tree_gob (x : CryptoAlgorithmProperties) : x.copy.tree = x.tree.gob := by
  simp only [CryptoAlgorithmProperties.tree, CryptoAlgorithmProperties.copy, Tree.gob, gobFields_cons, gobFields_nil, field_str, field_psliceStr, field_optInt]
theorem CryptoAlgorithmProperties.tree_zero (x : CryptoAlgorithmProperties) : x.tree.zero = false := rfl
theorem CryptoAlgorithmProperties.field_gob (x : CryptoAlgorithmProperties) : gobField x.tree = x.copy.tree := (tree_gob x).symm

theorem CipherSuite.tree_gob (x : CipherSuite) : x.copy.tree = x.tree.gob := by
  simp only [CipherSuite.tree, CipherSuite.copy, Tree.gob, gobFields_cons, gobFields_nil, field_str, field_psliceRef, field_psliceStr]
theorem CipherSuite.tree_zero (x : CipherSuite) : x.tree.zero = false := rfl
theorem CipherSuite.field_gob (x : CipherSuite) : gobField x.tree = x.copy.tree := (tree_gob x).symm

theorem IKEv2Auth.tree_gob (x : IKEv2Auth) : x.copy.tree = x.tree.gob := by
  simp only [IKEv2Auth.tree, IKEv2Auth.copy, Tree.gob, gobFields_cons, gobFields_nil, field_ref, field_str]
theorem IKEv2Auth.tree_zero (x : IKEv2Auth) : x.tree.zero = false := rfl
theorem IKEv2Auth.field_gob (x : IKEv2Auth) : gobField x.tree = x.copy.tree := (tree_gob x).symm

theorem IKEv2Enc.tree_gob (x : IKEv2Enc) : x.copy.tree = x.tree.gob := by
  simp only [IKEv2Enc.tree, IKEv2Enc.copy, Tree.gob, gobFields_cons, gobFields_nil, field_ref, field_str, field_optInt]
theorem IKEv2Enc.tree_zero (x : IKEv2Enc) : x.tree.zero = false := rfl
theorem IKEv2Enc.field_gob (x : IKEv2Enc) : gobField x.tree = x.copy.tree := (tree_gob x).symm

theorem IKEv2Integ.tree_gob (x : IKEv2Integ) : x.copy.tree = x.tree.gob := by
  simp only [IKEv2Integ.tree, IKEv2Integ.copy, Tree.gob, gobFields_cons, gobFields_nil, field_ref, field_str]
theorem IKEv2Integ.tree_zero (x : IKEv2Integ) : x.tree.zero = false := rfl
theorem IKEv2Integ.field_gob (x : IKEv2Integ) : gobField x.tree = x.copy.tree := (tree_gob x).symm

theorem IKEv2Ke.tree_gob (x : IKEv2Ke) : x.copy.tree = x.tree.gob := by
  simp only [IKEv2Ke.tree, IKEv2Ke.copy, Tree.gob, gobFields_cons, gobFields_nil, field_ref, field_optInt, field_str]
theorem IKEv2Ke.tree_zero (x : IKEv2Ke) : x.tree.zero = false := rfl
theorem IKEv2Ke.field_gob (x : IKEv2Ke) : gobField x.tree = x.copy.tree := (tree_gob x).symm

theorem IKEv2Prf.tree_gob (x : IKEv2Prf) : x.copy.tree = x.tree.gob := by
  simp only [IKEv2Prf.tree, IKEv2Prf.copy, Tree.gob, gobFields_cons, gobFields_nil, field_ref, field_str]
theorem IKEv2Prf.tree_zero (x : IKEv2Prf) : x.tree.zero = false := rfl
theorem IKEv2Prf.field_gob (x : IKEv2Prf) : gobField x.tree = x.copy.tree := (tree_gob x).symm

theorem IKEv2TransformTypes.tree_gob (x : IKEv2TransformTypes) : x.copy.tree = x.tree.gob := by
  simp only [IKEv2TransformTypes.tree, IKEv2TransformTypes.copy, Tree.gob, gobFields_cons, gobFields_nil, field_pslice IKEv2Enc.tree_gob, field_pslice IKEv2Prf.tree_gob, field_pslice IKEv2Integ.tree_gob, field_pslice IKEv2Ke.tree_gob, field_bool, field_pslice IKEv2Auth.tree_gob]
theorem IKEv2TransformTypes.tree_zero (x : IKEv2TransformTypes) : x.tree.zero = false := rfl
theorem IKEv2TransformTypes.field_gob (x : IKEv2TransformTypes) : gobField x.tree = x.copy.tree := (tree_gob x).symm

theorem CryptoProtocolProperties.tree_gob (x : CryptoProtocolProperties) : x.copy.tree = x.tree.gob := by
  simp only [CryptoProtocolProperties.tree, CryptoProtocolProperties.copy, Tree.gob, gobFields_cons, gobFields_nil, field_str, field_pslice CipherSuite.tree_gob, field_opt IKEv2TransformTypes.tree_gob IKEv2TransformTypes.tree_zero, field_psliceRef, field_pslice RelatedCryptographicAsset.tree_gob]
theorem CryptoProtocolProperties.tree_zero (x : CryptoProtocolProperties) : x.tree.zero = false := rfl
theorem CryptoProtocolProperties.field_gob (x : CryptoProtocolProperties) : gobField x.tree = x.copy.tree := (tree_gob x).symm

theorem SecuredBy.tree_gob (x : SecuredBy) : x.copy.tree = x.tree.gob := by
  simp only [SecuredBy.tree, SecuredBy.copy, Tree.gob, gobFields_cons, gobFields_nil, field_str, field_ref]
theorem SecuredBy.tree_zero (x : SecuredBy) : x.tree.zero = false := rfl
theorem SecuredBy.field_gob (x : SecuredBy) : gobField x.tree = x.copy.tree := (tree_gob x).symm

theorem RelatedCryptoMaterialProperties.tree_gob (x : RelatedCryptoMaterialProperties) : x.copy.tree = x.tree.gob := by
  simp only [RelatedCryptoMaterialProperties.tree, RelatedCryptoMaterialProperties.copy, Tree.gob, gobFields_cons, gobFields_nil, field_str, field_ref, field_optInt, field_opt SecuredBy.tree_gob SecuredBy.tree_zero, field_opt Hash.tree_gob Hash.tree_zero, field_pslice RelatedCryptographicAsset.tree_gob]
theorem RelatedCryptoMaterialProperties.tree_zero (x : RelatedCryptoMaterialProperties) : x.tree.zero = false := rfl
theorem RelatedCryptoMaterialProperties.field_gob (x : RelatedCryptoMaterialProperties) : gobField x.tree = x.copy.tree := (tree_gob x).symm

theorem CryptoProperties.tree_gob (x : CryptoProperties) : x.copy.tree = x.tree.gob := by
  simp only [CryptoProperties.tree, CryptoProperties.copy, Tree.gob, gobFields_cons, gobFields_nil, field_str, field_opt CryptoAlgorithmProperties.tree_gob CryptoAlgorithmProperties.tree_zero, field_opt CertificateProperties.tree_gob CertificateProperties.tree_zero, field_opt RelatedCryptoMaterialProperties.tree_gob RelatedCryptoMaterialProperties.tree_zero, field_opt CryptoProtocolProperties.tree_gob CryptoProtocolProperties.tree_zero]
theorem CryptoProperties.tree_zero (x : CryptoProperties) : x.tree.zero = false := rfl
theorem CryptoProperties.field_gob (x : CryptoProperties) : gobField x.tree = x.copy.tree := (tree_gob x).symm

theorem CallstackFrame.tree_gob (x : CallstackFrame) : x.copy.tree = x.tree.gob := by
  simp only [CallstackFrame.tree, CallstackFrame.copy, Tree.gob, gobFields_cons, gobFields_nil, field_str, field_psliceStr, field_optInt]
theorem CallstackFrame.tree_zero (x : CallstackFrame) : x.tree.zero = false := rfl
theorem CallstackFrame.field_gob (x : CallstackFrame) : gobField x.tree = x.copy.tree := (tree_gob x).symm

theorem Callstack.tree_gob (x : Callstack) : x.copy.tree = x.tree.gob := by
  simp only [Callstack.tree, Callstack.copy, Tree.gob, gobFields_cons, gobFields_nil, field_pslice CallstackFrame.tree_gob]
theorem Callstack.tree_zero (x : Callstack) : x.tree.zero = false := rfl
theorem Callstack.field_gob (x : Callstack) : gobField x.tree = x.copy.tree := (tree_gob x).symm

theorem Copyright.tree_gob (x : Copyright) : x.copy.tree = x.tree.gob := by
  simp only [Copyright.tree, Copyright.copy, Tree.gob, gobFields_cons, gobFields_nil, field_str]
theorem Copyright.tree_zero (x : Copyright) : x.tree.zero = false := rfl
theorem Copyright.field_gob (x : Copyright) : gobField x.tree = x.copy.tree := (tree_gob x).symm

theorem EvidenceIdentityMethod.tree_gob (x : EvidenceIdentityMethod) : x.copy.tree = x.tree.gob := by
  simp only [EvidenceIdentityMethod.tree, EvidenceIdentityMethod.copy, Tree.gob, gobFields_cons, gobFields_nil, field_str, field_optF32]
theorem EvidenceIdentityMethod.tree_zero (x : EvidenceIdentityMethod) : x.tree.zero = false := rfl
theorem EvidenceIdentityMethod.field_gob (x : EvidenceIdentityMethod) : gobField x.tree = x.copy.tree := (tree_gob x).symm

theorem EvidenceIdentity.tree_gob (x : EvidenceIdentity) : x.copy.tree = x.tree.gob := by
  simp only [EvidenceIdentity.tree, EvidenceIdentity.copy, Tree.gob, gobFields_cons, gobFields_nil, field_str, field_optF32, field_pslice EvidenceIdentityMethod.tree_gob, field_psliceRef]
theorem EvidenceIdentity.tree_zero (x : EvidenceIdentity) : x.tree.zero = false := rfl
theorem EvidenceIdentity.field_gob (x : EvidenceIdentity) : gobField x.tree = x.copy.tree := (tree_gob x).symm

theorem EvidenceIdentityChoice.tree_gob (x : EvidenceIdentityChoice) : x.copy.tree = x.tree.gob := by
  simp only [EvidenceIdentityChoice.tree, EvidenceIdentityChoice.copy, Tree.gob, gobFields_cons, gobFields_nil, field_opt EvidenceIdentity.tree_gob EvidenceIdentity.tree_zero, field_pslice EvidenceIdentity.tree_gob]
theorem EvidenceIdentityChoice.tree_zero (x : EvidenceIdentityChoice) : x.tree.zero = false := rfl
theorem EvidenceIdentityChoice.field_gob (x : EvidenceIdentityChoice) : gobField x.tree = x.copy.tree := (tree_gob x).symm

theorem EvidenceOccurrence.tree_gob (x : EvidenceOccurrence) : x.copy.tree = x.tree.gob := by
  simp only [EvidenceOccurrence.tree, EvidenceOccurrence.copy, Tree.gob, gobFields_cons, gobFields_nil, field_str, field_optInt]
theorem EvidenceOccurrence.tree_zero (x : EvidenceOccurrence) : x.tree.zero = false := rfl
theorem EvidenceOccurrence.field_gob (x : EvidenceOccurrence) : gobField x.tree = x.copy.tree := (tree_gob x).symm

theorem OrganizationalEntityOrContact.tree_gob (x : OrganizationalEntityOrContact) : x.copy.tree = x.tree.gob := by
  simp only [OrganizationalEntityOrContact.tree, OrganizationalEntityOrContact.copy, Tree.gob, gobFields_cons, gobFields_nil, field_opt OrganizationalEntity.tree_gob OrganizationalEntity.tree_zero, field_opt OrganizationalContact.tree_gob OrganizationalContact.tree_zero]
theorem OrganizationalEntityOrContact.tree_zero (x : OrganizationalEntityOrContact) : x.tree.zero = false := rfl
theorem OrganizationalEntityOrContact.field_gob (x : OrganizationalEntityOrContact) : gobField x.tree = x.copy.tree := (tree_gob x).symm

theorem Licensing.tree_gob (x : Licensing) : x.copy.tree = x.tree.gob := by
  simp only [Licensing.tree, Licensing.copy, Tree.gob, gobFields_cons, gobFields_nil, field_psliceStr, field_opt OrganizationalEntityOrContact.tree_gob OrganizationalEntityOrContact.tree_zero, field_str]
theorem Licensing.tree_zero (x : Licensing) : x.tree.zero = false := rfl
theorem Licensing.field_gob (x : Licensing) : gobField x.tree = x.copy.tree := (tree_gob x).symm

theorem License.tree_gob (x : License) : x.copy.tree = x.tree.gob := by
  simp only [License.tree, License.copy, Tree.gob, gobFields_cons, gobFields_nil, field_str, field_opt AttachedText.tree_gob AttachedText.tree_zero, field_opt Licensing.tree_gob Licensing.tree_zero, field_pslice Property.tree_gob]
theorem License.tree_zero (x : License) : x.tree.zero = false := rfl
theorem License.field_gob (x : License) : gobField x.tree = x.copy.tree := (tree_gob x).symm

theorem LicenseExpressionDetail.tree_gob (x : LicenseExpressionDetail) : x.copy.tree = x.tree.gob := by
  simp only [LicenseExpressionDetail.tree, LicenseExpressionDetail.copy, Tree.gob, gobFields_cons, gobFields_nil, field_str, field_opt AttachedText.tree_gob AttachedText.tree_zero]
theorem LicenseExpressionDetail.tree_zero (x : LicenseExpressionDetail) : x.tree.zero = false := rfl
theorem LicenseExpressionDetail.field_gob (x : LicenseExpressionDetail) : gobField x.tree = x.copy.tree := (tree_gob x).symm

theorem LicenseChoice.tree_gob (x : LicenseChoice) : x.copy.tree = x.tree.gob := by
  simp only [LicenseChoice.tree, LicenseChoice.copy, Tree.gob, gobFields_cons, gobFields_nil, field_opt License.tree_gob License.tree_zero, field_str, field_pslice LicenseExpressionDetail.tree_gob, field_optStr, field_opt Licensing.tree_gob Licensing.tree_zero, field_pslice Property.tree_gob]
theorem LicenseChoice.tree_zero (x : LicenseChoice) : x.tree.zero = false := rfl
theorem LicenseChoice.field_gob (x : LicenseChoice) : gobField x.tree = x.copy.tree := (tree_gob x).symm

theorem Evidence.tree_gob (x : Evidence) : x.copy.tree = x.tree.gob := by
  simp only [Evidence.tree, Evidence.copy, Tree.gob, gobFields_cons, gobFields_nil, field_opt EvidenceIdentityChoice.tree_gob EvidenceIdentityChoice.tree_zero, field_pslice EvidenceOccurrence.tree_gob, field_opt Callstack.tree_gob Callstack.tree_zero, field_pslice LicenseChoice.tree_gob, field_pslice Copyright.tree_gob]
theorem Evidence.tree_zero (x : Evidence) : x.tree.zero = false := rfl
theorem Evidence.field_gob (x : Evidence) : gobField x.tree = x.copy.tree := (tree_gob x).symm

theorem ExternalReference.tree_gob (x : ExternalReference) : x.copy.tree = x.tree.gob := by
  simp only [ExternalReference.tree, ExternalReference.copy, Tree.gob, gobFields_cons, gobFields_nil, field_str, field_pslice Hash.tree_gob, field_pslice Property.tree_gob]
theorem ExternalReference.tree_zero (x : ExternalReference) : x.tree.zero = false := rfl
theorem ExternalReference.field_gob (x : ExternalReference) : gobField x.tree = x.copy.tree := (tree_gob x).symm

theorem JSFPublicKey.tree_gob (x : JSFPublicKey) : x.copy.tree = x.tree.gob := by
  simp only [JSFPublicKey.tree, JSFPublicKey.copy, Tree.gob, gobFields_cons, gobFields_nil, field_str]
theorem JSFPublicKey.tree_zero (x : JSFPublicKey) : x.tree.zero = false := rfl
theorem JSFPublicKey.field_gob (x : JSFPublicKey) : gobField x.tree = x.copy.tree := (tree_gob x).symm

theorem JSFSigner.tree_gob (x : JSFSigner) : x.copy.tree = x.tree.gob := by
  simp only [JSFSigner.tree, JSFSigner.copy, Tree.gob, gobFields_cons, gobFields_nil, field_str, JSFPublicKey.field_gob, field_psliceStr]
theorem JSFSigner.tree_zero (x : JSFSigner) : x.tree.zero = false := rfl
theorem JSFSigner.field_gob (x : JSFSigner) : gobField x.tree = x.copy.tree := (tree_gob x).symm

theorem JSFSignature.tree_gob (x : JSFSignature) : x.copy.tree = x.tree.gob := by
  simp only [JSFSignature.tree, JSFSignature.copy, Tree.gob, gobFields_cons, gobFields_nil, field_opt JSFSigner.tree_gob JSFSigner.tree_zero, field_pslice JSFSigner.tree_gob]
theorem JSFSignature.tree_zero (x : JSFSignature) : x.tree.zero = false := rfl
theorem JSFSignature.field_gob (x : JSFSignature) : gobField x.tree = x.copy.tree := (tree_gob x).symm

theorem MLModelCO2Measure.tree_gob (x : MLModelCO2Measure) : x.copy.tree = x.tree.gob := by
  simp only [MLModelCO2Measure.tree, MLModelCO2Measure.copy, Tree.gob, gobFields_cons, gobFields_nil, field_f32, field_str]
theorem MLModelCO2Measure.tree_zero (x : MLModelCO2Measure) : x.tree.zero = false := rfl
theorem MLModelCO2Measure.field_gob (x : MLModelCO2Measure) : gobField x.tree = x.copy.tree := (tree_gob x).symm

theorem MLModelEnergyMeasure.tree_gob (x : MLModelEnergyMeasure) : x.copy.tree = x.tree.gob := by
  simp only [MLModelEnergyMeasure.tree, MLModelEnergyMeasure.copy, Tree.gob, gobFields_cons, gobFields_nil, field_f32, field_str]
theorem MLModelEnergyMeasure.tree_zero (x : MLModelEnergyMeasure) : x.tree.zero = false := rfl
theorem MLModelEnergyMeasure.field_gob (x : MLModelEnergyMeasure) : gobField x.tree = x.copy.tree := (tree_gob x).symm

theorem MLModelEnergyProvider.tree_gob (x : MLModelEnergyProvider) : x.copy.tree = x.tree.gob := by
  simp only [MLModelEnergyProvider.tree, MLModelEnergyProvider.copy, Tree.gob, gobFields_cons, gobFields_nil, field_str, field_opt OrganizationalEntity.tree_gob OrganizationalEntity.tree_zero, field_opt MLModelEnergyMeasure.tree_gob MLModelEnergyMeasure.tree_zero, field_pslice ExternalReference.tree_gob]
theorem MLModelEnergyProvider.tree_zero (x : MLModelEnergyProvider) : x.tree.zero = false := rfl
theorem MLModelEnergyProvider.field_gob (x : MLModelEnergyProvider) : gobField x.tree = x.copy.tree := (tree_gob x).symm

theorem MLModelEnergyConsumption.tree_gob (x : MLModelEnergyConsumption) : x.copy.tree = x.tree.gob := by
  simp only [MLModelEnergyConsumption.tree, MLModelEnergyConsumption.copy, Tree.gob, gobFields_cons, gobFields_nil, field_str, field_pslice MLModelEnergyProvider.tree_gob, MLModelEnergyMeasure.field_gob, field_opt MLModelCO2Measure.tree_gob MLModelCO2Measure.tree_zero, field_pslice Property.tree_gob]
theorem MLModelEnergyConsumption.tree_zero (x : MLModelEnergyConsumption) : x.tree.zero = false := rfl
theorem MLModelEnergyConsumption.field_gob (x : MLModelEnergyConsumption) : gobField x.tree = x.copy.tree := (tree_gob x).symm

theorem MLModelCardEnvironmentalConsiderations.tree_gob (x : MLModelCardEnvironmentalConsiderations) : x.copy.tree = x.tree.gob := by
  simp only [MLModelCardEnvironmentalConsiderations.tree, MLModelCardEnvironmentalConsiderations.copy, Tree.gob, gobFields_cons, gobFields_nil, field_pslice MLModelEnergyConsumption.tree_gob, field_pslice Property.tree_gob]
theorem MLModelCardEnvironmentalConsiderations.tree_zero (x : MLModelCardEnvironmentalConsiderations) : x.tree.zero = false := rfl
theorem MLModelCardEnvironmentalConsiderations.field_gob (x : MLModelCardEnvironmentalConsiderations) : gobField x.tree = x.copy.tree := (tree_gob x).symm

theorem MLModelCardEthicalConsideration.tree_gob (x : MLModelCardEthicalConsideration) : x.copy.tree = x.tree.gob := by
  simp only [MLModelCardEthicalConsideration.tree, MLModelCardEthicalConsideration.copy, Tree.gob, gobFields_cons, gobFields_nil, field_str]
theorem MLModelCardEthicalConsideration.tree_zero (x : MLModelCardEthicalConsideration) : x.tree.zero = false := rfl
theorem MLModelCardEthicalConsideration.field_gob (x : MLModelCardEthicalConsideration) : gobField x.tree = x.copy.tree := (tree_gob x).symm

theorem MLModelCardFairnessAssessment.tree_gob (x : MLModelCardFairnessAssessment) : x.copy.tree = x.tree.gob := by
  simp only [MLModelCardFairnessAssessment.tree, MLModelCardFairnessAssessment.copy, Tree.gob, gobFields_cons, gobFields_nil, field_str]
theorem MLModelCardFairnessAssessment.tree_zero (x : MLModelCardFairnessAssessment) : x.tree.zero = false := rfl
theorem MLModelCardFairnessAssessment.field_gob (x : MLModelCardFairnessAssessment) : gobField x.tree = x.copy.tree := (tree_gob x).symm

theorem MLModelCardConsiderations.tree_gob (x : MLModelCardConsiderations) : x.copy.tree = x.tree.gob := by
  simp only [MLModelCardConsiderations.tree, MLModelCardConsiderations.copy, Tree.gob, gobFields_cons, gobFields_nil, field_psliceStr, field_pslice MLModelCardEthicalConsideration.tree_gob, field_opt MLModelCardEnvironmentalConsiderations.tree_gob MLModelCardEnvironmentalConsiderations.tree_zero, field_pslice MLModelCardFairnessAssessment.tree_gob]
theorem MLModelCardConsiderations.tree_zero (x : MLModelCardConsiderations) : x.tree.zero = false := rfl
theorem MLModelCardConsiderations.field_gob (x : MLModelCardConsiderations) : gobField x.tree = x.copy.tree := (tree_gob x).symm

theorem MLDatasetChoice.tree_gob (x : MLDatasetChoice) : x.copy.tree = x.tree.gob := by
  simp only [MLDatasetChoice.tree, MLDatasetChoice.copy, Tree.gob, gobFields_cons, gobFields_nil, field_str, field_opt ComponentData.tree_gob ComponentData.tree_zero]
theorem MLDatasetChoice.tree_zero (x : MLDatasetChoice) : x.tree.zero = false := rfl
theorem MLDatasetChoice.field_gob (x : MLDatasetChoice) : gobField x.tree = x.copy.tree := (tree_gob x).symm

theorem MLInputOutputParameters.tree_gob (x : MLInputOutputParameters) : x.copy.tree = x.tree.gob := by
  simp only [MLInputOutputParameters.tree, MLInputOutputParameters.copy, Tree.gob, gobFields_cons, gobFields_nil, field_str]
theorem MLInputOutputParameters.tree_zero (x : MLInputOutputParameters) : x.tree.zero = false := rfl
theorem MLInputOutputParameters.field_gob (x : MLInputOutputParameters) : gobField x.tree = x.copy.tree := (tree_gob x).symm

theorem MLModelParametersApproach.tree_gob (x : MLModelParametersApproach) : x.copy.tree = x.tree.gob := by
  simp only [MLModelParametersApproach.tree, MLModelParametersApproach.copy, Tree.gob, gobFields_cons, gobFields_nil, field_str]
theorem MLModelParametersApproach.tree_zero (x : MLModelParametersApproach) : x.tree.zero = false := rfl
theorem MLModelParametersApproach.field_gob (x : MLModelParametersApproach) : gobField x.tree = x.copy.tree := (tree_gob x).symm

theorem MLModelParameters.tree_gob (x : MLModelParameters) : x.copy.tree = x.tree.gob := by
  simp only [MLModelParameters.tree, MLModelParameters.copy, Tree.gob, gobFields_cons, gobFields_nil, field_opt MLModelParametersApproach.tree_gob MLModelParametersApproach.tree_zero, field_str, field_pslice MLDatasetChoice.tree_gob, field_pslice MLInputOutputParameters.tree_gob]
theorem MLModelParameters.tree_zero (x : MLModelParameters) : x.tree.zero = false := rfl
theorem MLModelParameters.field_gob (x : MLModelParameters) : gobField x.tree = x.copy.tree := (tree_gob x).symm

theorem MLPerformanceMetricConfidenceInterval.tree_gob (x : MLPerformanceMetricConfidenceInterval) : x.copy.tree = x.tree.gob := by
  simp only [MLPerformanceMetricConfidenceInterval.tree, MLPerformanceMetricConfidenceInterval.copy, Tree.gob, gobFields_cons, gobFields_nil, field_str]
theorem MLPerformanceMetricConfidenceInterval.tree_zero (x : MLPerformanceMetricConfidenceInterval) : x.tree.zero = false := rfl
theorem MLPerformanceMetricConfidenceInterval.field_gob (x : MLPerformanceMetricConfidenceInterval) : gobField x.tree = x.copy.tree := (tree_gob x).symm

theorem MLPerformanceMetric.tree_gob (x : MLPerformanceMetric) : x.copy.tree = x.tree.gob := by
  simp only [MLPerformanceMetric.tree, MLPerformanceMetric.copy, Tree.gob, gobFields_cons, gobFields_nil, field_str, field_opt MLPerformanceMetricConfidenceInterval.tree_gob MLPerformanceMetricConfidenceInterval.tree_zero]
theorem MLPerformanceMetric.tree_zero (x : MLPerformanceMetric) : x.tree.zero = false := rfl
theorem MLPerformanceMetric.field_gob (x : MLPerformanceMetric) : gobField x.tree = x.copy.tree := (tree_gob x).symm

theorem MLQuantitativeAnalysis.tree_gob (x : MLQuantitativeAnalysis) : x.copy.tree = x.tree.gob := by
  simp only [MLQuantitativeAnalysis.tree, MLQuantitativeAnalysis.copy, Tree.gob, gobFields_cons, gobFields_nil, field_pslice MLPerformanceMetric.tree_gob, field_opt ComponentDataGraphics.tree_gob ComponentDataGraphics.tree_zero]
theorem MLQuantitativeAnalysis.tree_zero (x : MLQuantitativeAnalysis) : x.tree.zero = false := rfl
theorem MLQuantitativeAnalysis.field_gob (x : MLQuantitativeAnalysis) : gobField x.tree = x.copy.tree := (tree_gob x).symm

theorem MLModelCard.tree_gob (x : MLModelCard) : x.copy.tree = x.tree.gob := by
  simp only [MLModelCard.tree, MLModelCard.copy, Tree.gob, gobFields_cons, gobFields_nil, field_str, field_opt MLModelParameters.tree_gob MLModelParameters.tree_zero, field_opt MLQuantitativeAnalysis.tree_gob MLQuantitativeAnalysis.tree_zero, field_opt MLModelCardConsiderations.tree_gob MLModelCardConsiderations.tree_zero]
theorem MLModelCard.tree_zero (x : MLModelCard) : x.tree.zero = false := rfl
theorem MLModelCard.field_gob (x : MLModelCard) : gobField x.tree = x.copy.tree := (tree_gob x).symm

theorem IdentifiableAction.tree_gob (x : IdentifiableAction) : x.copy.tree = x.tree.gob := by
  simp only [IdentifiableAction.tree, IdentifiableAction.copy, Tree.gob, gobFields_cons, gobFields_nil, field_str]
theorem IdentifiableAction.tree_zero (x : IdentifiableAction) : x.tree.zero = false := rfl
theorem IdentifiableAction.field_gob (x : IdentifiableAction) : gobField x.tree = x.copy.tree := (tree_gob x).symm

theorem Commit.tree_gob (x : Commit) : x.copy.tree = x.tree.gob := by
  simp only [Commit.tree, Commit.copy, Tree.gob, gobFields_cons, gobFields_nil, field_str, field_opt IdentifiableAction.tree_gob IdentifiableAction.tree_zero]
theorem Commit.tree_zero (x : Commit) : x.tree.zero = false := rfl
theorem Commit.field_gob (x : Commit) : gobField x.tree = x.copy.tree := (tree_gob x).symm

theorem Diff.tree_gob (x : Diff) : x.copy.tree = x.tree.gob := by
  simp only [Diff.tree, Diff.copy, Tree.gob, gobFields_cons, gobFields_nil, field_opt AttachedText.tree_gob AttachedText.tree_zero, field_str]
theorem Diff.tree_zero (x : Diff) : x.tree.zero = false := rfl
theorem Diff.field_gob (x : Diff) : gobField x.tree = x.copy.tree := (tree_gob x).symm

theorem Source.tree_gob (x : Source) : x.copy.tree = x.tree.gob := by
  simp only [Source.tree, Source.copy, Tree.gob, gobFields_cons, gobFields_nil, field_str]
theorem Source.tree_zero (x : Source) : x.tree.zero = false := rfl
theorem Source.field_gob (x : Source) : gobField x.tree = x.copy.tree := (tree_gob x).symm

theorem Issue.tree_gob (x : Issue) : x.copy.tree = x.tree.gob := by
  simp only [Issue.tree, Issue.copy, Tree.gob, gobFields_cons, gobFields_nil, field_str, field_opt Source.tree_gob Source.tree_zero, field_psliceStr]
theorem Issue.tree_zero (x : Issue) : x.tree.zero = false := rfl
theorem Issue.field_gob (x : Issue) : gobField x.tree = x.copy.tree := (tree_gob x).symm

theorem Patch.tree_gob (x : Patch) : x.copy.tree = x.tree.gob := by
  simp only [Patch.tree, Patch.copy, Tree.gob, gobFields_cons, gobFields_nil, field_opt Diff.tree_gob Diff.tree_zero, field_pslice Issue.tree_gob, field_str]
theorem Patch.tree_zero (x : Patch) : x.tree.zero = false := rfl
theorem Patch.field_gob (x : Patch) : gobField x.tree = x.copy.tree := (tree_gob x).symm

theorem Note.tree_gob (x : Note) : x.copy.tree = x.tree.gob := by
  simp only [Note.tree, Note.copy, Tree.gob, gobFields_cons, gobFields_nil, field_str, AttachedText.field_gob]
theorem Note.tree_zero (x : Note) : x.tree.zero = false := rfl
theorem Note.field_gob (x : Note) : gobField x.tree = x.copy.tree := (tree_gob x).symm

theorem ReleaseNotes.tree_gob (x : ReleaseNotes) : x.copy.tree = x.tree.gob := by
  simp only [ReleaseNotes.tree, ReleaseNotes.copy, Tree.gob, gobFields_cons, gobFields_nil, field_str, field_psliceStr, field_pslice Issue.tree_gob, field_pslice Note.tree_gob, field_pslice Property.tree_gob]
theorem ReleaseNotes.tree_zero (x : ReleaseNotes) : x.tree.zero = false := rfl
theorem ReleaseNotes.field_gob (x : ReleaseNotes) : gobField x.tree = x.copy.tree := (tree_gob x).symm

theorem SWID.tree_gob (x : SWID) : x.copy.tree = x.tree.gob := by
  simp only [SWID.tree, SWID.copy, Tree.gob, gobFields_cons, gobFields_nil, field_opt AttachedText.tree_gob AttachedText.tree_zero, field_str, field_optInt, field_optBool]
theorem SWID.tree_zero (x : SWID) : x.tree.zero = false := rfl
theorem SWID.field_gob (x : SWID) : gobField x.tree = x.copy.tree := (tree_gob x).symm

theorem AsserterChoice.tree_gob (x : AsserterChoice) : x.copy.tree = x.tree.gob := by
  simp only [AsserterChoice.tree, AsserterChoice.copy, Tree.gob, gobFields_cons, gobFields_nil, field_opt OrganizationalEntity.tree_gob OrganizationalEntity.tree_zero, field_opt OrganizationalContact.tree_gob OrganizationalContact.tree_zero, field_optRef]
theorem AsserterChoice.tree_zero (x : AsserterChoice) : x.tree.zero = false := rfl
theorem AsserterChoice.field_gob (x : AsserterChoice) : gobField x.tree = x.copy.tree := (tree_gob x).symm

theorem PatentAssertion.tree_gob (x : PatentAssertion) : x.copy.tree = x.tree.gob := by
  simp only [PatentAssertion.tree, PatentAssertion.copy, Tree.gob, gobFields_cons, gobFields_nil, field_str, field_psliceRef, field_opt AsserterChoice.tree_gob AsserterChoice.tree_zero]
theorem PatentAssertion.tree_zero (x : PatentAssertion) : x.tree.zero = false := rfl
theorem PatentAssertion.field_gob (x : PatentAssertion) : gobField x.tree = x.copy.tree := (tree_gob x).symm

mutual
theorem Component.tree_gob : ∀ x : Component, x.copy.tree = x.tree.gob
  | .mk bomRef mimeType type supplier manufacturer author authors publisher group name version description scope hashes licenses copyright cpe packageURL omniborID swhid swid modified pedigree externalReferences properties components evidence releaseNotes modelCard data cryptoProperties tags isExternal patentAssertions versionRange signature => by
    simp only [Component.tree, Component.copy, Tree.gob, gobFields_cons, gobFields_nil, field_str, field_opt OrganizationalEntity.tree_gob OrganizationalEntity.tree_zero, field_pslice OrganizationalContact.tree_gob, field_pslice Hash.tree_gob, field_pslice LicenseChoice.tree_gob, field_psliceStr, field_opt SWID.tree_gob SWID.tree_zero, field_optBool, pedigreeOptTree_gob pedigree, field_pslice ExternalReference.tree_gob, field_pslice Property.tree_gob, componentsTree_gob components, field_opt Evidence.tree_gob Evidence.tree_zero, field_opt ReleaseNotes.tree_gob ReleaseNotes.tree_zero, field_opt MLModelCard.tree_gob MLModelCard.tree_zero, field_pslice ComponentData.tree_gob, field_opt CryptoProperties.tree_gob CryptoProperties.tree_zero, field_pslice PatentAssertion.tree_gob, field_opt JSFSignature.tree_gob JSFSignature.tree_zero]
theorem componentsTree_gob : ∀ p : PSlice Component, gobField (componentsTree p) = componentsTree (copyComponents p)
  | .nil => by simp only [componentsTree, copyComponents, gobField, Tree.gob]
  | .nilSlice => by simp [componentsTree, copyComponents, gobField, Tree.zero]
  | .list [] => by simp [componentsTree, copyComponents, gobField, Tree.zero, componentListTree]
  | .list (x :: xs) => by
    simp [componentsTree, copyComponents, gobField, Tree.zero, componentListTree, Tree.gob, gobElems, Component.tree_gob x, componentListTree_gob xs]
theorem componentListTree_gob : ∀ xs : List Component, componentListTree (copyComponentList xs) = gobElems (componentListTree xs)
  | [] => by simp only [componentListTree, copyComponentList, gobElems]
  | x :: xs => by simp only [componentListTree, copyComponentList, gobElems, Component.tree_gob x, componentListTree_gob xs]
theorem pedigreeOptTree_gob : ∀ p : Option (Pedigree Component), gobField (pedigreeOptTree p) = pedigreeOptTree (copyPedigreeOpt p)
  | none => by simp only [pedigreeOptTree, copyPedigreeOpt, gobField, Tree.gob]
  | some p => by
    have h : (pedigreeTree p).zero = false := by cases p; simp only [pedigreeTree, Tree.zero]
    simp only [pedigreeOptTree, copyPedigreeOpt, gobField, h, pedigreeTree_gob p, Bool.false_eq_true, if_false]
theorem pedigreeTree_gob : ∀ p : Pedigree Component, pedigreeTree (copyPedigree p) = (pedigreeTree p).gob
  | .mk ancestors descendants variants commits patches notes => by
    simp only [pedigreeTree, copyPedigree, Tree.gob, gobFields_cons, gobFields_nil, componentsTree_gob ancestors, componentsTree_gob descendants, componentsTree_gob variants, field_pslice Commit.tree_gob, field_pslice Patch.tree_gob, field_str]
end
theorem Component.tree_zero (x : Component) : x.tree.zero = false := by cases x; simp only [Component.tree, Tree.zero]

theorem DataClassification.tree_gob (x : DataClassification) : x.copy.tree = x.tree.gob := by
  simp only [DataClassification.tree, DataClassification.copy, Tree.gob, gobFields_cons, gobFields_nil, field_str, field_opt DataGovernance.tree_gob DataGovernance.tree_zero, field_psliceStr]
theorem DataClassification.tree_zero (x : DataClassification) : x.tree.zero = false := rfl
theorem DataClassification.field_gob (x : DataClassification) : gobField x.tree = x.copy.tree := (tree_gob x).symm

mutual
theorem Service.tree_gob : ∀ x : Service, x.copy.tree = x.tree.gob
  | .mk bomRef provider group name version description endpoints authenticated crossesTrustBoundary data licenses externalReferences properties services releaseNotes tags trustZone patentAssertions signature => by
    simp only [Service.tree, Service.copy, Tree.gob, gobFields_cons, gobFields_nil, field_str, field_opt OrganizationalEntity.tree_gob OrganizationalEntity.tree_zero, field_psliceStr, field_optBool, field_pslice DataClassification.tree_gob, field_pslice LicenseChoice.tree_gob, field_pslice ExternalReference.tree_gob, field_pslice Property.tree_gob, servicesTree_gob services, field_opt ReleaseNotes.tree_gob ReleaseNotes.tree_zero, field_pslice PatentAssertion.tree_gob, field_opt JSFSignature.tree_gob JSFSignature.tree_zero]
theorem servicesTree_gob : ∀ p : PSlice Service, gobField (servicesTree p) = servicesTree (copyServices p)
  | .nil => by simp only [servicesTree, copyServices, gobField, Tree.gob]
  | .nilSlice => by simp [servicesTree, copyServices, gobField, Tree.zero]
  | .list [] => by simp [servicesTree, copyServices, gobField, Tree.zero, serviceListTree]
  | .list (x :: xs) => by
    simp [servicesTree, copyServices, gobField, Tree.zero, serviceListTree, Tree.gob, gobElems, Service.tree_gob x, serviceListTree_gob xs]
theorem serviceListTree_gob : ∀ xs : List Service, serviceListTree (copyServiceList xs) = gobElems (serviceListTree xs)
  | [] => by simp only [serviceListTree, copyServiceList, gobElems]
  | x :: xs => by simp only [serviceListTree, copyServiceList, gobElems, Service.tree_gob x, serviceListTree_gob xs]
end
theorem Service.tree_zero (x : Service) : x.tree.zero = false := by cases x; simp only [Service.tree, Tree.zero]

theorem Annotator.tree_gob (x : Annotator) : x.copy.tree = x.tree.gob := by
  simp only [Annotator.tree, Annotator.copy, Tree.gob, gobFields_cons, gobFields_nil, field_opt OrganizationalEntity.tree_gob OrganizationalEntity.tree_zero, field_opt OrganizationalContact.tree_gob OrganizationalContact.tree_zero, field_opt Component.tree_gob Component.tree_zero, field_opt Service.tree_gob Service.tree_zero]
theorem Annotator.tree_zero (x : Annotator) : x.tree.zero = false := rfl
theorem Annotator.field_gob (x : Annotator) : gobField x.tree = x.copy.tree := (tree_gob x).symm

theorem Annotation.tree_gob (x : Annotation) : x.copy.tree = x.tree.gob := by
  simp only [Annotation.tree, Annotation.copy, Tree.gob, gobFields_cons, gobFields_nil, field_str, field_psliceRef, field_opt Annotator.tree_gob Annotator.tree_zero, field_opt JSFSignature.tree_gob JSFSignature.tree_zero]
theorem Annotation.tree_zero (x : Annotation) : x.tree.zero = false := rfl
theorem Annotation.field_gob (x : Annotation) : gobField x.tree = x.copy.tree := (tree_gob x).symm

theorem Assessor.tree_gob (x : Assessor) : x.copy.tree = x.tree.gob := by
  simp only [Assessor.tree, Assessor.copy, Tree.gob, gobFields_cons, gobFields_nil, field_ref, field_bool, field_opt OrganizationalEntity.tree_gob OrganizationalEntity.tree_zero]
theorem Assessor.tree_zero (x : Assessor) : x.tree.zero = false := rfl
theorem Assessor.field_gob (x : Assessor) : gobField x.tree = x.copy.tree := (tree_gob x).symm

theorem AttestationConformance.tree_gob (x : AttestationConformance) : x.copy.tree = x.tree.gob := by
  simp only [AttestationConformance.tree, AttestationConformance.copy, Tree.gob, gobFields_cons, gobFields_nil, field_optF64, field_str, field_psliceRef]
theorem AttestationConformance.tree_zero (x : AttestationConformance) : x.tree.zero = false := rfl
theorem AttestationConformance.field_gob (x : AttestationConformance) : gobField x.tree = x.copy.tree := (tree_gob x).symm

theorem AttestationConfidence.tree_gob (x : AttestationConfidence) : x.copy.tree = x.tree.gob := by
  simp only [AttestationConfidence.tree, AttestationConfidence.copy, Tree.gob, gobFields_cons, gobFields_nil, field_optF64, field_str]
theorem AttestationConfidence.tree_zero (x : AttestationConfidence) : x.tree.zero = false := rfl
theorem AttestationConfidence.field_gob (x : AttestationConfidence) : gobField x.tree = x.copy.tree := (tree_gob x).symm

theorem AttestationMap.tree_gob (x : AttestationMap) : x.copy.tree = x.tree.gob := by
  simp only [AttestationMap.tree, AttestationMap.copy, Tree.gob, gobFields_cons, gobFields_nil, field_str, field_psliceRef, field_opt AttestationConformance.tree_gob AttestationConformance.tree_zero, field_opt AttestationConfidence.tree_gob AttestationConfidence.tree_zero]
theorem AttestationMap.tree_zero (x : AttestationMap) : x.tree.zero = false := rfl
theorem AttestationMap.field_gob (x : AttestationMap) : gobField x.tree = x.copy.tree := (tree_gob x).symm

theorem Attestation.tree_gob (x : Attestation) : x.copy.tree = x.tree.gob := by
  simp only [Attestation.tree, Attestation.copy, Tree.gob, gobFields_cons, gobFields_nil, field_str, field_ref, field_pslice AttestationMap.tree_gob, field_opt JSFSignature.tree_gob JSFSignature.tree_zero]
theorem Attestation.tree_zero (x : Attestation) : x.tree.zero = false := rfl
theorem Attestation.field_gob (x : Attestation) : gobField x.tree = x.copy.tree := (tree_gob x).symm

theorem Composition.tree_gob (x : Composition) : x.copy.tree = x.tree.gob := by
  simp only [Composition.tree, Composition.copy, Tree.gob, gobFields_cons, gobFields_nil, field_str, field_psliceRef, field_opt JSFSignature.tree_gob JSFSignature.tree_zero]
theorem Composition.tree_zero (x : Composition) : x.tree.zero = false := rfl
theorem Composition.field_gob (x : Composition) : gobField x.tree = x.copy.tree := (tree_gob x).symm

theorem Claim.tree_gob (x : Claim) : x.copy.tree = x.tree.gob := by
  simp only [Claim.tree, Claim.copy, Tree.gob, gobFields_cons, gobFields_nil, field_str, field_ref, field_psliceRef, field_pslice ExternalReference.tree_gob, field_opt JSFSignature.tree_gob JSFSignature.tree_zero]
theorem Claim.tree_zero (x : Claim) : x.tree.zero = false := rfl
theorem Claim.field_gob (x : Claim) : gobField x.tree = x.copy.tree := (tree_gob x).symm

theorem EvidenceDataContents.tree_gob (x : EvidenceDataContents) : x.copy.tree = x.tree.gob := by
  simp only [EvidenceDataContents.tree, EvidenceDataContents.copy, Tree.gob, gobFields_cons, gobFields_nil, field_opt AttachedText.tree_gob AttachedText.tree_zero, field_str]
theorem EvidenceDataContents.tree_zero (x : EvidenceDataContents) : x.tree.zero = false := rfl
theorem EvidenceDataContents.field_gob (x : EvidenceDataContents) : gobField x.tree = x.copy.tree := (tree_gob x).symm

theorem EvidenceData.tree_gob (x : EvidenceData) : x.copy.tree = x.tree.gob := by
  simp only [EvidenceData.tree, EvidenceData.copy, Tree.gob, gobFields_cons, gobFields_nil, field_str, field_opt EvidenceDataContents.tree_gob EvidenceDataContents.tree_zero, field_opt DataClassification.tree_gob DataClassification.tree_zero, field_psliceStr, field_opt DataGovernance.tree_gob DataGovernance.tree_zero]
theorem EvidenceData.tree_zero (x : EvidenceData) : x.tree.zero = false := rfl
theorem EvidenceData.field_gob (x : EvidenceData) : gobField x.tree = x.copy.tree := (tree_gob x).symm

theorem DeclarationEvidence.tree_gob (x : DeclarationEvidence) : x.copy.tree = x.tree.gob := by
  simp only [DeclarationEvidence.tree, DeclarationEvidence.copy, Tree.gob, gobFields_cons, gobFields_nil, field_str, field_pslice EvidenceData.tree_gob, field_opt OrganizationalContact.tree_gob OrganizationalContact.tree_zero, field_opt JSFSignature.tree_gob JSFSignature.tree_zero]
theorem DeclarationEvidence.tree_zero (x : DeclarationEvidence) : x.tree.zero = false := rfl
theorem DeclarationEvidence.field_gob (x : DeclarationEvidence) : gobField x.tree = x.copy.tree := (tree_gob x).symm

theorem Targets.tree_gob (x : Targets) : x.copy.tree = x.tree.gob := by
  simp only [Targets.tree, Targets.copy, Tree.gob, gobFields_cons, gobFields_nil, field_pslice OrganizationalEntity.tree_gob, field_pslice Component.tree_gob, field_pslice Service.tree_gob]
theorem Targets.tree_zero (x : Targets) : x.tree.zero = false := rfl
theorem Targets.field_gob (x : Targets) : gobField x.tree = x.copy.tree := (tree_gob x).symm

theorem Signatory.tree_gob (x : Signatory) : x.copy.tree = x.tree.gob := by
  simp only [Signatory.tree, Signatory.copy, Tree.gob, gobFields_cons, gobFields_nil, field_str, field_opt JSFSignature.tree_gob JSFSignature.tree_zero, field_opt OrganizationalEntity.tree_gob OrganizationalEntity.tree_zero, field_opt ExternalReference.tree_gob ExternalReference.tree_zero]
theorem Signatory.tree_zero (x : Signatory) : x.tree.zero = false := rfl
theorem Signatory.field_gob (x : Signatory) : gobField x.tree = x.copy.tree := (tree_gob x).symm

theorem Affirmation.tree_gob (x : Affirmation) : x.copy.tree = x.tree.gob := by
  simp only [Affirmation.tree, Affirmation.copy, Tree.gob, gobFields_cons, gobFields_nil, field_str, field_pslice Signatory.tree_gob, field_opt JSFSignature.tree_gob JSFSignature.tree_zero]
theorem Affirmation.tree_zero (x : Affirmation) : x.tree.zero = false := rfl
theorem Affirmation.field_gob (x : Affirmation) : gobField x.tree = x.copy.tree := (tree_gob x).symm

theorem Declarations.tree_gob (x : Declarations) : x.copy.tree = x.tree.gob := by
  simp only [Declarations.tree, Declarations.copy, Tree.gob, gobFields_cons, gobFields_nil, field_pslice Assessor.tree_gob, field_pslice Attestation.tree_gob, field_pslice Claim.tree_gob, field_pslice DeclarationEvidence.tree_gob, field_opt Targets.tree_gob Targets.tree_zero, field_opt Affirmation.tree_gob Affirmation.tree_zero, field_opt JSFSignature.tree_gob JSFSignature.tree_zero]
theorem Declarations.tree_zero (x : Declarations) : x.tree.zero = false := rfl
theorem Declarations.field_gob (x : Declarations) : gobField x.tree = x.copy.tree := (tree_gob x).symm

theorem PriorityApplication.tree_gob (x : PriorityApplication) : x.copy.tree = x.tree.gob := by
  simp only [PriorityApplication.tree, PriorityApplication.copy, Tree.gob, gobFields_cons, gobFields_nil, field_str]
theorem PriorityApplication.tree_zero (x : PriorityApplication) : x.tree.zero = false := rfl
theorem PriorityApplication.field_gob (x : PriorityApplication) : gobField x.tree = x.copy.tree := (tree_gob x).symm

theorem Patent.tree_gob (x : Patent) : x.copy.tree = x.tree.gob := by
  simp only [Patent.tree, Patent.copy, Tree.gob, gobFields_cons, gobFields_nil, field_str, field_opt PriorityApplication.tree_gob PriorityApplication.tree_zero, field_pslice OrganizationalEntityOrContact.tree_gob, field_pslice ExternalReference.tree_gob]
theorem Patent.tree_zero (x : Patent) : x.tree.zero = false := rfl
theorem Patent.field_gob (x : Patent) : gobField x.tree = x.copy.tree := (tree_gob x).symm

theorem PatentFamily.tree_gob (x : PatentFamily) : x.copy.tree = x.tree.gob := by
  simp only [PatentFamily.tree, PatentFamily.copy, Tree.gob, gobFields_cons, gobFields_nil, field_str, field_opt PriorityApplication.tree_gob PriorityApplication.tree_zero, field_psliceRef, field_pslice ExternalReference.tree_gob]
theorem PatentFamily.tree_zero (x : PatentFamily) : x.tree.zero = false := rfl
theorem PatentFamily.field_gob (x : PatentFamily) : gobField x.tree = x.copy.tree := (tree_gob x).symm

theorem PatentChoice.tree_gob (x : PatentChoice) : x.copy.tree = x.tree.gob := by
  simp only [PatentChoice.tree, PatentChoice.copy, Tree.gob, gobFields_cons, gobFields_nil, field_opt Patent.tree_gob Patent.tree_zero, field_opt PatentFamily.tree_gob PatentFamily.tree_zero]
theorem PatentChoice.tree_zero (x : PatentChoice) : x.tree.zero = false := rfl
theorem PatentChoice.field_gob (x : PatentChoice) : gobField x.tree = x.copy.tree := (tree_gob x).symm

theorem StandardRequirement.tree_gob (x : StandardRequirement) : x.copy.tree = x.tree.gob := by
  simp only [StandardRequirement.tree, StandardRequirement.copy, Tree.gob, gobFields_cons, gobFields_nil, field_str, field_psliceStr, field_pslice Property.tree_gob, field_pslice ExternalReference.tree_gob]
theorem StandardRequirement.tree_zero (x : StandardRequirement) : x.tree.zero = false := rfl
theorem StandardRequirement.field_gob (x : StandardRequirement) : gobField x.tree = x.copy.tree := (tree_gob x).symm

theorem StandardLevel.tree_gob (x : StandardLevel) : x.copy.tree = x.tree.gob := by
  simp only [StandardLevel.tree, StandardLevel.copy, Tree.gob, gobFields_cons, gobFields_nil, field_str, field_psliceStr]
theorem StandardLevel.tree_zero (x : StandardLevel) : x.tree.zero = false := rfl
theorem StandardLevel.field_gob (x : StandardLevel) : gobField x.tree = x.copy.tree := (tree_gob x).symm

theorem StandardDefinition.tree_gob (x : StandardDefinition) : x.copy.tree = x.tree.gob := by
  simp only [StandardDefinition.tree, StandardDefinition.copy, Tree.gob, gobFields_cons, gobFields_nil, field_str, field_pslice StandardRequirement.tree_gob, field_pslice StandardLevel.tree_gob, field_pslice ExternalReference.tree_gob, field_opt JSFSignature.tree_gob JSFSignature.tree_zero]
theorem StandardDefinition.tree_zero (x : StandardDefinition) : x.tree.zero = false := rfl
theorem StandardDefinition.field_gob (x : StandardDefinition) : gobField x.tree = x.copy.tree := (tree_gob x).symm

theorem Definitions.tree_gob (x : Definitions) : x.copy.tree = x.tree.gob := by
  simp only [Definitions.tree, Definitions.copy, Tree.gob, gobFields_cons, gobFields_nil, field_pslice StandardDefinition.tree_gob, field_pslice PatentChoice.tree_gob]
theorem Definitions.tree_zero (x : Definitions) : x.tree.zero = false := rfl
theorem Definitions.field_gob (x : Definitions) : gobField x.tree = x.copy.tree := (tree_gob x).symm

theorem Dependency.tree_gob (x : Dependency) : x.copy.tree = x.tree.gob := by
  simp only [Dependency.tree, Dependency.copy, Tree.gob, gobFields_cons, gobFields_nil, field_str, field_psliceStr]
theorem Dependency.tree_zero (x : Dependency) : x.tree.zero = false := rfl
theorem Dependency.field_gob (x : Dependency) : gobField x.tree = x.copy.tree := (tree_gob x).symm

theorem ResourceReferenceChoice.tree_gob (x : ResourceReferenceChoice) : x.copy.tree = x.tree.gob := by
  simp only [ResourceReferenceChoice.tree, ResourceReferenceChoice.copy, Tree.gob, gobFields_cons, gobFields_nil, field_str, field_opt ExternalReference.tree_gob ExternalReference.tree_zero]
theorem ResourceReferenceChoice.tree_zero (x : ResourceReferenceChoice) : x.tree.zero = false := rfl
theorem ResourceReferenceChoice.field_gob (x : ResourceReferenceChoice) : gobField x.tree = x.copy.tree := (tree_gob x).symm

theorem EnvironmentVariableChoice.tree_gob (x : EnvironmentVariableChoice) : x.copy.tree = x.tree.gob := by
  simp only [EnvironmentVariableChoice.tree, EnvironmentVariableChoice.copy, Tree.gob, gobFields_cons, gobFields_nil, field_opt Property.tree_gob Property.tree_zero, field_str]
theorem EnvironmentVariableChoice.tree_zero (x : EnvironmentVariableChoice) : x.tree.zero = false := rfl
theorem EnvironmentVariableChoice.field_gob (x : EnvironmentVariableChoice) : gobField x.tree = x.copy.tree := (tree_gob x).symm

theorem Parameter.tree_gob (x : Parameter) : x.copy.tree = x.tree.gob := by
  simp only [Parameter.tree, Parameter.copy, Tree.gob, gobFields_cons, gobFields_nil, field_str]
theorem Parameter.tree_zero (x : Parameter) : x.tree.zero = false := rfl
theorem Parameter.field_gob (x : Parameter) : gobField x.tree = x.copy.tree := (tree_gob x).symm

theorem TaskInput.tree_gob (x : TaskInput) : x.copy.tree = x.tree.gob := by
  simp only [TaskInput.tree, TaskInput.copy, Tree.gob, gobFields_cons, gobFields_nil, field_opt ResourceReferenceChoice.tree_gob ResourceReferenceChoice.tree_zero, field_pslice Parameter.tree_gob, field_pslice EnvironmentVariableChoice.tree_gob, field_opt AttachedText.tree_gob AttachedText.tree_zero, field_pslice Property.tree_gob]
theorem TaskInput.tree_zero (x : TaskInput) : x.tree.zero = false := rfl
theorem TaskInput.field_gob (x : TaskInput) : gobField x.tree = x.copy.tree := (tree_gob x).symm

theorem TaskOutput.tree_gob (x : TaskOutput) : x.copy.tree = x.tree.gob := by
  simp only [TaskOutput.tree, TaskOutput.copy, Tree.gob, gobFields_cons, gobFields_nil, field_opt ResourceReferenceChoice.tree_gob ResourceReferenceChoice.tree_zero, field_pslice Parameter.tree_gob, field_pslice EnvironmentVariableChoice.tree_gob, field_opt AttachedText.tree_gob AttachedText.tree_zero, field_str, field_pslice Property.tree_gob]
theorem TaskOutput.tree_zero (x : TaskOutput) : x.tree.zero = false := rfl
theorem TaskOutput.field_gob (x : TaskOutput) : gobField x.tree = x.copy.tree := (tree_gob x).symm

theorem TaskCommand.tree_gob (x : TaskCommand) : x.copy.tree = x.tree.gob := by
  simp only [TaskCommand.tree, TaskCommand.copy, Tree.gob, gobFields_cons, gobFields_nil, field_str, field_pslice Property.tree_gob]
theorem TaskCommand.tree_zero (x : TaskCommand) : x.tree.zero = false := rfl
theorem TaskCommand.field_gob (x : TaskCommand) : gobField x.tree = x.copy.tree := (tree_gob x).symm

theorem TaskStep.tree_gob (x : TaskStep) : x.copy.tree = x.tree.gob := by
  simp only [TaskStep.tree, TaskStep.copy, Tree.gob, gobFields_cons, gobFields_nil, field_str, field_pslice TaskCommand.tree_gob, field_pslice Property.tree_gob]
theorem TaskStep.tree_zero (x : TaskStep) : x.tree.zero = false := rfl
theorem TaskStep.field_gob (x : TaskStep) : gobField x.tree = x.copy.tree := (tree_gob x).symm

theorem Event.tree_gob (x : Event) : x.copy.tree = x.tree.gob := by
  simp only [Event.tree, Event.copy, Tree.gob, gobFields_cons, gobFields_nil, field_str, field_opt AttachedText.tree_gob AttachedText.tree_zero, field_opt ResourceReferenceChoice.tree_gob ResourceReferenceChoice.tree_zero, field_pslice Property.tree_gob]
theorem Event.tree_zero (x : Event) : x.tree.zero = false := rfl
theorem Event.field_gob (x : Event) : gobField x.tree = x.copy.tree := (tree_gob x).symm

theorem TaskTriggerCondition.tree_gob (x : TaskTriggerCondition) : x.copy.tree = x.tree.gob := by
  simp only [TaskTriggerCondition.tree, TaskTriggerCondition.copy, Tree.gob, gobFields_cons, gobFields_nil, field_str, field_pslice Property.tree_gob]
theorem TaskTriggerCondition.tree_zero (x : TaskTriggerCondition) : x.tree.zero = false := rfl
theorem TaskTriggerCondition.field_gob (x : TaskTriggerCondition) : gobField x.tree = x.copy.tree := (tree_gob x).symm

theorem TaskTrigger.tree_gob (x : TaskTrigger) : x.copy.tree = x.tree.gob := by
  simp only [TaskTrigger.tree, TaskTrigger.copy, Tree.gob, gobFields_cons, gobFields_nil, field_str, field_pslice ResourceReferenceChoice.tree_gob, field_opt Event.tree_gob Event.tree_zero, field_pslice TaskTriggerCondition.tree_gob, field_pslice TaskInput.tree_gob, field_pslice TaskOutput.tree_gob, field_pslice Property.tree_gob]
theorem TaskTrigger.tree_zero (x : TaskTrigger) : x.tree.zero = false := rfl
theorem TaskTrigger.field_gob (x : TaskTrigger) : gobField x.tree = x.copy.tree := (tree_gob x).symm

theorem Volume.tree_gob (x : Volume) : x.copy.tree = x.tree.gob := by
  simp only [Volume.tree, Volume.copy, Tree.gob, gobFields_cons, gobFields_nil, field_str, field_optBool, field_pslice Property.tree_gob]
theorem Volume.tree_zero (x : Volume) : x.tree.zero = false := rfl
theorem Volume.field_gob (x : Volume) : gobField x.tree = x.copy.tree := (tree_gob x).symm

theorem TaskWorkspace.tree_gob (x : TaskWorkspace) : x.copy.tree = x.tree.gob := by
  simp only [TaskWorkspace.tree, TaskWorkspace.copy, Tree.gob, gobFields_cons, gobFields_nil, field_str, field_psliceStr, field_pslice ResourceReferenceChoice.tree_gob, field_opt Volume.tree_gob Volume.tree_zero, field_pslice Property.tree_gob]
theorem TaskWorkspace.tree_zero (x : TaskWorkspace) : x.tree.zero = false := rfl
theorem TaskWorkspace.field_gob (x : TaskWorkspace) : gobField x.tree = x.copy.tree := (tree_gob x).symm

theorem Task.tree_gob (x : Task) : x.copy.tree = x.tree.gob := by
  simp only [Task.tree, Task.copy, Tree.gob, gobFields_cons, gobFields_nil, field_str, field_pslice Property.tree_gob, field_pslice ResourceReferenceChoice.tree_gob, field_psliceStr, field_opt TaskTrigger.tree_gob TaskTrigger.tree_zero, field_pslice TaskStep.tree_gob, field_pslice TaskInput.tree_gob, field_pslice TaskOutput.tree_gob, field_pslice TaskWorkspace.tree_gob, field_pslice Dependency.tree_gob]
theorem Task.tree_zero (x : Task) : x.tree.zero = false := rfl
theorem Task.field_gob (x : Task) : gobField x.tree = x.copy.tree := (tree_gob x).symm

theorem Workflow.tree_gob (x : Workflow) : x.copy.tree = x.tree.gob := by
  simp only [Workflow.tree, Workflow.copy, Tree.gob, gobFields_cons, gobFields_nil, field_str, field_pslice ResourceReferenceChoice.tree_gob, field_pslice Task.tree_gob, field_pslice Dependency.tree_gob, field_psliceStr, field_opt TaskTrigger.tree_gob TaskTrigger.tree_zero, field_pslice TaskStep.tree_gob, field_pslice TaskInput.tree_gob, field_pslice TaskOutput.tree_gob, field_pslice TaskWorkspace.tree_gob, field_pslice Property.tree_gob]
theorem Workflow.tree_zero (x : Workflow) : x.tree.zero = false := rfl
theorem Workflow.field_gob (x : Workflow) : gobField x.tree = x.copy.tree := (tree_gob x).symm

theorem Formula.tree_gob (x : Formula) : x.copy.tree = x.tree.gob := by
  simp only [Formula.tree, Formula.copy, Tree.gob, gobFields_cons, gobFields_nil, field_str, field_pslice Component.tree_gob, field_pslice Service.tree_gob, field_pslice Workflow.tree_gob, field_pslice Property.tree_gob]
theorem Formula.tree_zero (x : Formula) : x.tree.zero = false := rfl
theorem Formula.field_gob (x : Formula) : gobField x.tree = x.copy.tree := (tree_gob x).symm

theorem Lifecycle.tree_gob (x : Lifecycle) : x.copy.tree = x.tree.gob := by
  simp only [Lifecycle.tree, Lifecycle.copy, Tree.gob, gobFields_cons, gobFields_nil, field_str]
theorem Lifecycle.tree_zero (x : Lifecycle) : x.tree.zero = false := rfl
theorem Lifecycle.field_gob (x : Lifecycle) : gobField x.tree = x.copy.tree := (tree_gob x).symm

theorem Tool.tree_gob (x : Tool) : x.copy.tree = x.tree.gob := by
  simp only [Tool.tree, Tool.copy, Tree.gob, gobFields_cons, gobFields_nil, field_str, field_pslice Hash.tree_gob, field_pslice ExternalReference.tree_gob]
theorem Tool.tree_zero (x : Tool) : x.tree.zero = false := rfl
theorem Tool.field_gob (x : Tool) : gobField x.tree = x.copy.tree := (tree_gob x).symm

theorem ToolsChoice.tree_gob (x : ToolsChoice) : x.copy.tree = x.tree.gob := by
  simp only [ToolsChoice.tree, ToolsChoice.copy, Tree.gob, gobFields_cons, gobFields_nil, field_pslice Tool.tree_gob, field_pslice Component.tree_gob, field_pslice Service.tree_gob]
theorem ToolsChoice.tree_zero (x : ToolsChoice) : x.tree.zero = false := rfl
theorem ToolsChoice.field_gob (x : ToolsChoice) : gobField x.tree = x.copy.tree := (tree_gob x).symm

theorem DistributionConstraints.tree_gob (x : DistributionConstraints) : x.copy.tree = x.tree.gob := by
  simp only [DistributionConstraints.tree, DistributionConstraints.copy, Tree.gob, gobFields_cons, gobFields_nil, field_str]
theorem DistributionConstraints.tree_zero (x : DistributionConstraints) : x.tree.zero = false := rfl
theorem DistributionConstraints.field_gob (x : DistributionConstraints) : gobField x.tree = x.copy.tree := (tree_gob x).symm

theorem Metadata.tree_gob (x : Metadata) : x.copy.tree = x.tree.gob := by
  simp only [Metadata.tree, Metadata.copy, Tree.gob, gobFields_cons, gobFields_nil, field_str, field_pslice Lifecycle.tree_gob, field_opt ToolsChoice.tree_gob ToolsChoice.tree_zero, field_pslice OrganizationalContact.tree_gob, field_opt Component.tree_gob Component.tree_zero, field_opt OrganizationalEntity.tree_gob OrganizationalEntity.tree_zero, field_pslice LicenseChoice.tree_gob, field_pslice Property.tree_gob, field_opt DistributionConstraints.tree_gob DistributionConstraints.tree_zero]
theorem Metadata.tree_zero (x : Metadata) : x.tree.zero = false := rfl
theorem Metadata.field_gob (x : Metadata) : gobField x.tree = x.copy.tree := (tree_gob x).symm

theorem Credits.tree_gob (x : Credits) : x.copy.tree = x.tree.gob := by
  simp only [Credits.tree, Credits.copy, Tree.gob, gobFields_cons, gobFields_nil, field_pslice OrganizationalEntity.tree_gob, field_pslice OrganizationalContact.tree_gob]
theorem Credits.tree_zero (x : Credits) : x.tree.zero = false := rfl
theorem Credits.field_gob (x : Credits) : gobField x.tree = x.copy.tree := (tree_gob x).symm

theorem ProofOfConcept.tree_gob (x : ProofOfConcept) : x.copy.tree = x.tree.gob := by
  simp only [ProofOfConcept.tree, ProofOfConcept.copy, Tree.gob, gobFields_cons, gobFields_nil, field_str, field_pslice AttachedText.tree_gob]
theorem ProofOfConcept.tree_zero (x : ProofOfConcept) : x.tree.zero = false := rfl
theorem ProofOfConcept.field_gob (x : ProofOfConcept) : gobField x.tree = x.copy.tree := (tree_gob x).symm

theorem VulnerabilityAnalysis.tree_gob (x : VulnerabilityAnalysis) : x.copy.tree = x.tree.gob := by
  simp only [VulnerabilityAnalysis.tree, VulnerabilityAnalysis.copy, Tree.gob, gobFields_cons, gobFields_nil, field_str, field_psliceStr]
theorem VulnerabilityAnalysis.tree_zero (x : VulnerabilityAnalysis) : x.tree.zero = false := rfl
theorem VulnerabilityAnalysis.field_gob (x : VulnerabilityAnalysis) : gobField x.tree = x.copy.tree := (tree_gob x).symm

theorem VulnerabilityRating.tree_gob (x : VulnerabilityRating) : x.copy.tree = x.tree.gob := by
  simp only [VulnerabilityRating.tree, VulnerabilityRating.copy, Tree.gob, gobFields_cons, gobFields_nil, field_opt Source.tree_gob Source.tree_zero, field_optF64, field_str]
theorem VulnerabilityRating.tree_zero (x : VulnerabilityRating) : x.tree.zero = false := rfl
theorem VulnerabilityRating.field_gob (x : VulnerabilityRating) : gobField x.tree = x.copy.tree := (tree_gob x).symm

theorem VulnerabilityReference.tree_gob (x : VulnerabilityReference) : x.copy.tree = x.tree.gob := by
  simp only [VulnerabilityReference.tree, VulnerabilityReference.copy, Tree.gob, gobFields_cons, gobFields_nil, field_str, field_opt Source.tree_gob Source.tree_zero]
theorem VulnerabilityReference.tree_zero (x : VulnerabilityReference) : x.tree.zero = false := rfl
theorem VulnerabilityReference.field_gob (x : VulnerabilityReference) : gobField x.tree = x.copy.tree := (tree_gob x).symm

theorem Vulnerability.tree_gob (x : Vulnerability) : x.copy.tree = x.tree.gob := by
  simp only [Vulnerability.tree, Vulnerability.copy, Tree.gob, gobFields_cons, gobFields_nil, field_str, field_opt Source.tree_gob Source.tree_zero, field_pslice VulnerabilityReference.tree_gob, field_pslice VulnerabilityRating.tree_gob, field_psliceInt, field_opt ProofOfConcept.tree_gob ProofOfConcept.tree_zero, field_pslice Advisory.tree_gob, field_opt Credits.tree_gob Credits.tree_zero, field_opt ToolsChoice.tree_gob ToolsChoice.tree_zero, field_opt VulnerabilityAnalysis.tree_gob VulnerabilityAnalysis.tree_zero, field_pslice Affects.tree_gob, field_pslice Property.tree_gob]
theorem Vulnerability.tree_zero (x : Vulnerability) : x.tree.zero = false := rfl
theorem Vulnerability.field_gob (x : Vulnerability) : gobField x.tree = x.copy.tree := (tree_gob x).symm

theorem Citation.tree_gob (x : Citation) : x.copy.tree = x.tree.gob := by
  simp only [Citation.tree, Citation.copy, Tree.gob, gobFields_cons, gobFields_nil, field_str, field_psliceStr, field_optRef, field_opt JSFSignature.tree_gob JSFSignature.tree_zero]
theorem Citation.tree_zero (x : Citation) : x.tree.zero = false := rfl
theorem Citation.field_gob (x : Citation) : gobField x.tree = x.copy.tree := (tree_gob x).symm

theorem BOM.tree_gob (x : BOM) : x.copy.tree = x.tree.gob := by
  simp only [BOM.tree, BOM.copy, Tree.gob, gobFields_cons, gobFields_nil, field_xmlName, field_str, field_int, field_opt Metadata.tree_gob Metadata.tree_zero, field_pslice Component.tree_gob, field_pslice Service.tree_gob, field_pslice ExternalReference.tree_gob, field_pslice Dependency.tree_gob, field_pslice Composition.tree_gob, field_pslice Property.tree_gob, field_pslice Vulnerability.tree_gob, field_pslice Annotation.tree_gob, field_pslice Formula.tree_gob, field_opt Declarations.tree_gob Declarations.tree_zero, field_opt Definitions.tree_gob Definitions.tree_zero, field_pslice Citation.tree_gob, field_opt JSFSignature.tree_gob JSFSignature.tree_zero]
theorem BOM.tree_zero (x : BOM) : x.tree.zero = false := rfl
theorem BOM.field_gob (x : BOM) : gobField x.tree = x.copy.tree := (tree_gob x).symm

end Verif
