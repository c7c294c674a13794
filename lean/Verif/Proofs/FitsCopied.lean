import Verif.Spec.JsonFits
import Verif.Spec.JsonFitsCopied
import Verif.Proofs.Gob

/-!
# `FitsCopied` is `Fits` of the deep copy

GENERATED by `tools/gen_copied.py`; do not edit by hand.
-/

namespace Verif

set_option linter.unusedSimpArgs false

namespace FitsCopied

theorem ne_nilSlice {α : Type} {f : α → α} (p : PSlice α) : p.copyWith f ≠ .nilSlice := by
  match p with
  | .nil => simp [PSlice.copyWith]
  | .nilSlice => simp [PSlice.copyWith]
  | .list [] => simp [PSlice.copyWith]
  | .list (x :: xs) => simp [PSlice.copyWith]
theorem eq_nil {α : Type} {f : α → α} (p : PSlice α) : p.copyWith f = .nil ↔ p.elems = [] := by
  match p with
  | .nil => simp [PSlice.copyWith, PSlice.elems]
  | .nilSlice => simp [PSlice.copyWith, PSlice.elems]
  | .list [] => simp [PSlice.copyWith, PSlice.elems]
  | .list (x :: xs) => simp [PSlice.copyWith, PSlice.elems]
theorem elems {α : Type} {f : α → α} (p : PSlice α) : (p.copyWith f).elems = p.elems.map f := by
  match p with
  | .nil => simp [PSlice.copyWith, PSlice.elems]
  | .nilSlice => simp [PSlice.copyWith, PSlice.elems]
  | .list [] => simp [PSlice.copyWith, PSlice.elems]
  | .list (x :: xs) => simp [PSlice.copyWith, PSlice.elems]
theorem map_all {α : Type} {f : α → α} {P : α → Prop} (o : Option α) :
    (∀ y ∈ o.map f, P y) ↔ ∀ y ∈ o, P (f y) := by cases o <;> simp
theorem list_all {α : Type} {f : α → α} {P : α → Prop} (l : List α) :
    (∀ y ∈ l.map f, P y) ↔ ∀ y ∈ l, P (f y) := by simp
theorem map_none {α : Type} {f : α → α} (o : Option α) : o.map f = none ↔ o = none := by cases o <;> simp
theorem gob_string (o : Option String) : Gob.string o = none ↔ ∀ y ∈ o, y = "" := by
  cases o <;> simp [Gob.string]
theorem gob_ref (o : Option BOMReference) : Gob.ref o = none ↔ ∀ y ∈ o, y = ⟨""⟩ := by
  cases o with
  | none => simp [Gob.ref]
  | some r => cases r; simp [Gob.ref]
theorem gob_bool (o : Option Bool) : Gob.bool o = none ↔ ∀ y ∈ o, y = false := by
  cases o <;> simp [Gob.bool]
theorem gob_int (o : Option Int) : Gob.int o = none ↔ ∀ y ∈ o, y = 0 := by
  cases o <;> simp [Gob.int]
theorem true_all {α : Type} (P : α → Prop) : (∀ y, P y → True) ↔ True := by simp

end FitsCopied

theorem fitsComponentList_iff' {v : Int} (xs : List Component) : FitsComponentList v xs ↔ ∀ c ∈ xs, c.Fits v := by
  induction xs with
  | nil => simp [FitsComponentList]
  | cons x xs ih => simp [FitsComponentList, ih]
theorem fitsComponents_iff' {v : Int} (p : PSlice Component) :
    FitsComponents v p ↔ p ≠ .nilSlice ∧ ∀ c ∈ p.elems, c.Fits v := by
  cases p <;> simp [FitsComponents, PSlice.elems, fitsComponentList_iff']
theorem fitsServiceList_iff' {v : Int} (xs : List Service) : FitsServiceList v xs ↔ ∀ c ∈ xs, c.Fits v := by
  induction xs with
  | nil => simp [FitsServiceList]
  | cons x xs ih => simp [FitsServiceList, ih]
theorem fitsServices_iff' {v : Int} (p : PSlice Service) :
    FitsServices v p ↔ p ≠ .nilSlice ∧ ∀ c ∈ p.elems, c.Fits v := by
  cases p <;> simp [FitsServices, PSlice.elems, fitsServiceList_iff']
theorem fitsCopiedComponentList_iff {v : Int} (xs : List Component) :
    FitsCopiedComponentList v xs ↔ ∀ c ∈ xs, c.FitsCopied v := by
  induction xs with
  | nil => simp [FitsCopiedComponentList]
  | cons x xs ih => simp [FitsCopiedComponentList, ih]
theorem fitsCopiedComponents_iff {v : Int} (p : PSlice Component) :
    FitsCopiedComponents v p ↔ ∀ c ∈ p.elems, c.FitsCopied v := by
  cases p <;> simp [FitsCopiedComponents, PSlice.elems, fitsCopiedComponentList_iff]
theorem fitsCopiedServiceList_iff {v : Int} (xs : List Service) :
    FitsCopiedServiceList v xs ↔ ∀ c ∈ xs, c.FitsCopied v := by
  induction xs with
  | nil => simp [FitsCopiedServiceList]
  | cons x xs ih => simp [FitsCopiedServiceList, ih]
theorem fitsCopiedServices_iff {v : Int} (p : PSlice Service) :
    FitsCopiedServices v p ↔ ∀ c ∈ p.elems, c.FitsCopied v := by
  cases p <;> simp [FitsCopiedServices, PSlice.elems, fitsCopiedServiceList_iff]

theorem Affects.copy_fits {v : Int} (x : Affects) : Affects.Fits v x.copy ↔ True := by
  simp only [Affects.Fits, Affects.copy, FitsCopied.ne_nilSlice, FitsCopied.eq_nil, FitsCopied.elems, FitsCopied.map_all,
    FitsCopied.list_all, FitsCopied.map_none, FitsCopied.gob_string, FitsCopied.gob_ref, FitsCopied.gob_bool,
    FitsCopied.gob_int, FitsCopied.true_all, ne_eq, not_false_eq_true, and_true, true_and, and_assoc, or_true,
    imp_true_iff, implies_true, List.map_eq_nil_iff]

theorem ComponentDataContents.copy_fits {v : Int} (x : ComponentDataContents) : ComponentDataContents.Fits v x.copy ↔ True := by
  simp only [ComponentDataContents.Fits, ComponentDataContents.copy, FitsCopied.ne_nilSlice, FitsCopied.eq_nil, FitsCopied.elems, FitsCopied.map_all,
    FitsCopied.list_all, FitsCopied.map_none, FitsCopied.gob_string, FitsCopied.gob_ref, FitsCopied.gob_bool,
    FitsCopied.gob_int, FitsCopied.true_all, ne_eq, not_false_eq_true, and_true, true_and, and_assoc, or_true,
    imp_true_iff, implies_true, List.map_eq_nil_iff]

theorem ComponentDataGraphics.copy_fits {v : Int} (x : ComponentDataGraphics) : ComponentDataGraphics.Fits v x.copy ↔ True := by
  simp only [ComponentDataGraphics.Fits, ComponentDataGraphics.copy, FitsCopied.ne_nilSlice, FitsCopied.eq_nil, FitsCopied.elems, FitsCopied.map_all,
    FitsCopied.list_all, FitsCopied.map_none, FitsCopied.gob_string, FitsCopied.gob_ref, FitsCopied.gob_bool,
    FitsCopied.gob_int, FitsCopied.true_all, ne_eq, not_false_eq_true, and_true, true_and, and_assoc, or_true,
    imp_true_iff, implies_true, List.map_eq_nil_iff]

theorem OrganizationalContact.copy_fits {v : Int} (x : OrganizationalContact) : OrganizationalContact.Fits v x.copy ↔ OrganizationalContact.FitsCopied v x := by
  simp only [OrganizationalContact.Fits, OrganizationalContact.copy, OrganizationalContact.FitsCopied, FitsCopied.ne_nilSlice, FitsCopied.eq_nil, FitsCopied.elems, FitsCopied.map_all,
    FitsCopied.list_all, FitsCopied.map_none, FitsCopied.gob_string, FitsCopied.gob_ref, FitsCopied.gob_bool,
    FitsCopied.gob_int, FitsCopied.true_all, ne_eq, not_false_eq_true, and_true, true_and, and_assoc, or_true,
    imp_true_iff, implies_true, List.map_eq_nil_iff]

theorem OrganizationalEntity.copy_fits {v : Int} (x : OrganizationalEntity) : OrganizationalEntity.Fits v x.copy ↔ OrganizationalEntity.FitsCopied v x := by
  simp only [OrganizationalEntity.Fits, OrganizationalEntity.copy, OrganizationalEntity.FitsCopied, OrganizationalContact.copy_fits, FitsCopied.ne_nilSlice, FitsCopied.eq_nil, FitsCopied.elems, FitsCopied.map_all,
    FitsCopied.list_all, FitsCopied.map_none, FitsCopied.gob_string, FitsCopied.gob_ref, FitsCopied.gob_bool,
    FitsCopied.gob_int, FitsCopied.true_all, ne_eq, not_false_eq_true, and_true, true_and, and_assoc, or_true,
    imp_true_iff, implies_true, List.map_eq_nil_iff]

theorem ComponentDataGovernanceResponsibleParty.copy_fits {v : Int} (x : ComponentDataGovernanceResponsibleParty) : ComponentDataGovernanceResponsibleParty.Fits v x.copy ↔ ComponentDataGovernanceResponsibleParty.FitsCopied v x := by
  simp only [ComponentDataGovernanceResponsibleParty.Fits, ComponentDataGovernanceResponsibleParty.copy, ComponentDataGovernanceResponsibleParty.FitsCopied, OrganizationalContact.copy_fits, OrganizationalEntity.copy_fits, FitsCopied.ne_nilSlice, FitsCopied.eq_nil, FitsCopied.elems, FitsCopied.map_all,
    FitsCopied.list_all, FitsCopied.map_none, FitsCopied.gob_string, FitsCopied.gob_ref, FitsCopied.gob_bool,
    FitsCopied.gob_int, FitsCopied.true_all, ne_eq, not_false_eq_true, and_true, true_and, and_assoc, or_true,
    imp_true_iff, implies_true, List.map_eq_nil_iff]

theorem DataGovernance.copy_fits {v : Int} (x : DataGovernance) : DataGovernance.Fits v x.copy ↔ DataGovernance.FitsCopied v x := by
  simp only [DataGovernance.Fits, DataGovernance.copy, DataGovernance.FitsCopied, ComponentDataGovernanceResponsibleParty.copy_fits, FitsCopied.ne_nilSlice, FitsCopied.eq_nil, FitsCopied.elems, FitsCopied.map_all,
    FitsCopied.list_all, FitsCopied.map_none, FitsCopied.gob_string, FitsCopied.gob_ref, FitsCopied.gob_bool,
    FitsCopied.gob_int, FitsCopied.true_all, ne_eq, not_false_eq_true, and_true, true_and, and_assoc, or_true,
    imp_true_iff, implies_true, List.map_eq_nil_iff]

theorem ComponentData.copy_fits {v : Int} (x : ComponentData) : ComponentData.Fits v x.copy ↔ ComponentData.FitsCopied v x := by
  simp only [ComponentData.Fits, ComponentData.copy, ComponentData.FitsCopied, ComponentDataContents.copy_fits, ComponentDataGraphics.copy_fits, DataGovernance.copy_fits, FitsCopied.ne_nilSlice, FitsCopied.eq_nil, FitsCopied.elems, FitsCopied.map_all,
    FitsCopied.list_all, FitsCopied.map_none, FitsCopied.gob_string, FitsCopied.gob_ref, FitsCopied.gob_bool,
    FitsCopied.gob_int, FitsCopied.true_all, ne_eq, not_false_eq_true, and_true, true_and, and_assoc, or_true,
    imp_true_iff, implies_true, List.map_eq_nil_iff]

theorem CertificateProperties.copy_fits {v : Int} (x : CertificateProperties) : CertificateProperties.Fits v x.copy ↔ CertificateProperties.FitsCopied v x := by
  simp only [CertificateProperties.Fits, CertificateProperties.copy, CertificateProperties.FitsCopied, FitsCopied.ne_nilSlice, FitsCopied.eq_nil, FitsCopied.elems, FitsCopied.map_all,
    FitsCopied.list_all, FitsCopied.map_none, FitsCopied.gob_string, FitsCopied.gob_ref, FitsCopied.gob_bool,
    FitsCopied.gob_int, FitsCopied.true_all, ne_eq, not_false_eq_true, and_true, true_and, and_assoc, or_true,
    imp_true_iff, implies_true, List.map_eq_nil_iff]

theorem CryptoAlgorithmProperties.copy_fits {v : Int} (x : CryptoAlgorithmProperties) : CryptoAlgorithmProperties.Fits v x.copy ↔ CryptoAlgorithmProperties.FitsCopied v x := by
  simp only [CryptoAlgorithmProperties.Fits, CryptoAlgorithmProperties.copy, CryptoAlgorithmProperties.FitsCopied, FitsCopied.ne_nilSlice, FitsCopied.eq_nil, FitsCopied.elems, FitsCopied.map_all,
    FitsCopied.list_all, FitsCopied.map_none, FitsCopied.gob_string, FitsCopied.gob_ref, FitsCopied.gob_bool,
    FitsCopied.gob_int, FitsCopied.true_all, ne_eq, not_false_eq_true, and_true, true_and, and_assoc, or_true,
    imp_true_iff, implies_true, List.map_eq_nil_iff]

theorem CipherSuite.copy_fits {v : Int} (x : CipherSuite) : CipherSuite.Fits v x.copy ↔ CipherSuite.FitsCopied v x := by
  simp only [CipherSuite.Fits, CipherSuite.copy, CipherSuite.FitsCopied, FitsCopied.ne_nilSlice, FitsCopied.eq_nil, FitsCopied.elems, FitsCopied.map_all,
    FitsCopied.list_all, FitsCopied.map_none, FitsCopied.gob_string, FitsCopied.gob_ref, FitsCopied.gob_bool,
    FitsCopied.gob_int, FitsCopied.true_all, ne_eq, not_false_eq_true, and_true, true_and, and_assoc, or_true,
    imp_true_iff, implies_true, List.map_eq_nil_iff]

theorem IKEv2Auth.copy_fits {v : Int} (x : IKEv2Auth) : IKEv2Auth.Fits v x.copy ↔ IKEv2Auth.FitsCopied v x := by
  simp only [IKEv2Auth.Fits, IKEv2Auth.copy, IKEv2Auth.FitsCopied, FitsCopied.ne_nilSlice, FitsCopied.eq_nil, FitsCopied.elems, FitsCopied.map_all,
    FitsCopied.list_all, FitsCopied.map_none, FitsCopied.gob_string, FitsCopied.gob_ref, FitsCopied.gob_bool,
    FitsCopied.gob_int, FitsCopied.true_all, ne_eq, not_false_eq_true, and_true, true_and, and_assoc, or_true,
    imp_true_iff, implies_true, List.map_eq_nil_iff]

theorem IKEv2Enc.copy_fits {v : Int} (x : IKEv2Enc) : IKEv2Enc.Fits v x.copy ↔ IKEv2Enc.FitsCopied v x := by
  simp only [IKEv2Enc.Fits, IKEv2Enc.copy, IKEv2Enc.FitsCopied, FitsCopied.ne_nilSlice, FitsCopied.eq_nil, FitsCopied.elems, FitsCopied.map_all,
    FitsCopied.list_all, FitsCopied.map_none, FitsCopied.gob_string, FitsCopied.gob_ref, FitsCopied.gob_bool,
    FitsCopied.gob_int, FitsCopied.true_all, ne_eq, not_false_eq_true, and_true, true_and, and_assoc, or_true,
    imp_true_iff, implies_true, List.map_eq_nil_iff]

theorem IKEv2Integ.copy_fits {v : Int} (x : IKEv2Integ) : IKEv2Integ.Fits v x.copy ↔ IKEv2Integ.FitsCopied v x := by
  simp only [IKEv2Integ.Fits, IKEv2Integ.copy, IKEv2Integ.FitsCopied, FitsCopied.ne_nilSlice, FitsCopied.eq_nil, FitsCopied.elems, FitsCopied.map_all,
    FitsCopied.list_all, FitsCopied.map_none, FitsCopied.gob_string, FitsCopied.gob_ref, FitsCopied.gob_bool,
    FitsCopied.gob_int, FitsCopied.true_all, ne_eq, not_false_eq_true, and_true, true_and, and_assoc, or_true,
    imp_true_iff, implies_true, List.map_eq_nil_iff]

theorem IKEv2Ke.copy_fits {v : Int} (x : IKEv2Ke) : IKEv2Ke.Fits v x.copy ↔ IKEv2Ke.FitsCopied v x := by
  simp only [IKEv2Ke.Fits, IKEv2Ke.copy, IKEv2Ke.FitsCopied, FitsCopied.ne_nilSlice, FitsCopied.eq_nil, FitsCopied.elems, FitsCopied.map_all,
    FitsCopied.list_all, FitsCopied.map_none, FitsCopied.gob_string, FitsCopied.gob_ref, FitsCopied.gob_bool,
    FitsCopied.gob_int, FitsCopied.true_all, ne_eq, not_false_eq_true, and_true, true_and, and_assoc, or_true,
    imp_true_iff, implies_true, List.map_eq_nil_iff]

theorem IKEv2Prf.copy_fits {v : Int} (x : IKEv2Prf) : IKEv2Prf.Fits v x.copy ↔ IKEv2Prf.FitsCopied v x := by
  simp only [IKEv2Prf.Fits, IKEv2Prf.copy, IKEv2Prf.FitsCopied, FitsCopied.ne_nilSlice, FitsCopied.eq_nil, FitsCopied.elems, FitsCopied.map_all,
    FitsCopied.list_all, FitsCopied.map_none, FitsCopied.gob_string, FitsCopied.gob_ref, FitsCopied.gob_bool,
    FitsCopied.gob_int, FitsCopied.true_all, ne_eq, not_false_eq_true, and_true, true_and, and_assoc, or_true,
    imp_true_iff, implies_true, List.map_eq_nil_iff]

theorem IKEv2TransformTypes.copy_fits {v : Int} (x : IKEv2TransformTypes) : IKEv2TransformTypes.Fits v x.copy ↔ IKEv2TransformTypes.FitsCopied v x := by
  simp only [IKEv2TransformTypes.Fits, IKEv2TransformTypes.copy, IKEv2TransformTypes.FitsCopied, IKEv2Auth.copy_fits, IKEv2Enc.copy_fits, IKEv2Integ.copy_fits, IKEv2Ke.copy_fits, IKEv2Prf.copy_fits, FitsCopied.ne_nilSlice, FitsCopied.eq_nil, FitsCopied.elems, FitsCopied.map_all,
    FitsCopied.list_all, FitsCopied.map_none, FitsCopied.gob_string, FitsCopied.gob_ref, FitsCopied.gob_bool,
    FitsCopied.gob_int, FitsCopied.true_all, ne_eq, not_false_eq_true, and_true, true_and, and_assoc, or_true,
    imp_true_iff, implies_true, List.map_eq_nil_iff]

theorem CryptoProtocolProperties.copy_fits {v : Int} (x : CryptoProtocolProperties) : CryptoProtocolProperties.Fits v x.copy ↔ CryptoProtocolProperties.FitsCopied v x := by
  simp only [CryptoProtocolProperties.Fits, CryptoProtocolProperties.copy, CryptoProtocolProperties.FitsCopied, CipherSuite.copy_fits, IKEv2TransformTypes.copy_fits, FitsCopied.ne_nilSlice, FitsCopied.eq_nil, FitsCopied.elems, FitsCopied.map_all,
    FitsCopied.list_all, FitsCopied.map_none, FitsCopied.gob_string, FitsCopied.gob_ref, FitsCopied.gob_bool,
    FitsCopied.gob_int, FitsCopied.true_all, ne_eq, not_false_eq_true, and_true, true_and, and_assoc, or_true,
    imp_true_iff, implies_true, List.map_eq_nil_iff]

theorem RelatedCryptoMaterialProperties.copy_fits {v : Int} (x : RelatedCryptoMaterialProperties) : RelatedCryptoMaterialProperties.Fits v x.copy ↔ RelatedCryptoMaterialProperties.FitsCopied v x := by
  simp only [RelatedCryptoMaterialProperties.Fits, RelatedCryptoMaterialProperties.copy, RelatedCryptoMaterialProperties.FitsCopied, FitsCopied.ne_nilSlice, FitsCopied.eq_nil, FitsCopied.elems, FitsCopied.map_all,
    FitsCopied.list_all, FitsCopied.map_none, FitsCopied.gob_string, FitsCopied.gob_ref, FitsCopied.gob_bool,
    FitsCopied.gob_int, FitsCopied.true_all, ne_eq, not_false_eq_true, and_true, true_and, and_assoc, or_true,
    imp_true_iff, implies_true, List.map_eq_nil_iff]

theorem CryptoProperties.copy_fits {v : Int} (x : CryptoProperties) : CryptoProperties.Fits v x.copy ↔ CryptoProperties.FitsCopied v x := by
  simp only [CryptoProperties.Fits, CryptoProperties.copy, CryptoProperties.FitsCopied, CertificateProperties.copy_fits, CryptoAlgorithmProperties.copy_fits, CryptoProtocolProperties.copy_fits, RelatedCryptoMaterialProperties.copy_fits, FitsCopied.ne_nilSlice, FitsCopied.eq_nil, FitsCopied.elems, FitsCopied.map_all,
    FitsCopied.list_all, FitsCopied.map_none, FitsCopied.gob_string, FitsCopied.gob_ref, FitsCopied.gob_bool,
    FitsCopied.gob_int, FitsCopied.true_all, ne_eq, not_false_eq_true, and_true, true_and, and_assoc, or_true,
    imp_true_iff, implies_true, List.map_eq_nil_iff]

theorem CallstackFrame.copy_fits {v : Int} (x : CallstackFrame) : CallstackFrame.Fits v x.copy ↔ True := by
  simp only [CallstackFrame.Fits, CallstackFrame.copy, FitsCopied.ne_nilSlice, FitsCopied.eq_nil, FitsCopied.elems, FitsCopied.map_all,
    FitsCopied.list_all, FitsCopied.map_none, FitsCopied.gob_string, FitsCopied.gob_ref, FitsCopied.gob_bool,
    FitsCopied.gob_int, FitsCopied.true_all, ne_eq, not_false_eq_true, and_true, true_and, and_assoc, or_true,
    imp_true_iff, implies_true, List.map_eq_nil_iff]

theorem Callstack.copy_fits {v : Int} (x : Callstack) : Callstack.Fits v x.copy ↔ True := by
  simp only [Callstack.Fits, Callstack.copy, CallstackFrame.copy_fits, FitsCopied.ne_nilSlice, FitsCopied.eq_nil, FitsCopied.elems, FitsCopied.map_all,
    FitsCopied.list_all, FitsCopied.map_none, FitsCopied.gob_string, FitsCopied.gob_ref, FitsCopied.gob_bool,
    FitsCopied.gob_int, FitsCopied.true_all, ne_eq, not_false_eq_true, and_true, true_and, and_assoc, or_true,
    imp_true_iff, implies_true, List.map_eq_nil_iff]

theorem EvidenceIdentity.copy_fits {v : Int} (x : EvidenceIdentity) : EvidenceIdentity.Fits v x.copy ↔ EvidenceIdentity.FitsCopied v x := by
  simp only [EvidenceIdentity.Fits, EvidenceIdentity.copy, EvidenceIdentity.FitsCopied, FitsCopied.ne_nilSlice, FitsCopied.eq_nil, FitsCopied.elems, FitsCopied.map_all,
    FitsCopied.list_all, FitsCopied.map_none, FitsCopied.gob_string, FitsCopied.gob_ref, FitsCopied.gob_bool,
    FitsCopied.gob_int, FitsCopied.true_all, ne_eq, not_false_eq_true, and_true, true_and, and_assoc, or_true,
    imp_true_iff, implies_true, List.map_eq_nil_iff]

theorem EvidenceIdentityChoice.copy_fits {v : Int} (x : EvidenceIdentityChoice) : EvidenceIdentityChoice.Fits v x.copy ↔ EvidenceIdentityChoice.FitsCopied v x := by
  simp only [EvidenceIdentityChoice.Fits, EvidenceIdentityChoice.copy, EvidenceIdentityChoice.FitsCopied, EvidenceIdentity.copy_fits, FitsCopied.ne_nilSlice, FitsCopied.eq_nil, FitsCopied.elems, FitsCopied.map_all,
    FitsCopied.list_all, FitsCopied.map_none, FitsCopied.gob_string, FitsCopied.gob_ref, FitsCopied.gob_bool,
    FitsCopied.gob_int, FitsCopied.true_all, ne_eq, not_false_eq_true, and_true, true_and, and_assoc, or_true,
    imp_true_iff, implies_true, List.map_eq_nil_iff]

theorem EvidenceOccurrence.copy_fits {v : Int} (x : EvidenceOccurrence) : EvidenceOccurrence.Fits v x.copy ↔ EvidenceOccurrence.FitsCopied v x := by
  simp only [EvidenceOccurrence.Fits, EvidenceOccurrence.copy, EvidenceOccurrence.FitsCopied, FitsCopied.ne_nilSlice, FitsCopied.eq_nil, FitsCopied.elems, FitsCopied.map_all,
    FitsCopied.list_all, FitsCopied.map_none, FitsCopied.gob_string, FitsCopied.gob_ref, FitsCopied.gob_bool,
    FitsCopied.gob_int, FitsCopied.true_all, ne_eq, not_false_eq_true, and_true, true_and, and_assoc, or_true,
    imp_true_iff, implies_true, List.map_eq_nil_iff]

theorem OrganizationalEntityOrContact.copy_fits {v : Int} (x : OrganizationalEntityOrContact) : OrganizationalEntityOrContact.Fits v x.copy ↔ OrganizationalEntityOrContact.FitsCopied v x := by
  simp only [OrganizationalEntityOrContact.Fits, OrganizationalEntityOrContact.copy, OrganizationalEntityOrContact.FitsCopied, OrganizationalContact.copy_fits, OrganizationalEntity.copy_fits, FitsCopied.ne_nilSlice, FitsCopied.eq_nil, FitsCopied.elems, FitsCopied.map_all,
    FitsCopied.list_all, FitsCopied.map_none, FitsCopied.gob_string, FitsCopied.gob_ref, FitsCopied.gob_bool,
    FitsCopied.gob_int, FitsCopied.true_all, ne_eq, not_false_eq_true, and_true, true_and, and_assoc, or_true,
    imp_true_iff, implies_true, List.map_eq_nil_iff]

theorem OrganizationalEntityOrContact.copy_fitsPatentAssignee {v : Int} (x : OrganizationalEntityOrContact) : OrganizationalEntityOrContact.FitsPatentAssignee v x.copy ↔ OrganizationalEntityOrContact.FitsCopiedPatentAssignee v x := by
  simp only [OrganizationalEntityOrContact.FitsPatentAssignee, OrganizationalEntityOrContact.copy, OrganizationalEntityOrContact.FitsCopiedPatentAssignee, OrganizationalContact.copy_fits, OrganizationalEntity.copy_fits, FitsCopied.ne_nilSlice, FitsCopied.eq_nil, FitsCopied.elems, FitsCopied.map_all,
    FitsCopied.list_all, FitsCopied.map_none, FitsCopied.gob_string, FitsCopied.gob_ref, FitsCopied.gob_bool,
    FitsCopied.gob_int, FitsCopied.true_all, ne_eq, not_false_eq_true, and_true, true_and, and_assoc, or_true,
    imp_true_iff, implies_true, List.map_eq_nil_iff]

theorem Licensing.copy_fits {v : Int} (x : Licensing) : Licensing.Fits v x.copy ↔ Licensing.FitsCopied v x := by
  simp only [Licensing.Fits, Licensing.copy, Licensing.FitsCopied, OrganizationalEntityOrContact.copy_fits, OrganizationalEntityOrContact.copy_fitsPatentAssignee, FitsCopied.ne_nilSlice, FitsCopied.eq_nil, FitsCopied.elems, FitsCopied.map_all,
    FitsCopied.list_all, FitsCopied.map_none, FitsCopied.gob_string, FitsCopied.gob_ref, FitsCopied.gob_bool,
    FitsCopied.gob_int, FitsCopied.true_all, ne_eq, not_false_eq_true, and_true, true_and, and_assoc, or_true,
    imp_true_iff, implies_true, List.map_eq_nil_iff]

theorem License.copy_fits {v : Int} (x : License) : License.Fits v x.copy ↔ License.FitsCopied v x := by
  simp only [License.Fits, License.copy, License.FitsCopied, Licensing.copy_fits, FitsCopied.ne_nilSlice, FitsCopied.eq_nil, FitsCopied.elems, FitsCopied.map_all,
    FitsCopied.list_all, FitsCopied.map_none, FitsCopied.gob_string, FitsCopied.gob_ref, FitsCopied.gob_bool,
    FitsCopied.gob_int, FitsCopied.true_all, ne_eq, not_false_eq_true, and_true, true_and, and_assoc, or_true,
    imp_true_iff, implies_true, List.map_eq_nil_iff]

theorem LicenseChoice.copy_fits {v : Int} (x : LicenseChoice) : LicenseChoice.Fits v x.copy ↔ LicenseChoice.FitsCopied v x := by
  simp only [LicenseChoice.Fits, LicenseChoice.copy, LicenseChoice.FitsCopied, License.copy_fits, Licensing.copy_fits, FitsCopied.ne_nilSlice, FitsCopied.eq_nil, FitsCopied.elems, FitsCopied.map_all,
    FitsCopied.list_all, FitsCopied.map_none, FitsCopied.gob_string, FitsCopied.gob_ref, FitsCopied.gob_bool,
    FitsCopied.gob_int, FitsCopied.true_all, ne_eq, not_false_eq_true, and_true, true_and, and_assoc, or_true,
    imp_true_iff, implies_true, List.map_eq_nil_iff]

theorem Evidence.copy_fits {v : Int} (x : Evidence) : Evidence.Fits v x.copy ↔ Evidence.FitsCopied v x := by
  simp only [Evidence.Fits, Evidence.copy, Evidence.FitsCopied, Callstack.copy_fits, EvidenceIdentityChoice.copy_fits, EvidenceOccurrence.copy_fits, LicenseChoice.copy_fits, FitsCopied.ne_nilSlice, FitsCopied.eq_nil, FitsCopied.elems, FitsCopied.map_all,
    FitsCopied.list_all, FitsCopied.map_none, FitsCopied.gob_string, FitsCopied.gob_ref, FitsCopied.gob_bool,
    FitsCopied.gob_int, FitsCopied.true_all, ne_eq, not_false_eq_true, and_true, true_and, and_assoc, or_true,
    imp_true_iff, implies_true, List.map_eq_nil_iff]

theorem ExternalReference.copy_fits {v : Int} (x : ExternalReference) : ExternalReference.Fits v x.copy ↔ ExternalReference.FitsCopied v x := by
  simp only [ExternalReference.Fits, ExternalReference.copy, ExternalReference.FitsCopied, FitsCopied.ne_nilSlice, FitsCopied.eq_nil, FitsCopied.elems, FitsCopied.map_all,
    FitsCopied.list_all, FitsCopied.map_none, FitsCopied.gob_string, FitsCopied.gob_ref, FitsCopied.gob_bool,
    FitsCopied.gob_int, FitsCopied.true_all, ne_eq, not_false_eq_true, and_true, true_and, and_assoc, or_true,
    imp_true_iff, implies_true, List.map_eq_nil_iff]

theorem JSFSigner.copy_fits {v : Int} (x : JSFSigner) : JSFSigner.Fits v x.copy ↔ True := by
  simp only [JSFSigner.Fits, JSFSigner.copy, FitsCopied.ne_nilSlice, FitsCopied.eq_nil, FitsCopied.elems, FitsCopied.map_all,
    FitsCopied.list_all, FitsCopied.map_none, FitsCopied.gob_string, FitsCopied.gob_ref, FitsCopied.gob_bool,
    FitsCopied.gob_int, FitsCopied.true_all, ne_eq, not_false_eq_true, and_true, true_and, and_assoc, or_true,
    imp_true_iff, implies_true, List.map_eq_nil_iff]

theorem JSFSignature.copy_fits {v : Int} (x : JSFSignature) : JSFSignature.Fits v x.copy ↔ True := by
  simp only [JSFSignature.Fits, JSFSignature.copy, JSFSigner.copy_fits, FitsCopied.ne_nilSlice, FitsCopied.eq_nil, FitsCopied.elems, FitsCopied.map_all,
    FitsCopied.list_all, FitsCopied.map_none, FitsCopied.gob_string, FitsCopied.gob_ref, FitsCopied.gob_bool,
    FitsCopied.gob_int, FitsCopied.true_all, ne_eq, not_false_eq_true, and_true, true_and, and_assoc, or_true,
    imp_true_iff, implies_true, List.map_eq_nil_iff]

theorem MLModelEnergyProvider.copy_fits {v : Int} (x : MLModelEnergyProvider) : MLModelEnergyProvider.Fits v x.copy ↔ MLModelEnergyProvider.FitsCopied v x := by
  simp only [MLModelEnergyProvider.Fits, MLModelEnergyProvider.copy, MLModelEnergyProvider.FitsCopied, ExternalReference.copy_fits, OrganizationalEntity.copy_fits, FitsCopied.ne_nilSlice, FitsCopied.eq_nil, FitsCopied.elems, FitsCopied.map_all,
    FitsCopied.list_all, FitsCopied.map_none, FitsCopied.gob_string, FitsCopied.gob_ref, FitsCopied.gob_bool,
    FitsCopied.gob_int, FitsCopied.true_all, ne_eq, not_false_eq_true, and_true, true_and, and_assoc, or_true,
    imp_true_iff, implies_true, List.map_eq_nil_iff]

theorem MLModelEnergyConsumption.copy_fits {v : Int} (x : MLModelEnergyConsumption) : MLModelEnergyConsumption.Fits v x.copy ↔ MLModelEnergyConsumption.FitsCopied v x := by
  simp only [MLModelEnergyConsumption.Fits, MLModelEnergyConsumption.copy, MLModelEnergyConsumption.FitsCopied, MLModelEnergyProvider.copy_fits, FitsCopied.ne_nilSlice, FitsCopied.eq_nil, FitsCopied.elems, FitsCopied.map_all,
    FitsCopied.list_all, FitsCopied.map_none, FitsCopied.gob_string, FitsCopied.gob_ref, FitsCopied.gob_bool,
    FitsCopied.gob_int, FitsCopied.true_all, ne_eq, not_false_eq_true, and_true, true_and, and_assoc, or_true,
    imp_true_iff, implies_true, List.map_eq_nil_iff]

theorem MLModelCardEnvironmentalConsiderations.copy_fits {v : Int} (x : MLModelCardEnvironmentalConsiderations) : MLModelCardEnvironmentalConsiderations.Fits v x.copy ↔ MLModelCardEnvironmentalConsiderations.FitsCopied v x := by
  simp only [MLModelCardEnvironmentalConsiderations.Fits, MLModelCardEnvironmentalConsiderations.copy, MLModelCardEnvironmentalConsiderations.FitsCopied, MLModelEnergyConsumption.copy_fits, FitsCopied.ne_nilSlice, FitsCopied.eq_nil, FitsCopied.elems, FitsCopied.map_all,
    FitsCopied.list_all, FitsCopied.map_none, FitsCopied.gob_string, FitsCopied.gob_ref, FitsCopied.gob_bool,
    FitsCopied.gob_int, FitsCopied.true_all, ne_eq, not_false_eq_true, and_true, true_and, and_assoc, or_true,
    imp_true_iff, implies_true, List.map_eq_nil_iff]

theorem MLModelCardConsiderations.copy_fits {v : Int} (x : MLModelCardConsiderations) : MLModelCardConsiderations.Fits v x.copy ↔ MLModelCardConsiderations.FitsCopied v x := by
  simp only [MLModelCardConsiderations.Fits, MLModelCardConsiderations.copy, MLModelCardConsiderations.FitsCopied, MLModelCardEnvironmentalConsiderations.copy_fits, FitsCopied.ne_nilSlice, FitsCopied.eq_nil, FitsCopied.elems, FitsCopied.map_all,
    FitsCopied.list_all, FitsCopied.map_none, FitsCopied.gob_string, FitsCopied.gob_ref, FitsCopied.gob_bool,
    FitsCopied.gob_int, FitsCopied.true_all, ne_eq, not_false_eq_true, and_true, true_and, and_assoc, or_true,
    imp_true_iff, implies_true, List.map_eq_nil_iff]

theorem MLDatasetChoice.copy_fits {v : Int} (x : MLDatasetChoice) : MLDatasetChoice.Fits v x.copy ↔ MLDatasetChoice.FitsCopied v x := by
  simp only [MLDatasetChoice.Fits, MLDatasetChoice.copy, MLDatasetChoice.FitsCopied, ComponentData.copy_fits, FitsCopied.ne_nilSlice, FitsCopied.eq_nil, FitsCopied.elems, FitsCopied.map_all,
    FitsCopied.list_all, FitsCopied.map_none, FitsCopied.gob_string, FitsCopied.gob_ref, FitsCopied.gob_bool,
    FitsCopied.gob_int, FitsCopied.true_all, ne_eq, not_false_eq_true, and_true, true_and, and_assoc, or_true,
    imp_true_iff, implies_true, List.map_eq_nil_iff]

theorem MLModelParameters.copy_fits {v : Int} (x : MLModelParameters) : MLModelParameters.Fits v x.copy ↔ MLModelParameters.FitsCopied v x := by
  simp only [MLModelParameters.Fits, MLModelParameters.copy, MLModelParameters.FitsCopied, MLDatasetChoice.copy_fits, FitsCopied.ne_nilSlice, FitsCopied.eq_nil, FitsCopied.elems, FitsCopied.map_all,
    FitsCopied.list_all, FitsCopied.map_none, FitsCopied.gob_string, FitsCopied.gob_ref, FitsCopied.gob_bool,
    FitsCopied.gob_int, FitsCopied.true_all, ne_eq, not_false_eq_true, and_true, true_and, and_assoc, or_true,
    imp_true_iff, implies_true, List.map_eq_nil_iff]

theorem MLQuantitativeAnalysis.copy_fits {v : Int} (x : MLQuantitativeAnalysis) : MLQuantitativeAnalysis.Fits v x.copy ↔ True := by
  simp only [MLQuantitativeAnalysis.Fits, MLQuantitativeAnalysis.copy, ComponentDataGraphics.copy_fits, FitsCopied.ne_nilSlice, FitsCopied.eq_nil, FitsCopied.elems, FitsCopied.map_all,
    FitsCopied.list_all, FitsCopied.map_none, FitsCopied.gob_string, FitsCopied.gob_ref, FitsCopied.gob_bool,
    FitsCopied.gob_int, FitsCopied.true_all, ne_eq, not_false_eq_true, and_true, true_and, and_assoc, or_true,
    imp_true_iff, implies_true, List.map_eq_nil_iff]

theorem MLModelCard.copy_fits {v : Int} (x : MLModelCard) : MLModelCard.Fits v x.copy ↔ MLModelCard.FitsCopied v x := by
  simp only [MLModelCard.Fits, MLModelCard.copy, MLModelCard.FitsCopied, MLModelCardConsiderations.copy_fits, MLModelParameters.copy_fits, MLQuantitativeAnalysis.copy_fits, FitsCopied.ne_nilSlice, FitsCopied.eq_nil, FitsCopied.elems, FitsCopied.map_all,
    FitsCopied.list_all, FitsCopied.map_none, FitsCopied.gob_string, FitsCopied.gob_ref, FitsCopied.gob_bool,
    FitsCopied.gob_int, FitsCopied.true_all, ne_eq, not_false_eq_true, and_true, true_and, and_assoc, or_true,
    imp_true_iff, implies_true, List.map_eq_nil_iff]

theorem Issue.copy_fits {v : Int} (x : Issue) : Issue.Fits v x.copy ↔ True := by
  simp only [Issue.Fits, Issue.copy, FitsCopied.ne_nilSlice, FitsCopied.eq_nil, FitsCopied.elems, FitsCopied.map_all,
    FitsCopied.list_all, FitsCopied.map_none, FitsCopied.gob_string, FitsCopied.gob_ref, FitsCopied.gob_bool,
    FitsCopied.gob_int, FitsCopied.true_all, ne_eq, not_false_eq_true, and_true, true_and, and_assoc, or_true,
    imp_true_iff, implies_true, List.map_eq_nil_iff]

theorem Patch.copy_fits {v : Int} (x : Patch) : Patch.Fits v x.copy ↔ True := by
  simp only [Patch.Fits, Patch.copy, Issue.copy_fits, FitsCopied.ne_nilSlice, FitsCopied.eq_nil, FitsCopied.elems, FitsCopied.map_all,
    FitsCopied.list_all, FitsCopied.map_none, FitsCopied.gob_string, FitsCopied.gob_ref, FitsCopied.gob_bool,
    FitsCopied.gob_int, FitsCopied.true_all, ne_eq, not_false_eq_true, and_true, true_and, and_assoc, or_true,
    imp_true_iff, implies_true, List.map_eq_nil_iff]

theorem ReleaseNotes.copy_fits {v : Int} (x : ReleaseNotes) : ReleaseNotes.Fits v x.copy ↔ True := by
  simp only [ReleaseNotes.Fits, ReleaseNotes.copy, Issue.copy_fits, FitsCopied.ne_nilSlice, FitsCopied.eq_nil, FitsCopied.elems, FitsCopied.map_all,
    FitsCopied.list_all, FitsCopied.map_none, FitsCopied.gob_string, FitsCopied.gob_ref, FitsCopied.gob_bool,
    FitsCopied.gob_int, FitsCopied.true_all, ne_eq, not_false_eq_true, and_true, true_and, and_assoc, or_true,
    imp_true_iff, implies_true, List.map_eq_nil_iff]

theorem AsserterChoice.copy_fits {v : Int} (x : AsserterChoice) : AsserterChoice.Fits v x.copy ↔ AsserterChoice.FitsCopied v x := by
  simp only [AsserterChoice.Fits, AsserterChoice.copy, AsserterChoice.FitsCopied, OrganizationalContact.copy_fits, OrganizationalEntity.copy_fits, FitsCopied.ne_nilSlice, FitsCopied.eq_nil, FitsCopied.elems, FitsCopied.map_all,
    FitsCopied.list_all, FitsCopied.map_none, FitsCopied.gob_string, FitsCopied.gob_ref, FitsCopied.gob_bool,
    FitsCopied.gob_int, FitsCopied.true_all, ne_eq, not_false_eq_true, and_true, true_and, and_assoc, or_true,
    imp_true_iff, implies_true, List.map_eq_nil_iff]

theorem PatentAssertion.copy_fits {v : Int} (x : PatentAssertion) : PatentAssertion.Fits v x.copy ↔ PatentAssertion.FitsCopied v x := by
  simp only [PatentAssertion.Fits, PatentAssertion.copy, PatentAssertion.FitsCopied, AsserterChoice.copy_fits, FitsCopied.ne_nilSlice, FitsCopied.eq_nil, FitsCopied.elems, FitsCopied.map_all,
    FitsCopied.list_all, FitsCopied.map_none, FitsCopied.gob_string, FitsCopied.gob_ref, FitsCopied.gob_bool,
    FitsCopied.gob_int, FitsCopied.true_all, ne_eq, not_false_eq_true, and_true, true_and, and_assoc, or_true,
    imp_true_iff, implies_true, List.map_eq_nil_iff]

theorem copyComponents_fits {v : Int} {p : PSlice Component}
    (h : ∀ c ∈ p.elems, (c.copy.Fits v ↔ c.FitsCopied v)) :
    FitsComponents v (copyComponents p) ↔ FitsCopiedComponents v p := by
  rw [copyComponents_eq, fitsComponents_iff', fitsCopiedComponents_iff, FitsCopied.elems, FitsCopied.list_all]
  simp only [FitsCopied.ne_nilSlice, ne_eq, not_false_eq_true, true_and]
  exact forall₂_congr h

theorem Component.copy_fits {v : Int} (x : Component) : x.copy.Fits v ↔ x.FitsCopied v := by
  induction x using Component.induct with
  | h c ih =>
    have hc : FitsComponents v (copyComponents c.components) ↔ FitsCopiedComponents v c.components :=
      copyComponents_fits fun d hd => ih d (by simp [Component.children, hd])
    have hp : FitsPedigreeOpt v (copyPedigreeOpt c.pedigree) ↔ FitsCopiedPedigreeOpt v c.pedigree := by
      cases hp : c.pedigree with
      | none => simp [copyPedigreeOpt, FitsPedigreeOpt, FitsCopiedPedigreeOpt]
      | some p =>
        simp only [copyPedigreeOpt, FitsPedigreeOpt, FitsCopiedPedigreeOpt]
        have ih' : ∀ d ∈ p.relatives, (d.copy.Fits v ↔ d.FitsCopied v) :=
          fun d hd => ih d (by simp [Component.children, hp, hd])
        cases p
        simp only [copyPedigree, FitsPedigree, FitsCopiedPedigree]
        rw [copyComponents_fits (fun d hd => ih' d (by simp [Pedigree.relatives, hd])),
          copyComponents_fits (fun d hd => ih' d (by simp [Pedigree.relatives, hd])),
          copyComponents_fits (fun d hd => ih' d (by simp [Pedigree.relatives, hd]))]
        simp only [ComponentData.copy_fits, CryptoProperties.copy_fits, Evidence.copy_fits, ExternalReference.copy_fits, JSFSignature.copy_fits, LicenseChoice.copy_fits, MLModelCard.copy_fits, OrganizationalContact.copy_fits, OrganizationalEntity.copy_fits, Patch.copy_fits, PatentAssertion.copy_fits, ReleaseNotes.copy_fits, FitsCopied.ne_nilSlice, FitsCopied.eq_nil, FitsCopied.elems, FitsCopied.map_all,
    FitsCopied.list_all, FitsCopied.map_none, FitsCopied.gob_string, FitsCopied.gob_ref, FitsCopied.gob_bool,
    FitsCopied.gob_int, FitsCopied.true_all, ne_eq, not_false_eq_true, and_true, true_and, and_assoc, or_true,
    imp_true_iff, implies_true, List.map_eq_nil_iff]
    cases c
    simp only at hc hp
    simp only [Component.copy, Component.Fits, Component.FitsCopied, hc, hp, ComponentData.copy_fits, CryptoProperties.copy_fits, Evidence.copy_fits, ExternalReference.copy_fits, JSFSignature.copy_fits, LicenseChoice.copy_fits, MLModelCard.copy_fits, OrganizationalContact.copy_fits, OrganizationalEntity.copy_fits, Patch.copy_fits, PatentAssertion.copy_fits, ReleaseNotes.copy_fits, FitsCopied.ne_nilSlice, FitsCopied.eq_nil, FitsCopied.elems, FitsCopied.map_all,
    FitsCopied.list_all, FitsCopied.map_none, FitsCopied.gob_string, FitsCopied.gob_ref, FitsCopied.gob_bool,
    FitsCopied.gob_int, FitsCopied.true_all, ne_eq, not_false_eq_true, and_true, true_and, and_assoc, or_true,
    imp_true_iff, implies_true, List.map_eq_nil_iff]

theorem DataClassification.copy_fits {v : Int} (x : DataClassification) : DataClassification.Fits v x.copy ↔ DataClassification.FitsCopied v x := by
  simp only [DataClassification.Fits, DataClassification.copy, DataClassification.FitsCopied, DataGovernance.copy_fits, FitsCopied.ne_nilSlice, FitsCopied.eq_nil, FitsCopied.elems, FitsCopied.map_all,
    FitsCopied.list_all, FitsCopied.map_none, FitsCopied.gob_string, FitsCopied.gob_ref, FitsCopied.gob_bool,
    FitsCopied.gob_int, FitsCopied.true_all, ne_eq, not_false_eq_true, and_true, true_and, and_assoc, or_true,
    imp_true_iff, implies_true, List.map_eq_nil_iff]

theorem copyServices_fits {v : Int} {p : PSlice Service}
    (h : ∀ c ∈ p.elems, (c.copy.Fits v ↔ c.FitsCopied v)) :
    FitsServices v (copyServices p) ↔ FitsCopiedServices v p := by
  rw [copyServices_eq, fitsServices_iff', fitsCopiedServices_iff, FitsCopied.elems, FitsCopied.list_all]
  simp only [FitsCopied.ne_nilSlice, ne_eq, not_false_eq_true, true_and]
  exact forall₂_congr h

theorem Service.copy_fits {v : Int} (x : Service) : x.copy.Fits v ↔ x.FitsCopied v := by
  induction x using Service.induct with
  | h c ih =>
    have hc : FitsServices v (copyServices c.services) ↔ FitsCopiedServices v c.services :=
      copyServices_fits fun d hd => ih d (by simp [Service.children, hd])
    cases c
    simp only at hc
    simp only [Service.copy, Service.Fits, Service.FitsCopied, hc, DataClassification.copy_fits, ExternalReference.copy_fits, JSFSignature.copy_fits, LicenseChoice.copy_fits, OrganizationalEntity.copy_fits, PatentAssertion.copy_fits, ReleaseNotes.copy_fits, FitsCopied.ne_nilSlice, FitsCopied.eq_nil, FitsCopied.elems, FitsCopied.map_all,
    FitsCopied.list_all, FitsCopied.map_none, FitsCopied.gob_string, FitsCopied.gob_ref, FitsCopied.gob_bool,
    FitsCopied.gob_int, FitsCopied.true_all, ne_eq, not_false_eq_true, and_true, true_and, and_assoc, or_true,
    imp_true_iff, implies_true, List.map_eq_nil_iff]

theorem Annotator.copy_fits {v : Int} (x : Annotator) : Annotator.Fits v x.copy ↔ Annotator.FitsCopied v x := by
  simp only [Annotator.Fits, Annotator.copy, Annotator.FitsCopied, Component.copy_fits, OrganizationalContact.copy_fits, OrganizationalEntity.copy_fits, Service.copy_fits, FitsCopied.ne_nilSlice, FitsCopied.eq_nil, FitsCopied.elems, FitsCopied.map_all,
    FitsCopied.list_all, FitsCopied.map_none, FitsCopied.gob_string, FitsCopied.gob_ref, FitsCopied.gob_bool,
    FitsCopied.gob_int, FitsCopied.true_all, ne_eq, not_false_eq_true, and_true, true_and, and_assoc, or_true,
    imp_true_iff, implies_true, List.map_eq_nil_iff]

theorem Annotation.copy_fits {v : Int} (x : Annotation) : Annotation.Fits v x.copy ↔ Annotation.FitsCopied v x := by
  simp only [Annotation.Fits, Annotation.copy, Annotation.FitsCopied, Annotator.copy_fits, JSFSignature.copy_fits, FitsCopied.ne_nilSlice, FitsCopied.eq_nil, FitsCopied.elems, FitsCopied.map_all,
    FitsCopied.list_all, FitsCopied.map_none, FitsCopied.gob_string, FitsCopied.gob_ref, FitsCopied.gob_bool,
    FitsCopied.gob_int, FitsCopied.true_all, ne_eq, not_false_eq_true, and_true, true_and, and_assoc, or_true,
    imp_true_iff, implies_true, List.map_eq_nil_iff]

theorem Assessor.copy_fits {v : Int} (x : Assessor) : Assessor.Fits v x.copy ↔ Assessor.FitsCopied v x := by
  simp only [Assessor.Fits, Assessor.copy, Assessor.FitsCopied, OrganizationalEntity.copy_fits, FitsCopied.ne_nilSlice, FitsCopied.eq_nil, FitsCopied.elems, FitsCopied.map_all,
    FitsCopied.list_all, FitsCopied.map_none, FitsCopied.gob_string, FitsCopied.gob_ref, FitsCopied.gob_bool,
    FitsCopied.gob_int, FitsCopied.true_all, ne_eq, not_false_eq_true, and_true, true_and, and_assoc, or_true,
    imp_true_iff, implies_true, List.map_eq_nil_iff]

theorem AttestationConformance.copy_fits {v : Int} (x : AttestationConformance) : AttestationConformance.Fits v x.copy ↔ True := by
  simp only [AttestationConformance.Fits, AttestationConformance.copy, FitsCopied.ne_nilSlice, FitsCopied.eq_nil, FitsCopied.elems, FitsCopied.map_all,
    FitsCopied.list_all, FitsCopied.map_none, FitsCopied.gob_string, FitsCopied.gob_ref, FitsCopied.gob_bool,
    FitsCopied.gob_int, FitsCopied.true_all, ne_eq, not_false_eq_true, and_true, true_and, and_assoc, or_true,
    imp_true_iff, implies_true, List.map_eq_nil_iff]

theorem AttestationMap.copy_fits {v : Int} (x : AttestationMap) : AttestationMap.Fits v x.copy ↔ True := by
  simp only [AttestationMap.Fits, AttestationMap.copy, AttestationConformance.copy_fits, FitsCopied.ne_nilSlice, FitsCopied.eq_nil, FitsCopied.elems, FitsCopied.map_all,
    FitsCopied.list_all, FitsCopied.map_none, FitsCopied.gob_string, FitsCopied.gob_ref, FitsCopied.gob_bool,
    FitsCopied.gob_int, FitsCopied.true_all, ne_eq, not_false_eq_true, and_true, true_and, and_assoc, or_true,
    imp_true_iff, implies_true, List.map_eq_nil_iff]

theorem Attestation.copy_fits {v : Int} (x : Attestation) : Attestation.Fits v x.copy ↔ True := by
  simp only [Attestation.Fits, Attestation.copy, AttestationMap.copy_fits, JSFSignature.copy_fits, FitsCopied.ne_nilSlice, FitsCopied.eq_nil, FitsCopied.elems, FitsCopied.map_all,
    FitsCopied.list_all, FitsCopied.map_none, FitsCopied.gob_string, FitsCopied.gob_ref, FitsCopied.gob_bool,
    FitsCopied.gob_int, FitsCopied.true_all, ne_eq, not_false_eq_true, and_true, true_and, and_assoc, or_true,
    imp_true_iff, implies_true, List.map_eq_nil_iff]

theorem Composition.copy_fits {v : Int} (x : Composition) : Composition.Fits v x.copy ↔ Composition.FitsCopied v x := by
  simp only [Composition.Fits, Composition.copy, Composition.FitsCopied, JSFSignature.copy_fits, FitsCopied.ne_nilSlice, FitsCopied.eq_nil, FitsCopied.elems, FitsCopied.map_all,
    FitsCopied.list_all, FitsCopied.map_none, FitsCopied.gob_string, FitsCopied.gob_ref, FitsCopied.gob_bool,
    FitsCopied.gob_int, FitsCopied.true_all, ne_eq, not_false_eq_true, and_true, true_and, and_assoc, or_true,
    imp_true_iff, implies_true, List.map_eq_nil_iff]

theorem Claim.copy_fits {v : Int} (x : Claim) : Claim.Fits v x.copy ↔ Claim.FitsCopied v x := by
  simp only [Claim.Fits, Claim.copy, Claim.FitsCopied, ExternalReference.copy_fits, JSFSignature.copy_fits, FitsCopied.ne_nilSlice, FitsCopied.eq_nil, FitsCopied.elems, FitsCopied.map_all,
    FitsCopied.list_all, FitsCopied.map_none, FitsCopied.gob_string, FitsCopied.gob_ref, FitsCopied.gob_bool,
    FitsCopied.gob_int, FitsCopied.true_all, ne_eq, not_false_eq_true, and_true, true_and, and_assoc, or_true,
    imp_true_iff, implies_true, List.map_eq_nil_iff]

theorem EvidenceData.copy_fits {v : Int} (x : EvidenceData) : EvidenceData.Fits v x.copy ↔ EvidenceData.FitsCopied v x := by
  simp only [EvidenceData.Fits, EvidenceData.copy, EvidenceData.FitsCopied, DataClassification.copy_fits, DataGovernance.copy_fits, FitsCopied.ne_nilSlice, FitsCopied.eq_nil, FitsCopied.elems, FitsCopied.map_all,
    FitsCopied.list_all, FitsCopied.map_none, FitsCopied.gob_string, FitsCopied.gob_ref, FitsCopied.gob_bool,
    FitsCopied.gob_int, FitsCopied.true_all, ne_eq, not_false_eq_true, and_true, true_and, and_assoc, or_true,
    imp_true_iff, implies_true, List.map_eq_nil_iff]

theorem DeclarationEvidence.copy_fits {v : Int} (x : DeclarationEvidence) : DeclarationEvidence.Fits v x.copy ↔ DeclarationEvidence.FitsCopied v x := by
  simp only [DeclarationEvidence.Fits, DeclarationEvidence.copy, DeclarationEvidence.FitsCopied, EvidenceData.copy_fits, JSFSignature.copy_fits, OrganizationalContact.copy_fits, FitsCopied.ne_nilSlice, FitsCopied.eq_nil, FitsCopied.elems, FitsCopied.map_all,
    FitsCopied.list_all, FitsCopied.map_none, FitsCopied.gob_string, FitsCopied.gob_ref, FitsCopied.gob_bool,
    FitsCopied.gob_int, FitsCopied.true_all, ne_eq, not_false_eq_true, and_true, true_and, and_assoc, or_true,
    imp_true_iff, implies_true, List.map_eq_nil_iff]

theorem Targets.copy_fits {v : Int} (x : Targets) : Targets.Fits v x.copy ↔ Targets.FitsCopied v x := by
  simp only [Targets.Fits, Targets.copy, Targets.FitsCopied, Component.copy_fits, OrganizationalEntity.copy_fits, Service.copy_fits, FitsCopied.ne_nilSlice, FitsCopied.eq_nil, FitsCopied.elems, FitsCopied.map_all,
    FitsCopied.list_all, FitsCopied.map_none, FitsCopied.gob_string, FitsCopied.gob_ref, FitsCopied.gob_bool,
    FitsCopied.gob_int, FitsCopied.true_all, ne_eq, not_false_eq_true, and_true, true_and, and_assoc, or_true,
    imp_true_iff, implies_true, List.map_eq_nil_iff]

theorem Signatory.copy_fits {v : Int} (x : Signatory) : Signatory.Fits v x.copy ↔ Signatory.FitsCopied v x := by
  simp only [Signatory.Fits, Signatory.copy, Signatory.FitsCopied, ExternalReference.copy_fits, JSFSignature.copy_fits, OrganizationalEntity.copy_fits, FitsCopied.ne_nilSlice, FitsCopied.eq_nil, FitsCopied.elems, FitsCopied.map_all,
    FitsCopied.list_all, FitsCopied.map_none, FitsCopied.gob_string, FitsCopied.gob_ref, FitsCopied.gob_bool,
    FitsCopied.gob_int, FitsCopied.true_all, ne_eq, not_false_eq_true, and_true, true_and, and_assoc, or_true,
    imp_true_iff, implies_true, List.map_eq_nil_iff]

theorem Affirmation.copy_fits {v : Int} (x : Affirmation) : Affirmation.Fits v x.copy ↔ Affirmation.FitsCopied v x := by
  simp only [Affirmation.Fits, Affirmation.copy, Affirmation.FitsCopied, JSFSignature.copy_fits, Signatory.copy_fits, FitsCopied.ne_nilSlice, FitsCopied.eq_nil, FitsCopied.elems, FitsCopied.map_all,
    FitsCopied.list_all, FitsCopied.map_none, FitsCopied.gob_string, FitsCopied.gob_ref, FitsCopied.gob_bool,
    FitsCopied.gob_int, FitsCopied.true_all, ne_eq, not_false_eq_true, and_true, true_and, and_assoc, or_true,
    imp_true_iff, implies_true, List.map_eq_nil_iff]

theorem Declarations.copy_fits {v : Int} (x : Declarations) : Declarations.Fits v x.copy ↔ Declarations.FitsCopied v x := by
  simp only [Declarations.Fits, Declarations.copy, Declarations.FitsCopied, Affirmation.copy_fits, Assessor.copy_fits, Attestation.copy_fits, Claim.copy_fits, DeclarationEvidence.copy_fits, JSFSignature.copy_fits, Targets.copy_fits, FitsCopied.ne_nilSlice, FitsCopied.eq_nil, FitsCopied.elems, FitsCopied.map_all,
    FitsCopied.list_all, FitsCopied.map_none, FitsCopied.gob_string, FitsCopied.gob_ref, FitsCopied.gob_bool,
    FitsCopied.gob_int, FitsCopied.true_all, ne_eq, not_false_eq_true, and_true, true_and, and_assoc, or_true,
    imp_true_iff, implies_true, List.map_eq_nil_iff]

theorem Patent.copy_fits {v : Int} (x : Patent) : Patent.Fits v x.copy ↔ Patent.FitsCopied v x := by
  simp only [Patent.Fits, Patent.copy, Patent.FitsCopied, ExternalReference.copy_fits, OrganizationalEntityOrContact.copy_fits, OrganizationalEntityOrContact.copy_fitsPatentAssignee, FitsCopied.ne_nilSlice, FitsCopied.eq_nil, FitsCopied.elems, FitsCopied.map_all,
    FitsCopied.list_all, FitsCopied.map_none, FitsCopied.gob_string, FitsCopied.gob_ref, FitsCopied.gob_bool,
    FitsCopied.gob_int, FitsCopied.true_all, ne_eq, not_false_eq_true, and_true, true_and, and_assoc, or_true,
    imp_true_iff, implies_true, List.map_eq_nil_iff]

theorem PatentFamily.copy_fits {v : Int} (x : PatentFamily) : PatentFamily.Fits v x.copy ↔ PatentFamily.FitsCopied v x := by
  simp only [PatentFamily.Fits, PatentFamily.copy, PatentFamily.FitsCopied, ExternalReference.copy_fits, FitsCopied.ne_nilSlice, FitsCopied.eq_nil, FitsCopied.elems, FitsCopied.map_all,
    FitsCopied.list_all, FitsCopied.map_none, FitsCopied.gob_string, FitsCopied.gob_ref, FitsCopied.gob_bool,
    FitsCopied.gob_int, FitsCopied.true_all, ne_eq, not_false_eq_true, and_true, true_and, and_assoc, or_true,
    imp_true_iff, implies_true, List.map_eq_nil_iff]

theorem PatentChoice.copy_fits {v : Int} (x : PatentChoice) : PatentChoice.Fits v x.copy ↔ PatentChoice.FitsCopied v x := by
  simp only [PatentChoice.Fits, PatentChoice.copy, PatentChoice.FitsCopied, Patent.copy_fits, PatentFamily.copy_fits, FitsCopied.ne_nilSlice, FitsCopied.eq_nil, FitsCopied.elems, FitsCopied.map_all,
    FitsCopied.list_all, FitsCopied.map_none, FitsCopied.gob_string, FitsCopied.gob_ref, FitsCopied.gob_bool,
    FitsCopied.gob_int, FitsCopied.true_all, ne_eq, not_false_eq_true, and_true, true_and, and_assoc, or_true,
    imp_true_iff, implies_true, List.map_eq_nil_iff]

theorem StandardRequirement.copy_fits {v : Int} (x : StandardRequirement) : StandardRequirement.Fits v x.copy ↔ StandardRequirement.FitsCopied v x := by
  simp only [StandardRequirement.Fits, StandardRequirement.copy, StandardRequirement.FitsCopied, ExternalReference.copy_fits, FitsCopied.ne_nilSlice, FitsCopied.eq_nil, FitsCopied.elems, FitsCopied.map_all,
    FitsCopied.list_all, FitsCopied.map_none, FitsCopied.gob_string, FitsCopied.gob_ref, FitsCopied.gob_bool,
    FitsCopied.gob_int, FitsCopied.true_all, ne_eq, not_false_eq_true, and_true, true_and, and_assoc, or_true,
    imp_true_iff, implies_true, List.map_eq_nil_iff]

theorem StandardLevel.copy_fits {v : Int} (x : StandardLevel) : StandardLevel.Fits v x.copy ↔ True := by
  simp only [StandardLevel.Fits, StandardLevel.copy, FitsCopied.ne_nilSlice, FitsCopied.eq_nil, FitsCopied.elems, FitsCopied.map_all,
    FitsCopied.list_all, FitsCopied.map_none, FitsCopied.gob_string, FitsCopied.gob_ref, FitsCopied.gob_bool,
    FitsCopied.gob_int, FitsCopied.true_all, ne_eq, not_false_eq_true, and_true, true_and, and_assoc, or_true,
    imp_true_iff, implies_true, List.map_eq_nil_iff]

theorem StandardDefinition.copy_fits {v : Int} (x : StandardDefinition) : StandardDefinition.Fits v x.copy ↔ StandardDefinition.FitsCopied v x := by
  simp only [StandardDefinition.Fits, StandardDefinition.copy, StandardDefinition.FitsCopied, ExternalReference.copy_fits, JSFSignature.copy_fits, StandardLevel.copy_fits, StandardRequirement.copy_fits, FitsCopied.ne_nilSlice, FitsCopied.eq_nil, FitsCopied.elems, FitsCopied.map_all,
    FitsCopied.list_all, FitsCopied.map_none, FitsCopied.gob_string, FitsCopied.gob_ref, FitsCopied.gob_bool,
    FitsCopied.gob_int, FitsCopied.true_all, ne_eq, not_false_eq_true, and_true, true_and, and_assoc, or_true,
    imp_true_iff, implies_true, List.map_eq_nil_iff]

theorem Definitions.copy_fits {v : Int} (x : Definitions) : Definitions.Fits v x.copy ↔ Definitions.FitsCopied v x := by
  simp only [Definitions.Fits, Definitions.copy, Definitions.FitsCopied, PatentChoice.copy_fits, StandardDefinition.copy_fits, FitsCopied.ne_nilSlice, FitsCopied.eq_nil, FitsCopied.elems, FitsCopied.map_all,
    FitsCopied.list_all, FitsCopied.map_none, FitsCopied.gob_string, FitsCopied.gob_ref, FitsCopied.gob_bool,
    FitsCopied.gob_int, FitsCopied.true_all, ne_eq, not_false_eq_true, and_true, true_and, and_assoc, or_true,
    imp_true_iff, implies_true, List.map_eq_nil_iff]

theorem Dependency.copy_fits {v : Int} (x : Dependency) : Dependency.Fits v x.copy ↔ Dependency.FitsCopied v x := by
  simp only [Dependency.Fits, Dependency.copy, Dependency.FitsCopied, FitsCopied.ne_nilSlice, FitsCopied.eq_nil, FitsCopied.elems, FitsCopied.map_all,
    FitsCopied.list_all, FitsCopied.map_none, FitsCopied.gob_string, FitsCopied.gob_ref, FitsCopied.gob_bool,
    FitsCopied.gob_int, FitsCopied.true_all, ne_eq, not_false_eq_true, and_true, true_and, and_assoc, or_true,
    imp_true_iff, implies_true, List.map_eq_nil_iff]

theorem ResourceReferenceChoice.copy_fits {v : Int} (x : ResourceReferenceChoice) : ResourceReferenceChoice.Fits v x.copy ↔ ResourceReferenceChoice.FitsCopied v x := by
  simp only [ResourceReferenceChoice.Fits, ResourceReferenceChoice.copy, ResourceReferenceChoice.FitsCopied, ExternalReference.copy_fits, FitsCopied.ne_nilSlice, FitsCopied.eq_nil, FitsCopied.elems, FitsCopied.map_all,
    FitsCopied.list_all, FitsCopied.map_none, FitsCopied.gob_string, FitsCopied.gob_ref, FitsCopied.gob_bool,
    FitsCopied.gob_int, FitsCopied.true_all, ne_eq, not_false_eq_true, and_true, true_and, and_assoc, or_true,
    imp_true_iff, implies_true, List.map_eq_nil_iff]

theorem TaskInput.copy_fits {v : Int} (x : TaskInput) : TaskInput.Fits v x.copy ↔ TaskInput.FitsCopied v x := by
  simp only [TaskInput.Fits, TaskInput.copy, TaskInput.FitsCopied, ResourceReferenceChoice.copy_fits, FitsCopied.ne_nilSlice, FitsCopied.eq_nil, FitsCopied.elems, FitsCopied.map_all,
    FitsCopied.list_all, FitsCopied.map_none, FitsCopied.gob_string, FitsCopied.gob_ref, FitsCopied.gob_bool,
    FitsCopied.gob_int, FitsCopied.true_all, ne_eq, not_false_eq_true, and_true, true_and, and_assoc, or_true,
    imp_true_iff, implies_true, List.map_eq_nil_iff]

theorem TaskOutput.copy_fits {v : Int} (x : TaskOutput) : TaskOutput.Fits v x.copy ↔ TaskOutput.FitsCopied v x := by
  simp only [TaskOutput.Fits, TaskOutput.copy, TaskOutput.FitsCopied, ResourceReferenceChoice.copy_fits, FitsCopied.ne_nilSlice, FitsCopied.eq_nil, FitsCopied.elems, FitsCopied.map_all,
    FitsCopied.list_all, FitsCopied.map_none, FitsCopied.gob_string, FitsCopied.gob_ref, FitsCopied.gob_bool,
    FitsCopied.gob_int, FitsCopied.true_all, ne_eq, not_false_eq_true, and_true, true_and, and_assoc, or_true,
    imp_true_iff, implies_true, List.map_eq_nil_iff]

theorem TaskCommand.copy_fits {v : Int} (x : TaskCommand) : TaskCommand.Fits v x.copy ↔ True := by
  simp only [TaskCommand.Fits, TaskCommand.copy, FitsCopied.ne_nilSlice, FitsCopied.eq_nil, FitsCopied.elems, FitsCopied.map_all,
    FitsCopied.list_all, FitsCopied.map_none, FitsCopied.gob_string, FitsCopied.gob_ref, FitsCopied.gob_bool,
    FitsCopied.gob_int, FitsCopied.true_all, ne_eq, not_false_eq_true, and_true, true_and, and_assoc, or_true,
    imp_true_iff, implies_true, List.map_eq_nil_iff]

theorem TaskStep.copy_fits {v : Int} (x : TaskStep) : TaskStep.Fits v x.copy ↔ True := by
  simp only [TaskStep.Fits, TaskStep.copy, TaskCommand.copy_fits, FitsCopied.ne_nilSlice, FitsCopied.eq_nil, FitsCopied.elems, FitsCopied.map_all,
    FitsCopied.list_all, FitsCopied.map_none, FitsCopied.gob_string, FitsCopied.gob_ref, FitsCopied.gob_bool,
    FitsCopied.gob_int, FitsCopied.true_all, ne_eq, not_false_eq_true, and_true, true_and, and_assoc, or_true,
    imp_true_iff, implies_true, List.map_eq_nil_iff]

theorem Event.copy_fits {v : Int} (x : Event) : Event.Fits v x.copy ↔ Event.FitsCopied v x := by
  simp only [Event.Fits, Event.copy, Event.FitsCopied, ResourceReferenceChoice.copy_fits, FitsCopied.ne_nilSlice, FitsCopied.eq_nil, FitsCopied.elems, FitsCopied.map_all,
    FitsCopied.list_all, FitsCopied.map_none, FitsCopied.gob_string, FitsCopied.gob_ref, FitsCopied.gob_bool,
    FitsCopied.gob_int, FitsCopied.true_all, ne_eq, not_false_eq_true, and_true, true_and, and_assoc, or_true,
    imp_true_iff, implies_true, List.map_eq_nil_iff]

theorem TaskTriggerCondition.copy_fits {v : Int} (x : TaskTriggerCondition) : TaskTriggerCondition.Fits v x.copy ↔ True := by
  simp only [TaskTriggerCondition.Fits, TaskTriggerCondition.copy, FitsCopied.ne_nilSlice, FitsCopied.eq_nil, FitsCopied.elems, FitsCopied.map_all,
    FitsCopied.list_all, FitsCopied.map_none, FitsCopied.gob_string, FitsCopied.gob_ref, FitsCopied.gob_bool,
    FitsCopied.gob_int, FitsCopied.true_all, ne_eq, not_false_eq_true, and_true, true_and, and_assoc, or_true,
    imp_true_iff, implies_true, List.map_eq_nil_iff]

theorem TaskTrigger.copy_fits {v : Int} (x : TaskTrigger) : TaskTrigger.Fits v x.copy ↔ TaskTrigger.FitsCopied v x := by
  simp only [TaskTrigger.Fits, TaskTrigger.copy, TaskTrigger.FitsCopied, Event.copy_fits, ResourceReferenceChoice.copy_fits, TaskInput.copy_fits, TaskOutput.copy_fits, TaskTriggerCondition.copy_fits, FitsCopied.ne_nilSlice, FitsCopied.eq_nil, FitsCopied.elems, FitsCopied.map_all,
    FitsCopied.list_all, FitsCopied.map_none, FitsCopied.gob_string, FitsCopied.gob_ref, FitsCopied.gob_bool,
    FitsCopied.gob_int, FitsCopied.true_all, ne_eq, not_false_eq_true, and_true, true_and, and_assoc, or_true,
    imp_true_iff, implies_true, List.map_eq_nil_iff]

theorem Volume.copy_fits {v : Int} (x : Volume) : Volume.Fits v x.copy ↔ True := by
  simp only [Volume.Fits, Volume.copy, FitsCopied.ne_nilSlice, FitsCopied.eq_nil, FitsCopied.elems, FitsCopied.map_all,
    FitsCopied.list_all, FitsCopied.map_none, FitsCopied.gob_string, FitsCopied.gob_ref, FitsCopied.gob_bool,
    FitsCopied.gob_int, FitsCopied.true_all, ne_eq, not_false_eq_true, and_true, true_and, and_assoc, or_true,
    imp_true_iff, implies_true, List.map_eq_nil_iff]

theorem TaskWorkspace.copy_fits {v : Int} (x : TaskWorkspace) : TaskWorkspace.Fits v x.copy ↔ TaskWorkspace.FitsCopied v x := by
  simp only [TaskWorkspace.Fits, TaskWorkspace.copy, TaskWorkspace.FitsCopied, ResourceReferenceChoice.copy_fits, Volume.copy_fits, FitsCopied.ne_nilSlice, FitsCopied.eq_nil, FitsCopied.elems, FitsCopied.map_all,
    FitsCopied.list_all, FitsCopied.map_none, FitsCopied.gob_string, FitsCopied.gob_ref, FitsCopied.gob_bool,
    FitsCopied.gob_int, FitsCopied.true_all, ne_eq, not_false_eq_true, and_true, true_and, and_assoc, or_true,
    imp_true_iff, implies_true, List.map_eq_nil_iff]

theorem Task.copy_fits {v : Int} (x : Task) : Task.Fits v x.copy ↔ Task.FitsCopied v x := by
  simp only [Task.Fits, Task.copy, Task.FitsCopied, Dependency.copy_fits, ResourceReferenceChoice.copy_fits, TaskInput.copy_fits, TaskOutput.copy_fits, TaskStep.copy_fits, TaskTrigger.copy_fits, TaskWorkspace.copy_fits, FitsCopied.ne_nilSlice, FitsCopied.eq_nil, FitsCopied.elems, FitsCopied.map_all,
    FitsCopied.list_all, FitsCopied.map_none, FitsCopied.gob_string, FitsCopied.gob_ref, FitsCopied.gob_bool,
    FitsCopied.gob_int, FitsCopied.true_all, ne_eq, not_false_eq_true, and_true, true_and, and_assoc, or_true,
    imp_true_iff, implies_true, List.map_eq_nil_iff]

theorem Workflow.copy_fits {v : Int} (x : Workflow) : Workflow.Fits v x.copy ↔ Workflow.FitsCopied v x := by
  simp only [Workflow.Fits, Workflow.copy, Workflow.FitsCopied, Dependency.copy_fits, ResourceReferenceChoice.copy_fits, Task.copy_fits, TaskInput.copy_fits, TaskOutput.copy_fits, TaskStep.copy_fits, TaskTrigger.copy_fits, TaskWorkspace.copy_fits, FitsCopied.ne_nilSlice, FitsCopied.eq_nil, FitsCopied.elems, FitsCopied.map_all,
    FitsCopied.list_all, FitsCopied.map_none, FitsCopied.gob_string, FitsCopied.gob_ref, FitsCopied.gob_bool,
    FitsCopied.gob_int, FitsCopied.true_all, ne_eq, not_false_eq_true, and_true, true_and, and_assoc, or_true,
    imp_true_iff, implies_true, List.map_eq_nil_iff]

theorem Formula.copy_fits {v : Int} (x : Formula) : Formula.Fits v x.copy ↔ Formula.FitsCopied v x := by
  simp only [Formula.Fits, Formula.copy, Formula.FitsCopied, Component.copy_fits, Service.copy_fits, Workflow.copy_fits, FitsCopied.ne_nilSlice, FitsCopied.eq_nil, FitsCopied.elems, FitsCopied.map_all,
    FitsCopied.list_all, FitsCopied.map_none, FitsCopied.gob_string, FitsCopied.gob_ref, FitsCopied.gob_bool,
    FitsCopied.gob_int, FitsCopied.true_all, ne_eq, not_false_eq_true, and_true, true_and, and_assoc, or_true,
    imp_true_iff, implies_true, List.map_eq_nil_iff]

theorem Tool.copy_fits {v : Int} (x : Tool) : Tool.Fits v x.copy ↔ Tool.FitsCopied v x := by
  simp only [Tool.Fits, Tool.copy, Tool.FitsCopied, ExternalReference.copy_fits, FitsCopied.ne_nilSlice, FitsCopied.eq_nil, FitsCopied.elems, FitsCopied.map_all,
    FitsCopied.list_all, FitsCopied.map_none, FitsCopied.gob_string, FitsCopied.gob_ref, FitsCopied.gob_bool,
    FitsCopied.gob_int, FitsCopied.true_all, ne_eq, not_false_eq_true, and_true, true_and, and_assoc, or_true,
    imp_true_iff, implies_true, List.map_eq_nil_iff]

theorem ToolsChoice.copy_fits {v : Int} (x : ToolsChoice) : ToolsChoice.Fits v x.copy ↔ ToolsChoice.FitsCopied v x := by
  simp only [ToolsChoice.Fits, ToolsChoice.copy, ToolsChoice.FitsCopied, Component.copy_fits, Service.copy_fits, Tool.copy_fits, FitsCopied.ne_nilSlice, FitsCopied.eq_nil, FitsCopied.elems, FitsCopied.map_all,
    FitsCopied.list_all, FitsCopied.map_none, FitsCopied.gob_string, FitsCopied.gob_ref, FitsCopied.gob_bool,
    FitsCopied.gob_int, FitsCopied.true_all, ne_eq, not_false_eq_true, and_true, true_and, and_assoc, or_true,
    imp_true_iff, implies_true, List.map_eq_nil_iff]

theorem Metadata.copy_fits {v : Int} (x : Metadata) : Metadata.Fits v x.copy ↔ Metadata.FitsCopied v x := by
  simp only [Metadata.Fits, Metadata.copy, Metadata.FitsCopied, Component.copy_fits, LicenseChoice.copy_fits, OrganizationalContact.copy_fits, OrganizationalEntity.copy_fits, ToolsChoice.copy_fits, FitsCopied.ne_nilSlice, FitsCopied.eq_nil, FitsCopied.elems, FitsCopied.map_all,
    FitsCopied.list_all, FitsCopied.map_none, FitsCopied.gob_string, FitsCopied.gob_ref, FitsCopied.gob_bool,
    FitsCopied.gob_int, FitsCopied.true_all, ne_eq, not_false_eq_true, and_true, true_and, and_assoc, or_true,
    imp_true_iff, implies_true, List.map_eq_nil_iff]

theorem Credits.copy_fits {v : Int} (x : Credits) : Credits.Fits v x.copy ↔ Credits.FitsCopied v x := by
  simp only [Credits.Fits, Credits.copy, Credits.FitsCopied, OrganizationalContact.copy_fits, OrganizationalEntity.copy_fits, FitsCopied.ne_nilSlice, FitsCopied.eq_nil, FitsCopied.elems, FitsCopied.map_all,
    FitsCopied.list_all, FitsCopied.map_none, FitsCopied.gob_string, FitsCopied.gob_ref, FitsCopied.gob_bool,
    FitsCopied.gob_int, FitsCopied.true_all, ne_eq, not_false_eq_true, and_true, true_and, and_assoc, or_true,
    imp_true_iff, implies_true, List.map_eq_nil_iff]

theorem ProofOfConcept.copy_fits {v : Int} (x : ProofOfConcept) : ProofOfConcept.Fits v x.copy ↔ True := by
  simp only [ProofOfConcept.Fits, ProofOfConcept.copy, FitsCopied.ne_nilSlice, FitsCopied.eq_nil, FitsCopied.elems, FitsCopied.map_all,
    FitsCopied.list_all, FitsCopied.map_none, FitsCopied.gob_string, FitsCopied.gob_ref, FitsCopied.gob_bool,
    FitsCopied.gob_int, FitsCopied.true_all, ne_eq, not_false_eq_true, and_true, true_and, and_assoc, or_true,
    imp_true_iff, implies_true, List.map_eq_nil_iff]

theorem VulnerabilityAnalysis.copy_fits {v : Int} (x : VulnerabilityAnalysis) : VulnerabilityAnalysis.Fits v x.copy ↔ VulnerabilityAnalysis.FitsCopied v x := by
  simp only [VulnerabilityAnalysis.Fits, VulnerabilityAnalysis.copy, VulnerabilityAnalysis.FitsCopied, FitsCopied.ne_nilSlice, FitsCopied.eq_nil, FitsCopied.elems, FitsCopied.map_all,
    FitsCopied.list_all, FitsCopied.map_none, FitsCopied.gob_string, FitsCopied.gob_ref, FitsCopied.gob_bool,
    FitsCopied.gob_int, FitsCopied.true_all, ne_eq, not_false_eq_true, and_true, true_and, and_assoc, or_true,
    imp_true_iff, implies_true, List.map_eq_nil_iff]

theorem Vulnerability.copy_fits {v : Int} (x : Vulnerability) : Vulnerability.Fits v x.copy ↔ Vulnerability.FitsCopied v x := by
  simp only [Vulnerability.Fits, Vulnerability.copy, Vulnerability.FitsCopied, Affects.copy_fits, Credits.copy_fits, ProofOfConcept.copy_fits, ToolsChoice.copy_fits, VulnerabilityAnalysis.copy_fits, FitsCopied.ne_nilSlice, FitsCopied.eq_nil, FitsCopied.elems, FitsCopied.map_all,
    FitsCopied.list_all, FitsCopied.map_none, FitsCopied.gob_string, FitsCopied.gob_ref, FitsCopied.gob_bool,
    FitsCopied.gob_int, FitsCopied.true_all, ne_eq, not_false_eq_true, and_true, true_and, and_assoc, or_true,
    imp_true_iff, implies_true, List.map_eq_nil_iff]

theorem Citation.copy_fits {v : Int} (x : Citation) : Citation.Fits v x.copy ↔ True := by
  simp only [Citation.Fits, Citation.copy, JSFSignature.copy_fits, FitsCopied.ne_nilSlice, FitsCopied.eq_nil, FitsCopied.elems, FitsCopied.map_all,
    FitsCopied.list_all, FitsCopied.map_none, FitsCopied.gob_string, FitsCopied.gob_ref, FitsCopied.gob_bool,
    FitsCopied.gob_int, FitsCopied.true_all, ne_eq, not_false_eq_true, and_true, true_and, and_assoc, or_true,
    imp_true_iff, implies_true, List.map_eq_nil_iff]

theorem BOM.copy_fits {v : Int} (x : BOM) : BOM.Fits v x.copy ↔ BOM.FitsCopied v x := by
  simp only [BOM.Fits, BOM.copy, BOM.FitsCopied, Annotation.copy_fits, Citation.copy_fits, Component.copy_fits, Composition.copy_fits, Declarations.copy_fits, Definitions.copy_fits, Dependency.copy_fits, ExternalReference.copy_fits, Formula.copy_fits, JSFSignature.copy_fits, Metadata.copy_fits, Service.copy_fits, Vulnerability.copy_fits, FitsCopied.ne_nilSlice, FitsCopied.eq_nil, FitsCopied.elems, FitsCopied.map_all,
    FitsCopied.list_all, FitsCopied.map_none, FitsCopied.gob_string, FitsCopied.gob_ref, FitsCopied.gob_bool,
    FitsCopied.gob_int, FitsCopied.true_all, ne_eq, not_false_eq_true, and_true, true_and, and_assoc, or_true,
    imp_true_iff, implies_true, List.map_eq_nil_iff]

end Verif
