import Verif.Spec.Copyable
import Verif.Spec.Writable
import Verif.Model.Recurse

/-!
# Laws of the deep copy

GENERATED by `tools/gen_gob.py`; do not edit by hand.
-/

namespace Verif

set_option linter.unusedSimpArgs false

theorem Gob.string_eq (o : Option String) : Gob.string o = o ↔ o ≠ some "" := by
  cases o with
  | none => simp [Gob.string]
  | some s => by_cases h : s = "" <;> simp [Gob.string, h]
theorem BOMReference.ext_iff' {a b : BOMReference} : a = b ↔ a.val = b.val := by
  cases a; cases b; simp
theorem Gob.ref_eq (o : Option BOMReference) : Gob.ref o = o ↔ o ≠ some ⟨""⟩ := by
  cases o with
  | none => simp [Gob.ref]
  | some s => by_cases h : s.val = "" <;> simp [Gob.ref, BOMReference.ext_iff', h]
theorem Gob.bool_eq (o : Option Bool) : Gob.bool o = o ↔ o ≠ some false := by
  cases o with
  | none => simp [Gob.bool]
  | some b => cases b <;> simp [Gob.bool]
theorem Gob.int_eq (o : Option Int) : Gob.int o = o ↔ o ≠ some 0 := by
  cases o with
  | none => simp [Gob.int]
  | some s => by_cases h : s = 0 <;> simp [Gob.int, h]
theorem Gob.float32_eq (o : Option F32) : Gob.float32 o = o ↔ ∀ y ∈ o, ¬ y.isZero := by
  cases o with
  | none => simp [Gob.float32]
  | some s => by_cases h : s.isZero <;> simp [Gob.float32, h]
theorem Gob.float64_eq (o : Option F64) : Gob.float64 o = o ↔ ∀ y ∈ o, ¬ y.isZero := by
  cases o with
  | none => simp [Gob.float64]
  | some s => by_cases h : s.isZero <;> simp [Gob.float64, h]
theorem F32.noNegZero_eq (x : F32) : x.noNegZero = x ↔ x ≠ F32.negZero := by
  unfold F32.noNegZero
  split
  · rename_i h; rw [h]; decide
  · rename_i h; simp [h]
theorem F64.noNegZero_eq (x : F64) : x.noNegZero = x ↔ x ≠ F64.negZero := by
  unfold F64.noNegZero
  split
  · rename_i h; rw [h]; decide
  · rename_i h; simp [h]

theorem Option.map_eq_self_iff' {α : Type} {f : α → α} (o : Option α) : o.map f = o ↔ ∀ y ∈ o, f y = y := by
  cases o <;> simp

theorem PSlice.copyWith_eq {α : Type} {f : α → α} (p : PSlice α) :
    p.copyWith f = p ↔ p.Filled fun x => f x = x := by
  have hm : ∀ xs : List α, xs.map f = xs ↔ ∀ x ∈ xs, f x = x := by
    intro xs
    induction xs with
    | nil => simp
    | cons x xs ih => simp [ih]
  cases p with
  | nil => simp [PSlice.copyWith, PSlice.Filled, PSlice.elems]
  | nilSlice => simp [PSlice.copyWith, PSlice.Filled, PSlice.elems]
  | list xs => cases xs <;> simp [PSlice.copyWith, PSlice.Filled, PSlice.elems, hm]

theorem PSlice.copyWith_id_eq {α : Type} (p : PSlice α) : p.copyWith _root_.id = p ↔ p.Filled fun _ => True := by
  rw [PSlice.copyWith_eq]
  simp [PSlice.Filled]

/-! ## The copy of a copy -/

theorem Gob.string_idem (o : Option String) : Gob.string (Gob.string o) = Gob.string o := by
  cases o with
  | none => rfl
  | some s => by_cases h : s = "" <;> simp [Gob.string, h]
theorem Gob.ref_idem (o : Option BOMReference) : Gob.ref (Gob.ref o) = Gob.ref o := by
  cases o with
  | none => rfl
  | some s => by_cases h : s.val = "" <;> simp [Gob.ref, BOMReference.ext_iff', h]
theorem Gob.bool_idem (o : Option Bool) : Gob.bool (Gob.bool o) = Gob.bool o := by
  cases o with
  | none => rfl
  | some b => cases b <;> rfl
theorem Gob.int_idem (o : Option Int) : Gob.int (Gob.int o) = Gob.int o := by
  cases o with
  | none => rfl
  | some s => by_cases h : s = 0 <;> simp [Gob.int, h]
theorem Gob.float32_idem (o : Option F32) : Gob.float32 (Gob.float32 o) = Gob.float32 o := by
  cases o with
  | none => rfl
  | some s => by_cases h : s.isZero <;> simp [Gob.float32, h]
theorem Gob.float64_idem (o : Option F64) : Gob.float64 (Gob.float64 o) = Gob.float64 o := by
  cases o with
  | none => rfl
  | some s => by_cases h : s.isZero <;> simp [Gob.float64, h]
theorem F32.noNegZero_idem (x : F32) : x.noNegZero.noNegZero = x.noNegZero := by
  by_cases h : x = F32.negZero <;> simp [F32.noNegZero, h]
theorem F64.noNegZero_idem (x : F64) : x.noNegZero.noNegZero = x.noNegZero := by
  by_cases h : x = F64.negZero <;> simp [F64.noNegZero, h]
theorem PSlice.copyWith_idem {α : Type} {f : α → α} (h : ∀ x, f (f x) = f x) (p : PSlice α) :
    (p.copyWith f).copyWith f = p.copyWith f := by
  match p with
  | .nil => rfl
  | .nilSlice => rfl
  | .list [] => rfl
  | .list (x :: xs) => simp [PSlice.copyWith, h]
theorem PSlice.copyWith_id_idem {α : Type} (p : PSlice α) : (p.copyWith _root_.id).copyWith _root_.id = p.copyWith _root_.id :=
  PSlice.copyWith_idem (fun _ => rfl) p
theorem Option.map_idem' {α : Type} {f : α → α} (h : ∀ x, f (f x) = f x) (o : Option α) :
    (o.map f).map f = o.map f := by cases o <;> simp [h]

/-! ## What can be written stays so -/

theorem Gob.float32_mem {o : Option F32} {x : F32} (h : x ∈ Gob.float32 o) : x ∈ o := by
  cases o with
  | none => exact h
  | some s =>
    by_cases hs : s.isZero
    · simp [Gob.float32, hs] at h
    · simpa [Gob.float32, hs] using h
theorem Gob.float64_mem {o : Option F64} {x : F64} (h : x ∈ Gob.float64 o) : x ∈ o := by
  cases o with
  | none => exact h
  | some s =>
    by_cases hs : s.isZero
    · simp [Gob.float64, hs] at h
    · simpa [Gob.float64, hs] using h
theorem F32.finite_noNegZero {x : F32} (h : x.Finite) : x.noNegZero.Finite := by
  unfold F32.noNegZero
  split
  · decide
  · exact h
theorem PSlice.mem_copyWith {α : Type} {f : α → α} {p : PSlice α} {x : α} (h : x ∈ (p.copyWith f).elems) :
    ∃ y ∈ p.elems, x = f y := by
  match p, h with
  | .nil, h => simp [PSlice.copyWith, PSlice.elems] at h
  | .nilSlice, h => simp [PSlice.copyWith, PSlice.elems] at h
  | .list [], h => simp [PSlice.copyWith, PSlice.elems] at h
  | .list (y :: ys), h =>
    simp only [PSlice.copyWith, PSlice.elems, List.mem_cons, List.mem_map] at h
    rcases h with rfl | ⟨z, hz, rfl⟩
    · exact ⟨y, by simp [PSlice.elems], rfl⟩
    · exact ⟨z, by simp [PSlice.elems, hz], rfl⟩
theorem PSlice.copyWith_all {α : Type} {f : α → α} {P : α → Prop} {p : PSlice α} (hf : ∀ x, P x → P (f x))
    (h : ∀ x ∈ p.elems, P x) : ∀ x ∈ (p.copyWith f).elems, P x := by
  intro x hx
  obtain ⟨y, hy, rfl⟩ := PSlice.mem_copyWith hx
  exact hf y (h y hy)
theorem Option.map_all {α : Type} {f : α → α} {P : α → Prop} {o : Option α} (hf : ∀ x, P x → P (f x))
    (h : ∀ x ∈ o, P x) : ∀ x ∈ o.map f, P x := by
  intro x hx
  obtain ⟨y, hy, rfl⟩ := Option.map_eq_some_iff.1 hx
  exact hf y (h y hy)

theorem Advisory.copy_eq (x : Advisory) : x.copy = x ↔ x.Copyable := by
  cases x
  simp only [Advisory.copy, Advisory.Copyable, Advisory.mk.injEq, Option.map_eq_self_iff', PSlice.copyWith_eq, PSlice.copyWith_id_eq, id_eq, true_and, and_true, and_self]

theorem Advisory.copy_idem (x : Advisory) : x.copy.copy = x.copy := by
  simp only [Advisory.copy, PSlice.copyWith_id_idem]

theorem AffectedVersions.copy_eq (x : AffectedVersions) : x.copy = x ↔ x.Copyable := by
  cases x
  simp only [AffectedVersions.copy, AffectedVersions.Copyable, AffectedVersions.mk.injEq, Option.map_eq_self_iff', PSlice.copyWith_eq, PSlice.copyWith_id_eq, id_eq, true_and, and_true, and_self]

theorem AffectedVersions.copy_idem (x : AffectedVersions) : x.copy.copy = x.copy := by
  simp only [AffectedVersions.copy, PSlice.copyWith_id_idem]

theorem Affects.copy_eq (x : Affects) : x.copy = x ↔ x.Copyable := by
  cases x
  simp only [Affects.copy, Affects.Copyable, Affects.mk.injEq, Option.map_eq_self_iff', PSlice.copyWith_eq, PSlice.copyWith_id_eq, AffectedVersions.copy_eq, id_eq, true_and, and_true, and_self]

theorem Affects.copy_idem (x : Affects) : x.copy.copy = x.copy := by
  simp only [Affects.copy, PSlice.copyWith_id_idem, Option.map_idem' AffectedVersions.copy_idem, PSlice.copyWith_idem AffectedVersions.copy_idem, AffectedVersions.copy_idem]

theorem AttachedText.copy_eq (x : AttachedText) : x.copy = x ↔ x.Copyable := by
  cases x
  simp only [AttachedText.copy, AttachedText.Copyable, AttachedText.mk.injEq, Option.map_eq_self_iff', PSlice.copyWith_eq, PSlice.copyWith_id_eq, id_eq, true_and, and_true, and_self]

theorem AttachedText.copy_idem (x : AttachedText) : x.copy.copy = x.copy := by
  simp only [AttachedText.copy, PSlice.copyWith_id_idem]

theorem Property.copy_eq (x : Property) : x.copy = x ↔ x.Copyable := by
  cases x
  simp only [Property.copy, Property.Copyable, Property.mk.injEq, Option.map_eq_self_iff', PSlice.copyWith_eq, PSlice.copyWith_id_eq, id_eq, true_and, and_true, and_self]

theorem Property.copy_idem (x : Property) : x.copy.copy = x.copy := by
  simp only [Property.copy, PSlice.copyWith_id_idem]

theorem ComponentDataContents.copy_eq (x : ComponentDataContents) : x.copy = x ↔ x.Copyable := by
  cases x
  simp only [ComponentDataContents.copy, ComponentDataContents.Copyable, ComponentDataContents.mk.injEq, Option.map_eq_self_iff', PSlice.copyWith_eq, PSlice.copyWith_id_eq, AttachedText.copy_eq, Property.copy_eq, id_eq, true_and, and_true, and_self]

theorem ComponentDataContents.copy_idem (x : ComponentDataContents) : x.copy.copy = x.copy := by
  simp only [ComponentDataContents.copy, PSlice.copyWith_id_idem, Option.map_idem' AttachedText.copy_idem, Option.map_idem' Property.copy_idem, PSlice.copyWith_idem AttachedText.copy_idem, PSlice.copyWith_idem Property.copy_idem, AttachedText.copy_idem, Property.copy_idem]

theorem ComponentDataGraphic.copy_eq (x : ComponentDataGraphic) : x.copy = x ↔ x.Copyable := by
  cases x
  simp only [ComponentDataGraphic.copy, ComponentDataGraphic.Copyable, ComponentDataGraphic.mk.injEq, Option.map_eq_self_iff', PSlice.copyWith_eq, PSlice.copyWith_id_eq, AttachedText.copy_eq, id_eq, true_and, and_true, and_self]

theorem ComponentDataGraphic.copy_idem (x : ComponentDataGraphic) : x.copy.copy = x.copy := by
  simp only [ComponentDataGraphic.copy, PSlice.copyWith_id_idem, Option.map_idem' AttachedText.copy_idem, PSlice.copyWith_idem AttachedText.copy_idem, AttachedText.copy_idem]

theorem ComponentDataGraphics.copy_eq (x : ComponentDataGraphics) : x.copy = x ↔ x.Copyable := by
  cases x
  simp only [ComponentDataGraphics.copy, ComponentDataGraphics.Copyable, ComponentDataGraphics.mk.injEq, Option.map_eq_self_iff', PSlice.copyWith_eq, PSlice.copyWith_id_eq, ComponentDataGraphic.copy_eq, id_eq, true_and, and_true, and_self]

theorem ComponentDataGraphics.copy_idem (x : ComponentDataGraphics) : x.copy.copy = x.copy := by
  simp only [ComponentDataGraphics.copy, PSlice.copyWith_id_idem, Option.map_idem' ComponentDataGraphic.copy_idem, PSlice.copyWith_idem ComponentDataGraphic.copy_idem, ComponentDataGraphic.copy_idem]

theorem OrganizationalContact.copy_eq (x : OrganizationalContact) : x.copy = x ↔ x.Copyable := by
  cases x
  simp only [OrganizationalContact.copy, OrganizationalContact.Copyable, OrganizationalContact.mk.injEq, Option.map_eq_self_iff', PSlice.copyWith_eq, PSlice.copyWith_id_eq, id_eq, true_and, and_true, and_self]

theorem OrganizationalContact.copy_idem (x : OrganizationalContact) : x.copy.copy = x.copy := by
  simp only [OrganizationalContact.copy, PSlice.copyWith_id_idem]

theorem PostalAddress.copy_eq (x : PostalAddress) : x.copy = x ↔ x.Copyable := by
  cases x
  simp only [PostalAddress.copy, PostalAddress.Copyable, PostalAddress.mk.injEq, Option.map_eq_self_iff', PSlice.copyWith_eq, PSlice.copyWith_id_eq, id_eq, true_and, and_true, and_self]

theorem PostalAddress.copy_idem (x : PostalAddress) : x.copy.copy = x.copy := by
  simp only [PostalAddress.copy, PSlice.copyWith_id_idem]

theorem OrganizationalEntity.copy_eq (x : OrganizationalEntity) : x.copy = x ↔ x.Copyable := by
  cases x
  simp only [OrganizationalEntity.copy, OrganizationalEntity.Copyable, OrganizationalEntity.mk.injEq, Option.map_eq_self_iff', PSlice.copyWith_eq, PSlice.copyWith_id_eq, OrganizationalContact.copy_eq, PostalAddress.copy_eq, id_eq, true_and, and_true, and_self]

theorem OrganizationalEntity.copy_idem (x : OrganizationalEntity) : x.copy.copy = x.copy := by
  simp only [OrganizationalEntity.copy, PSlice.copyWith_id_idem, Option.map_idem' OrganizationalContact.copy_idem, Option.map_idem' PostalAddress.copy_idem, PSlice.copyWith_idem OrganizationalContact.copy_idem, PSlice.copyWith_idem PostalAddress.copy_idem, OrganizationalContact.copy_idem, PostalAddress.copy_idem]

theorem ComponentDataGovernanceResponsibleParty.copy_eq (x : ComponentDataGovernanceResponsibleParty) : x.copy = x ↔ x.Copyable := by
  cases x
  simp only [ComponentDataGovernanceResponsibleParty.copy, ComponentDataGovernanceResponsibleParty.Copyable, ComponentDataGovernanceResponsibleParty.mk.injEq, Option.map_eq_self_iff', PSlice.copyWith_eq, PSlice.copyWith_id_eq, OrganizationalContact.copy_eq, OrganizationalEntity.copy_eq, id_eq, true_and, and_true, and_self]

theorem ComponentDataGovernanceResponsibleParty.copy_idem (x : ComponentDataGovernanceResponsibleParty) : x.copy.copy = x.copy := by
  simp only [ComponentDataGovernanceResponsibleParty.copy, PSlice.copyWith_id_idem, Option.map_idem' OrganizationalContact.copy_idem, Option.map_idem' OrganizationalEntity.copy_idem, PSlice.copyWith_idem OrganizationalContact.copy_idem, PSlice.copyWith_idem OrganizationalEntity.copy_idem, OrganizationalContact.copy_idem, OrganizationalEntity.copy_idem]

theorem DataGovernance.copy_eq (x : DataGovernance) : x.copy = x ↔ x.Copyable := by
  cases x
  simp only [DataGovernance.copy, DataGovernance.Copyable, DataGovernance.mk.injEq, Option.map_eq_self_iff', PSlice.copyWith_eq, PSlice.copyWith_id_eq, ComponentDataGovernanceResponsibleParty.copy_eq, id_eq, true_and, and_true, and_self]

theorem DataGovernance.copy_idem (x : DataGovernance) : x.copy.copy = x.copy := by
  simp only [DataGovernance.copy, PSlice.copyWith_id_idem, Option.map_idem' ComponentDataGovernanceResponsibleParty.copy_idem, PSlice.copyWith_idem ComponentDataGovernanceResponsibleParty.copy_idem, ComponentDataGovernanceResponsibleParty.copy_idem]

theorem ComponentData.copy_eq (x : ComponentData) : x.copy = x ↔ x.Copyable := by
  cases x
  simp only [ComponentData.copy, ComponentData.Copyable, ComponentData.mk.injEq, Option.map_eq_self_iff', PSlice.copyWith_eq, PSlice.copyWith_id_eq, ComponentDataContents.copy_eq, ComponentDataGraphics.copy_eq, DataGovernance.copy_eq, id_eq, true_and, and_true, and_self]

theorem ComponentData.copy_idem (x : ComponentData) : x.copy.copy = x.copy := by
  simp only [ComponentData.copy, PSlice.copyWith_id_idem, Option.map_idem' ComponentDataContents.copy_idem, Option.map_idem' ComponentDataGraphics.copy_idem, Option.map_idem' DataGovernance.copy_idem, PSlice.copyWith_idem ComponentDataContents.copy_idem, PSlice.copyWith_idem ComponentDataGraphics.copy_idem, PSlice.copyWith_idem DataGovernance.copy_idem, ComponentDataContents.copy_idem, ComponentDataGraphics.copy_idem, DataGovernance.copy_idem]

theorem Hash.copy_eq (x : Hash) : x.copy = x ↔ x.Copyable := by
  cases x
  simp only [Hash.copy, Hash.Copyable, Hash.mk.injEq, Option.map_eq_self_iff', PSlice.copyWith_eq, PSlice.copyWith_id_eq, id_eq, true_and, and_true, and_self]

theorem Hash.copy_idem (x : Hash) : x.copy.copy = x.copy := by
  simp only [Hash.copy, PSlice.copyWith_id_idem]

theorem RelatedCryptographicAsset.copy_eq (x : RelatedCryptographicAsset) : x.copy = x ↔ x.Copyable := by
  cases x
  simp only [RelatedCryptographicAsset.copy, RelatedCryptographicAsset.Copyable, RelatedCryptographicAsset.mk.injEq, Option.map_eq_self_iff', PSlice.copyWith_eq, PSlice.copyWith_id_eq, id_eq, true_and, and_true, and_self]

theorem RelatedCryptographicAsset.copy_idem (x : RelatedCryptographicAsset) : x.copy.copy = x.copy := by
  simp only [RelatedCryptographicAsset.copy, PSlice.copyWith_id_idem]

theorem PredefinedCertificateState.copy_eq (x : PredefinedCertificateState) : x.copy = x ↔ x.Copyable := by
  cases x
  simp only [PredefinedCertificateState.copy, PredefinedCertificateState.Copyable, PredefinedCertificateState.mk.injEq, Option.map_eq_self_iff', PSlice.copyWith_eq, PSlice.copyWith_id_eq, id_eq, true_and, and_true, and_self]

theorem PredefinedCertificateState.copy_idem (x : PredefinedCertificateState) : x.copy.copy = x.copy := by
  simp only [PredefinedCertificateState.copy, PSlice.copyWith_id_idem]

theorem CustomCertificateState.copy_eq (x : CustomCertificateState) : x.copy = x ↔ x.Copyable := by
  cases x
  simp only [CustomCertificateState.copy, CustomCertificateState.Copyable, CustomCertificateState.mk.injEq, Option.map_eq_self_iff', PSlice.copyWith_eq, PSlice.copyWith_id_eq, id_eq, true_and, and_true, and_self]

theorem CustomCertificateState.copy_idem (x : CustomCertificateState) : x.copy.copy = x.copy := by
  simp only [CustomCertificateState.copy, PSlice.copyWith_id_idem]

theorem CertificateState.copy_eq (x : CertificateState) : x.copy = x ↔ x.Copyable := by
  cases x
  simp only [CertificateState.copy, CertificateState.Copyable, CertificateState.mk.injEq, Option.map_eq_self_iff', PSlice.copyWith_eq, PSlice.copyWith_id_eq, CustomCertificateState.copy_eq, PredefinedCertificateState.copy_eq, id_eq, true_and, and_true, and_self]

theorem CertificateState.copy_idem (x : CertificateState) : x.copy.copy = x.copy := by
  simp only [CertificateState.copy, PSlice.copyWith_id_idem, Option.map_idem' CustomCertificateState.copy_idem, Option.map_idem' PredefinedCertificateState.copy_idem, PSlice.copyWith_idem CustomCertificateState.copy_idem, PSlice.copyWith_idem PredefinedCertificateState.copy_idem, CustomCertificateState.copy_idem, PredefinedCertificateState.copy_idem]

theorem CertificateState.copy_writable {x : CertificateState} (h : x.Writable) : x.copy.Writable := by
  rcases h with h | h
  · exact .inl (by simp [CertificateState.copy, h])
  · exact .inr (by simp [CertificateState.copy, h])

theorem CommonCertificateExtension.copy_eq (x : CommonCertificateExtension) : x.copy = x ↔ x.Copyable := by
  cases x
  simp only [CommonCertificateExtension.copy, CommonCertificateExtension.Copyable, CommonCertificateExtension.mk.injEq, Option.map_eq_self_iff', PSlice.copyWith_eq, PSlice.copyWith_id_eq, id_eq, true_and, and_true, and_self]

theorem CommonCertificateExtension.copy_idem (x : CommonCertificateExtension) : x.copy.copy = x.copy := by
  simp only [CommonCertificateExtension.copy, PSlice.copyWith_id_idem]

theorem CustomCertificateExtension.copy_eq (x : CustomCertificateExtension) : x.copy = x ↔ x.Copyable := by
  cases x
  simp only [CustomCertificateExtension.copy, CustomCertificateExtension.Copyable, CustomCertificateExtension.mk.injEq, Option.map_eq_self_iff', PSlice.copyWith_eq, PSlice.copyWith_id_eq, id_eq, true_and, and_true, and_self]

theorem CustomCertificateExtension.copy_idem (x : CustomCertificateExtension) : x.copy.copy = x.copy := by
  simp only [CustomCertificateExtension.copy, PSlice.copyWith_id_idem]

theorem CertificateExtension.copy_eq (x : CertificateExtension) : x.copy = x ↔ x.Copyable := by
  cases x
  simp only [CertificateExtension.copy, CertificateExtension.Copyable, CertificateExtension.mk.injEq, Option.map_eq_self_iff', PSlice.copyWith_eq, PSlice.copyWith_id_eq, CommonCertificateExtension.copy_eq, CustomCertificateExtension.copy_eq, id_eq, true_and, and_true, and_self]

theorem CertificateExtension.copy_idem (x : CertificateExtension) : x.copy.copy = x.copy := by
  simp only [CertificateExtension.copy, PSlice.copyWith_id_idem, Option.map_idem' CommonCertificateExtension.copy_idem, Option.map_idem' CustomCertificateExtension.copy_idem, PSlice.copyWith_idem CommonCertificateExtension.copy_idem, PSlice.copyWith_idem CustomCertificateExtension.copy_idem, CommonCertificateExtension.copy_idem, CustomCertificateExtension.copy_idem]

theorem CertificateExtension.copy_writable {x : CertificateExtension} (h : x.Writable) : x.copy.Writable := by
  rcases h with h | h
  · exact .inl (by simp [CertificateExtension.copy, h])
  · exact .inr (by simp [CertificateExtension.copy, h])

theorem CertificateProperties.copy_eq (x : CertificateProperties) : x.copy = x ↔ x.Copyable := by
  cases x
  simp only [CertificateProperties.copy, CertificateProperties.Copyable, CertificateProperties.mk.injEq, Option.map_eq_self_iff', PSlice.copyWith_eq, PSlice.copyWith_id_eq, CertificateExtension.copy_eq, CertificateState.copy_eq, Hash.copy_eq, RelatedCryptographicAsset.copy_eq, id_eq, true_and, and_true, and_self]

theorem CertificateProperties.copy_idem (x : CertificateProperties) : x.copy.copy = x.copy := by
  simp only [CertificateProperties.copy, PSlice.copyWith_id_idem, Option.map_idem' CertificateExtension.copy_idem, Option.map_idem' CertificateState.copy_idem, Option.map_idem' Hash.copy_idem, Option.map_idem' RelatedCryptographicAsset.copy_idem, PSlice.copyWith_idem CertificateExtension.copy_idem, PSlice.copyWith_idem CertificateState.copy_idem, PSlice.copyWith_idem Hash.copy_idem, PSlice.copyWith_idem RelatedCryptographicAsset.copy_idem, CertificateExtension.copy_idem, CertificateState.copy_idem, Hash.copy_idem, RelatedCryptographicAsset.copy_idem]

theorem CertificateProperties.copy_writable {x : CertificateProperties} (h : x.Writable) : x.copy.Writable := by
  obtain ⟨h0, h1⟩ := h
  exact ⟨PSlice.copyWith_all (fun _ => CertificateState.copy_writable) h0, PSlice.copyWith_all (fun _ => CertificateExtension.copy_writable) h1⟩

theorem CryptoAlgorithmProperties.copy_eq (x : CryptoAlgorithmProperties) : x.copy = x ↔ x.Copyable := by
  cases x
  simp only [CryptoAlgorithmProperties.copy, CryptoAlgorithmProperties.Copyable, CryptoAlgorithmProperties.mk.injEq, Option.map_eq_self_iff', PSlice.copyWith_eq, PSlice.copyWith_id_eq, Gob.int_eq, id_eq, true_and, and_true, and_self]

theorem CryptoAlgorithmProperties.copy_idem (x : CryptoAlgorithmProperties) : x.copy.copy = x.copy := by
  simp only [CryptoAlgorithmProperties.copy, PSlice.copyWith_id_idem, Gob.int_idem]

theorem CipherSuite.copy_eq (x : CipherSuite) : x.copy = x ↔ x.Copyable := by
  cases x
  simp only [CipherSuite.copy, CipherSuite.Copyable, CipherSuite.mk.injEq, Option.map_eq_self_iff', PSlice.copyWith_eq, PSlice.copyWith_id_eq, id_eq, true_and, and_true, and_self]

theorem CipherSuite.copy_idem (x : CipherSuite) : x.copy.copy = x.copy := by
  simp only [CipherSuite.copy, PSlice.copyWith_id_idem]

theorem IKEv2Auth.copy_eq (x : IKEv2Auth) : x.copy = x ↔ x.Copyable := by
  cases x
  simp only [IKEv2Auth.copy, IKEv2Auth.Copyable, IKEv2Auth.mk.injEq, Option.map_eq_self_iff', PSlice.copyWith_eq, PSlice.copyWith_id_eq, id_eq, true_and, and_true, and_self]

theorem IKEv2Auth.copy_idem (x : IKEv2Auth) : x.copy.copy = x.copy := by
  simp only [IKEv2Auth.copy, PSlice.copyWith_id_idem]

theorem IKEv2Enc.copy_eq (x : IKEv2Enc) : x.copy = x ↔ x.Copyable := by
  cases x
  simp only [IKEv2Enc.copy, IKEv2Enc.Copyable, IKEv2Enc.mk.injEq, Option.map_eq_self_iff', PSlice.copyWith_eq, PSlice.copyWith_id_eq, Gob.int_eq, id_eq, true_and, and_true, and_self]

theorem IKEv2Enc.copy_idem (x : IKEv2Enc) : x.copy.copy = x.copy := by
  simp only [IKEv2Enc.copy, PSlice.copyWith_id_idem, Gob.int_idem]

theorem IKEv2Integ.copy_eq (x : IKEv2Integ) : x.copy = x ↔ x.Copyable := by
  cases x
  simp only [IKEv2Integ.copy, IKEv2Integ.Copyable, IKEv2Integ.mk.injEq, Option.map_eq_self_iff', PSlice.copyWith_eq, PSlice.copyWith_id_eq, id_eq, true_and, and_true, and_self]

theorem IKEv2Integ.copy_idem (x : IKEv2Integ) : x.copy.copy = x.copy := by
  simp only [IKEv2Integ.copy, PSlice.copyWith_id_idem]

theorem IKEv2Ke.copy_eq (x : IKEv2Ke) : x.copy = x ↔ x.Copyable := by
  cases x
  simp only [IKEv2Ke.copy, IKEv2Ke.Copyable, IKEv2Ke.mk.injEq, Option.map_eq_self_iff', PSlice.copyWith_eq, PSlice.copyWith_id_eq, Gob.int_eq, id_eq, true_and, and_true, and_self]

theorem IKEv2Ke.copy_idem (x : IKEv2Ke) : x.copy.copy = x.copy := by
  simp only [IKEv2Ke.copy, PSlice.copyWith_id_idem, Gob.int_idem]

theorem IKEv2Prf.copy_eq (x : IKEv2Prf) : x.copy = x ↔ x.Copyable := by
  cases x
  simp only [IKEv2Prf.copy, IKEv2Prf.Copyable, IKEv2Prf.mk.injEq, Option.map_eq_self_iff', PSlice.copyWith_eq, PSlice.copyWith_id_eq, id_eq, true_and, and_true, and_self]

theorem IKEv2Prf.copy_idem (x : IKEv2Prf) : x.copy.copy = x.copy := by
  simp only [IKEv2Prf.copy, PSlice.copyWith_id_idem]

theorem IKEv2TransformTypes.copy_eq (x : IKEv2TransformTypes) : x.copy = x ↔ x.Copyable := by
  cases x
  simp only [IKEv2TransformTypes.copy, IKEv2TransformTypes.Copyable, IKEv2TransformTypes.mk.injEq, Option.map_eq_self_iff', PSlice.copyWith_eq, PSlice.copyWith_id_eq, IKEv2Auth.copy_eq, IKEv2Enc.copy_eq, IKEv2Integ.copy_eq, IKEv2Ke.copy_eq, IKEv2Prf.copy_eq, id_eq, true_and, and_true, and_self]

theorem IKEv2TransformTypes.copy_idem (x : IKEv2TransformTypes) : x.copy.copy = x.copy := by
  simp only [IKEv2TransformTypes.copy, PSlice.copyWith_id_idem, Option.map_idem' IKEv2Auth.copy_idem, Option.map_idem' IKEv2Enc.copy_idem, Option.map_idem' IKEv2Integ.copy_idem, Option.map_idem' IKEv2Ke.copy_idem, Option.map_idem' IKEv2Prf.copy_idem, PSlice.copyWith_idem IKEv2Auth.copy_idem, PSlice.copyWith_idem IKEv2Enc.copy_idem, PSlice.copyWith_idem IKEv2Integ.copy_idem, PSlice.copyWith_idem IKEv2Ke.copy_idem, PSlice.copyWith_idem IKEv2Prf.copy_idem, IKEv2Auth.copy_idem, IKEv2Enc.copy_idem, IKEv2Integ.copy_idem, IKEv2Ke.copy_idem, IKEv2Prf.copy_idem]

theorem CryptoProtocolProperties.copy_eq (x : CryptoProtocolProperties) : x.copy = x ↔ x.Copyable := by
  cases x
  simp only [CryptoProtocolProperties.copy, CryptoProtocolProperties.Copyable, CryptoProtocolProperties.mk.injEq, Option.map_eq_self_iff', PSlice.copyWith_eq, PSlice.copyWith_id_eq, CipherSuite.copy_eq, IKEv2TransformTypes.copy_eq, RelatedCryptographicAsset.copy_eq, id_eq, true_and, and_true, and_self]

theorem CryptoProtocolProperties.copy_idem (x : CryptoProtocolProperties) : x.copy.copy = x.copy := by
  simp only [CryptoProtocolProperties.copy, PSlice.copyWith_id_idem, Option.map_idem' CipherSuite.copy_idem, Option.map_idem' IKEv2TransformTypes.copy_idem, Option.map_idem' RelatedCryptographicAsset.copy_idem, PSlice.copyWith_idem CipherSuite.copy_idem, PSlice.copyWith_idem IKEv2TransformTypes.copy_idem, PSlice.copyWith_idem RelatedCryptographicAsset.copy_idem, CipherSuite.copy_idem, IKEv2TransformTypes.copy_idem, RelatedCryptographicAsset.copy_idem]

theorem SecuredBy.copy_eq (x : SecuredBy) : x.copy = x ↔ x.Copyable := by
  cases x
  simp only [SecuredBy.copy, SecuredBy.Copyable, SecuredBy.mk.injEq, Option.map_eq_self_iff', PSlice.copyWith_eq, PSlice.copyWith_id_eq, id_eq, true_and, and_true, and_self]

theorem SecuredBy.copy_idem (x : SecuredBy) : x.copy.copy = x.copy := by
  simp only [SecuredBy.copy, PSlice.copyWith_id_idem]

theorem RelatedCryptoMaterialProperties.copy_eq (x : RelatedCryptoMaterialProperties) : x.copy = x ↔ x.Copyable := by
  cases x
  simp only [RelatedCryptoMaterialProperties.copy, RelatedCryptoMaterialProperties.Copyable, RelatedCryptoMaterialProperties.mk.injEq, Option.map_eq_self_iff', PSlice.copyWith_eq, PSlice.copyWith_id_eq, Gob.int_eq, Hash.copy_eq, RelatedCryptographicAsset.copy_eq, SecuredBy.copy_eq, id_eq, true_and, and_true, and_self]

theorem RelatedCryptoMaterialProperties.copy_idem (x : RelatedCryptoMaterialProperties) : x.copy.copy = x.copy := by
  simp only [RelatedCryptoMaterialProperties.copy, PSlice.copyWith_id_idem, Option.map_idem' Hash.copy_idem, Option.map_idem' RelatedCryptographicAsset.copy_idem, Option.map_idem' SecuredBy.copy_idem, PSlice.copyWith_idem Hash.copy_idem, PSlice.copyWith_idem RelatedCryptographicAsset.copy_idem, PSlice.copyWith_idem SecuredBy.copy_idem, Gob.int_idem, Hash.copy_idem, RelatedCryptographicAsset.copy_idem, SecuredBy.copy_idem]

theorem CryptoProperties.copy_eq (x : CryptoProperties) : x.copy = x ↔ x.Copyable := by
  cases x
  simp only [CryptoProperties.copy, CryptoProperties.Copyable, CryptoProperties.mk.injEq, Option.map_eq_self_iff', PSlice.copyWith_eq, PSlice.copyWith_id_eq, CertificateProperties.copy_eq, CryptoAlgorithmProperties.copy_eq, CryptoProtocolProperties.copy_eq, RelatedCryptoMaterialProperties.copy_eq, id_eq, true_and, and_true, and_self]

theorem CryptoProperties.copy_idem (x : CryptoProperties) : x.copy.copy = x.copy := by
  simp only [CryptoProperties.copy, PSlice.copyWith_id_idem, Option.map_idem' CertificateProperties.copy_idem, Option.map_idem' CryptoAlgorithmProperties.copy_idem, Option.map_idem' CryptoProtocolProperties.copy_idem, Option.map_idem' RelatedCryptoMaterialProperties.copy_idem, PSlice.copyWith_idem CertificateProperties.copy_idem, PSlice.copyWith_idem CryptoAlgorithmProperties.copy_idem, PSlice.copyWith_idem CryptoProtocolProperties.copy_idem, PSlice.copyWith_idem RelatedCryptoMaterialProperties.copy_idem, CertificateProperties.copy_idem, CryptoAlgorithmProperties.copy_idem, CryptoProtocolProperties.copy_idem, RelatedCryptoMaterialProperties.copy_idem]

theorem CryptoProperties.copy_writable {x : CryptoProperties} (h : x.Writable) : x.copy.Writable :=
  Option.map_all (fun _ => CertificateProperties.copy_writable) h

theorem CallstackFrame.copy_eq (x : CallstackFrame) : x.copy = x ↔ x.Copyable := by
  cases x
  simp only [CallstackFrame.copy, CallstackFrame.Copyable, CallstackFrame.mk.injEq, Option.map_eq_self_iff', PSlice.copyWith_eq, PSlice.copyWith_id_eq, Gob.int_eq, id_eq, true_and, and_true, and_self]

theorem CallstackFrame.copy_idem (x : CallstackFrame) : x.copy.copy = x.copy := by
  simp only [CallstackFrame.copy, PSlice.copyWith_id_idem, Gob.int_idem]

theorem Callstack.copy_eq (x : Callstack) : x.copy = x ↔ x.Copyable := by
  cases x
  simp only [Callstack.copy, Callstack.Copyable, Callstack.mk.injEq, Option.map_eq_self_iff', PSlice.copyWith_eq, PSlice.copyWith_id_eq, CallstackFrame.copy_eq, id_eq, true_and, and_true, and_self]

theorem Callstack.copy_idem (x : Callstack) : x.copy.copy = x.copy := by
  simp only [Callstack.copy, PSlice.copyWith_id_idem, Option.map_idem' CallstackFrame.copy_idem, PSlice.copyWith_idem CallstackFrame.copy_idem, CallstackFrame.copy_idem]

theorem Copyright.copy_eq (x : Copyright) : x.copy = x ↔ x.Copyable := by
  cases x
  simp only [Copyright.copy, Copyright.Copyable, Copyright.mk.injEq, Option.map_eq_self_iff', PSlice.copyWith_eq, PSlice.copyWith_id_eq, id_eq, true_and, and_true, and_self]

theorem Copyright.copy_idem (x : Copyright) : x.copy.copy = x.copy := by
  simp only [Copyright.copy, PSlice.copyWith_id_idem]

theorem EvidenceIdentityMethod.copy_eq (x : EvidenceIdentityMethod) : x.copy = x ↔ x.Copyable := by
  cases x
  simp only [EvidenceIdentityMethod.copy, EvidenceIdentityMethod.Copyable, EvidenceIdentityMethod.mk.injEq, Option.map_eq_self_iff', PSlice.copyWith_eq, PSlice.copyWith_id_eq, Gob.float32_eq, id_eq, true_and, and_true, and_self]

theorem EvidenceIdentityMethod.copy_idem (x : EvidenceIdentityMethod) : x.copy.copy = x.copy := by
  simp only [EvidenceIdentityMethod.copy, PSlice.copyWith_id_idem, Gob.float32_idem]

theorem EvidenceIdentityMethod.copy_writable {x : EvidenceIdentityMethod} (h : x.Writable) : x.copy.Writable :=
  fun x hx => h x (Gob.float32_mem hx)

theorem EvidenceIdentity.copy_eq (x : EvidenceIdentity) : x.copy = x ↔ x.Copyable := by
  cases x
  simp only [EvidenceIdentity.copy, EvidenceIdentity.Copyable, EvidenceIdentity.mk.injEq, Option.map_eq_self_iff', PSlice.copyWith_eq, PSlice.copyWith_id_eq, EvidenceIdentityMethod.copy_eq, Gob.float32_eq, id_eq, true_and, and_true, and_self]

theorem EvidenceIdentity.copy_idem (x : EvidenceIdentity) : x.copy.copy = x.copy := by
  simp only [EvidenceIdentity.copy, PSlice.copyWith_id_idem, Option.map_idem' EvidenceIdentityMethod.copy_idem, PSlice.copyWith_idem EvidenceIdentityMethod.copy_idem, EvidenceIdentityMethod.copy_idem, Gob.float32_idem]

theorem EvidenceIdentity.copy_writable {x : EvidenceIdentity} (h : x.Writable) : x.copy.Writable := by
  obtain ⟨h0, h1⟩ := h
  exact ⟨fun x hx => h0 x (Gob.float32_mem hx), PSlice.copyWith_all (fun _ => EvidenceIdentityMethod.copy_writable) h1⟩

theorem EvidenceIdentityChoice.copy_eq (x : EvidenceIdentityChoice) : x.copy = x ↔ x.Copyable := by
  cases x
  simp only [EvidenceIdentityChoice.copy, EvidenceIdentityChoice.Copyable, EvidenceIdentityChoice.mk.injEq, Option.map_eq_self_iff', PSlice.copyWith_eq, PSlice.copyWith_id_eq, EvidenceIdentity.copy_eq, id_eq, true_and, and_true, and_self]

theorem EvidenceIdentityChoice.copy_idem (x : EvidenceIdentityChoice) : x.copy.copy = x.copy := by
  simp only [EvidenceIdentityChoice.copy, PSlice.copyWith_id_idem, Option.map_idem' EvidenceIdentity.copy_idem, PSlice.copyWith_idem EvidenceIdentity.copy_idem, EvidenceIdentity.copy_idem]

theorem EvidenceIdentityChoice.copy_writable {x : EvidenceIdentityChoice} (h : x.Writable) : x.copy.Writable := by
  obtain ⟨h1, h2, h3⟩ := h
  refine ⟨?_, Option.map_all (fun _ => EvidenceIdentity.copy_writable) h2,
    PSlice.copyWith_all (fun _ => EvidenceIdentity.copy_writable) h3⟩
  rcases h1 with h1 | h1
  · exact .inl (by simp [EvidenceIdentityChoice.copy, h1])
  · exact .inr (by simp [EvidenceIdentityChoice.copy, h1, PSlice.copyWith])

theorem EvidenceOccurrence.copy_eq (x : EvidenceOccurrence) : x.copy = x ↔ x.Copyable := by
  cases x
  simp only [EvidenceOccurrence.copy, EvidenceOccurrence.Copyable, EvidenceOccurrence.mk.injEq, Option.map_eq_self_iff', PSlice.copyWith_eq, PSlice.copyWith_id_eq, Gob.int_eq, id_eq, true_and, and_true, and_self]

theorem EvidenceOccurrence.copy_idem (x : EvidenceOccurrence) : x.copy.copy = x.copy := by
  simp only [EvidenceOccurrence.copy, PSlice.copyWith_id_idem, Gob.int_idem]

theorem OrganizationalEntityOrContact.copy_eq (x : OrganizationalEntityOrContact) : x.copy = x ↔ x.Copyable := by
  cases x
  simp only [OrganizationalEntityOrContact.copy, OrganizationalEntityOrContact.Copyable, OrganizationalEntityOrContact.mk.injEq, Option.map_eq_self_iff', PSlice.copyWith_eq, PSlice.copyWith_id_eq, OrganizationalContact.copy_eq, OrganizationalEntity.copy_eq, id_eq, true_and, and_true, and_self]

theorem OrganizationalEntityOrContact.copy_idem (x : OrganizationalEntityOrContact) : x.copy.copy = x.copy := by
  simp only [OrganizationalEntityOrContact.copy, PSlice.copyWith_id_idem, Option.map_idem' OrganizationalContact.copy_idem, Option.map_idem' OrganizationalEntity.copy_idem, PSlice.copyWith_idem OrganizationalContact.copy_idem, PSlice.copyWith_idem OrganizationalEntity.copy_idem, OrganizationalContact.copy_idem, OrganizationalEntity.copy_idem]

theorem Licensing.copy_eq (x : Licensing) : x.copy = x ↔ x.Copyable := by
  cases x
  simp only [Licensing.copy, Licensing.Copyable, Licensing.mk.injEq, Option.map_eq_self_iff', PSlice.copyWith_eq, PSlice.copyWith_id_eq, OrganizationalEntityOrContact.copy_eq, id_eq, true_and, and_true, and_self]

theorem Licensing.copy_idem (x : Licensing) : x.copy.copy = x.copy := by
  simp only [Licensing.copy, PSlice.copyWith_id_idem, Option.map_idem' OrganizationalEntityOrContact.copy_idem, PSlice.copyWith_idem OrganizationalEntityOrContact.copy_idem, OrganizationalEntityOrContact.copy_idem]

theorem License.copy_eq (x : License) : x.copy = x ↔ x.Copyable := by
  cases x
  simp only [License.copy, License.Copyable, License.mk.injEq, Option.map_eq_self_iff', PSlice.copyWith_eq, PSlice.copyWith_id_eq, AttachedText.copy_eq, Licensing.copy_eq, Property.copy_eq, id_eq, true_and, and_true, and_self]

theorem License.copy_idem (x : License) : x.copy.copy = x.copy := by
  simp only [License.copy, PSlice.copyWith_id_idem, Option.map_idem' AttachedText.copy_idem, Option.map_idem' Licensing.copy_idem, Option.map_idem' Property.copy_idem, PSlice.copyWith_idem AttachedText.copy_idem, PSlice.copyWith_idem Licensing.copy_idem, PSlice.copyWith_idem Property.copy_idem, AttachedText.copy_idem, Licensing.copy_idem, Property.copy_idem]

theorem License.copy_writable {x : License} (h : x.Writable) : x.copy.Writable := h

theorem LicenseExpressionDetail.copy_eq (x : LicenseExpressionDetail) : x.copy = x ↔ x.Copyable := by
  cases x
  simp only [LicenseExpressionDetail.copy, LicenseExpressionDetail.Copyable, LicenseExpressionDetail.mk.injEq, Option.map_eq_self_iff', PSlice.copyWith_eq, PSlice.copyWith_id_eq, AttachedText.copy_eq, id_eq, true_and, and_true, and_self]

theorem LicenseExpressionDetail.copy_idem (x : LicenseExpressionDetail) : x.copy.copy = x.copy := by
  simp only [LicenseExpressionDetail.copy, PSlice.copyWith_id_idem, Option.map_idem' AttachedText.copy_idem, PSlice.copyWith_idem AttachedText.copy_idem, AttachedText.copy_idem]

theorem LicenseChoice.copy_eq (x : LicenseChoice) : x.copy = x ↔ x.Copyable := by
  cases x
  simp only [LicenseChoice.copy, LicenseChoice.Copyable, LicenseChoice.mk.injEq, Option.map_eq_self_iff', PSlice.copyWith_eq, PSlice.copyWith_id_eq, Gob.string_eq, License.copy_eq, LicenseExpressionDetail.copy_eq, Licensing.copy_eq, Property.copy_eq, id_eq, true_and, and_true, and_self]

theorem LicenseChoice.copy_idem (x : LicenseChoice) : x.copy.copy = x.copy := by
  simp only [LicenseChoice.copy, PSlice.copyWith_id_idem, Option.map_idem' License.copy_idem, Option.map_idem' LicenseExpressionDetail.copy_idem, Option.map_idem' Licensing.copy_idem, Option.map_idem' Property.copy_idem, PSlice.copyWith_idem License.copy_idem, PSlice.copyWith_idem LicenseExpressionDetail.copy_idem, PSlice.copyWith_idem Licensing.copy_idem, PSlice.copyWith_idem Property.copy_idem, Gob.string_idem, License.copy_idem, LicenseExpressionDetail.copy_idem, Licensing.copy_idem, Property.copy_idem]

theorem LicenseChoice.copy_writable {x : LicenseChoice} (h : x.Writable) : x.copy.Writable :=
  Option.map_all (fun _ => License.copy_writable) h

theorem Evidence.copy_eq (x : Evidence) : x.copy = x ↔ x.Copyable := by
  cases x
  simp only [Evidence.copy, Evidence.Copyable, Evidence.mk.injEq, Option.map_eq_self_iff', PSlice.copyWith_eq, PSlice.copyWith_id_eq, Callstack.copy_eq, Copyright.copy_eq, EvidenceIdentityChoice.copy_eq, EvidenceOccurrence.copy_eq, LicenseChoice.copy_eq, id_eq, true_and, and_true, and_self]

theorem Evidence.copy_idem (x : Evidence) : x.copy.copy = x.copy := by
  simp only [Evidence.copy, PSlice.copyWith_id_idem, Option.map_idem' Callstack.copy_idem, Option.map_idem' Copyright.copy_idem, Option.map_idem' EvidenceIdentityChoice.copy_idem, Option.map_idem' EvidenceOccurrence.copy_idem, Option.map_idem' LicenseChoice.copy_idem, PSlice.copyWith_idem Callstack.copy_idem, PSlice.copyWith_idem Copyright.copy_idem, PSlice.copyWith_idem EvidenceIdentityChoice.copy_idem, PSlice.copyWith_idem EvidenceOccurrence.copy_idem, PSlice.copyWith_idem LicenseChoice.copy_idem, Callstack.copy_idem, Copyright.copy_idem, EvidenceIdentityChoice.copy_idem, EvidenceOccurrence.copy_idem, LicenseChoice.copy_idem]

theorem Evidence.copy_writable {x : Evidence} (h : x.Writable) : x.copy.Writable := by
  obtain ⟨h0, h1⟩ := h
  exact ⟨Option.map_all (fun _ => EvidenceIdentityChoice.copy_writable) h0, PSlice.copyWith_all (fun _ => LicenseChoice.copy_writable) h1⟩

theorem ExternalReference.copy_eq (x : ExternalReference) : x.copy = x ↔ x.Copyable := by
  cases x
  simp only [ExternalReference.copy, ExternalReference.Copyable, ExternalReference.mk.injEq, Option.map_eq_self_iff', PSlice.copyWith_eq, PSlice.copyWith_id_eq, Hash.copy_eq, Property.copy_eq, id_eq, true_and, and_true, and_self]

theorem ExternalReference.copy_idem (x : ExternalReference) : x.copy.copy = x.copy := by
  simp only [ExternalReference.copy, PSlice.copyWith_id_idem, Option.map_idem' Hash.copy_idem, Option.map_idem' Property.copy_idem, PSlice.copyWith_idem Hash.copy_idem, PSlice.copyWith_idem Property.copy_idem, Hash.copy_idem, Property.copy_idem]

theorem JSFPublicKey.copy_eq (x : JSFPublicKey) : x.copy = x ↔ x.Copyable := by
  cases x
  simp only [JSFPublicKey.copy, JSFPublicKey.Copyable, JSFPublicKey.mk.injEq, Option.map_eq_self_iff', PSlice.copyWith_eq, PSlice.copyWith_id_eq, id_eq, true_and, and_true, and_self]

theorem JSFPublicKey.copy_idem (x : JSFPublicKey) : x.copy.copy = x.copy := by
  simp only [JSFPublicKey.copy, PSlice.copyWith_id_idem]

theorem JSFSigner.copy_eq (x : JSFSigner) : x.copy = x ↔ x.Copyable := by
  cases x
  simp only [JSFSigner.copy, JSFSigner.Copyable, JSFSigner.mk.injEq, Option.map_eq_self_iff', PSlice.copyWith_eq, PSlice.copyWith_id_eq, JSFPublicKey.copy_eq, id_eq, true_and, and_true, and_self]

theorem JSFSigner.copy_idem (x : JSFSigner) : x.copy.copy = x.copy := by
  simp only [JSFSigner.copy, PSlice.copyWith_id_idem, Option.map_idem' JSFPublicKey.copy_idem, PSlice.copyWith_idem JSFPublicKey.copy_idem, JSFPublicKey.copy_idem]

theorem JSFSignature.copy_eq (x : JSFSignature) : x.copy = x ↔ x.Copyable := by
  cases x
  simp only [JSFSignature.copy, JSFSignature.Copyable, JSFSignature.mk.injEq, Option.map_eq_self_iff', PSlice.copyWith_eq, PSlice.copyWith_id_eq, JSFSigner.copy_eq, id_eq, true_and, and_true, and_self]

theorem JSFSignature.copy_idem (x : JSFSignature) : x.copy.copy = x.copy := by
  simp only [JSFSignature.copy, PSlice.copyWith_id_idem, Option.map_idem' JSFSigner.copy_idem, PSlice.copyWith_idem JSFSigner.copy_idem, JSFSigner.copy_idem]

theorem MLModelCO2Measure.copy_eq (x : MLModelCO2Measure) : x.copy = x ↔ x.Copyable := by
  cases x
  simp only [MLModelCO2Measure.copy, MLModelCO2Measure.Copyable, MLModelCO2Measure.mk.injEq, Option.map_eq_self_iff', PSlice.copyWith_eq, PSlice.copyWith_id_eq, F32.noNegZero_eq, id_eq, true_and, and_true, and_self]

theorem MLModelCO2Measure.copy_idem (x : MLModelCO2Measure) : x.copy.copy = x.copy := by
  simp only [MLModelCO2Measure.copy, PSlice.copyWith_id_idem, F32.noNegZero_idem]

theorem MLModelCO2Measure.copy_writable {x : MLModelCO2Measure} (h : x.Writable) : x.copy.Writable :=
  F32.finite_noNegZero h

theorem MLModelEnergyMeasure.copy_eq (x : MLModelEnergyMeasure) : x.copy = x ↔ x.Copyable := by
  cases x
  simp only [MLModelEnergyMeasure.copy, MLModelEnergyMeasure.Copyable, MLModelEnergyMeasure.mk.injEq, Option.map_eq_self_iff', PSlice.copyWith_eq, PSlice.copyWith_id_eq, F32.noNegZero_eq, id_eq, true_and, and_true, and_self]

theorem MLModelEnergyMeasure.copy_idem (x : MLModelEnergyMeasure) : x.copy.copy = x.copy := by
  simp only [MLModelEnergyMeasure.copy, PSlice.copyWith_id_idem, F32.noNegZero_idem]

theorem MLModelEnergyMeasure.copy_writable {x : MLModelEnergyMeasure} (h : x.Writable) : x.copy.Writable :=
  F32.finite_noNegZero h

theorem MLModelEnergyProvider.copy_eq (x : MLModelEnergyProvider) : x.copy = x ↔ x.Copyable := by
  cases x
  simp only [MLModelEnergyProvider.copy, MLModelEnergyProvider.Copyable, MLModelEnergyProvider.mk.injEq, Option.map_eq_self_iff', PSlice.copyWith_eq, PSlice.copyWith_id_eq, ExternalReference.copy_eq, MLModelEnergyMeasure.copy_eq, OrganizationalEntity.copy_eq, id_eq, true_and, and_true, and_self]

theorem MLModelEnergyProvider.copy_idem (x : MLModelEnergyProvider) : x.copy.copy = x.copy := by
  simp only [MLModelEnergyProvider.copy, PSlice.copyWith_id_idem, Option.map_idem' ExternalReference.copy_idem, Option.map_idem' MLModelEnergyMeasure.copy_idem, Option.map_idem' OrganizationalEntity.copy_idem, PSlice.copyWith_idem ExternalReference.copy_idem, PSlice.copyWith_idem MLModelEnergyMeasure.copy_idem, PSlice.copyWith_idem OrganizationalEntity.copy_idem, ExternalReference.copy_idem, MLModelEnergyMeasure.copy_idem, OrganizationalEntity.copy_idem]

theorem MLModelEnergyProvider.copy_writable {x : MLModelEnergyProvider} (h : x.Writable) : x.copy.Writable :=
  Option.map_all (fun _ => MLModelEnergyMeasure.copy_writable) h

theorem MLModelEnergyConsumption.copy_eq (x : MLModelEnergyConsumption) : x.copy = x ↔ x.Copyable := by
  cases x
  simp only [MLModelEnergyConsumption.copy, MLModelEnergyConsumption.Copyable, MLModelEnergyConsumption.mk.injEq, Option.map_eq_self_iff', PSlice.copyWith_eq, PSlice.copyWith_id_eq, MLModelCO2Measure.copy_eq, MLModelEnergyMeasure.copy_eq, MLModelEnergyProvider.copy_eq, Property.copy_eq, id_eq, true_and, and_true, and_self]

theorem MLModelEnergyConsumption.copy_idem (x : MLModelEnergyConsumption) : x.copy.copy = x.copy := by
  simp only [MLModelEnergyConsumption.copy, PSlice.copyWith_id_idem, Option.map_idem' MLModelCO2Measure.copy_idem, Option.map_idem' MLModelEnergyMeasure.copy_idem, Option.map_idem' MLModelEnergyProvider.copy_idem, Option.map_idem' Property.copy_idem, PSlice.copyWith_idem MLModelCO2Measure.copy_idem, PSlice.copyWith_idem MLModelEnergyMeasure.copy_idem, PSlice.copyWith_idem MLModelEnergyProvider.copy_idem, PSlice.copyWith_idem Property.copy_idem, MLModelCO2Measure.copy_idem, MLModelEnergyMeasure.copy_idem, MLModelEnergyProvider.copy_idem, Property.copy_idem]

theorem MLModelEnergyConsumption.copy_writable {x : MLModelEnergyConsumption} (h : x.Writable) : x.copy.Writable := by
  obtain ⟨h0, h1, h2, h3⟩ := h
  exact ⟨PSlice.copyWith_all (fun _ => MLModelEnergyProvider.copy_writable) h0, MLModelEnergyMeasure.copy_writable h1, Option.map_all (fun _ => MLModelCO2Measure.copy_writable) h2, Option.map_all (fun _ => MLModelCO2Measure.copy_writable) h3⟩

theorem MLModelCardEnvironmentalConsiderations.copy_eq (x : MLModelCardEnvironmentalConsiderations) : x.copy = x ↔ x.Copyable := by
  cases x
  simp only [MLModelCardEnvironmentalConsiderations.copy, MLModelCardEnvironmentalConsiderations.Copyable, MLModelCardEnvironmentalConsiderations.mk.injEq, Option.map_eq_self_iff', PSlice.copyWith_eq, PSlice.copyWith_id_eq, MLModelEnergyConsumption.copy_eq, Property.copy_eq, id_eq, true_and, and_true, and_self]

theorem MLModelCardEnvironmentalConsiderations.copy_idem (x : MLModelCardEnvironmentalConsiderations) : x.copy.copy = x.copy := by
  simp only [MLModelCardEnvironmentalConsiderations.copy, PSlice.copyWith_id_idem, Option.map_idem' MLModelEnergyConsumption.copy_idem, Option.map_idem' Property.copy_idem, PSlice.copyWith_idem MLModelEnergyConsumption.copy_idem, PSlice.copyWith_idem Property.copy_idem, MLModelEnergyConsumption.copy_idem, Property.copy_idem]

theorem MLModelCardEnvironmentalConsiderations.copy_writable {x : MLModelCardEnvironmentalConsiderations} (h : x.Writable) : x.copy.Writable :=
  PSlice.copyWith_all (fun _ => MLModelEnergyConsumption.copy_writable) h

theorem MLModelCardEthicalConsideration.copy_eq (x : MLModelCardEthicalConsideration) : x.copy = x ↔ x.Copyable := by
  cases x
  simp only [MLModelCardEthicalConsideration.copy, MLModelCardEthicalConsideration.Copyable, MLModelCardEthicalConsideration.mk.injEq, Option.map_eq_self_iff', PSlice.copyWith_eq, PSlice.copyWith_id_eq, id_eq, true_and, and_true, and_self]

theorem MLModelCardEthicalConsideration.copy_idem (x : MLModelCardEthicalConsideration) : x.copy.copy = x.copy := by
  simp only [MLModelCardEthicalConsideration.copy, PSlice.copyWith_id_idem]

theorem MLModelCardFairnessAssessment.copy_eq (x : MLModelCardFairnessAssessment) : x.copy = x ↔ x.Copyable := by
  cases x
  simp only [MLModelCardFairnessAssessment.copy, MLModelCardFairnessAssessment.Copyable, MLModelCardFairnessAssessment.mk.injEq, Option.map_eq_self_iff', PSlice.copyWith_eq, PSlice.copyWith_id_eq, id_eq, true_and, and_true, and_self]

theorem MLModelCardFairnessAssessment.copy_idem (x : MLModelCardFairnessAssessment) : x.copy.copy = x.copy := by
  simp only [MLModelCardFairnessAssessment.copy, PSlice.copyWith_id_idem]

theorem MLModelCardConsiderations.copy_eq (x : MLModelCardConsiderations) : x.copy = x ↔ x.Copyable := by
  cases x
  simp only [MLModelCardConsiderations.copy, MLModelCardConsiderations.Copyable, MLModelCardConsiderations.mk.injEq, Option.map_eq_self_iff', PSlice.copyWith_eq, PSlice.copyWith_id_eq, MLModelCardEnvironmentalConsiderations.copy_eq, MLModelCardEthicalConsideration.copy_eq, MLModelCardFairnessAssessment.copy_eq, id_eq, true_and, and_true, and_self]

theorem MLModelCardConsiderations.copy_idem (x : MLModelCardConsiderations) : x.copy.copy = x.copy := by
  simp only [MLModelCardConsiderations.copy, PSlice.copyWith_id_idem, Option.map_idem' MLModelCardEnvironmentalConsiderations.copy_idem, Option.map_idem' MLModelCardEthicalConsideration.copy_idem, Option.map_idem' MLModelCardFairnessAssessment.copy_idem, PSlice.copyWith_idem MLModelCardEnvironmentalConsiderations.copy_idem, PSlice.copyWith_idem MLModelCardEthicalConsideration.copy_idem, PSlice.copyWith_idem MLModelCardFairnessAssessment.copy_idem, MLModelCardEnvironmentalConsiderations.copy_idem, MLModelCardEthicalConsideration.copy_idem, MLModelCardFairnessAssessment.copy_idem]

theorem MLModelCardConsiderations.copy_writable {x : MLModelCardConsiderations} (h : x.Writable) : x.copy.Writable :=
  Option.map_all (fun _ => MLModelCardEnvironmentalConsiderations.copy_writable) h

theorem MLDatasetChoice.copy_eq (x : MLDatasetChoice) : x.copy = x ↔ x.Copyable := by
  cases x
  simp only [MLDatasetChoice.copy, MLDatasetChoice.Copyable, MLDatasetChoice.mk.injEq, Option.map_eq_self_iff', PSlice.copyWith_eq, PSlice.copyWith_id_eq, ComponentData.copy_eq, id_eq, true_and, and_true, and_self]

theorem MLDatasetChoice.copy_idem (x : MLDatasetChoice) : x.copy.copy = x.copy := by
  simp only [MLDatasetChoice.copy, PSlice.copyWith_id_idem, Option.map_idem' ComponentData.copy_idem, PSlice.copyWith_idem ComponentData.copy_idem, ComponentData.copy_idem]

theorem MLInputOutputParameters.copy_eq (x : MLInputOutputParameters) : x.copy = x ↔ x.Copyable := by
  cases x
  simp only [MLInputOutputParameters.copy, MLInputOutputParameters.Copyable, MLInputOutputParameters.mk.injEq, Option.map_eq_self_iff', PSlice.copyWith_eq, PSlice.copyWith_id_eq, id_eq, true_and, and_true, and_self]

theorem MLInputOutputParameters.copy_idem (x : MLInputOutputParameters) : x.copy.copy = x.copy := by
  simp only [MLInputOutputParameters.copy, PSlice.copyWith_id_idem]

theorem MLModelParametersApproach.copy_eq (x : MLModelParametersApproach) : x.copy = x ↔ x.Copyable := by
  cases x
  simp only [MLModelParametersApproach.copy, MLModelParametersApproach.Copyable, MLModelParametersApproach.mk.injEq, Option.map_eq_self_iff', PSlice.copyWith_eq, PSlice.copyWith_id_eq, id_eq, true_and, and_true, and_self]

theorem MLModelParametersApproach.copy_idem (x : MLModelParametersApproach) : x.copy.copy = x.copy := by
  simp only [MLModelParametersApproach.copy, PSlice.copyWith_id_idem]

theorem MLModelParameters.copy_eq (x : MLModelParameters) : x.copy = x ↔ x.Copyable := by
  cases x
  simp only [MLModelParameters.copy, MLModelParameters.Copyable, MLModelParameters.mk.injEq, Option.map_eq_self_iff', PSlice.copyWith_eq, PSlice.copyWith_id_eq, MLDatasetChoice.copy_eq, MLInputOutputParameters.copy_eq, MLModelParametersApproach.copy_eq, id_eq, true_and, and_true, and_self]

theorem MLModelParameters.copy_idem (x : MLModelParameters) : x.copy.copy = x.copy := by
  simp only [MLModelParameters.copy, PSlice.copyWith_id_idem, Option.map_idem' MLDatasetChoice.copy_idem, Option.map_idem' MLInputOutputParameters.copy_idem, Option.map_idem' MLModelParametersApproach.copy_idem, PSlice.copyWith_idem MLDatasetChoice.copy_idem, PSlice.copyWith_idem MLInputOutputParameters.copy_idem, PSlice.copyWith_idem MLModelParametersApproach.copy_idem, MLDatasetChoice.copy_idem, MLInputOutputParameters.copy_idem, MLModelParametersApproach.copy_idem]

theorem MLPerformanceMetricConfidenceInterval.copy_eq (x : MLPerformanceMetricConfidenceInterval) : x.copy = x ↔ x.Copyable := by
  cases x
  simp only [MLPerformanceMetricConfidenceInterval.copy, MLPerformanceMetricConfidenceInterval.Copyable, MLPerformanceMetricConfidenceInterval.mk.injEq, Option.map_eq_self_iff', PSlice.copyWith_eq, PSlice.copyWith_id_eq, id_eq, true_and, and_true, and_self]

theorem MLPerformanceMetricConfidenceInterval.copy_idem (x : MLPerformanceMetricConfidenceInterval) : x.copy.copy = x.copy := by
  simp only [MLPerformanceMetricConfidenceInterval.copy, PSlice.copyWith_id_idem]

theorem MLPerformanceMetric.copy_eq (x : MLPerformanceMetric) : x.copy = x ↔ x.Copyable := by
  cases x
  simp only [MLPerformanceMetric.copy, MLPerformanceMetric.Copyable, MLPerformanceMetric.mk.injEq, Option.map_eq_self_iff', PSlice.copyWith_eq, PSlice.copyWith_id_eq, MLPerformanceMetricConfidenceInterval.copy_eq, id_eq, true_and, and_true, and_self]

theorem MLPerformanceMetric.copy_idem (x : MLPerformanceMetric) : x.copy.copy = x.copy := by
  simp only [MLPerformanceMetric.copy, PSlice.copyWith_id_idem, Option.map_idem' MLPerformanceMetricConfidenceInterval.copy_idem, PSlice.copyWith_idem MLPerformanceMetricConfidenceInterval.copy_idem, MLPerformanceMetricConfidenceInterval.copy_idem]

theorem MLQuantitativeAnalysis.copy_eq (x : MLQuantitativeAnalysis) : x.copy = x ↔ x.Copyable := by
  cases x
  simp only [MLQuantitativeAnalysis.copy, MLQuantitativeAnalysis.Copyable, MLQuantitativeAnalysis.mk.injEq, Option.map_eq_self_iff', PSlice.copyWith_eq, PSlice.copyWith_id_eq, ComponentDataGraphics.copy_eq, MLPerformanceMetric.copy_eq, id_eq, true_and, and_true, and_self]

theorem MLQuantitativeAnalysis.copy_idem (x : MLQuantitativeAnalysis) : x.copy.copy = x.copy := by
  simp only [MLQuantitativeAnalysis.copy, PSlice.copyWith_id_idem, Option.map_idem' ComponentDataGraphics.copy_idem, Option.map_idem' MLPerformanceMetric.copy_idem, PSlice.copyWith_idem ComponentDataGraphics.copy_idem, PSlice.copyWith_idem MLPerformanceMetric.copy_idem, ComponentDataGraphics.copy_idem, MLPerformanceMetric.copy_idem]

theorem MLModelCard.copy_eq (x : MLModelCard) : x.copy = x ↔ x.Copyable := by
  cases x
  simp only [MLModelCard.copy, MLModelCard.Copyable, MLModelCard.mk.injEq, Option.map_eq_self_iff', PSlice.copyWith_eq, PSlice.copyWith_id_eq, MLModelCardConsiderations.copy_eq, MLModelParameters.copy_eq, MLQuantitativeAnalysis.copy_eq, id_eq, true_and, and_true, and_self]

theorem MLModelCard.copy_idem (x : MLModelCard) : x.copy.copy = x.copy := by
  simp only [MLModelCard.copy, PSlice.copyWith_id_idem, Option.map_idem' MLModelCardConsiderations.copy_idem, Option.map_idem' MLModelParameters.copy_idem, Option.map_idem' MLQuantitativeAnalysis.copy_idem, PSlice.copyWith_idem MLModelCardConsiderations.copy_idem, PSlice.copyWith_idem MLModelParameters.copy_idem, PSlice.copyWith_idem MLQuantitativeAnalysis.copy_idem, MLModelCardConsiderations.copy_idem, MLModelParameters.copy_idem, MLQuantitativeAnalysis.copy_idem]

theorem MLModelCard.copy_writable {x : MLModelCard} (h : x.Writable) : x.copy.Writable :=
  Option.map_all (fun _ => MLModelCardConsiderations.copy_writable) h

theorem IdentifiableAction.copy_eq (x : IdentifiableAction) : x.copy = x ↔ x.Copyable := by
  cases x
  simp only [IdentifiableAction.copy, IdentifiableAction.Copyable, IdentifiableAction.mk.injEq, Option.map_eq_self_iff', PSlice.copyWith_eq, PSlice.copyWith_id_eq, id_eq, true_and, and_true, and_self]

theorem IdentifiableAction.copy_idem (x : IdentifiableAction) : x.copy.copy = x.copy := by
  simp only [IdentifiableAction.copy, PSlice.copyWith_id_idem]

theorem Commit.copy_eq (x : Commit) : x.copy = x ↔ x.Copyable := by
  cases x
  simp only [Commit.copy, Commit.Copyable, Commit.mk.injEq, Option.map_eq_self_iff', PSlice.copyWith_eq, PSlice.copyWith_id_eq, IdentifiableAction.copy_eq, id_eq, true_and, and_true, and_self]

theorem Commit.copy_idem (x : Commit) : x.copy.copy = x.copy := by
  simp only [Commit.copy, PSlice.copyWith_id_idem, Option.map_idem' IdentifiableAction.copy_idem, PSlice.copyWith_idem IdentifiableAction.copy_idem, IdentifiableAction.copy_idem]

theorem Diff.copy_eq (x : Diff) : x.copy = x ↔ x.Copyable := by
  cases x
  simp only [Diff.copy, Diff.Copyable, Diff.mk.injEq, Option.map_eq_self_iff', PSlice.copyWith_eq, PSlice.copyWith_id_eq, AttachedText.copy_eq, id_eq, true_and, and_true, and_self]

theorem Diff.copy_idem (x : Diff) : x.copy.copy = x.copy := by
  simp only [Diff.copy, PSlice.copyWith_id_idem, Option.map_idem' AttachedText.copy_idem, PSlice.copyWith_idem AttachedText.copy_idem, AttachedText.copy_idem]

theorem Source.copy_eq (x : Source) : x.copy = x ↔ x.Copyable := by
  cases x
  simp only [Source.copy, Source.Copyable, Source.mk.injEq, Option.map_eq_self_iff', PSlice.copyWith_eq, PSlice.copyWith_id_eq, id_eq, true_and, and_true, and_self]

theorem Source.copy_idem (x : Source) : x.copy.copy = x.copy := by
  simp only [Source.copy, PSlice.copyWith_id_idem]

theorem Issue.copy_eq (x : Issue) : x.copy = x ↔ x.Copyable := by
  cases x
  simp only [Issue.copy, Issue.Copyable, Issue.mk.injEq, Option.map_eq_self_iff', PSlice.copyWith_eq, PSlice.copyWith_id_eq, Source.copy_eq, id_eq, true_and, and_true, and_self]

theorem Issue.copy_idem (x : Issue) : x.copy.copy = x.copy := by
  simp only [Issue.copy, PSlice.copyWith_id_idem, Option.map_idem' Source.copy_idem, PSlice.copyWith_idem Source.copy_idem, Source.copy_idem]

theorem Patch.copy_eq (x : Patch) : x.copy = x ↔ x.Copyable := by
  cases x
  simp only [Patch.copy, Patch.Copyable, Patch.mk.injEq, Option.map_eq_self_iff', PSlice.copyWith_eq, PSlice.copyWith_id_eq, Diff.copy_eq, Issue.copy_eq, id_eq, true_and, and_true, and_self]

theorem Patch.copy_idem (x : Patch) : x.copy.copy = x.copy := by
  simp only [Patch.copy, PSlice.copyWith_id_idem, Option.map_idem' Diff.copy_idem, Option.map_idem' Issue.copy_idem, PSlice.copyWith_idem Diff.copy_idem, PSlice.copyWith_idem Issue.copy_idem, Diff.copy_idem, Issue.copy_idem]

theorem Note.copy_eq (x : Note) : x.copy = x ↔ x.Copyable := by
  cases x
  simp only [Note.copy, Note.Copyable, Note.mk.injEq, Option.map_eq_self_iff', PSlice.copyWith_eq, PSlice.copyWith_id_eq, AttachedText.copy_eq, id_eq, true_and, and_true, and_self]

theorem Note.copy_idem (x : Note) : x.copy.copy = x.copy := by
  simp only [Note.copy, PSlice.copyWith_id_idem, Option.map_idem' AttachedText.copy_idem, PSlice.copyWith_idem AttachedText.copy_idem, AttachedText.copy_idem]

theorem ReleaseNotes.copy_eq (x : ReleaseNotes) : x.copy = x ↔ x.Copyable := by
  cases x
  simp only [ReleaseNotes.copy, ReleaseNotes.Copyable, ReleaseNotes.mk.injEq, Option.map_eq_self_iff', PSlice.copyWith_eq, PSlice.copyWith_id_eq, Issue.copy_eq, Note.copy_eq, Property.copy_eq, id_eq, true_and, and_true, and_self]

theorem ReleaseNotes.copy_idem (x : ReleaseNotes) : x.copy.copy = x.copy := by
  simp only [ReleaseNotes.copy, PSlice.copyWith_id_idem, Option.map_idem' Issue.copy_idem, Option.map_idem' Note.copy_idem, Option.map_idem' Property.copy_idem, PSlice.copyWith_idem Issue.copy_idem, PSlice.copyWith_idem Note.copy_idem, PSlice.copyWith_idem Property.copy_idem, Issue.copy_idem, Note.copy_idem, Property.copy_idem]

theorem SWID.copy_eq (x : SWID) : x.copy = x ↔ x.Copyable := by
  cases x
  simp only [SWID.copy, SWID.Copyable, SWID.mk.injEq, Option.map_eq_self_iff', PSlice.copyWith_eq, PSlice.copyWith_id_eq, AttachedText.copy_eq, Gob.bool_eq, Gob.int_eq, id_eq, true_and, and_true, and_self]

theorem SWID.copy_idem (x : SWID) : x.copy.copy = x.copy := by
  simp only [SWID.copy, PSlice.copyWith_id_idem, Option.map_idem' AttachedText.copy_idem, PSlice.copyWith_idem AttachedText.copy_idem, AttachedText.copy_idem, Gob.bool_idem, Gob.int_idem]

theorem AsserterChoice.copy_eq (x : AsserterChoice) : x.copy = x ↔ x.Copyable := by
  cases x
  simp only [AsserterChoice.copy, AsserterChoice.Copyable, AsserterChoice.mk.injEq, Option.map_eq_self_iff', PSlice.copyWith_eq, PSlice.copyWith_id_eq, Gob.ref_eq, OrganizationalContact.copy_eq, OrganizationalEntity.copy_eq, id_eq, true_and, and_true, and_self]

theorem AsserterChoice.copy_idem (x : AsserterChoice) : x.copy.copy = x.copy := by
  simp only [AsserterChoice.copy, PSlice.copyWith_id_idem, Option.map_idem' OrganizationalContact.copy_idem, Option.map_idem' OrganizationalEntity.copy_idem, PSlice.copyWith_idem OrganizationalContact.copy_idem, PSlice.copyWith_idem OrganizationalEntity.copy_idem, Gob.ref_idem, OrganizationalContact.copy_idem, OrganizationalEntity.copy_idem]

theorem PatentAssertion.copy_eq (x : PatentAssertion) : x.copy = x ↔ x.Copyable := by
  cases x
  simp only [PatentAssertion.copy, PatentAssertion.Copyable, PatentAssertion.mk.injEq, Option.map_eq_self_iff', PSlice.copyWith_eq, PSlice.copyWith_id_eq, AsserterChoice.copy_eq, id_eq, true_and, and_true, and_self]

theorem PatentAssertion.copy_idem (x : PatentAssertion) : x.copy.copy = x.copy := by
  simp only [PatentAssertion.copy, PSlice.copyWith_id_idem, Option.map_idem' AsserterChoice.copy_idem, PSlice.copyWith_idem AsserterChoice.copy_idem, AsserterChoice.copy_idem]

theorem copyComponentList_eq (xs : List Component) : copyComponentList xs = xs.map Component.copy := by
  induction xs with
  | nil => rfl
  | cons x xs ih => simp [copyComponentList, ih]

theorem copyComponents_eq (p : PSlice Component) : copyComponents p = p.copyWith Component.copy := by
  match p with
  | .nil => simp [copyComponents, PSlice.copyWith]
  | .nilSlice => simp [copyComponents, PSlice.copyWith]
  | .list [] => simp [copyComponents, PSlice.copyWith]
  | .list (x :: xs) => simp [copyComponents, PSlice.copyWith, copyComponentList_eq]

theorem copyableComponentList_iff (xs : List Component) : CopyableComponentList xs ↔ ∀ c ∈ xs, c.Copyable := by
  induction xs with
  | nil => simp [CopyableComponentList]
  | cons x xs ih => simp [CopyableComponentList, ih]

theorem copyableComponents_iff (p : PSlice Component) : CopyableComponents p ↔ p.Filled Component.Copyable := by
  match p with
  | .nil => simp [CopyableComponents, PSlice.Filled, PSlice.elems]
  | .nilSlice => simp [CopyableComponents, PSlice.Filled, PSlice.elems]
  | .list [] => simp [CopyableComponents, PSlice.Filled, PSlice.elems]
  | .list (x :: xs) => simp [CopyableComponents, PSlice.Filled, PSlice.elems, copyableComponentList_iff]

theorem PSlice.filled_congr_component {p : PSlice Component} (h : ∀ c ∈ p.elems, (c.copy = c ↔ c.Copyable)) :
    (copyComponents p = p ↔ CopyableComponents p) := by
  rw [copyComponents_eq, copyableComponents_iff, PSlice.copyWith_eq]
  exact and_congr_right fun _ => and_congr_right fun _ => forall₂_congr h

theorem copyComponents_idem {p : PSlice Component} (h : ∀ c ∈ p.elems, c.copy.copy = c.copy) :
    copyComponents (copyComponents p) = copyComponents p := by
  rw [copyComponents_eq, copyComponents_eq]
  match p, h with
  | .nil, _ => rfl
  | .nilSlice, _ => rfl
  | .list [], _ => rfl
  | .list (x :: xs), h =>
    have h1 := h x (by simp [PSlice.elems])
    have h2 : (xs.map Component.copy).map Component.copy = xs.map Component.copy := by
      rw [List.map_map]
      exact List.map_congr_left fun c hc => h c (by simp [PSlice.elems, hc])
    simp only [PSlice.copyWith, h1, h2]

theorem copyPedigree_eq (p : Pedigree Component) (h : ∀ c ∈ p.relatives, (c.copy = c ↔ c.Copyable)) :
    copyPedigree p = p ↔ CopyablePedigree p := by
  have h1 : (copyComponents p.ancestors = p.ancestors ↔ CopyableComponents p.ancestors) :=
    PSlice.filled_congr_component fun c hc => h c (by simp [Pedigree.relatives, hc])
  have h2 : (copyComponents p.descendants = p.descendants ↔ CopyableComponents p.descendants) :=
    PSlice.filled_congr_component fun c hc => h c (by simp [Pedigree.relatives, hc])
  have h3 : (copyComponents p.variants = p.variants ↔ CopyableComponents p.variants) :=
    PSlice.filled_congr_component fun c hc => h c (by simp [Pedigree.relatives, hc])
  cases p
  simp only at h1 h2 h3
  simp only [copyPedigree, CopyablePedigree, Pedigree.mk.injEq, h1, h2, h3, Option.map_eq_self_iff', PSlice.copyWith_eq, PSlice.copyWith_id_eq, Commit.copy_eq, Patch.copy_eq, id_eq, true_and, and_true]

theorem Component.copy_eq (x : Component) : x.copy = x ↔ x.Copyable := by
  induction x using Component.induct with
  | h c ih =>
    have h1 : (copyComponents c.components = c.components ↔ CopyableComponents c.components) :=
      PSlice.filled_congr_component fun d hd => ih d (by simp [Component.children, hd])
    have h2 : (copyPedigreeOpt c.pedigree = c.pedigree ↔ CopyablePedigreeOpt c.pedigree) := by
      cases hp : c.pedigree with
      | none => simp [copyPedigreeOpt, CopyablePedigreeOpt]
      | some p =>
        simp only [copyPedigreeOpt, CopyablePedigreeOpt, Option.some.injEq]
        exact copyPedigree_eq p fun d hd => ih d (by simp [Component.children, hp, hd])
    cases c
    simp only at h1 h2
    simp only [Component.copy, Component.Copyable, Component.mk.injEq, h1, h2, Option.map_eq_self_iff', PSlice.copyWith_eq, PSlice.copyWith_id_eq, ComponentData.copy_eq, CryptoProperties.copy_eq, Evidence.copy_eq, ExternalReference.copy_eq, Gob.bool_eq, Hash.copy_eq, JSFSignature.copy_eq, LicenseChoice.copy_eq, MLModelCard.copy_eq, OrganizationalContact.copy_eq, OrganizationalEntity.copy_eq, PatentAssertion.copy_eq, Property.copy_eq, ReleaseNotes.copy_eq, SWID.copy_eq, id_eq, true_and, and_true]

theorem copyPedigree_idem (p : Pedigree Component) (h : ∀ c ∈ p.relatives, c.copy.copy = c.copy) :
    copyPedigree (copyPedigree p) = copyPedigree p := by
  have h1 := copyComponents_idem (p := p.ancestors) fun c hc => h c (by simp [Pedigree.relatives, hc])
  have h2 := copyComponents_idem (p := p.descendants) fun c hc => h c (by simp [Pedigree.relatives, hc])
  have h3 := copyComponents_idem (p := p.variants) fun c hc => h c (by simp [Pedigree.relatives, hc])
  cases p
  simp only at h1 h2 h3
  simp only [copyPedigree, h1, h2, h3, PSlice.copyWith_id_idem, Option.map_idem' Commit.copy_idem, Option.map_idem' Patch.copy_idem, PSlice.copyWith_idem Commit.copy_idem, PSlice.copyWith_idem Patch.copy_idem, Commit.copy_idem, Patch.copy_idem]

theorem Component.copy_idem (x : Component) : x.copy.copy = x.copy := by
  induction x using Component.induct with
  | h c ih =>
    have h1 := copyComponents_idem (p := c.components) fun d hd => ih d (by simp [Component.children, hd])
    have h2 : copyPedigreeOpt (copyPedigreeOpt c.pedigree) = copyPedigreeOpt c.pedigree := by
      cases hp : c.pedigree with
      | none => simp [copyPedigreeOpt]
      | some p =>
        simp only [copyPedigreeOpt, Option.some.injEq]
        exact copyPedigree_idem p fun d hd => ih d (by simp [Component.children, hp, hd])
    cases c
    simp only at h1 h2
    simp only [Component.copy, h1, h2, PSlice.copyWith_id_idem, Option.map_idem' ComponentData.copy_idem, Option.map_idem' CryptoProperties.copy_idem, Option.map_idem' Evidence.copy_idem, Option.map_idem' ExternalReference.copy_idem, Option.map_idem' Hash.copy_idem, Option.map_idem' JSFSignature.copy_idem, Option.map_idem' LicenseChoice.copy_idem, Option.map_idem' MLModelCard.copy_idem, Option.map_idem' OrganizationalContact.copy_idem, Option.map_idem' OrganizationalEntity.copy_idem, Option.map_idem' PatentAssertion.copy_idem, Option.map_idem' Property.copy_idem, Option.map_idem' ReleaseNotes.copy_idem, Option.map_idem' SWID.copy_idem, PSlice.copyWith_idem ComponentData.copy_idem, PSlice.copyWith_idem CryptoProperties.copy_idem, PSlice.copyWith_idem Evidence.copy_idem, PSlice.copyWith_idem ExternalReference.copy_idem, PSlice.copyWith_idem Hash.copy_idem, PSlice.copyWith_idem JSFSignature.copy_idem, PSlice.copyWith_idem LicenseChoice.copy_idem, PSlice.copyWith_idem MLModelCard.copy_idem, PSlice.copyWith_idem OrganizationalContact.copy_idem, PSlice.copyWith_idem OrganizationalEntity.copy_idem, PSlice.copyWith_idem PatentAssertion.copy_idem, PSlice.copyWith_idem Property.copy_idem, PSlice.copyWith_idem ReleaseNotes.copy_idem, PSlice.copyWith_idem SWID.copy_idem, ComponentData.copy_idem, CryptoProperties.copy_idem, Evidence.copy_idem, ExternalReference.copy_idem, Gob.bool_idem, Hash.copy_idem, JSFSignature.copy_idem, LicenseChoice.copy_idem, MLModelCard.copy_idem, OrganizationalContact.copy_idem, OrganizationalEntity.copy_idem, PatentAssertion.copy_idem, Property.copy_idem, ReleaseNotes.copy_idem, SWID.copy_idem]

theorem writableComponentList_iff' (xs : List Component) :
    WritableComponentList xs ↔ ∀ c ∈ xs, c.Writable := by
  induction xs with
  | nil => simp [WritableComponentList]
  | cons x xs ih => simp [WritableComponentList, ih]

theorem writableComponents_iff' (p : PSlice Component) : WritableComponents p ↔ ∀ c ∈ p.elems, c.Writable := by
  cases p <;> simp [WritableComponents, PSlice.elems, writableComponentList_iff']

theorem copyComponents_writable {p : PSlice Component} (hp : ∀ c ∈ p.elems, c.Writable → c.copy.Writable)
    (h : WritableComponents p) : WritableComponents (copyComponents p) := by
  rw [writableComponents_iff'] at h ⊢
  rw [copyComponents_eq]
  intro c hc
  obtain ⟨d, hd, rfl⟩ := PSlice.mem_copyWith hc
  exact hp d hd (h d hd)

theorem Component.copy_writable {x : Component} : x.Writable → x.copy.Writable := by
  induction x using Component.induct with
  | h c ih =>
    intro h
    have hc : WritableComponents c.components → WritableComponents (copyComponents c.components) :=
      copyComponents_writable fun d hd => ih d (by simp [Component.children, hd])
    have hp : WritablePedigreeOpt c.pedigree → WritablePedigreeOpt (copyPedigreeOpt c.pedigree) := by
      cases hp : c.pedigree with
      | none => simp [copyPedigreeOpt, WritablePedigreeOpt]
      | some p =>
        simp only [copyPedigreeOpt, WritablePedigreeOpt]
        have ih' : ∀ d ∈ p.relatives, d.Writable → d.copy.Writable :=
          fun d hd => ih d (by simp [Component.children, hp, hd])
        intro hw
        cases p
        simp only [copyPedigree, WritablePedigree] at hw ⊢
        obtain ⟨w0, w1, w2⟩ := hw
        exact ⟨copyComponents_writable (fun d hd => ih' d (by simp [Pedigree.relatives, hd])) w0, copyComponents_writable (fun d hd => ih' d (by simp [Pedigree.relatives, hd])) w1, copyComponents_writable (fun d hd => ih' d (by simp [Pedigree.relatives, hd])) w2⟩
    cases c
    simp only at hc hp
    simp only [Component.copy, Component.Writable] at h ⊢
    obtain ⟨h0, h1, h2, h3, h4, h5⟩ := h
    exact ⟨PSlice.copyWith_all (fun _ => LicenseChoice.copy_writable) h0, hp h1, hc h2, Option.map_all (fun _ => Evidence.copy_writable) h3, Option.map_all (fun _ => MLModelCard.copy_writable) h4, Option.map_all (fun _ => CryptoProperties.copy_writable) h5⟩

theorem DataClassification.copy_eq (x : DataClassification) : x.copy = x ↔ x.Copyable := by
  cases x
  simp only [DataClassification.copy, DataClassification.Copyable, DataClassification.mk.injEq, Option.map_eq_self_iff', PSlice.copyWith_eq, PSlice.copyWith_id_eq, DataGovernance.copy_eq, id_eq, true_and, and_true, and_self]

theorem DataClassification.copy_idem (x : DataClassification) : x.copy.copy = x.copy := by
  simp only [DataClassification.copy, PSlice.copyWith_id_idem, Option.map_idem' DataGovernance.copy_idem, PSlice.copyWith_idem DataGovernance.copy_idem, DataGovernance.copy_idem]

theorem copyServiceList_eq (xs : List Service) : copyServiceList xs = xs.map Service.copy := by
  induction xs with
  | nil => rfl
  | cons x xs ih => simp [copyServiceList, ih]

theorem copyServices_eq (p : PSlice Service) : copyServices p = p.copyWith Service.copy := by
  match p with
  | .nil => simp [copyServices, PSlice.copyWith]
  | .nilSlice => simp [copyServices, PSlice.copyWith]
  | .list [] => simp [copyServices, PSlice.copyWith]
  | .list (x :: xs) => simp [copyServices, PSlice.copyWith, copyServiceList_eq]

theorem copyableServiceList_iff (xs : List Service) : CopyableServiceList xs ↔ ∀ c ∈ xs, c.Copyable := by
  induction xs with
  | nil => simp [CopyableServiceList]
  | cons x xs ih => simp [CopyableServiceList, ih]

theorem copyableServices_iff (p : PSlice Service) : CopyableServices p ↔ p.Filled Service.Copyable := by
  match p with
  | .nil => simp [CopyableServices, PSlice.Filled, PSlice.elems]
  | .nilSlice => simp [CopyableServices, PSlice.Filled, PSlice.elems]
  | .list [] => simp [CopyableServices, PSlice.Filled, PSlice.elems]
  | .list (x :: xs) => simp [CopyableServices, PSlice.Filled, PSlice.elems, copyableServiceList_iff]

theorem PSlice.filled_congr_service {p : PSlice Service} (h : ∀ c ∈ p.elems, (c.copy = c ↔ c.Copyable)) :
    (copyServices p = p ↔ CopyableServices p) := by
  rw [copyServices_eq, copyableServices_iff, PSlice.copyWith_eq]
  exact and_congr_right fun _ => and_congr_right fun _ => forall₂_congr h

theorem copyServices_idem {p : PSlice Service} (h : ∀ c ∈ p.elems, c.copy.copy = c.copy) :
    copyServices (copyServices p) = copyServices p := by
  rw [copyServices_eq, copyServices_eq]
  match p, h with
  | .nil, _ => rfl
  | .nilSlice, _ => rfl
  | .list [], _ => rfl
  | .list (x :: xs), h =>
    have h1 := h x (by simp [PSlice.elems])
    have h2 : (xs.map Service.copy).map Service.copy = xs.map Service.copy := by
      rw [List.map_map]
      exact List.map_congr_left fun c hc => h c (by simp [PSlice.elems, hc])
    simp only [PSlice.copyWith, h1, h2]

theorem Service.copy_eq (x : Service) : x.copy = x ↔ x.Copyable := by
  induction x using Service.induct with
  | h c ih =>
    have h1 : (copyServices c.services = c.services ↔ CopyableServices c.services) :=
      PSlice.filled_congr_service fun d hd => ih d (by simp [Service.children, hd])
    cases c
    simp only at h1
    simp only [Service.copy, Service.Copyable, Service.mk.injEq, h1, Option.map_eq_self_iff', PSlice.copyWith_eq, PSlice.copyWith_id_eq, DataClassification.copy_eq, ExternalReference.copy_eq, Gob.bool_eq, JSFSignature.copy_eq, LicenseChoice.copy_eq, OrganizationalEntity.copy_eq, PatentAssertion.copy_eq, Property.copy_eq, ReleaseNotes.copy_eq, id_eq, true_and, and_true]

theorem Service.copy_idem (x : Service) : x.copy.copy = x.copy := by
  induction x using Service.induct with
  | h c ih =>
    have h1 := copyServices_idem (p := c.services) fun d hd => ih d (by simp [Service.children, hd])
    cases c
    simp only at h1
    simp only [Service.copy, h1, PSlice.copyWith_id_idem, Option.map_idem' DataClassification.copy_idem, Option.map_idem' ExternalReference.copy_idem, Option.map_idem' JSFSignature.copy_idem, Option.map_idem' LicenseChoice.copy_idem, Option.map_idem' OrganizationalEntity.copy_idem, Option.map_idem' PatentAssertion.copy_idem, Option.map_idem' Property.copy_idem, Option.map_idem' ReleaseNotes.copy_idem, PSlice.copyWith_idem DataClassification.copy_idem, PSlice.copyWith_idem ExternalReference.copy_idem, PSlice.copyWith_idem JSFSignature.copy_idem, PSlice.copyWith_idem LicenseChoice.copy_idem, PSlice.copyWith_idem OrganizationalEntity.copy_idem, PSlice.copyWith_idem PatentAssertion.copy_idem, PSlice.copyWith_idem Property.copy_idem, PSlice.copyWith_idem ReleaseNotes.copy_idem, DataClassification.copy_idem, ExternalReference.copy_idem, Gob.bool_idem, JSFSignature.copy_idem, LicenseChoice.copy_idem, OrganizationalEntity.copy_idem, PatentAssertion.copy_idem, Property.copy_idem, ReleaseNotes.copy_idem]

theorem writableServiceList_iff' (xs : List Service) :
    WritableServiceList xs ↔ ∀ c ∈ xs, c.Writable := by
  induction xs with
  | nil => simp [WritableServiceList]
  | cons x xs ih => simp [WritableServiceList, ih]

theorem writableServices_iff' (p : PSlice Service) : WritableServices p ↔ ∀ c ∈ p.elems, c.Writable := by
  cases p <;> simp [WritableServices, PSlice.elems, writableServiceList_iff']

theorem Service.copy_writable {x : Service} : x.Writable → x.copy.Writable := by
  induction x using Service.induct with
  | h c ih =>
    intro h
    have hc : WritableServices c.services → WritableServices (copyServices c.services) := by
      rw [writableServices_iff', writableServices_iff', copyServices_eq]
      intro h d hd
      obtain ⟨e, he, rfl⟩ := PSlice.mem_copyWith hd
      exact ih e (by simp [Service.children, he]) (h e he)
    cases c
    simp only at hc
    simp only [Service.copy, Service.Writable] at h ⊢
    obtain ⟨h0, h1⟩ := h
    exact ⟨PSlice.copyWith_all (fun _ => LicenseChoice.copy_writable) h0, hc h1⟩

theorem Annotator.copy_eq (x : Annotator) : x.copy = x ↔ x.Copyable := by
  cases x
  simp only [Annotator.copy, Annotator.Copyable, Annotator.mk.injEq, Option.map_eq_self_iff', PSlice.copyWith_eq, PSlice.copyWith_id_eq, Component.copy_eq, OrganizationalContact.copy_eq, OrganizationalEntity.copy_eq, Service.copy_eq, id_eq, true_and, and_true, and_self]

theorem Annotator.copy_idem (x : Annotator) : x.copy.copy = x.copy := by
  simp only [Annotator.copy, PSlice.copyWith_id_idem, Option.map_idem' Component.copy_idem, Option.map_idem' OrganizationalContact.copy_idem, Option.map_idem' OrganizationalEntity.copy_idem, Option.map_idem' Service.copy_idem, PSlice.copyWith_idem Component.copy_idem, PSlice.copyWith_idem OrganizationalContact.copy_idem, PSlice.copyWith_idem OrganizationalEntity.copy_idem, PSlice.copyWith_idem Service.copy_idem, Component.copy_idem, OrganizationalContact.copy_idem, OrganizationalEntity.copy_idem, Service.copy_idem]

theorem Annotator.copy_writable {x : Annotator} (h : x.Writable) : x.copy.Writable := by
  obtain ⟨h0, h1⟩ := h
  exact ⟨Option.map_all (fun _ => Component.copy_writable) h0, Option.map_all (fun _ => Service.copy_writable) h1⟩

theorem Annotation.copy_eq (x : Annotation) : x.copy = x ↔ x.Copyable := by
  cases x
  simp only [Annotation.copy, Annotation.Copyable, Annotation.mk.injEq, Option.map_eq_self_iff', PSlice.copyWith_eq, PSlice.copyWith_id_eq, Annotator.copy_eq, JSFSignature.copy_eq, id_eq, true_and, and_true, and_self]

theorem Annotation.copy_idem (x : Annotation) : x.copy.copy = x.copy := by
  simp only [Annotation.copy, PSlice.copyWith_id_idem, Option.map_idem' Annotator.copy_idem, Option.map_idem' JSFSignature.copy_idem, PSlice.copyWith_idem Annotator.copy_idem, PSlice.copyWith_idem JSFSignature.copy_idem, Annotator.copy_idem, JSFSignature.copy_idem]

theorem Annotation.copy_writable {x : Annotation} (h : x.Writable) : x.copy.Writable :=
  Option.map_all (fun _ => Annotator.copy_writable) h

theorem Assessor.copy_eq (x : Assessor) : x.copy = x ↔ x.Copyable := by
  cases x
  simp only [Assessor.copy, Assessor.Copyable, Assessor.mk.injEq, Option.map_eq_self_iff', PSlice.copyWith_eq, PSlice.copyWith_id_eq, OrganizationalEntity.copy_eq, id_eq, true_and, and_true, and_self]

theorem Assessor.copy_idem (x : Assessor) : x.copy.copy = x.copy := by
  simp only [Assessor.copy, PSlice.copyWith_id_idem, Option.map_idem' OrganizationalEntity.copy_idem, PSlice.copyWith_idem OrganizationalEntity.copy_idem, OrganizationalEntity.copy_idem]

theorem AttestationConformance.copy_eq (x : AttestationConformance) : x.copy = x ↔ x.Copyable := by
  cases x
  simp only [AttestationConformance.copy, AttestationConformance.Copyable, AttestationConformance.mk.injEq, Option.map_eq_self_iff', PSlice.copyWith_eq, PSlice.copyWith_id_eq, Gob.float64_eq, id_eq, true_and, and_true, and_self]

theorem AttestationConformance.copy_idem (x : AttestationConformance) : x.copy.copy = x.copy := by
  simp only [AttestationConformance.copy, PSlice.copyWith_id_idem, Gob.float64_idem]

theorem AttestationConformance.copy_writable {x : AttestationConformance} (h : x.Writable) : x.copy.Writable :=
  fun x hx => h x (Gob.float64_mem hx)

theorem AttestationConfidence.copy_eq (x : AttestationConfidence) : x.copy = x ↔ x.Copyable := by
  cases x
  simp only [AttestationConfidence.copy, AttestationConfidence.Copyable, AttestationConfidence.mk.injEq, Option.map_eq_self_iff', PSlice.copyWith_eq, PSlice.copyWith_id_eq, Gob.float64_eq, id_eq, true_and, and_true, and_self]

theorem AttestationConfidence.copy_idem (x : AttestationConfidence) : x.copy.copy = x.copy := by
  simp only [AttestationConfidence.copy, PSlice.copyWith_id_idem, Gob.float64_idem]

theorem AttestationConfidence.copy_writable {x : AttestationConfidence} (h : x.Writable) : x.copy.Writable :=
  fun x hx => h x (Gob.float64_mem hx)

theorem AttestationMap.copy_eq (x : AttestationMap) : x.copy = x ↔ x.Copyable := by
  cases x
  simp only [AttestationMap.copy, AttestationMap.Copyable, AttestationMap.mk.injEq, Option.map_eq_self_iff', PSlice.copyWith_eq, PSlice.copyWith_id_eq, AttestationConfidence.copy_eq, AttestationConformance.copy_eq, id_eq, true_and, and_true, and_self]

theorem AttestationMap.copy_idem (x : AttestationMap) : x.copy.copy = x.copy := by
  simp only [AttestationMap.copy, PSlice.copyWith_id_idem, Option.map_idem' AttestationConfidence.copy_idem, Option.map_idem' AttestationConformance.copy_idem, PSlice.copyWith_idem AttestationConfidence.copy_idem, PSlice.copyWith_idem AttestationConformance.copy_idem, AttestationConfidence.copy_idem, AttestationConformance.copy_idem]

theorem AttestationMap.copy_writable {x : AttestationMap} (h : x.Writable) : x.copy.Writable := by
  obtain ⟨h0, h1⟩ := h
  exact ⟨Option.map_all (fun _ => AttestationConformance.copy_writable) h0, Option.map_all (fun _ => AttestationConfidence.copy_writable) h1⟩

theorem Attestation.copy_eq (x : Attestation) : x.copy = x ↔ x.Copyable := by
  cases x
  simp only [Attestation.copy, Attestation.Copyable, Attestation.mk.injEq, Option.map_eq_self_iff', PSlice.copyWith_eq, PSlice.copyWith_id_eq, AttestationMap.copy_eq, JSFSignature.copy_eq, id_eq, true_and, and_true, and_self]

theorem Attestation.copy_idem (x : Attestation) : x.copy.copy = x.copy := by
  simp only [Attestation.copy, PSlice.copyWith_id_idem, Option.map_idem' AttestationMap.copy_idem, Option.map_idem' JSFSignature.copy_idem, PSlice.copyWith_idem AttestationMap.copy_idem, PSlice.copyWith_idem JSFSignature.copy_idem, AttestationMap.copy_idem, JSFSignature.copy_idem]

theorem Attestation.copy_writable {x : Attestation} (h : x.Writable) : x.copy.Writable :=
  PSlice.copyWith_all (fun _ => AttestationMap.copy_writable) h

theorem Composition.copy_eq (x : Composition) : x.copy = x ↔ x.Copyable := by
  cases x
  simp only [Composition.copy, Composition.Copyable, Composition.mk.injEq, Option.map_eq_self_iff', PSlice.copyWith_eq, PSlice.copyWith_id_eq, JSFSignature.copy_eq, id_eq, true_and, and_true, and_self]

theorem Composition.copy_idem (x : Composition) : x.copy.copy = x.copy := by
  simp only [Composition.copy, PSlice.copyWith_id_idem, Option.map_idem' JSFSignature.copy_idem, PSlice.copyWith_idem JSFSignature.copy_idem, JSFSignature.copy_idem]

theorem Claim.copy_eq (x : Claim) : x.copy = x ↔ x.Copyable := by
  cases x
  simp only [Claim.copy, Claim.Copyable, Claim.mk.injEq, Option.map_eq_self_iff', PSlice.copyWith_eq, PSlice.copyWith_id_eq, ExternalReference.copy_eq, JSFSignature.copy_eq, id_eq, true_and, and_true, and_self]

theorem Claim.copy_idem (x : Claim) : x.copy.copy = x.copy := by
  simp only [Claim.copy, PSlice.copyWith_id_idem, Option.map_idem' ExternalReference.copy_idem, Option.map_idem' JSFSignature.copy_idem, PSlice.copyWith_idem ExternalReference.copy_idem, PSlice.copyWith_idem JSFSignature.copy_idem, ExternalReference.copy_idem, JSFSignature.copy_idem]

theorem EvidenceDataContents.copy_eq (x : EvidenceDataContents) : x.copy = x ↔ x.Copyable := by
  cases x
  simp only [EvidenceDataContents.copy, EvidenceDataContents.Copyable, EvidenceDataContents.mk.injEq, Option.map_eq_self_iff', PSlice.copyWith_eq, PSlice.copyWith_id_eq, AttachedText.copy_eq, id_eq, true_and, and_true, and_self]

theorem EvidenceDataContents.copy_idem (x : EvidenceDataContents) : x.copy.copy = x.copy := by
  simp only [EvidenceDataContents.copy, PSlice.copyWith_id_idem, Option.map_idem' AttachedText.copy_idem, PSlice.copyWith_idem AttachedText.copy_idem, AttachedText.copy_idem]

theorem EvidenceData.copy_eq (x : EvidenceData) : x.copy = x ↔ x.Copyable := by
  cases x
  simp only [EvidenceData.copy, EvidenceData.Copyable, EvidenceData.mk.injEq, Option.map_eq_self_iff', PSlice.copyWith_eq, PSlice.copyWith_id_eq, DataClassification.copy_eq, DataGovernance.copy_eq, EvidenceDataContents.copy_eq, id_eq, true_and, and_true, and_self]

theorem EvidenceData.copy_idem (x : EvidenceData) : x.copy.copy = x.copy := by
  simp only [EvidenceData.copy, PSlice.copyWith_id_idem, Option.map_idem' DataClassification.copy_idem, Option.map_idem' DataGovernance.copy_idem, Option.map_idem' EvidenceDataContents.copy_idem, PSlice.copyWith_idem DataClassification.copy_idem, PSlice.copyWith_idem DataGovernance.copy_idem, PSlice.copyWith_idem EvidenceDataContents.copy_idem, DataClassification.copy_idem, DataGovernance.copy_idem, EvidenceDataContents.copy_idem]

theorem DeclarationEvidence.copy_eq (x : DeclarationEvidence) : x.copy = x ↔ x.Copyable := by
  cases x
  simp only [DeclarationEvidence.copy, DeclarationEvidence.Copyable, DeclarationEvidence.mk.injEq, Option.map_eq_self_iff', PSlice.copyWith_eq, PSlice.copyWith_id_eq, EvidenceData.copy_eq, JSFSignature.copy_eq, OrganizationalContact.copy_eq, id_eq, true_and, and_true, and_self]

theorem DeclarationEvidence.copy_idem (x : DeclarationEvidence) : x.copy.copy = x.copy := by
  simp only [DeclarationEvidence.copy, PSlice.copyWith_id_idem, Option.map_idem' EvidenceData.copy_idem, Option.map_idem' JSFSignature.copy_idem, Option.map_idem' OrganizationalContact.copy_idem, PSlice.copyWith_idem EvidenceData.copy_idem, PSlice.copyWith_idem JSFSignature.copy_idem, PSlice.copyWith_idem OrganizationalContact.copy_idem, EvidenceData.copy_idem, JSFSignature.copy_idem, OrganizationalContact.copy_idem]

theorem Targets.copy_eq (x : Targets) : x.copy = x ↔ x.Copyable := by
  cases x
  simp only [Targets.copy, Targets.Copyable, Targets.mk.injEq, Option.map_eq_self_iff', PSlice.copyWith_eq, PSlice.copyWith_id_eq, Component.copy_eq, OrganizationalEntity.copy_eq, Service.copy_eq, id_eq, true_and, and_true, and_self]

theorem Targets.copy_idem (x : Targets) : x.copy.copy = x.copy := by
  simp only [Targets.copy, PSlice.copyWith_id_idem, Option.map_idem' Component.copy_idem, Option.map_idem' OrganizationalEntity.copy_idem, Option.map_idem' Service.copy_idem, PSlice.copyWith_idem Component.copy_idem, PSlice.copyWith_idem OrganizationalEntity.copy_idem, PSlice.copyWith_idem Service.copy_idem, Component.copy_idem, OrganizationalEntity.copy_idem, Service.copy_idem]

theorem Targets.copy_writable {x : Targets} (h : x.Writable) : x.copy.Writable := by
  obtain ⟨h0, h1⟩ := h
  exact ⟨PSlice.copyWith_all (fun _ => Component.copy_writable) h0, PSlice.copyWith_all (fun _ => Service.copy_writable) h1⟩

theorem Signatory.copy_eq (x : Signatory) : x.copy = x ↔ x.Copyable := by
  cases x
  simp only [Signatory.copy, Signatory.Copyable, Signatory.mk.injEq, Option.map_eq_self_iff', PSlice.copyWith_eq, PSlice.copyWith_id_eq, ExternalReference.copy_eq, JSFSignature.copy_eq, OrganizationalEntity.copy_eq, id_eq, true_and, and_true, and_self]

theorem Signatory.copy_idem (x : Signatory) : x.copy.copy = x.copy := by
  simp only [Signatory.copy, PSlice.copyWith_id_idem, Option.map_idem' ExternalReference.copy_idem, Option.map_idem' JSFSignature.copy_idem, Option.map_idem' OrganizationalEntity.copy_idem, PSlice.copyWith_idem ExternalReference.copy_idem, PSlice.copyWith_idem JSFSignature.copy_idem, PSlice.copyWith_idem OrganizationalEntity.copy_idem, ExternalReference.copy_idem, JSFSignature.copy_idem, OrganizationalEntity.copy_idem]

theorem Affirmation.copy_eq (x : Affirmation) : x.copy = x ↔ x.Copyable := by
  cases x
  simp only [Affirmation.copy, Affirmation.Copyable, Affirmation.mk.injEq, Option.map_eq_self_iff', PSlice.copyWith_eq, PSlice.copyWith_id_eq, JSFSignature.copy_eq, Signatory.copy_eq, id_eq, true_and, and_true, and_self]

theorem Affirmation.copy_idem (x : Affirmation) : x.copy.copy = x.copy := by
  simp only [Affirmation.copy, PSlice.copyWith_id_idem, Option.map_idem' JSFSignature.copy_idem, Option.map_idem' Signatory.copy_idem, PSlice.copyWith_idem JSFSignature.copy_idem, PSlice.copyWith_idem Signatory.copy_idem, JSFSignature.copy_idem, Signatory.copy_idem]

theorem Declarations.copy_eq (x : Declarations) : x.copy = x ↔ x.Copyable := by
  cases x
  simp only [Declarations.copy, Declarations.Copyable, Declarations.mk.injEq, Option.map_eq_self_iff', PSlice.copyWith_eq, PSlice.copyWith_id_eq, Affirmation.copy_eq, Assessor.copy_eq, Attestation.copy_eq, Claim.copy_eq, DeclarationEvidence.copy_eq, JSFSignature.copy_eq, Targets.copy_eq, id_eq, true_and, and_true, and_self]

theorem Declarations.copy_idem (x : Declarations) : x.copy.copy = x.copy := by
  simp only [Declarations.copy, PSlice.copyWith_id_idem, Option.map_idem' Affirmation.copy_idem, Option.map_idem' Assessor.copy_idem, Option.map_idem' Attestation.copy_idem, Option.map_idem' Claim.copy_idem, Option.map_idem' DeclarationEvidence.copy_idem, Option.map_idem' JSFSignature.copy_idem, Option.map_idem' Targets.copy_idem, PSlice.copyWith_idem Affirmation.copy_idem, PSlice.copyWith_idem Assessor.copy_idem, PSlice.copyWith_idem Attestation.copy_idem, PSlice.copyWith_idem Claim.copy_idem, PSlice.copyWith_idem DeclarationEvidence.copy_idem, PSlice.copyWith_idem JSFSignature.copy_idem, PSlice.copyWith_idem Targets.copy_idem, Affirmation.copy_idem, Assessor.copy_idem, Attestation.copy_idem, Claim.copy_idem, DeclarationEvidence.copy_idem, JSFSignature.copy_idem, Targets.copy_idem]

theorem Declarations.copy_writable {x : Declarations} (h : x.Writable) : x.copy.Writable := by
  obtain ⟨h0, h1⟩ := h
  exact ⟨PSlice.copyWith_all (fun _ => Attestation.copy_writable) h0, Option.map_all (fun _ => Targets.copy_writable) h1⟩

theorem PriorityApplication.copy_eq (x : PriorityApplication) : x.copy = x ↔ x.Copyable := by
  cases x
  simp only [PriorityApplication.copy, PriorityApplication.Copyable, PriorityApplication.mk.injEq, Option.map_eq_self_iff', PSlice.copyWith_eq, PSlice.copyWith_id_eq, id_eq, true_and, and_true, and_self]

theorem PriorityApplication.copy_idem (x : PriorityApplication) : x.copy.copy = x.copy := by
  simp only [PriorityApplication.copy, PSlice.copyWith_id_idem]

theorem Patent.copy_eq (x : Patent) : x.copy = x ↔ x.Copyable := by
  cases x
  simp only [Patent.copy, Patent.Copyable, Patent.mk.injEq, Option.map_eq_self_iff', PSlice.copyWith_eq, PSlice.copyWith_id_eq, ExternalReference.copy_eq, OrganizationalEntityOrContact.copy_eq, PriorityApplication.copy_eq, id_eq, true_and, and_true, and_self]

theorem Patent.copy_idem (x : Patent) : x.copy.copy = x.copy := by
  simp only [Patent.copy, PSlice.copyWith_id_idem, Option.map_idem' ExternalReference.copy_idem, Option.map_idem' OrganizationalEntityOrContact.copy_idem, Option.map_idem' PriorityApplication.copy_idem, PSlice.copyWith_idem ExternalReference.copy_idem, PSlice.copyWith_idem OrganizationalEntityOrContact.copy_idem, PSlice.copyWith_idem PriorityApplication.copy_idem, ExternalReference.copy_idem, OrganizationalEntityOrContact.copy_idem, PriorityApplication.copy_idem]

theorem PatentFamily.copy_eq (x : PatentFamily) : x.copy = x ↔ x.Copyable := by
  cases x
  simp only [PatentFamily.copy, PatentFamily.Copyable, PatentFamily.mk.injEq, Option.map_eq_self_iff', PSlice.copyWith_eq, PSlice.copyWith_id_eq, ExternalReference.copy_eq, PriorityApplication.copy_eq, id_eq, true_and, and_true, and_self]

theorem PatentFamily.copy_idem (x : PatentFamily) : x.copy.copy = x.copy := by
  simp only [PatentFamily.copy, PSlice.copyWith_id_idem, Option.map_idem' ExternalReference.copy_idem, Option.map_idem' PriorityApplication.copy_idem, PSlice.copyWith_idem ExternalReference.copy_idem, PSlice.copyWith_idem PriorityApplication.copy_idem, ExternalReference.copy_idem, PriorityApplication.copy_idem]

theorem PatentChoice.copy_eq (x : PatentChoice) : x.copy = x ↔ x.Copyable := by
  cases x
  simp only [PatentChoice.copy, PatentChoice.Copyable, PatentChoice.mk.injEq, Option.map_eq_self_iff', PSlice.copyWith_eq, PSlice.copyWith_id_eq, Patent.copy_eq, PatentFamily.copy_eq, id_eq, true_and, and_true, and_self]

theorem PatentChoice.copy_idem (x : PatentChoice) : x.copy.copy = x.copy := by
  simp only [PatentChoice.copy, PSlice.copyWith_id_idem, Option.map_idem' Patent.copy_idem, Option.map_idem' PatentFamily.copy_idem, PSlice.copyWith_idem Patent.copy_idem, PSlice.copyWith_idem PatentFamily.copy_idem, Patent.copy_idem, PatentFamily.copy_idem]

theorem StandardRequirement.copy_eq (x : StandardRequirement) : x.copy = x ↔ x.Copyable := by
  cases x
  simp only [StandardRequirement.copy, StandardRequirement.Copyable, StandardRequirement.mk.injEq, Option.map_eq_self_iff', PSlice.copyWith_eq, PSlice.copyWith_id_eq, ExternalReference.copy_eq, Property.copy_eq, id_eq, true_and, and_true, and_self]

theorem StandardRequirement.copy_idem (x : StandardRequirement) : x.copy.copy = x.copy := by
  simp only [StandardRequirement.copy, PSlice.copyWith_id_idem, Option.map_idem' ExternalReference.copy_idem, Option.map_idem' Property.copy_idem, PSlice.copyWith_idem ExternalReference.copy_idem, PSlice.copyWith_idem Property.copy_idem, ExternalReference.copy_idem, Property.copy_idem]

theorem StandardLevel.copy_eq (x : StandardLevel) : x.copy = x ↔ x.Copyable := by
  cases x
  simp only [StandardLevel.copy, StandardLevel.Copyable, StandardLevel.mk.injEq, Option.map_eq_self_iff', PSlice.copyWith_eq, PSlice.copyWith_id_eq, id_eq, true_and, and_true, and_self]

theorem StandardLevel.copy_idem (x : StandardLevel) : x.copy.copy = x.copy := by
  simp only [StandardLevel.copy, PSlice.copyWith_id_idem]

theorem StandardDefinition.copy_eq (x : StandardDefinition) : x.copy = x ↔ x.Copyable := by
  cases x
  simp only [StandardDefinition.copy, StandardDefinition.Copyable, StandardDefinition.mk.injEq, Option.map_eq_self_iff', PSlice.copyWith_eq, PSlice.copyWith_id_eq, ExternalReference.copy_eq, JSFSignature.copy_eq, StandardLevel.copy_eq, StandardRequirement.copy_eq, id_eq, true_and, and_true, and_self]

theorem StandardDefinition.copy_idem (x : StandardDefinition) : x.copy.copy = x.copy := by
  simp only [StandardDefinition.copy, PSlice.copyWith_id_idem, Option.map_idem' ExternalReference.copy_idem, Option.map_idem' JSFSignature.copy_idem, Option.map_idem' StandardLevel.copy_idem, Option.map_idem' StandardRequirement.copy_idem, PSlice.copyWith_idem ExternalReference.copy_idem, PSlice.copyWith_idem JSFSignature.copy_idem, PSlice.copyWith_idem StandardLevel.copy_idem, PSlice.copyWith_idem StandardRequirement.copy_idem, ExternalReference.copy_idem, JSFSignature.copy_idem, StandardLevel.copy_idem, StandardRequirement.copy_idem]

theorem Definitions.copy_eq (x : Definitions) : x.copy = x ↔ x.Copyable := by
  cases x
  simp only [Definitions.copy, Definitions.Copyable, Definitions.mk.injEq, Option.map_eq_self_iff', PSlice.copyWith_eq, PSlice.copyWith_id_eq, PatentChoice.copy_eq, StandardDefinition.copy_eq, id_eq, true_and, and_true, and_self]

theorem Definitions.copy_idem (x : Definitions) : x.copy.copy = x.copy := by
  simp only [Definitions.copy, PSlice.copyWith_id_idem, Option.map_idem' PatentChoice.copy_idem, Option.map_idem' StandardDefinition.copy_idem, PSlice.copyWith_idem PatentChoice.copy_idem, PSlice.copyWith_idem StandardDefinition.copy_idem, PatentChoice.copy_idem, StandardDefinition.copy_idem]

theorem Dependency.copy_eq (x : Dependency) : x.copy = x ↔ x.Copyable := by
  cases x
  simp only [Dependency.copy, Dependency.Copyable, Dependency.mk.injEq, Option.map_eq_self_iff', PSlice.copyWith_eq, PSlice.copyWith_id_eq, id_eq, true_and, and_true, and_self]

theorem Dependency.copy_idem (x : Dependency) : x.copy.copy = x.copy := by
  simp only [Dependency.copy, PSlice.copyWith_id_idem]

theorem ResourceReferenceChoice.copy_eq (x : ResourceReferenceChoice) : x.copy = x ↔ x.Copyable := by
  cases x
  simp only [ResourceReferenceChoice.copy, ResourceReferenceChoice.Copyable, ResourceReferenceChoice.mk.injEq, Option.map_eq_self_iff', PSlice.copyWith_eq, PSlice.copyWith_id_eq, ExternalReference.copy_eq, id_eq, true_and, and_true, and_self]

theorem ResourceReferenceChoice.copy_idem (x : ResourceReferenceChoice) : x.copy.copy = x.copy := by
  simp only [ResourceReferenceChoice.copy, PSlice.copyWith_id_idem, Option.map_idem' ExternalReference.copy_idem, PSlice.copyWith_idem ExternalReference.copy_idem, ExternalReference.copy_idem]

theorem EnvironmentVariableChoice.copy_eq (x : EnvironmentVariableChoice) : x.copy = x ↔ x.Copyable := by
  cases x
  simp only [EnvironmentVariableChoice.copy, EnvironmentVariableChoice.Copyable, EnvironmentVariableChoice.mk.injEq, Option.map_eq_self_iff', PSlice.copyWith_eq, PSlice.copyWith_id_eq, Property.copy_eq, id_eq, true_and, and_true, and_self]

theorem EnvironmentVariableChoice.copy_idem (x : EnvironmentVariableChoice) : x.copy.copy = x.copy := by
  simp only [EnvironmentVariableChoice.copy, PSlice.copyWith_id_idem, Option.map_idem' Property.copy_idem, PSlice.copyWith_idem Property.copy_idem, Property.copy_idem]

theorem Parameter.copy_eq (x : Parameter) : x.copy = x ↔ x.Copyable := by
  cases x
  simp only [Parameter.copy, Parameter.Copyable, Parameter.mk.injEq, Option.map_eq_self_iff', PSlice.copyWith_eq, PSlice.copyWith_id_eq, id_eq, true_and, and_true, and_self]

theorem Parameter.copy_idem (x : Parameter) : x.copy.copy = x.copy := by
  simp only [Parameter.copy, PSlice.copyWith_id_idem]

theorem TaskInput.copy_eq (x : TaskInput) : x.copy = x ↔ x.Copyable := by
  cases x
  simp only [TaskInput.copy, TaskInput.Copyable, TaskInput.mk.injEq, Option.map_eq_self_iff', PSlice.copyWith_eq, PSlice.copyWith_id_eq, AttachedText.copy_eq, EnvironmentVariableChoice.copy_eq, Parameter.copy_eq, Property.copy_eq, ResourceReferenceChoice.copy_eq, id_eq, true_and, and_true, and_self]

theorem TaskInput.copy_idem (x : TaskInput) : x.copy.copy = x.copy := by
  simp only [TaskInput.copy, PSlice.copyWith_id_idem, Option.map_idem' AttachedText.copy_idem, Option.map_idem' EnvironmentVariableChoice.copy_idem, Option.map_idem' Parameter.copy_idem, Option.map_idem' Property.copy_idem, Option.map_idem' ResourceReferenceChoice.copy_idem, PSlice.copyWith_idem AttachedText.copy_idem, PSlice.copyWith_idem EnvironmentVariableChoice.copy_idem, PSlice.copyWith_idem Parameter.copy_idem, PSlice.copyWith_idem Property.copy_idem, PSlice.copyWith_idem ResourceReferenceChoice.copy_idem, AttachedText.copy_idem, EnvironmentVariableChoice.copy_idem, Parameter.copy_idem, Property.copy_idem, ResourceReferenceChoice.copy_idem]

theorem TaskOutput.copy_eq (x : TaskOutput) : x.copy = x ↔ x.Copyable := by
  cases x
  simp only [TaskOutput.copy, TaskOutput.Copyable, TaskOutput.mk.injEq, Option.map_eq_self_iff', PSlice.copyWith_eq, PSlice.copyWith_id_eq, AttachedText.copy_eq, EnvironmentVariableChoice.copy_eq, Parameter.copy_eq, Property.copy_eq, ResourceReferenceChoice.copy_eq, id_eq, true_and, and_true, and_self]

theorem TaskOutput.copy_idem (x : TaskOutput) : x.copy.copy = x.copy := by
  simp only [TaskOutput.copy, PSlice.copyWith_id_idem, Option.map_idem' AttachedText.copy_idem, Option.map_idem' EnvironmentVariableChoice.copy_idem, Option.map_idem' Parameter.copy_idem, Option.map_idem' Property.copy_idem, Option.map_idem' ResourceReferenceChoice.copy_idem, PSlice.copyWith_idem AttachedText.copy_idem, PSlice.copyWith_idem EnvironmentVariableChoice.copy_idem, PSlice.copyWith_idem Parameter.copy_idem, PSlice.copyWith_idem Property.copy_idem, PSlice.copyWith_idem ResourceReferenceChoice.copy_idem, AttachedText.copy_idem, EnvironmentVariableChoice.copy_idem, Parameter.copy_idem, Property.copy_idem, ResourceReferenceChoice.copy_idem]

theorem TaskCommand.copy_eq (x : TaskCommand) : x.copy = x ↔ x.Copyable := by
  cases x
  simp only [TaskCommand.copy, TaskCommand.Copyable, TaskCommand.mk.injEq, Option.map_eq_self_iff', PSlice.copyWith_eq, PSlice.copyWith_id_eq, Property.copy_eq, id_eq, true_and, and_true, and_self]

theorem TaskCommand.copy_idem (x : TaskCommand) : x.copy.copy = x.copy := by
  simp only [TaskCommand.copy, PSlice.copyWith_id_idem, Option.map_idem' Property.copy_idem, PSlice.copyWith_idem Property.copy_idem, Property.copy_idem]

theorem TaskStep.copy_eq (x : TaskStep) : x.copy = x ↔ x.Copyable := by
  cases x
  simp only [TaskStep.copy, TaskStep.Copyable, TaskStep.mk.injEq, Option.map_eq_self_iff', PSlice.copyWith_eq, PSlice.copyWith_id_eq, Property.copy_eq, TaskCommand.copy_eq, id_eq, true_and, and_true, and_self]

theorem TaskStep.copy_idem (x : TaskStep) : x.copy.copy = x.copy := by
  simp only [TaskStep.copy, PSlice.copyWith_id_idem, Option.map_idem' Property.copy_idem, Option.map_idem' TaskCommand.copy_idem, PSlice.copyWith_idem Property.copy_idem, PSlice.copyWith_idem TaskCommand.copy_idem, Property.copy_idem, TaskCommand.copy_idem]

theorem Event.copy_eq (x : Event) : x.copy = x ↔ x.Copyable := by
  cases x
  simp only [Event.copy, Event.Copyable, Event.mk.injEq, Option.map_eq_self_iff', PSlice.copyWith_eq, PSlice.copyWith_id_eq, AttachedText.copy_eq, Property.copy_eq, ResourceReferenceChoice.copy_eq, id_eq, true_and, and_true, and_self]

theorem Event.copy_idem (x : Event) : x.copy.copy = x.copy := by
  simp only [Event.copy, PSlice.copyWith_id_idem, Option.map_idem' AttachedText.copy_idem, Option.map_idem' Property.copy_idem, Option.map_idem' ResourceReferenceChoice.copy_idem, PSlice.copyWith_idem AttachedText.copy_idem, PSlice.copyWith_idem Property.copy_idem, PSlice.copyWith_idem ResourceReferenceChoice.copy_idem, AttachedText.copy_idem, Property.copy_idem, ResourceReferenceChoice.copy_idem]

theorem TaskTriggerCondition.copy_eq (x : TaskTriggerCondition) : x.copy = x ↔ x.Copyable := by
  cases x
  simp only [TaskTriggerCondition.copy, TaskTriggerCondition.Copyable, TaskTriggerCondition.mk.injEq, Option.map_eq_self_iff', PSlice.copyWith_eq, PSlice.copyWith_id_eq, Property.copy_eq, id_eq, true_and, and_true, and_self]

theorem TaskTriggerCondition.copy_idem (x : TaskTriggerCondition) : x.copy.copy = x.copy := by
  simp only [TaskTriggerCondition.copy, PSlice.copyWith_id_idem, Option.map_idem' Property.copy_idem, PSlice.copyWith_idem Property.copy_idem, Property.copy_idem]

theorem TaskTrigger.copy_eq (x : TaskTrigger) : x.copy = x ↔ x.Copyable := by
  cases x
  simp only [TaskTrigger.copy, TaskTrigger.Copyable, TaskTrigger.mk.injEq, Option.map_eq_self_iff', PSlice.copyWith_eq, PSlice.copyWith_id_eq, Event.copy_eq, Property.copy_eq, ResourceReferenceChoice.copy_eq, TaskInput.copy_eq, TaskOutput.copy_eq, TaskTriggerCondition.copy_eq, id_eq, true_and, and_true, and_self]

theorem TaskTrigger.copy_idem (x : TaskTrigger) : x.copy.copy = x.copy := by
  simp only [TaskTrigger.copy, PSlice.copyWith_id_idem, Option.map_idem' Event.copy_idem, Option.map_idem' Property.copy_idem, Option.map_idem' ResourceReferenceChoice.copy_idem, Option.map_idem' TaskInput.copy_idem, Option.map_idem' TaskOutput.copy_idem, Option.map_idem' TaskTriggerCondition.copy_idem, PSlice.copyWith_idem Event.copy_idem, PSlice.copyWith_idem Property.copy_idem, PSlice.copyWith_idem ResourceReferenceChoice.copy_idem, PSlice.copyWith_idem TaskInput.copy_idem, PSlice.copyWith_idem TaskOutput.copy_idem, PSlice.copyWith_idem TaskTriggerCondition.copy_idem, Event.copy_idem, Property.copy_idem, ResourceReferenceChoice.copy_idem, TaskInput.copy_idem, TaskOutput.copy_idem, TaskTriggerCondition.copy_idem]

theorem Volume.copy_eq (x : Volume) : x.copy = x ↔ x.Copyable := by
  cases x
  simp only [Volume.copy, Volume.Copyable, Volume.mk.injEq, Option.map_eq_self_iff', PSlice.copyWith_eq, PSlice.copyWith_id_eq, Gob.bool_eq, Property.copy_eq, id_eq, true_and, and_true, and_self]

theorem Volume.copy_idem (x : Volume) : x.copy.copy = x.copy := by
  simp only [Volume.copy, PSlice.copyWith_id_idem, Option.map_idem' Property.copy_idem, PSlice.copyWith_idem Property.copy_idem, Gob.bool_idem, Property.copy_idem]

theorem TaskWorkspace.copy_eq (x : TaskWorkspace) : x.copy = x ↔ x.Copyable := by
  cases x
  simp only [TaskWorkspace.copy, TaskWorkspace.Copyable, TaskWorkspace.mk.injEq, Option.map_eq_self_iff', PSlice.copyWith_eq, PSlice.copyWith_id_eq, Property.copy_eq, ResourceReferenceChoice.copy_eq, Volume.copy_eq, id_eq, true_and, and_true, and_self]

theorem TaskWorkspace.copy_idem (x : TaskWorkspace) : x.copy.copy = x.copy := by
  simp only [TaskWorkspace.copy, PSlice.copyWith_id_idem, Option.map_idem' Property.copy_idem, Option.map_idem' ResourceReferenceChoice.copy_idem, Option.map_idem' Volume.copy_idem, PSlice.copyWith_idem Property.copy_idem, PSlice.copyWith_idem ResourceReferenceChoice.copy_idem, PSlice.copyWith_idem Volume.copy_idem, Property.copy_idem, ResourceReferenceChoice.copy_idem, Volume.copy_idem]

theorem Task.copy_eq (x : Task) : x.copy = x ↔ x.Copyable := by
  cases x
  simp only [Task.copy, Task.Copyable, Task.mk.injEq, Option.map_eq_self_iff', PSlice.copyWith_eq, PSlice.copyWith_id_eq, Dependency.copy_eq, Property.copy_eq, ResourceReferenceChoice.copy_eq, TaskInput.copy_eq, TaskOutput.copy_eq, TaskStep.copy_eq, TaskTrigger.copy_eq, TaskWorkspace.copy_eq, id_eq, true_and, and_true, and_self]

theorem Task.copy_idem (x : Task) : x.copy.copy = x.copy := by
  simp only [Task.copy, PSlice.copyWith_id_idem, Option.map_idem' Dependency.copy_idem, Option.map_idem' Property.copy_idem, Option.map_idem' ResourceReferenceChoice.copy_idem, Option.map_idem' TaskInput.copy_idem, Option.map_idem' TaskOutput.copy_idem, Option.map_idem' TaskStep.copy_idem, Option.map_idem' TaskTrigger.copy_idem, Option.map_idem' TaskWorkspace.copy_idem, PSlice.copyWith_idem Dependency.copy_idem, PSlice.copyWith_idem Property.copy_idem, PSlice.copyWith_idem ResourceReferenceChoice.copy_idem, PSlice.copyWith_idem TaskInput.copy_idem, PSlice.copyWith_idem TaskOutput.copy_idem, PSlice.copyWith_idem TaskStep.copy_idem, PSlice.copyWith_idem TaskTrigger.copy_idem, PSlice.copyWith_idem TaskWorkspace.copy_idem, Dependency.copy_idem, Property.copy_idem, ResourceReferenceChoice.copy_idem, TaskInput.copy_idem, TaskOutput.copy_idem, TaskStep.copy_idem, TaskTrigger.copy_idem, TaskWorkspace.copy_idem]

theorem Workflow.copy_eq (x : Workflow) : x.copy = x ↔ x.Copyable := by
  cases x
  simp only [Workflow.copy, Workflow.Copyable, Workflow.mk.injEq, Option.map_eq_self_iff', PSlice.copyWith_eq, PSlice.copyWith_id_eq, Dependency.copy_eq, Property.copy_eq, ResourceReferenceChoice.copy_eq, Task.copy_eq, TaskInput.copy_eq, TaskOutput.copy_eq, TaskStep.copy_eq, TaskTrigger.copy_eq, TaskWorkspace.copy_eq, id_eq, true_and, and_true, and_self]

theorem Workflow.copy_idem (x : Workflow) : x.copy.copy = x.copy := by
  simp only [Workflow.copy, PSlice.copyWith_id_idem, Option.map_idem' Dependency.copy_idem, Option.map_idem' Property.copy_idem, Option.map_idem' ResourceReferenceChoice.copy_idem, Option.map_idem' Task.copy_idem, Option.map_idem' TaskInput.copy_idem, Option.map_idem' TaskOutput.copy_idem, Option.map_idem' TaskStep.copy_idem, Option.map_idem' TaskTrigger.copy_idem, Option.map_idem' TaskWorkspace.copy_idem, PSlice.copyWith_idem Dependency.copy_idem, PSlice.copyWith_idem Property.copy_idem, PSlice.copyWith_idem ResourceReferenceChoice.copy_idem, PSlice.copyWith_idem Task.copy_idem, PSlice.copyWith_idem TaskInput.copy_idem, PSlice.copyWith_idem TaskOutput.copy_idem, PSlice.copyWith_idem TaskStep.copy_idem, PSlice.copyWith_idem TaskTrigger.copy_idem, PSlice.copyWith_idem TaskWorkspace.copy_idem, Dependency.copy_idem, Property.copy_idem, ResourceReferenceChoice.copy_idem, Task.copy_idem, TaskInput.copy_idem, TaskOutput.copy_idem, TaskStep.copy_idem, TaskTrigger.copy_idem, TaskWorkspace.copy_idem]

theorem Formula.copy_eq (x : Formula) : x.copy = x ↔ x.Copyable := by
  cases x
  simp only [Formula.copy, Formula.Copyable, Formula.mk.injEq, Option.map_eq_self_iff', PSlice.copyWith_eq, PSlice.copyWith_id_eq, Component.copy_eq, Property.copy_eq, Service.copy_eq, Workflow.copy_eq, id_eq, true_and, and_true, and_self]

theorem Formula.copy_idem (x : Formula) : x.copy.copy = x.copy := by
  simp only [Formula.copy, PSlice.copyWith_id_idem, Option.map_idem' Component.copy_idem, Option.map_idem' Property.copy_idem, Option.map_idem' Service.copy_idem, Option.map_idem' Workflow.copy_idem, PSlice.copyWith_idem Component.copy_idem, PSlice.copyWith_idem Property.copy_idem, PSlice.copyWith_idem Service.copy_idem, PSlice.copyWith_idem Workflow.copy_idem, Component.copy_idem, Property.copy_idem, Service.copy_idem, Workflow.copy_idem]

theorem Formula.copy_writable {x : Formula} (h : x.Writable) : x.copy.Writable := by
  obtain ⟨h0, h1⟩ := h
  exact ⟨PSlice.copyWith_all (fun _ => Component.copy_writable) h0, PSlice.copyWith_all (fun _ => Service.copy_writable) h1⟩

theorem Lifecycle.copy_eq (x : Lifecycle) : x.copy = x ↔ x.Copyable := by
  cases x
  simp only [Lifecycle.copy, Lifecycle.Copyable, Lifecycle.mk.injEq, Option.map_eq_self_iff', PSlice.copyWith_eq, PSlice.copyWith_id_eq, id_eq, true_and, and_true, and_self]

theorem Lifecycle.copy_idem (x : Lifecycle) : x.copy.copy = x.copy := by
  simp only [Lifecycle.copy, PSlice.copyWith_id_idem]

theorem Tool.copy_eq (x : Tool) : x.copy = x ↔ x.Copyable := by
  cases x
  simp only [Tool.copy, Tool.Copyable, Tool.mk.injEq, Option.map_eq_self_iff', PSlice.copyWith_eq, PSlice.copyWith_id_eq, ExternalReference.copy_eq, Hash.copy_eq, id_eq, true_and, and_true, and_self]

theorem Tool.copy_idem (x : Tool) : x.copy.copy = x.copy := by
  simp only [Tool.copy, PSlice.copyWith_id_idem, Option.map_idem' ExternalReference.copy_idem, Option.map_idem' Hash.copy_idem, PSlice.copyWith_idem ExternalReference.copy_idem, PSlice.copyWith_idem Hash.copy_idem, ExternalReference.copy_idem, Hash.copy_idem]

theorem ToolsChoice.copy_eq (x : ToolsChoice) : x.copy = x ↔ x.Copyable := by
  cases x
  simp only [ToolsChoice.copy, ToolsChoice.Copyable, ToolsChoice.mk.injEq, Option.map_eq_self_iff', PSlice.copyWith_eq, PSlice.copyWith_id_eq, Component.copy_eq, Service.copy_eq, Tool.copy_eq, id_eq, true_and, and_true, and_self]

theorem ToolsChoice.copy_idem (x : ToolsChoice) : x.copy.copy = x.copy := by
  simp only [ToolsChoice.copy, PSlice.copyWith_id_idem, Option.map_idem' Component.copy_idem, Option.map_idem' Service.copy_idem, Option.map_idem' Tool.copy_idem, PSlice.copyWith_idem Component.copy_idem, PSlice.copyWith_idem Service.copy_idem, PSlice.copyWith_idem Tool.copy_idem, Component.copy_idem, Service.copy_idem, Tool.copy_idem]

theorem PSlice.copyWith_ne_nil {α : Type} {f : α → α} {p : PSlice α} (h : p.elems ≠ []) :
    p.copyWith f ≠ .nil := by
  match p, h with
  | .nil, h => simp [PSlice.elems] at h
  | .nilSlice, h => simp [PSlice.elems] at h
  | .list [], h => simp [PSlice.elems] at h
  | .list (y :: ys), _ => simp [PSlice.copyWith]

theorem PSlice.copyWith_nil {α : Type} {f : α → α} {p : PSlice α} (h : p.elems = []) :
    p.copyWith f = .nil := by
  match p, h with
  | .nil, _ => rfl
  | .nilSlice, _ => rfl
  | .list [], _ => rfl
  | .list (y :: ys), h => simp [PSlice.elems] at h

/-- A choice of tools that can be written can still be written after the copy, if it has an entry. -/
theorem ToolsChoice.copy_writable {x : ToolsChoice} (hn : x.NonEmpty) (h : x.Writable) : x.copy.Writable := by
  obtain ⟨h1, h2, h3⟩ := h
  refine ⟨?_, PSlice.copyWith_all (fun _ => Component.copy_writable) h2,
    PSlice.copyWith_all (fun _ => Service.copy_writable) h3⟩
  rcases h1 with ⟨ht, hc, hs⟩ | ⟨ht, hcs⟩
  · rcases hn with hn | hn | hn
    · exact .inl ⟨PSlice.copyWith_ne_nil hn, by simp [ToolsChoice.copy, hc, PSlice.copyWith],
        by simp [ToolsChoice.copy, hs, PSlice.copyWith]⟩
    · simp [hc, PSlice.elems] at hn
    · simp [hs, PSlice.elems] at hn
  · refine .inr ⟨by simp [ToolsChoice.copy, ht, PSlice.copyWith], ?_⟩
    rcases hn with hn | hn | hn
    · simp [ht, PSlice.elems] at hn
    · exact .inl (PSlice.copyWith_ne_nil hn)
    · exact .inr (PSlice.copyWith_ne_nil hn)

theorem DistributionConstraints.copy_eq (x : DistributionConstraints) : x.copy = x ↔ x.Copyable := by
  cases x
  simp only [DistributionConstraints.copy, DistributionConstraints.Copyable, DistributionConstraints.mk.injEq, Option.map_eq_self_iff', PSlice.copyWith_eq, PSlice.copyWith_id_eq, id_eq, true_and, and_true, and_self]

theorem DistributionConstraints.copy_idem (x : DistributionConstraints) : x.copy.copy = x.copy := by
  simp only [DistributionConstraints.copy, PSlice.copyWith_id_idem]

theorem Metadata.copy_eq (x : Metadata) : x.copy = x ↔ x.Copyable := by
  cases x
  simp only [Metadata.copy, Metadata.Copyable, Metadata.mk.injEq, Option.map_eq_self_iff', PSlice.copyWith_eq, PSlice.copyWith_id_eq, Component.copy_eq, DistributionConstraints.copy_eq, LicenseChoice.copy_eq, Lifecycle.copy_eq, OrganizationalContact.copy_eq, OrganizationalEntity.copy_eq, Property.copy_eq, ToolsChoice.copy_eq, id_eq, true_and, and_true, and_self]

theorem Metadata.copy_idem (x : Metadata) : x.copy.copy = x.copy := by
  simp only [Metadata.copy, PSlice.copyWith_id_idem, Option.map_idem' Component.copy_idem, Option.map_idem' DistributionConstraints.copy_idem, Option.map_idem' LicenseChoice.copy_idem, Option.map_idem' Lifecycle.copy_idem, Option.map_idem' OrganizationalContact.copy_idem, Option.map_idem' OrganizationalEntity.copy_idem, Option.map_idem' Property.copy_idem, Option.map_idem' ToolsChoice.copy_idem, PSlice.copyWith_idem Component.copy_idem, PSlice.copyWith_idem DistributionConstraints.copy_idem, PSlice.copyWith_idem LicenseChoice.copy_idem, PSlice.copyWith_idem Lifecycle.copy_idem, PSlice.copyWith_idem OrganizationalContact.copy_idem, PSlice.copyWith_idem OrganizationalEntity.copy_idem, PSlice.copyWith_idem Property.copy_idem, PSlice.copyWith_idem ToolsChoice.copy_idem, Component.copy_idem, DistributionConstraints.copy_idem, LicenseChoice.copy_idem, Lifecycle.copy_idem, OrganizationalContact.copy_idem, OrganizationalEntity.copy_idem, Property.copy_idem, ToolsChoice.copy_idem]

theorem Credits.copy_eq (x : Credits) : x.copy = x ↔ x.Copyable := by
  cases x
  simp only [Credits.copy, Credits.Copyable, Credits.mk.injEq, Option.map_eq_self_iff', PSlice.copyWith_eq, PSlice.copyWith_id_eq, OrganizationalContact.copy_eq, OrganizationalEntity.copy_eq, id_eq, true_and, and_true, and_self]

theorem Credits.copy_idem (x : Credits) : x.copy.copy = x.copy := by
  simp only [Credits.copy, PSlice.copyWith_id_idem, Option.map_idem' OrganizationalContact.copy_idem, Option.map_idem' OrganizationalEntity.copy_idem, PSlice.copyWith_idem OrganizationalContact.copy_idem, PSlice.copyWith_idem OrganizationalEntity.copy_idem, OrganizationalContact.copy_idem, OrganizationalEntity.copy_idem]

theorem ProofOfConcept.copy_eq (x : ProofOfConcept) : x.copy = x ↔ x.Copyable := by
  cases x
  simp only [ProofOfConcept.copy, ProofOfConcept.Copyable, ProofOfConcept.mk.injEq, Option.map_eq_self_iff', PSlice.copyWith_eq, PSlice.copyWith_id_eq, AttachedText.copy_eq, id_eq, true_and, and_true, and_self]

theorem ProofOfConcept.copy_idem (x : ProofOfConcept) : x.copy.copy = x.copy := by
  simp only [ProofOfConcept.copy, PSlice.copyWith_id_idem, Option.map_idem' AttachedText.copy_idem, PSlice.copyWith_idem AttachedText.copy_idem, AttachedText.copy_idem]

theorem VulnerabilityAnalysis.copy_eq (x : VulnerabilityAnalysis) : x.copy = x ↔ x.Copyable := by
  cases x
  simp only [VulnerabilityAnalysis.copy, VulnerabilityAnalysis.Copyable, VulnerabilityAnalysis.mk.injEq, Option.map_eq_self_iff', PSlice.copyWith_eq, PSlice.copyWith_id_eq, id_eq, true_and, and_true, and_self]

theorem VulnerabilityAnalysis.copy_idem (x : VulnerabilityAnalysis) : x.copy.copy = x.copy := by
  simp only [VulnerabilityAnalysis.copy, PSlice.copyWith_id_idem]

theorem VulnerabilityRating.copy_eq (x : VulnerabilityRating) : x.copy = x ↔ x.Copyable := by
  cases x
  simp only [VulnerabilityRating.copy, VulnerabilityRating.Copyable, VulnerabilityRating.mk.injEq, Option.map_eq_self_iff', PSlice.copyWith_eq, PSlice.copyWith_id_eq, Gob.float64_eq, Source.copy_eq, id_eq, true_and, and_true, and_self]

theorem VulnerabilityRating.copy_idem (x : VulnerabilityRating) : x.copy.copy = x.copy := by
  simp only [VulnerabilityRating.copy, PSlice.copyWith_id_idem, Option.map_idem' Source.copy_idem, PSlice.copyWith_idem Source.copy_idem, Gob.float64_idem, Source.copy_idem]

theorem VulnerabilityRating.copy_writable {x : VulnerabilityRating} (h : x.Writable) : x.copy.Writable :=
  fun x hx => h x (Gob.float64_mem hx)

theorem VulnerabilityReference.copy_eq (x : VulnerabilityReference) : x.copy = x ↔ x.Copyable := by
  cases x
  simp only [VulnerabilityReference.copy, VulnerabilityReference.Copyable, VulnerabilityReference.mk.injEq, Option.map_eq_self_iff', PSlice.copyWith_eq, PSlice.copyWith_id_eq, Source.copy_eq, id_eq, true_and, and_true, and_self]

theorem VulnerabilityReference.copy_idem (x : VulnerabilityReference) : x.copy.copy = x.copy := by
  simp only [VulnerabilityReference.copy, PSlice.copyWith_id_idem, Option.map_idem' Source.copy_idem, PSlice.copyWith_idem Source.copy_idem, Source.copy_idem]

theorem Vulnerability.copy_eq (x : Vulnerability) : x.copy = x ↔ x.Copyable := by
  cases x
  simp only [Vulnerability.copy, Vulnerability.Copyable, Vulnerability.mk.injEq, Option.map_eq_self_iff', PSlice.copyWith_eq, PSlice.copyWith_id_eq, Advisory.copy_eq, Affects.copy_eq, Credits.copy_eq, ProofOfConcept.copy_eq, Property.copy_eq, Source.copy_eq, ToolsChoice.copy_eq, VulnerabilityAnalysis.copy_eq, VulnerabilityRating.copy_eq, VulnerabilityReference.copy_eq, id_eq, true_and, and_true, and_self]

theorem Vulnerability.copy_idem (x : Vulnerability) : x.copy.copy = x.copy := by
  simp only [Vulnerability.copy, PSlice.copyWith_id_idem, Option.map_idem' Advisory.copy_idem, Option.map_idem' Affects.copy_idem, Option.map_idem' Credits.copy_idem, Option.map_idem' ProofOfConcept.copy_idem, Option.map_idem' Property.copy_idem, Option.map_idem' Source.copy_idem, Option.map_idem' ToolsChoice.copy_idem, Option.map_idem' VulnerabilityAnalysis.copy_idem, Option.map_idem' VulnerabilityRating.copy_idem, Option.map_idem' VulnerabilityReference.copy_idem, PSlice.copyWith_idem Advisory.copy_idem, PSlice.copyWith_idem Affects.copy_idem, PSlice.copyWith_idem Credits.copy_idem, PSlice.copyWith_idem ProofOfConcept.copy_idem, PSlice.copyWith_idem Property.copy_idem, PSlice.copyWith_idem Source.copy_idem, PSlice.copyWith_idem ToolsChoice.copy_idem, PSlice.copyWith_idem VulnerabilityAnalysis.copy_idem, PSlice.copyWith_idem VulnerabilityRating.copy_idem, PSlice.copyWith_idem VulnerabilityReference.copy_idem, Advisory.copy_idem, Affects.copy_idem, Credits.copy_idem, ProofOfConcept.copy_idem, Property.copy_idem, Source.copy_idem, ToolsChoice.copy_idem, VulnerabilityAnalysis.copy_idem, VulnerabilityRating.copy_idem, VulnerabilityReference.copy_idem]

theorem Citation.copy_eq (x : Citation) : x.copy = x ↔ x.Copyable := by
  cases x
  simp only [Citation.copy, Citation.Copyable, Citation.mk.injEq, Option.map_eq_self_iff', PSlice.copyWith_eq, PSlice.copyWith_id_eq, Gob.ref_eq, JSFSignature.copy_eq, id_eq, true_and, and_true, and_self]

theorem Citation.copy_idem (x : Citation) : x.copy.copy = x.copy := by
  simp only [Citation.copy, PSlice.copyWith_id_idem, Option.map_idem' JSFSignature.copy_idem, PSlice.copyWith_idem JSFSignature.copy_idem, Gob.ref_idem, JSFSignature.copy_idem]

theorem BOM.copy_eq (x : BOM) : x.copy = x ↔ x.Copyable := by
  cases x
  simp only [BOM.copy, BOM.Copyable, BOM.mk.injEq, Option.map_eq_self_iff', PSlice.copyWith_eq, PSlice.copyWith_id_eq, Annotation.copy_eq, Citation.copy_eq, Component.copy_eq, Composition.copy_eq, Declarations.copy_eq, Definitions.copy_eq, Dependency.copy_eq, ExternalReference.copy_eq, Formula.copy_eq, JSFSignature.copy_eq, Metadata.copy_eq, Property.copy_eq, Service.copy_eq, Vulnerability.copy_eq, id_eq, true_and, and_true, and_self]

theorem BOM.copy_idem (x : BOM) : x.copy.copy = x.copy := by
  simp only [BOM.copy, PSlice.copyWith_id_idem, Option.map_idem' Annotation.copy_idem, Option.map_idem' Citation.copy_idem, Option.map_idem' Component.copy_idem, Option.map_idem' Composition.copy_idem, Option.map_idem' Declarations.copy_idem, Option.map_idem' Definitions.copy_idem, Option.map_idem' Dependency.copy_idem, Option.map_idem' ExternalReference.copy_idem, Option.map_idem' Formula.copy_idem, Option.map_idem' JSFSignature.copy_idem, Option.map_idem' Metadata.copy_idem, Option.map_idem' Property.copy_idem, Option.map_idem' Service.copy_idem, Option.map_idem' Vulnerability.copy_idem, PSlice.copyWith_idem Annotation.copy_idem, PSlice.copyWith_idem Citation.copy_idem, PSlice.copyWith_idem Component.copy_idem, PSlice.copyWith_idem Composition.copy_idem, PSlice.copyWith_idem Declarations.copy_idem, PSlice.copyWith_idem Definitions.copy_idem, PSlice.copyWith_idem Dependency.copy_idem, PSlice.copyWith_idem ExternalReference.copy_idem, PSlice.copyWith_idem Formula.copy_idem, PSlice.copyWith_idem JSFSignature.copy_idem, PSlice.copyWith_idem Metadata.copy_idem, PSlice.copyWith_idem Property.copy_idem, PSlice.copyWith_idem Service.copy_idem, PSlice.copyWith_idem Vulnerability.copy_idem, Annotation.copy_idem, Citation.copy_idem, Component.copy_idem, Composition.copy_idem, Declarations.copy_idem, Definitions.copy_idem, Dependency.copy_idem, ExternalReference.copy_idem, Formula.copy_idem, JSFSignature.copy_idem, Metadata.copy_idem, Property.copy_idem, Service.copy_idem, Vulnerability.copy_idem]

end Verif
