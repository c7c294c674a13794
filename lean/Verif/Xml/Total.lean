import Verif.Xml.Structs

/-!
# Types that any element can be decoded into
-/

namespace Verif

set_option linter.unusedSectionVars false

/-- Every text is read. -/
class XTextTotal {α : Type} (c : XText α) : Prop where
  total : ∀ s, (c.dec s).isSome = true

/-- Every element is read. -/
class XTotal {α : Type} (c : XCodec α) : Prop where
  total : ∀ x a, (c.dec x a).isSome = true

/-- Every element is read into the field. -/
class XFieldTotal {α : Type} (f : XField α) : Prop where
  total : ∀ x a, (f.dec x a).isSome = true

/-- Every attribute and every element is read into the struct. -/
class XFieldsTotal {β : Type} (F : XFields β) : Prop where
  attr : ∀ kv b, (F.setAttr kv b).isSome = true
  kid : ∀ x b, (F.setKid x b).isSome = true

instance : XTextTotal XText.string := ⟨fun _ => rfl⟩
instance : XTextTotal XText.bomReference := ⟨fun _ => rfl⟩

instance {α : Type} (c : XText α) [C : XTextTotal c] : XTotal (XCodec.simple c) := ⟨fun x _ => C.total _⟩

theorem decAll_total {α : Type} {dec : Xml → α → Option α} (h : ∀ x a, (dec x a).isSome = true) :
    ∀ xs a, (XField.decAll dec xs a).isSome = true
  | [], _ => rfl
  | x :: xs, a => by
    have hx := h x a
    simp only [XField.decAll]
    cases ha : dec x a
    · rw [ha] at hx; cases hx
    · exact decAll_total h xs _

namespace XField

variable {α : Type} {c : XCodec α}

instance (n : String) (oe : Bool) [C : XTotal c] : XFieldTotal (plain n oe c) := ⟨C.total⟩

instance (n : String) [C : XTotal c] : XFieldTotal (ptr n c) :=
  ⟨fun x a => by simp only [ptr, Option.isSome_map]; exact C.total x _⟩

instance (n : String) (oe : Bool) [C : XTotal c] : XFieldTotal (list n oe c) :=
  ⟨fun x a => by simp only [list, Option.isSome_map]; exact C.total x _⟩

instance (p n : String) (oe : Bool) [C : XTotal c] : XFieldTotal (nlist p n oe c) :=
  ⟨fun x a => decAll_total (fun y a => by
    simp only [decInner]
    split
    · simp only [Option.isSome_map]; exact C.total y _
    · rfl) _ _⟩

instance (p n : String) [C : XTotal c] : XFieldTotal (nptr p n c) :=
  ⟨fun x a => decAll_total (fun y a => by
    split
    · simp only [Option.isSome_map]; exact C.total y _
    · rfl) _ _⟩

end XField

instance : XFieldsTotal XFields.nil := ⟨fun _ _ => rfl, fun _ _ => rfl⟩

instance {α β : Type} (z : α) (F : XFields β) [L : XFieldsTotal F] : XFieldsTotal (.skip z F) where
  attr kv a := by simp only [XFields.setAttr, Option.isSome_map]; exact L.attr kv _
  kid x a := by simp only [XFields.setKid, Option.isSome_map]; exact L.kid x _

instance {α β : Type} (n : String) (oe : Bool) (c : XText α) (F : XFields β) [C : XTextTotal c] [L : XFieldsTotal F] :
    XFieldsTotal (.attr n oe c F) where
  attr kv a := by
    simp only [XFields.setAttr]
    split
    · simp only [Option.isSome_map]; exact C.total _
    · simp only [Option.isSome_map]; exact L.attr kv _
  kid x a := by simp only [XFields.setKid, Option.isSome_map]; exact L.kid x _

instance {α β : Type} (n : String) (c : XText α) (F : XFields β) [C : XTextTotal c] [L : XFieldsTotal F] :
    XFieldsTotal (.attrPtr n c F) where
  attr kv a := by
    simp only [XFields.setAttr]
    split
    · simp only [Option.isSome_map]; exact C.total _
    · simp only [Option.isSome_map]; exact L.attr kv _
  kid x a := by simp only [XFields.setKid, Option.isSome_map]; exact L.kid x _

instance {β : Type} (F : XFields β) [L : XFieldsTotal F] : XFieldsTotal (.chardata F) where
  attr kv a := by simp only [XFields.setAttr, Option.isSome_map]; exact L.attr kv _
  kid x a := by simp only [XFields.setKid, Option.isSome_map]; exact L.kid x _

instance {α β : Type} (f : XField α) (F : XFields β) [C : XFieldTotal f] [L : XFieldsTotal F] :
    XFieldsTotal (.elem f F) where
  attr kv a := by simp only [XFields.setAttr, Option.isSome_map]; exact L.attr kv _
  kid x a := by
    simp only [XFields.setKid]
    split
    · simp only [Option.isSome_map]; exact C.total x _
    · simp only [Option.isSome_map]; exact L.kid x _

theorem decAttrs_total {β : Type} (F : XFields β) [L : XFieldsTotal F] : ∀ kvs a, (F.decAttrs kvs a).isSome = true
  | [], _ => rfl
  | kv :: kvs, a => by
    have h := L.attr kv a
    simp only [XFields.decAttrs]
    cases ha : F.setAttr kv a
    · rw [ha] at h; cases h
    · exact decAttrs_total F kvs _

theorem xdec_total {β : Type} (F : XFields β) [L : XFieldsTotal F] (x : Xml) (a : β) : (F.dec x a).isSome = true := by
  have h := decAttrs_total F x.attrs a
  simp only [XFields.dec]
  cases ha : F.decAttrs x.attrs a with
  | none => rw [ha] at h; cases h
  | some a₁ =>
    have h := decAll_total L.kid x.kids a₁
    simp only
    cases hk : XField.decAll F.setKid x.kids a₁
    · rw [hk] at h; cases h
    · rfl

theorem xstruct_total {σ β : Type} (F : XFields β) (toP : σ → β) (ofP : β → σ) [L : XFieldsTotal F] :
    XTotal (XCodec.struct F toP ofP) :=
  ⟨fun x a => by simp only [XCodec.struct, Option.isSome_map]; exact xdec_total F x _⟩

theorem xfresh_total {α : Type} {c : XCodec α} [C : XTotal c] : XTotal (X.fresh c) := ⟨fun x _ => C.total x _⟩

variable [XFloatIO]

theorem xikev2_total {σ β : Type} (F : XFields β) (toP : σ → BOMReference × β) (ofP : BOMReference × β → σ)
    (isRef : β → Bool) [L : XFieldsTotal F] : XTotal (X.ikev2 F toP ofP isRef) := ⟨fun x a => by
  have h := xdec_total (XFields.chardata F) x ("", F.zero)
  simp only [X.ikev2]
  split
  · rename_i e; rw [e] at h; cases h
  · split <;> rfl⟩

instance : XTotal X.bomReference := by
  have : XFieldsTotal X.bomReferenceFields := by unfold X.bomReferenceFields; infer_instance
  have : XTotal (XCodec.struct X.bomReferenceFields (fun r : BOMReference => (r.val, ())) (fun p => ⟨p.1⟩)) :=
    xstruct_total _ _ _
  exact ⟨fun x a => this.total x _⟩

instance : XTotal X.dependencyRef := by
  have : XFieldsTotal X.bomReferenceFields := by unfold X.bomReferenceFields; infer_instance
  exact xstruct_total _ _ _

instance : XTotal X.dependency := by
  have : XFieldsTotal X.dependencyFields := by unfold X.dependencyFields; infer_instance
  have := xstruct_total X.dependencyFields Dependency.toP Dependency.ofP
  exact xfresh_total

instance : XTotal X.copyright := ⟨fun _ _ => rfl⟩

instance : XTotal X.certificateState := ⟨fun x a => by
  have : XFieldsTotal X.certificateStateRaw := by unfold X.certificateStateRaw; infer_instance
  have h := xdec_total X.certificateStateRaw x X.certificateStateRaw.zero
  simp only [X.certificateState]
  split
  · rename_i e; rw [e] at h; cases h
  · split <;> rfl⟩

instance : XTotal X.certificateExtension := ⟨fun x a => by
  have : XFieldsTotal X.certificateExtensionRaw := by unfold X.certificateExtensionRaw; infer_instance
  have h := xdec_total X.certificateExtensionRaw x X.certificateExtensionRaw.zero
  simp only [X.certificateExtension]
  split
  · rename_i e; rw [e] at h; cases h
  · split <;> rfl⟩

end Verif
