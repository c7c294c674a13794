import Verif.Xml.Structs

/-!
# Whether decoding XML fails does not depend on what the variable held: the combinators and hand-written codecs
-/

namespace Verif

set_option linter.unusedSectionVars false

/-- Whether the element is refused does not depend on the variable it is decoded into. -/
class XBlind {α : Type} (c : XCodec α) : Prop where
  blind : ∀ x a b, (c.dec x a).isSome = (c.dec x b).isSome

/-- The same for a field. -/
class XFieldBlind {α : Type} (f : XField α) : Prop where
  blind : ∀ x a b, (f.dec x a).isSome = (f.dec x b).isSome

/-- The same for the fields of a struct. -/
class XFieldsBlind {β : Type} (F : XFields β) : Prop where
  attr : ∀ kv a b, (F.setAttr kv a).isSome = (F.setAttr kv b).isSome
  kid : ∀ x a b, (F.setKid x a).isSome = (F.setKid x b).isSome

instance {α : Type} (c : XText α) : XBlind (XCodec.simple c) := ⟨fun _ _ _ => rfl⟩

/-- A loop whose steps fail for reasons that do not depend on the variable fails for such a reason. -/
theorem decAll_blind {α : Type} {dec : Xml → α → Option α} (h : ∀ x a b, (dec x a).isSome = (dec x b).isSome) :
    ∀ xs a b, (XField.decAll dec xs a).isSome = (XField.decAll dec xs b).isSome
  | [], _, _ => rfl
  | x :: xs, a, b => by
    have hx := h x a b
    simp only [XField.decAll]
    cases ha : dec x a <;> cases hb : dec x b
    · rfl
    · rw [ha, hb] at hx; cases hx
    · rw [ha, hb] at hx; cases hx
    · exact decAll_blind h xs _ _

namespace XField

variable {α : Type} {c : XCodec α}

instance (n : String) (oe : Bool) [C : XBlind c] : XFieldBlind (plain n oe c) := ⟨C.blind⟩

instance (n : String) [C : XBlind c] : XFieldBlind (ptr n c) :=
  ⟨fun x a b => by simp only [ptr, Option.isSome_map]; exact C.blind x _ _⟩

instance (n : String) (oe : Bool) : XFieldBlind (list n oe c) :=
  ⟨fun x a b => by simp only [list, Option.isSome_map]⟩

instance (p n : String) (oe : Bool) : XFieldBlind (nlist p n oe c) :=
  ⟨fun x a b => decAll_blind (fun y a b => by
    simp only [decInner]; split <;> simp only [Option.isSome_map, Option.isSome_some]) _ _ _⟩

instance (p n : String) [C : XBlind c] : XFieldBlind (nptr p n c) :=
  ⟨fun x a b => decAll_blind (fun y a b => by
    split
    · simp only [Option.isSome_map]; exact C.blind y _ _
    · rfl) _ _ _⟩

instance (n : String) (c : XCodec (List α)) [C : XBlind c] : XFieldBlind (slice n c) :=
  ⟨fun x a b => by simp only [slice, Option.isSome_map]; exact C.blind x _ _⟩

end XField

instance : XFieldsBlind XFields.nil := ⟨fun _ _ _ => rfl, fun _ _ _ => rfl⟩

instance {α β : Type} (z : α) (F : XFields β) [L : XFieldsBlind F] : XFieldsBlind (.skip z F) where
  attr kv a b := by simp only [XFields.setAttr, Option.isSome_map]; exact L.attr kv _ _
  kid x a b := by simp only [XFields.setKid, Option.isSome_map]; exact L.kid x _ _

instance {α β : Type} (n : String) (oe : Bool) (c : XText α) (F : XFields β) [L : XFieldsBlind F] :
    XFieldsBlind (.attr n oe c F) where
  attr kv a b := by
    simp only [XFields.setAttr]
    split
    · simp only [Option.isSome_map]
    · simp only [Option.isSome_map]; exact L.attr kv _ _
  kid x a b := by simp only [XFields.setKid, Option.isSome_map]; exact L.kid x _ _

instance {α β : Type} (n : String) (c : XText α) (F : XFields β) [L : XFieldsBlind F] :
    XFieldsBlind (.attrPtr n c F) where
  attr kv a b := by
    simp only [XFields.setAttr]
    split
    · simp only [Option.isSome_map]
    · simp only [Option.isSome_map]; exact L.attr kv _ _
  kid x a b := by simp only [XFields.setKid, Option.isSome_map]; exact L.kid x _ _

instance {β : Type} (F : XFields β) [L : XFieldsBlind F] : XFieldsBlind (.chardata F) where
  attr kv a b := by simp only [XFields.setAttr, Option.isSome_map]; exact L.attr kv _ _
  kid x a b := by simp only [XFields.setKid, Option.isSome_map]; exact L.kid x _ _

instance {α β : Type} (f : XField α) (F : XFields β) [C : XFieldBlind f] [L : XFieldsBlind F] :
    XFieldsBlind (.elem f F) where
  attr kv a b := by simp only [XFields.setAttr, Option.isSome_map]; exact L.attr kv _ _
  kid x a b := by
    simp only [XFields.setKid]
    split
    · simp only [Option.isSome_map]; exact C.blind x _ _
    · simp only [Option.isSome_map]; exact L.kid x _ _

theorem decAttrs_blind {β : Type} (F : XFields β) [L : XFieldsBlind F] : ∀ kvs a b,
    (F.decAttrs kvs a).isSome = (F.decAttrs kvs b).isSome
  | [], _, _ => rfl
  | kv :: kvs, a, b => by
    have h := L.attr kv a b
    simp only [XFields.decAttrs]
    cases ha : F.setAttr kv a <;> cases hb : F.setAttr kv b
    · rfl
    · rw [ha, hb] at h; cases h
    · rw [ha, hb] at h; cases h
    · exact decAttrs_blind F kvs _ _

theorem xdec_blind {β : Type} (F : XFields β) [L : XFieldsBlind F] (x : Xml) (a b : β) :
    (F.dec x a).isSome = (F.dec x b).isSome := by
  have h := decAttrs_blind F x.attrs a b
  simp only [XFields.dec]
  cases ha : F.decAttrs x.attrs a with
  | none => cases hb : F.decAttrs x.attrs b with
    | none => rfl
    | some b₁ => rw [ha, hb] at h; cases h
  | some a₁ => cases hb : F.decAttrs x.attrs b with
    | none => rw [ha, hb] at h; cases h
    | some b₁ =>
      have h := decAll_blind L.kid x.kids a₁ b₁
      simp only
      cases ha : XField.decAll F.setKid x.kids a₁ <;> cases hb : XField.decAll F.setKid x.kids b₁
      · rfl
      · rw [ha, hb] at h; cases h
      · rw [ha, hb] at h; cases h
      · rfl

theorem xstruct_blind {σ β : Type} (F : XFields β) (toP : σ → β) (ofP : β → σ) [L : XFieldsBlind F] :
    XBlind (XCodec.struct F toP ofP) :=
  ⟨fun x a b => by simp only [XCodec.struct, Option.isSome_map]; exact xdec_blind F x _ _⟩

variable [XFloatIO]

theorem xikev2_blind {σ β : Type} (F : XFields β) (toP : σ → BOMReference × β) (ofP : BOMReference × β → σ)
    (isRef : β → Bool) : XBlind (X.ikev2 F toP ofP isRef) := ⟨fun x a b => by
  simp only [X.ikev2]
  split
  · rfl
  · split <;> rfl⟩

instance {α : Type} (z : α) : XBlind (X.bottom z) := ⟨fun _ _ _ => rfl⟩

theorem xknot_blind {α : Type} {zero : α} {N : Nat → XCodec α} {height : α → Nat} (L : ∀ n, XBlind (N n)) :
    XBlind (X.knot zero N height) := ⟨fun x a b => (L (x.depth + 1)).blind x a b⟩

instance : XBlind X.bomReference := ⟨fun _ _ _ => rfl⟩
instance : XBlind X.dependency := ⟨fun _ _ _ => rfl⟩
instance : XBlind X.licenses := ⟨fun _ _ _ => rfl⟩
instance : XBlind X.environmentVariables := ⟨fun _ _ _ => rfl⟩
instance : XBlind X.evidence := ⟨fun _ _ _ => rfl⟩
instance : XBlind X.asserterChoice := ⟨fun _ _ _ => rfl⟩
instance : XBlind X.copyright := ⟨fun x a b => by simp only [X.copyright, Option.isSome_map]⟩

instance : XBlind X.certificateState := ⟨fun x a b => by
  simp only [X.certificateState]
  split
  · rfl
  · split <;> rfl⟩

instance : XBlind X.certificateExtension := ⟨fun x a b => by
  simp only [X.certificateExtension]
  split
  · rfl
  · split <;> rfl⟩

instance : XBlind X.mlDatasetChoice := ⟨fun x a b => by
  simp only [X.mlDatasetChoice]
  split
  · rfl
  · split
    · rfl
    · split <;> rfl⟩

instance : XBlind X.toolsChoice := ⟨fun x a b => by
  simp only [X.toolsChoice]
  split
  · rfl
  · split
    · rfl
    · split <;> rfl⟩

instance : XBlind X.dataClassification := ⟨fun x a b => by
  simp only [X.dataClassification]
  split
  · rfl
  · split
    · rfl
    · refine decAll_blind (fun y a b => ?_) _ _ _
      cases y with
      | text s => rfl
      | elem n as ks =>
        simp only [X.dataClassificationStep]
        split
        · rfl
        · split
          · simp only [Option.isSome_map]
          · split
            · simp only [Option.isSome_map]
            · split
              · simp only [Option.isSome_map]
              · rfl⟩

instance : XBlind X.definitions := ⟨fun x a b => by
  refine decAll_blind (fun y a b => ?_) _ _ _
  cases y with
  | text s => rfl
  | elem n as ks =>
    simp only [X.definitionsStep]
    split
    · simp only [Option.isSome_map]
    · split
      · simp only [Option.isSome_map]
      · rfl⟩

end Verif
