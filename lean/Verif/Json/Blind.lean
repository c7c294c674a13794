import Verif.Json.Obs

/-!
# Whether decoding fails does not depend on what the variable held: the combinators and hand-written codecs
-/

namespace Verif

set_option linter.unusedSectionVars false

/-- Whether the value is refused does not depend on the variable it is decoded into. -/
class JBlind {α : Type} (c : JCodec α) : Prop where
  blind : ∀ j a b, (c.dec j a).isSome = (c.dec j b).isSome

/-- The same for one member of an object. -/
class JFieldsBlind {β : Type} (F : JFields β) : Prop where
  blind : ∀ k j a b, (F.set k j a).isSome = (F.set k j b).isSome

instance : JBlind JCodec.string := ⟨fun j a b => by cases j <;> rfl⟩
instance : JBlind JCodec.bool := ⟨fun j a b => by cases j <;> rfl⟩
instance : JBlind JCodec.int := ⟨fun j a b => by cases j <;> rfl⟩
instance [FloatIO] : JBlind JCodec.f32 := ⟨fun j a b => by cases j <;> rfl⟩
instance [FloatIO] : JBlind JCodec.f64 := ⟨fun j a b => by cases j <;> rfl⟩
instance [FloatIO] : JBlind J.bomReference := ⟨fun j a b => by cases j <;> rfl⟩
instance [FloatIO] : JBlind J.specVersion := ⟨fun j a b => by cases j <;> rfl⟩

instance {α : Type} (c : JCodec α) [L : JBlind c] : JBlind (JCodec.option c) := ⟨fun j a b => by
  cases j with
  | null => rfl
  | _ => simp only [JCodec.option, Option.isSome_map]; exact L.blind _ _ _⟩

theorem decList_blind {α : Type} (c : JCodec α) [L : JBlind c] : ∀ (js : List Json) (as bs : List α),
    (JCodec.decList c js as).isSome = (JCodec.decList c js bs).isSome
  | [], _, _ => rfl
  | j :: js, as, bs => by
    have h := L.blind j (as.headD c.zero) (bs.headD c.zero)
    simp only [JCodec.decList]
    cases ha : c.dec j (as.headD c.zero) <;> cases hb : c.dec j (bs.headD c.zero)
    · rfl
    · rw [ha, hb] at h; cases h
    · rw [ha, hb] at h; cases h
    · simp only [Option.isSome_map]; exact decList_blind c js as.tail bs.tail

instance {α : Type} (c : JCodec α) [L : JBlind c] : JBlind (JCodec.pslice c) := ⟨fun j a b => by
  cases j with
  | arr js => simp only [JCodec.pslice, Option.isSome_map]; exact decList_blind c js _ _
  | _ => rfl⟩

instance : JFieldsBlind .nil := ⟨fun _ _ _ _ => rfl⟩
instance {α β : Type} (z : α) (F : JFields β) [L : JFieldsBlind F] : JFieldsBlind (.skip z F) :=
  ⟨fun k j a b => by simp only [JFields.set, Option.isSome_map]; exact L.blind k j _ _⟩
instance {α β : Type} (n : String) (oe : Bool) (c : JCodec α) (F : JFields β) [Lc : JBlind c]
    [L : JFieldsBlind F] : JFieldsBlind (.field n oe c F) :=
  ⟨fun k j a b => by
    simp only [JFields.set]
    split
    · simp only [Option.isSome_map]; exact Lc.blind j _ _
    · simp only [Option.isSome_map]; exact L.blind k j _ _⟩

theorem decMembers_blind {β : Type} (F : JFields β) [L : JFieldsBlind F] : ∀ (ms : List (String × Json)) (a b : β),
    (F.decMembers ms a).isSome = (F.decMembers ms b).isSome
  | [], _, _ => rfl
  | m :: ms, a, b => by
    have h := L.blind m.1 m.2 a b
    simp only [JFields.decMembers]
    cases ha : F.set m.1 m.2 a <;> cases hb : F.set m.1 m.2 b
    · rfl
    · simp [ha, hb] at h
    · simp [ha, hb] at h
    · exact decMembers_blind F ms _ _

theorem struct_blind {σ β : Type} (F : JFields β) (toP : σ → β) (ofP : β → σ) [L : JFieldsBlind F] :
    JBlind (JCodec.struct F toP ofP) := ⟨fun j a b => by
  cases j with
  | obj ms => simp only [JCodec.struct, Option.isSome_map]; exact decMembers_blind F ms _ _
  | _ => rfl⟩

variable [FloatIO]

theorem ikev2_blind {σ β : Type} {F : JFields β} {toP : σ → β} {ofP : β → σ}
    (get : σ → BOMReference) (put : σ → BOMReference → σ) [L : JBlind (JCodec.struct F toP ofP)] :
    JBlind (J.ikev2 (JCodec.struct F toP ofP) get put) := ⟨fun j a b => by
  cases j with
  | str s => rfl
  | null => exact L.blind .null a b
  | bool t => exact L.blind (.bool t) a b
  | num t => exact L.blind (.num t) a b
  | arr t => exact L.blind (.arr t) a b
  | obj t => exact L.blind (.obj t) a b⟩

theorem knot_blind {α : Type} {zero : α} {N : Nat → JCodec α} {height : α → Nat}
    (_ : Knotted zero N height) (L : ∀ n, JBlind (N n)) : JBlind (J.knot zero N height) := ⟨fun j a b =>
  (L (j.depth + 1)).blind j a b⟩

instance {α : Type} (z : α) : JBlind (J.bottom z) := ⟨fun _ _ _ => rfl⟩

instance : JBlind J.environmentVariableChoice := ⟨fun j a b => by
  cases j with
  | obj ms =>
    simp only [J.environmentVariableChoice]
    split
    · rfl
    · split <;> rfl
  | _ => rfl⟩

instance : JBlind J.mlDatasetChoice := ⟨fun j a b => by
  simp only [J.mlDatasetChoice]
  split
  · rfl
  · split
    · rfl
    · split
      · rfl
      · split <;> rfl⟩

instance : JBlind J.certificateState := ⟨fun j a b => by
  simp only [J.certificateState]
  split
  · rfl
  · split
    · split <;> rfl
    · split <;> rfl⟩

instance : JBlind J.certificateExtension := ⟨fun j a b => by
  simp only [J.certificateExtension]
  split
  · rfl
  · split
    · split <;> rfl
    · split <;> rfl⟩

instance : JBlind J.patentChoice := ⟨fun j a b => by
  simp only [J.patentChoice]
  split
  · rfl
  · split
    · split <;> rfl
    · split <;> rfl⟩

instance : JBlind J.evidenceIdentityChoice := ⟨fun j a b => by
  simp only [J.evidenceIdentityChoice]
  split
  · split <;> rfl
  · split <;> rfl⟩

instance : JBlind J.toolsChoice := ⟨fun j a b => by
  simp only [J.toolsChoice]
  split
  · split <;> rfl
  · split
    · rfl
    · split <;> rfl⟩

instance : JBlind J.asserterChoice := ⟨fun j a b => by
  cases j with
  | obj ms =>
    simp only [J.asserterChoice]
    split
    · simp only [Option.isSome_map]
    · simp only [Option.isSome_map]
    · simp only [Option.isSome_map]
    · rfl
  | _ => rfl⟩

end Verif
