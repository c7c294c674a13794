import Verif.Json.CustomLaws
import Verif.Json.Knot
import Verif.Spec.JsonDoc

/-!
# Decoding looks only at the values of the known members

`Obs j j'`: one replacement of members that keeps the sequence of values for each known name.  Every codec
of the library decodes the two documents to the same value.
-/

namespace Verif

open Json (foldKey)
open Spec (jsonNames)

set_option linter.unusedSectionVars false

/-- One step of `Spec.SameContent`. -/
inductive Obs : Json → Json → Prop
  | here {ms ms' : List (String × Json)} : (∀ n ∈ jsonNames, selected n ms = selected n ms') →
      Obs (.obj ms) (.obj ms')
  | member (pre : List (String × Json)) (k : String) {j j' : Json} (post : List (String × Json)) :
      Obs j j' → Obs (.obj (pre ++ (k, j) :: post)) (.obj (pre ++ (k, j') :: post))
  | elem (pre : List Json) {j j' : Json} (post : List Json) :
      Obs j j' → Obs (.arr (pre ++ j :: post)) (.arr (pre ++ j' :: post))

/-- The codec cannot tell such documents apart. -/
class JObs {α : Type} (c : JCodec α) : Prop where
  obs : ∀ j j' a, Obs j j' → c.dec j a = c.dec j' a

/-- The fields of a struct cannot tell such values apart. -/
class JFieldsObs {β : Type} (F : JFields β) : Prop where
  congr : ∀ k j j' b, Obs j j' → F.set k j b = F.set k j' b

theorem mem_jsonNames {n : String} (i : Nat) (h : jsonNames[i]? = some n) : n ∈ jsonNames :=
  List.mem_of_getElem? h

theorem not_obs_null {j j' : Json} (h : Obs j j') : j ≠ .null ∧ j' ≠ .null := by
  cases h <;> simp

instance : JObs JCodec.string := ⟨fun j j' a h => by cases h <;> rfl⟩
instance : JObs JCodec.bool := ⟨fun j j' a h => by cases h <;> rfl⟩
instance : JObs JCodec.int := ⟨fun j j' a h => by cases h <;> rfl⟩
instance [FloatIO] : JObs JCodec.f32 := ⟨fun j j' a h => by cases h <;> rfl⟩
instance [FloatIO] : JObs JCodec.f64 := ⟨fun j j' a h => by cases h <;> rfl⟩
instance [FloatIO] : JObs J.bomReference := ⟨fun j j' a h => by cases h <;> rfl⟩
instance [FloatIO] : JObs J.specVersion := ⟨fun j j' a h => by cases h <;> rfl⟩

instance {α : Type} (c : JCodec α) [L : JObs c] : JObs (JCodec.option c) := ⟨fun j j' a h => by
  have hn := not_obs_null h
  rw [option_dec_ne_null c hn.1, option_dec_ne_null c hn.2, L.obs j j' _ h]⟩

instance {α : Type} (c : JCodec α) [L : JObs c] : JObs (JCodec.pslice c) := ⟨fun j j' a h => by
  cases h with
  | here => rfl
  | member => rfl
  | elem pre post h => simp only [JCodec.pslice, decList_congr c (fun a => L.obs _ _ a h)]⟩

instance : JFieldsObs .nil := ⟨fun _ _ _ _ _ => rfl⟩
instance {α β : Type} (z : α) (F : JFields β) [L : JFieldsObs F] : JFieldsObs (.skip z F) :=
  ⟨fun k j j' b h => by simp only [JFields.set, L.congr k j j' _ h]⟩
instance {α β : Type} (n : String) (oe : Bool) (c : JCodec α) (F : JFields β) [Lc : JObs c]
    [L : JFieldsObs F] : JFieldsObs (.field n oe c F) :=
  ⟨fun k j j' b h => by simp only [JFields.set, L.congr k j j' _ h, Lc.obs j j' _ h]⟩

theorem selected_unselected_eq {n m : String} (h : foldKey n = foldKey m) (ms : List (String × Json)) :
    selected n (unselected m ms) = [] := by
  refine selected_eq_nil fun x hx => ?_
  have := (List.mem_filter.1 hx).2
  simp only [decide_eq_true_eq] at this
  rw [h]; exact this

/-- Decoding the members of an object depends only on the values of the known members. -/
theorem decMembers_selected {β : Type} (F : JFields β) (hn : ∀ n ∈ F.names, n ∈ jsonNames) :
    ∀ (ms ms' : List (String × Json)) (b : β), (∀ n ∈ jsonNames, selected n ms = selected n ms') →
      F.decMembers ms b = F.decMembers ms' b := by
  induction F with
  | nil =>
    intro ms ms' b _
    have : ∀ ms b, JFields.nil.decMembers ms b = some b := by
      intro ms; induction ms with
      | nil => intro b; rfl
      | cons m ms ih => intro b; rw [decMembers_cons]; exact ih b
    rw [this, this]
  | skip z F ih =>
    rintro ms ms' ⟨a, b⟩ h
    rw [decMembers_skip, decMembers_skip, ih hn ms ms' b h]
  | field n oe c F ih =>
    rintro ms ms' ⟨a, b⟩ h
    rw [decMembers_field, decMembers_field, h n (hn n (by simp [JFields.names]))]
    have : F.decMembers (unselected n ms) b = F.decMembers (unselected n ms') b := by
      refine ih (fun m hm => hn m (by simp [JFields.names, hm])) _ _ b fun m hm => ?_
      by_cases e : foldKey m = foldKey n
      · rw [selected_unselected_eq e, selected_unselected_eq e]
      · rw [selected_unselected e, selected_unselected e, h m hm]
    rw [this]

theorem struct_obs {σ β : Type} (F : JFields β) (toP : σ → β) (ofP : β → σ) [L : JFieldsObs F]
    (hn : ∀ n ∈ F.names, n ∈ jsonNames) : JObs (JCodec.struct F toP ofP) := ⟨fun j j' a h => by
  cases h with
  | here h => simp only [JCodec.struct, decMembers_selected F hn _ _ _ h]
  | @member pre k j j' post h =>
    simp only [JCodec.struct, decMembers_congr F (fun b => L.congr k j j' b h) pre post]
  | elem => rfl⟩

variable [FloatIO]

theorem peek_obs {n : String} (hn : n ∈ jsonNames) : JObs (J.peek n) :=
  struct_obs (.field n false JCodec.string .nil) _ _ (by simp [JFields.names, hn])

theorem ikev2_obs {σ β : Type} {F : JFields β} {toP : σ → β} {ofP : β → σ}
    (get : σ → BOMReference) (put : σ → BOMReference → σ) [L : JObs (JCodec.struct F toP ofP)] :
    JObs (J.ikev2 (JCodec.struct F toP ofP) get put) := ⟨fun j j' a h => by
  cases h with
  | here h => exact L.obs _ _ a (.here h)
  | member pre k post h => exact L.obs _ _ a (.member pre k post h)
  | elem pre post h => exact L.obs _ _ a (.elem pre post h)⟩

theorem knot_obs {α : Type} {zero : α} {N : Nat → JCodec α} {height : α → Nat}
    (K : Knotted zero N height) (L : ∀ n, JObs (N n)) : JObs (J.knot zero N height) := ⟨fun j j' a h => by
  have hdec : ∀ n j a, j.depth < n → (J.knot zero N height).dec j a = (N n).dec j a :=
    fun n j a h => K.dec _ _ j a (Nat.lt_succ_self _) h
  let n := max j.depth j'.depth + 1
  rw [hdec n j a (by omega), hdec n j' a (by omega), (L n).obs j j' a h]⟩

instance {α : Type} (z : α) : JObs (J.bottom z) := ⟨fun _ _ _ _ => rfl⟩

instance [L : JObs J.property] : JObs J.environmentVariableChoice := ⟨fun j j' a h => by
  cases h with
  | here h => simp only [J.environmentVariableChoice, L.obs _ _ _ (.here h)]
  | member pre k post h => simp only [J.environmentVariableChoice, L.obs _ _ _ (.member pre k post h)]
  | elem pre post h => rfl⟩

instance [L : JObs J.componentData] : JObs J.mlDatasetChoice := ⟨fun j j' a h => by
  have P : JObs (J.peek "ref") := peek_obs (mem_jsonNames 284 rfl)
  simp only [J.mlDatasetChoice, P.obs j j' _ h, L.obs j j' _ h]⟩

instance [L : JObs J.predefinedCertificateState] [L' : JObs J.customCertificateState] :
    JObs J.certificateState := ⟨fun j j' a h => by
  have P : JObs (J.peek "state") := peek_obs (mem_jsonNames 322 rfl)
  simp only [J.certificateState, P.obs j j' _ h, L.obs j j' _ h, L'.obs j j' _ h]⟩

instance [L : JObs J.commonCertificateExtension] [L' : JObs J.customCertificateExtension] :
    JObs J.certificateExtension := ⟨fun j j' a h => by
  have P : JObs (J.peek "commonExtensionName") := peek_obs (mem_jsonNames 67 rfl)
  simp only [J.certificateExtension, P.obs j j' _ h, L.obs j j' _ h, L'.obs j j' _ h]⟩

instance [L : JObs J.patent] [L' : JObs J.patentFamily] : JObs J.patentChoice := ⟨fun j j' a h => by
  have P : JObs (J.peek "familyId") := peek_obs (mem_jsonNames 144 rfl)
  simp only [J.patentChoice, P.obs j j' _ h, L.obs j j' _ h, L'.obs j j' _ h]⟩

instance [L : JObs J.evidenceIdentity] : JObs J.evidenceIdentityChoice := ⟨fun j j' a h => by
  have LP : JObs (JCodec.pslice J.evidenceIdentity) := inferInstance
  cases h with
  | here h => simp only [J.evidenceIdentityChoice, L.obs _ _ _ (.here h)]
  | member pre k post h => simp only [J.evidenceIdentityChoice, L.obs _ _ _ (.member pre k post h)]
  | elem pre post h => simp only [J.evidenceIdentityChoice, LP.obs _ _ _ (.elem pre post h)]⟩

instance [L : JObs J.tool] [LJ : JObs J.toolsChoiceJSON] : JObs J.toolsChoice := ⟨fun j j' a h => by
  have LP : JObs (JCodec.pslice J.tool) := inferInstance
  cases h with
  | here h => simp only [J.toolsChoice, LJ.obs _ _ _ (.here h)]
  | member pre k post h => simp only [J.toolsChoice, LJ.obs _ _ _ (.member pre k post h)]
  | elem pre post h => simp only [J.toolsChoice, LP.obs _ _ _ (.elem pre post h)]⟩

theorem rawMember_obs {n : String} (hn : n ∈ jsonNames) {ms ms' : List (String × Json)}
    (h : Obs (.obj ms) (.obj ms')) : J.rawMember n ms = J.rawMember n ms' ∨
      ∃ j j', J.rawMember n ms = some j ∧ J.rawMember n ms' = some j' ∧ Obs j j' := by
  generalize ha : Json.obj ms = a at h
  generalize hb : Json.obj ms' = b at h
  cases h with
  | here h => cases ha; cases hb; left; simp only [J.rawMember, h n hn]
  | @member pre k j j' post h =>
    cases ha; cases hb
    by_cases e : foldKey k = foldKey n
    · have h1 : selected n (pre ++ (k, j) :: post) = selected n pre ++ j :: selected n post := by
        rw [selected_append, selected_cons_eq (m := (k, j)) e]
      have h2 : selected n (pre ++ (k, j') :: post) = selected n pre ++ j' :: selected n post := by
        rw [selected_append, selected_cons_eq (m := (k, j')) e]
      have hnn := not_obs_null h
      cases hp : selected n post with
      | nil =>
        right
        refine ⟨j, j', ?_, ?_, h⟩
        · simp only [J.rawMember, h1, hp, List.getLast?_append, List.getLast?_singleton, Option.some_or]
          cases j <;> first | rfl | exact absurd rfl hnn.1
        · simp only [J.rawMember, h2, hp, List.getLast?_append, List.getLast?_singleton, Option.some_or]
          cases j' <;> first | rfl | exact absurd rfl hnn.2
      | cons x xs =>
        left
        simp only [J.rawMember, h1, h2, hp, List.getLast?_append, List.getLast?_cons_cons]
    · left
      simp only [J.rawMember, selected_append, selected_cons_ne (m := (k, j)) e,
        selected_cons_ne (m := (k, j')) e]
  | elem => cases ha

instance [LO : JObs J.organizationalEntity] [LC : JObs J.organizationalContact] :
    JObs J.asserterChoice := ⟨fun j j' a h => by
  have main : ∀ ms ms', Obs (.obj ms) (.obj ms') →
      J.asserterChoice.dec (.obj ms) a = J.asserterChoice.dec (.obj ms') a := by
    intro ms ms' h
    have e1 := rawMember_obs (n := "organization") (mem_jsonNames 230 rfl) h
    have e2 := rawMember_obs (n := "individual") (mem_jsonNames 170 rfl) h
    have e3 := rawMember_obs (n := "ref") (mem_jsonNames 284 rfl) h
    simp only [J.asserterChoice]
    rcases e1 with e1 | ⟨x, x', hx, hx', hs⟩
    · rw [e1]
      cases J.rawMember "organization" ms' with
      | some y => rfl
      | none =>
        rcases e2 with e2 | ⟨x, x', hx, hx', hs⟩
        · rw [e2]
          cases J.rawMember "individual" ms' with
          | some y => rfl
          | none =>
            rcases e3 with e3 | ⟨x, x', hx, hx', hs⟩
            · rw [e3]
            · rw [hx, hx']
              simp only [JObs.obs (c := J.bomReference) x x' _ hs]
        · rw [hx, hx']
          simp only [LC.obs x x' _ hs]
    · rw [hx, hx']
      simp only [LO.obs x x' _ hs]
  cases h with
  | here h => exact main _ _ (.here h)
  | member pre k post h => exact main _ _ (.member pre k post h)
  | elem => rfl⟩

end Verif
